import Verif.Lemmas.Loop2c
import Verif.Lemmas.Demo
import Verif.Spec.Contract

/-
Properties C08 (one-electron primitive loop) and C40 (two-centre two-electron primitive loop).
-/
namespace Verif.Props
open Verif Verif.Model Prog Spec

variable {α : Type} [CommRing α] [DecidableEq α]

/-- the contracted two-centre integral: the multilinear combination of the primitive
integrals that are not screened -/
def expected2 (P : Nest2 α) (nComp : Nat) (keep : Nat → Nat → Bool) (w : Nat → Nat → Nat → α)
    (comp ic jc n : Nat) : α :=
  P.common * contract2 P.iPrim P.jPrim P.ci P.cj
    (fun ip jp => if P.skip ip jp = false ∧ keep ip jp = true then
      P.eij ip jp * w ip jp (n*nComp+comp) else 0) ic jc

section
variable {P : Nest2 α} {nf nComp : Nat} {keep : Nat → Nat → Bool} {w : Nat → Nat → Nat → α}

theorem vJ_closed (h0 : P.len0 = nf * nComp) {comp ic jc n : Nat} (hc : comp < nComp)
    (hi : ic < P.iCtr) (hn : n < nf) :
    P.vJ keep w (((jc*P.iCtr + ic)*nf + n)*nComp + comp) = expected2 P nComp keep w comp ic jc n := by
  have x0 : n*nComp+comp < P.len0 := by rw [h0]; exact radix_lt hn hc
  have x1 : P.len0*ic + (n*nComp+comp) < P.leni := ctr_lt hi x0
  have e : ((jc*P.iCtr + ic)*nf + n)*nComp + comp = P.leni*jc + (P.len0*ic + (n*nComp+comp)) := by
    unfold Nest2.leni; rw [h0]; ring
  rw [e]
  unfold Nest2.vJ expected2 contract2
  congr 1
  refine Finset.sum_congr rfl (fun jp _ => ?_)
  rw [ctr_div x1, ctr_mod x1]
  unfold Nest2.vI
  rw [Finset.mul_sum]
  refine Finset.sum_congr rfl (fun ip _ => ?_)
  rw [ctr_div x0, ctr_mod x0]
  cases hs2 : P.skip ip jp with
  | true => simp [hs2]
  | false =>
    cases hs3 : keep ip jp with
    | true => simp [hs2, hs3, mul_assoc]
    | false => simp [hs2, hs3]

theorem bJ_iff : P.bJ keep = true ↔ ∃ ip jp, ip < P.iPrim ∧ jp < P.jPrim ∧
    P.skip ip jp = false ∧ keep ip jp = true := by
  simp only [Nest2.bJ, Nest2.bI, List.any_eq_true, List.mem_range, Bool.and_eq_true,
    Bool.not_eq_true']
  constructor
  · rintro ⟨jp, h4, ip, h5, h6⟩; exact ⟨ip, jp, h5, h4, h6⟩
  · rintro ⟨ip, jp, h5, h4, h6⟩; exact ⟨jp, h4, ip, h5, h6⟩

theorem expected2_zero (hb : P.bJ keep = false) (comp ic jc n : Nat) :
    expected2 P nComp keep w comp ic jc n = 0 := by
  unfold expected2 contract2
  rw [Finset.sum_eq_zero, mul_zero]
  intro jp hj
  refine Finset.sum_eq_zero (fun ip hi => ?_)
  dsimp only
  rw [if_neg, mul_zero]
  intro hs
  have h2 : P.bJ keep = true := bJ_iff.2 ⟨ip, jp, Finset.mem_range.1 hi, Finset.mem_range.1 hj, hs⟩
  rw [hb] at h2; cases h2

theorem outIdx2_lt {I J comp ic jc n : Nat} (hc : comp < nComp) (hi : ic < I) (hj : jc < J)
    (hn : n < nf) : outIdx2 nf I J comp ic jc n < nf * (I*J) * nComp ∧
      compMajor (nf * (I*J)) nComp (P.vJ keep w) (outIdx2 nf I J comp ic jc n) =
        P.vJ keep w (((jc*I + ic)*nf + n)*nComp + comp) := by
  have hrow : (jc*I + ic)*nf + n < nf * (I*J) := by
    have := radix_lt (radix_lt hj hi) hn
    calc _ < _ := this
      _ = _ := by ring
  have hR : 0 < nf * (I*J) := by omega
  unfold outIdx2
  refine ⟨by rw [Nat.mul_comm (nf*(I*J))]; exact radix_lt hc hrow, ?_⟩
  unfold compMajor
  rw [Nat.mul_comm comp, Nat.mul_add_mod, Nat.mod_eq_of_lt hrow, Nat.mul_add_div hR,
    Nat.div_eq_of_lt hrow, Nat.add_zero]
end

/-- **C08** The one-electron loop: for any number of primitives and contractions, components,
screening decisions and callbacks meeting `KernelSpec`, the return value is "non-zero" exactly
if some primitive pair survived; in that case every element of the contracted block is
written with the contraction sum over the surviving pairs (whatever was in memory before);
if nothing survived the contraction sums are all zero.  No undefined behaviour occurs, and
only the block, the scratch memory, the flags and the table memory change. -/
theorem C08_loop {P : Nest2 α} {gctr g fl base : Ptr} {nf nComp leng : Nat}
    {T : Ptr → Option Int} {keep : Nat → Nat → Bool} {w : Nat → Nat → Nat → α}
    {h : Heap α} (S : Setup1e P gctr g fl base nf nComp leng T keep w h) :
    ∃ res h', run (loop1e P gctr g fl base nf nComp leng false) h = some (res, h') ∧
      (res = true ↔ ∃ ip jp, ip < P.iPrim ∧ jp < P.jPrim ∧ P.skip ip jp = false ∧
        keep ip jp = true) ∧
      (res = true → ∀ comp ic jc n, comp < nComp → ic < P.iCtr → jc < P.jCtr → n < nf →
        h'.D (gctr + outIdx2 nf P.iCtr P.jCtr comp ic jc n) =
          .val (expected2 P nComp keep w comp ic jc n)) ∧
      (res = false → ∀ comp ic jc n, expected2 P nComp keep w comp ic jc n = 0) ∧
      AgreeD h h' (fun q => Blk gctr (nf * (P.iCtr*P.jCtr) * nComp) q ∨
        Blk g (leng + P.used nComp) q) ∧
      AgreeI h h' (fun q => Blk fl 4 q ∨ Blk base P.tblSize q) := by
  obtain ⟨res, h', hr, h1, h2, h3, h4, h5⟩ := run_of_wp (loop1e_wp S)
  refine ⟨res, h', hr, by rw [h1]; exact bJ_iff, ?_, ?_, h4, h5⟩
  · intro hres comp ic jc n hc hi hj hn
    obtain ⟨q1, q2⟩ := outIdx2_lt (P := P) (keep := keep) (w := w) hc hi hj hn
    rw [h2 hres _ q1, q2, vJ_closed S.len0 hc hi hn]
  · intro hres comp ic jc n
    exact expected2_zero (by rw [← h1, hres]) _ _ _ _

/-- **C08** A pair of shells that is negligible as a whole: return value 0, nothing touched. -/
theorem C08_empty_pair (P : Nest2 α) (gctr g fl base : Ptr) (nf nComp leng : Nat) (h : Heap α) :
    run (loop1e P gctr g fl base nf nComp leng true) h = some (false, h) := rfl

/-- **C40** The two-centre two-electron loop adds the contracted integrals to the caller's
accumulator. -/
theorem C40_loop {P : Nest2 α} {M : MemN} {base : Ptr} {nf nComp leng : Nat}
    {T : Ptr → Option Int} {keep : Nat → Nat → Bool} {w : Nat → Nat → Nat → α}
    {b0 : Bool} {u : Nat → α} {h : Heap α} (S : Setup2c P M base nf nComp leng T keep w b0 u h) :
    ∃ res h', run (loop2c2e P M base nf nComp leng) h = some (res, h') ∧
      (res = true ↔ b0 = true ∨ ∃ ip jp, ip < P.iPrim ∧ jp < P.jPrim ∧ keep ip jp = true) ∧
      h'.I M.empty = .val (if res then 0 else 1) ∧
      (res = true → ∀ comp ic jc n, comp < nComp → ic < P.iCtr → jc < P.jCtr → n < nf →
        h'.D (M.gctr + outIdx2 nf P.iCtr P.jCtr comp ic jc n) =
          .val (u (outIdx2 nf P.iCtr P.jCtr comp ic jc n) +
            P.common * contract2 P.iPrim P.jPrim P.ci P.cj
              (fun ip jp => if keep ip jp then w ip jp (n*nComp+comp) else 0) ic jc)) ∧
      AgreeD h h' (fun q => Blk M.gctr (nf * (P.iCtr*P.jCtr) * nComp) q ∨
        Blk M.g (leng + P.used nComp) q) ∧
      AgreeI h h' (fun q => q = M.empty ∨ Blk M.fl 3 q ∨ Blk base P.tblSize q) := by
  obtain ⟨res, h', hr, h1, h2, h3, h4⟩ := run_of_wp (loop2c2e_wp S)
  subst h1
  refine ⟨_, h', hr, ?_, h2.flag, ?_, h3, h4⟩
  · rw [Bool.or_eq_true, bJ_iff]
    simp only [S.noskip, true_and]
  · intro hres comp ic jc n hc hi hj hn
    obtain ⟨q1, q2⟩ := outIdx2_lt (P := P) (keep := keep) (w := w) hc hi hj hn
    rw [h2.holds hres _ q1]
    dsimp only
    rw [q2, vJ_closed S.len0 hc hi hn]
    unfold expected2
    simp only [S.noskip, S.noexp, true_and, one_mul]

/-! ### The hypotheses can be met -/

theorem demo_setup1e (P : Nest2 α) (nf nComp leng : Nat) (w : Nat → Nat → Nat → α)
    (h1 : 1 ≤ P.iCtr) (h2 : 1 ≤ P.jCtr) (h5 : 1 ≤ nComp) (h0 : P.len0 = nf * nComp)
    (h6 : 0 < leng) (hg0 : ∀ ip jp, P.g0 ip jp = demoG0 ⟨2,0⟩)
    (hgout : ∀ ip jp, P.gout ip jp = demoGout P.len0 (w ip jp)) :
    Setup1e P ⟨0,0⟩ ⟨2,0⟩ ⟨3,0⟩ ⟨4,0⟩ nf nComp leng (fun _ => none) (fun _ _ => true) w
      (blankHeap ⟨1,0⟩) where
  ictr := h1
  jctr := h2
  ncomp := h5
  len0 := h0
  ro := fun _ _ h => by cases h
  tblw := fun _ _ => blankHeap_I _ _
  tblT := fun _ _ => rfl
  tblfl := disj_of_buf (by decide)
  flw := fun _ _ => blankHeap_I _ _
  flT := fun _ _ => rfl
  gw := fun _ _ => blankHeap_D _ _
  gctrw := fun _ _ => blankHeap_D _ _
  disj := disj_of_buf (by decide)
  kern := fun ip jp _ _ => by rw [hg0, hgout]; exact demo_kernel h6

theorem demo_setup2c (P : Nest2 α) (nf nComp leng : Nat) (w : Nat → Nat → Nat → α)
    (h1 : 1 ≤ P.iCtr) (h2 : 1 ≤ P.jCtr) (h5 : 1 ≤ nComp) (h0 : P.len0 = nf * nComp)
    (hs : ∀ ip jp, P.skip ip jp = false) (he : ∀ ip jp, P.eij ip jp = 1)
    (h6 : 0 < leng) (hg0 : ∀ ip jp, P.g0 ip jp = demoG0 ⟨2,0⟩)
    (hgout : ∀ ip jp, P.gout ip jp = demoGout P.len0 (w ip jp)) :
    Setup2c P ⟨⟨0,0⟩, ⟨1,0⟩, ⟨2,0⟩, ⟨3,0⟩⟩ ⟨4,0⟩ nf nComp leng (fun _ => none) (fun _ _ => true) w
      false (fun _ => 0) (blankHeap ⟨1,0⟩) where
  ictr := h1
  jctr := h2
  ncomp := h5
  len0 := h0
  noskip := hs
  noexp := he
  ro := fun _ _ h => by cases h
  tblw := fun _ _ => blankHeap_I _ _
  tblT := fun _ _ => rfl
  tblfl := disj_of_buf (by decide)
  tblempty := fun k _ e => by have := congrArg Ptr.buf e; simp at this
  fl := fun _ _ => blankHeap_I _ _
  flT := fun _ _ => rfl
  emptyT := rfl
  emptyfl := fun k _ e => by have := congrArg Ptr.buf e; simp at this
  g := fun _ _ => blankHeap_D _ _
  disj := disj_of_buf (by decide)
  acc := blankHeap_acc _ _ _
  kern := fun ip jp _ _ => by rw [hg0, hgout]; exact demo_kernel h6

attribute [local irreducible] demoGout

/-- sample primitive integrals -/
def demoW2 (ip jp n : Nat) : ℤ := (ip : ℤ) + 2*jp + n

/-- a concrete pair of shells: 2 and 3 contractions, 3 components, one screened primitive pair -/
example : ∃ (P : Nest2 ℤ) (h : Heap ℤ), P.iCtr = 2 ∧ P.jCtr = 3 ∧ P.skip 1 0 = true ∧
    Setup1e P ⟨0,0⟩ ⟨2,0⟩ ⟨3,0⟩ ⟨4,0⟩ 6 3 5 (fun _ => none) (fun _ _ => true)
      demoW2 h := by
  let P : Nest2 ℤ :=
    { iPrim := 2, jPrim := 3, iCtr := 2, jCtr := 3, ci := fun k => k, cj := fun k => 1 - k
      common := 2, skip := fun ip jp => ip == 1 && jp == 0, eij := fun _ _ => 3
      g0 := fun _ _ => demoG0 ⟨2,0⟩, gout := fun ip jp => demoGout 18 (demoW2 ip jp)
      len0 := 18 }
  exact ⟨P, _, rfl, rfl, rfl, demo_setup1e P 6 3 5 demoW2 (by decide) (by decide) (by decide) rfl
    (by decide) (fun _ _ => rfl) (fun _ _ => rfl)⟩

example : ∃ (P : Nest2 ℤ) (M : MemN) (h : Heap ℤ), P.iCtr = 2 ∧ P.jCtr = 1 ∧
    Setup2c P M ⟨4,0⟩ 6 3 5 (fun _ => none) (fun _ _ => true)
      demoW2 false (fun _ => 0) h := by
  let P : Nest2 ℤ :=
    { iPrim := 2, jPrim := 3, iCtr := 2, jCtr := 1, ci := fun k => k, cj := fun k => 1 - k
      common := 2, skip := fun _ _ => false, eij := fun _ _ => 1
      g0 := fun _ _ => demoG0 ⟨2,0⟩, gout := fun ip jp => demoGout 18 (demoW2 ip jp)
      len0 := 18 }
  exact ⟨P, _, _, rfl, rfl, demo_setup2c P 6 3 5 demoW2 (by decide) (by decide) (by decide) rfl
    (fun _ _ => rfl) (fun _ _ => rfl) (by decide) (fun _ _ => rfl) (fun _ _ => rfl)⟩

end Verif.Props
