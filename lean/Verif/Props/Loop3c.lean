import Verif.Lemmas.Loop3c
import Verif.Lemmas.Demo
import Verif.Spec.Contract

/-
Property C41: the primitive loops of three-centre integrals (two-electron with and without an
optimizer, one-electron).
-/
namespace Verif.Props
open Verif Verif.Model Prog Spec

variable {α : Type} [CommRing α] [DecidableEq α]

/-- the contracted three-centre integral -/
def expected3 (P : Nest3 α) (keep : Nat → Nat → Nat → Bool) (w : Nat → Nat → Nat → Nat → α)
    (comp ic jc kc n : Nat) : α :=
  P.common * contract3 P.iPrim P.jPrim P.kPrim P.ci P.cj P.ck
    (fun ip jp kp => if P.skip ip jp kp = false ∧ keep ip jp kp = true then
      P.eij ip jp kp * w ip jp kp (n*P.nComp+comp) else 0) ic jc kc

/-- The loop added the contracted integrals to the accumulator and reported whether anything
is there. -/
structure Contracted3 (P : Nest3 α) (M : MemN) (keep : Nat → Nat → Nat → Bool)
    (w : Nat → Nat → Nat → Nat → α) (b0 : Bool) (u : Nat → α) (res : Bool)
    (h' : Heap α) : Prop where
  ret : res = true ↔ (b0 = true ∨ ∃ ip jp kp, ip < P.iPrim ∧ jp < P.jPrim ∧ kp < P.kPrim ∧
    P.skip ip jp kp = false ∧ keep ip jp kp = true)
  flag : h'.I M.empty = .val (if res then 0 else 1)
  value : res = true → ∀ comp ic jc kc n, comp < P.nComp → ic < P.iCtr → jc < P.jCtr →
    kc < P.kCtr → n < P.nf →
    h'.D (M.gctr + outIdx3 P.nf P.iCtr P.jCtr P.kCtr comp ic jc kc n) =
      .val (u (outIdx3 P.nf P.iCtr P.jCtr P.kCtr comp ic jc kc n)
        + expected3 P keep w comp ic jc kc n)
  none_zero : res = false → ∀ comp ic jc kc n, expected3 P keep w comp ic jc kc n = 0

section
variable {P : Nest3 α} {M : MemN} {keep : Nat → Nat → Nat → Bool}
  {w : Nat → Nat → Nat → Nat → α}

theorem vK_closed {comp ic jc kc n : Nat} (hc : comp < P.nComp) (hi : ic < P.iCtr)
    (hj : jc < P.jCtr) (hn : n < P.nf) :
    P.vK keep w ((((kc*P.jCtr + jc)*P.iCtr + ic)*P.nf + n)*P.nComp + comp) =
      expected3 P keep w comp ic jc kc n := by
  have x0 : n*P.nComp+comp < P.len0 := radix_lt hn hc
  have x1 : P.len0*ic + (n*P.nComp+comp) < P.leni := by rw [P.leni_eq]; exact ctr_lt hi x0
  have x2 : P.leni*jc + (P.len0*ic + (n*P.nComp+comp)) < P.lenj := by
    rw [P.lenj_eq]; exact ctr_lt hj x1
  have e : (((kc*P.jCtr + jc)*P.iCtr + ic)*P.nf + n)*P.nComp + comp =
      P.lenj*kc + (P.leni*jc + (P.len0*ic + (n*P.nComp+comp))) := by
    unfold Nest3.lenj Nest3.leni Nest3.len0; ring
  rw [e]
  unfold Nest3.vK expected3 contract3
  congr 1
  refine Finset.sum_congr rfl (fun kp _ => ?_)
  rw [ctr_div x2, ctr_mod x2]
  unfold Nest3.vJ
  rw [Finset.mul_sum]
  refine Finset.sum_congr rfl (fun jp _ => ?_)
  rw [ctr_div x1, ctr_mod x1]
  unfold Nest3.vI
  rw [← mul_assoc, Finset.mul_sum]
  refine Finset.sum_congr rfl (fun ip _ => ?_)
  rw [ctr_div x0, ctr_mod x0]
  cases hs2 : P.skip ip jp kp with
  | true => simp [hs2]
  | false =>
    cases hs3 : keep ip jp kp with
    | true => simp [hs2, hs3, mul_assoc]
    | false => simp [hs2, hs3]

theorem bK_iff : P.bK keep = true ↔ ∃ ip jp kp, ip < P.iPrim ∧ jp < P.jPrim ∧ kp < P.kPrim ∧
    P.skip ip jp kp = false ∧ keep ip jp kp = true := by
  simp only [Nest3.bK, Nest3.bJ, Nest3.bI, List.any_eq_true, List.mem_range, Bool.and_eq_true,
    Bool.not_eq_true']
  constructor
  · rintro ⟨kp, h2, jp, h4, ip, h5, h6⟩; exact ⟨ip, jp, kp, h5, h4, h2, h6⟩
  · rintro ⟨ip, jp, kp, h5, h4, h2, h6⟩; exact ⟨kp, h2, jp, h4, ip, h5, h6⟩

theorem expected3_zero (hb : P.bK keep = false) (comp ic jc kc n : Nat) :
    expected3 P keep w comp ic jc kc n = 0 := by
  unfold expected3 contract3
  rw [Finset.sum_eq_zero, mul_zero]
  intro kp hk
  refine Finset.sum_eq_zero (fun jp hj => Finset.sum_eq_zero (fun ip hi => ?_))
  dsimp only
  rw [if_neg, mul_zero]
  intro hs
  have h2 : P.bK keep = true := bK_iff.2 ⟨ip, jp, kp, Finset.mem_range.1 hi,
    Finset.mem_range.1 hj, Finset.mem_range.1 hk, hs⟩
  rw [hb] at h2; cases h2

theorem contracted3_of {b0 : Bool} {u : Nat → α} {res : Bool} {h' : Heap α}
    (hr : res = (b0 || P.bK keep))
    (hA : AccSt h' M.empty M.gctr (P.nf * P.nc * P.nComp) (b0 || P.bK keep)
      (fun x => u x + compMajor (P.nf * P.nc) P.nComp (P.vK keep w) x)) :
    Contracted3 P M keep w b0 u res h' := by
  subst hr
  refine ⟨by rw [Bool.or_eq_true, bK_iff], hA.flag, ?_, ?_⟩
  · intro hres comp ic jc kc n hc hi hj hk hn
    have hrow : ((kc*P.jCtr + jc)*P.iCtr + ic)*P.nf + n < P.nf * P.nc := by
      have := radix_lt (radix_lt (radix_lt hk hj) hi) hn
      calc _ < _ := this
        _ = P.nf * P.nc := by unfold Nest3.nc; ring
    have hlt : outIdx3 P.nf P.iCtr P.jCtr P.kCtr comp ic jc kc n < P.nf * P.nc * P.nComp := by
      rw [Nat.mul_comm (P.nf * P.nc)]; exact radix_lt hc hrow
    rw [hA.holds hres _ hlt]
    congr 1
    unfold compMajor
    dsimp only
    have hR : 0 < P.nf * P.nc := by omega
    have e1 : outIdx3 P.nf P.iCtr P.jCtr P.kCtr comp ic jc kc n % (P.nf * P.nc) =
        ((kc*P.jCtr + jc)*P.iCtr + ic)*P.nf + n := by
      unfold outIdx3
      rw [show P.iCtr*P.jCtr*P.kCtr = P.nc from rfl, Nat.mul_comm comp, Nat.mul_add_mod,
        Nat.mod_eq_of_lt hrow]
    have e2 : outIdx3 P.nf P.iCtr P.jCtr P.kCtr comp ic jc kc n / (P.nf * P.nc) = comp := by
      unfold outIdx3
      rw [show P.iCtr*P.jCtr*P.kCtr = P.nc from rfl, Nat.mul_comm comp,
        Nat.mul_add_div hR, Nat.div_eq_of_lt hrow, Nat.add_zero]
    rw [e1, e2, vK_closed hc hi hj hn]
  · intro hres comp ic jc kc n
    rw [Bool.or_eq_false_iff] at hres
    exact expected3_zero hres.2 _ _ _ _ _
end

/-- **C41** Without an optimizer (and for three-centre one-electron integrals): the loop builds
its sparsity tables and adds the contracted integrals to the output. -/
theorem C41_loop_nopt {P : Nest3 α} {M : MemN} {base : Ptr} {T : Ptr → Option Int}
    {keep : Nat → Nat → Nat → Bool} {w : Nat → Nat → Nat → Nat → α}
    {b0 : Bool} {u : Nat → α} {h : Heap α} (S : Setup3Nopt P M base T keep w b0 u h) :
    ∃ res h', run (loop3cNopt P M base false) h = some (res, h') ∧
      Contracted3 P M keep w b0 u res h' ∧
      AgreeD h h' (fun q => Blk M.gctr (P.nf * P.nc * P.nComp) q ∨
        Blk M.g (P.leng + P.used) q) ∧
      AgreeI h h' (fun q => q = M.empty ∨ Blk M.fl 4 q ∨ Blk base P.tblSize q) := by
  obtain ⟨res, h', hr, h1, h2, h3, h4⟩ := run_of_wp (loop3cNopt_wp S)
  exact ⟨res, h', hr, contracted3_of h1 h2, h3, h4⟩

/-- **C41** With an optimizer, whatever loop the dispatch table selects. -/
theorem C41_dispatch {P : Nest3 α} {M : MemN} {ti tj tk : Tbl} {T : Ptr → Option Int}
    {keep : Nat → Nat → Nat → Bool} {w : Nat → Nat → Nat → Nat → α}
    {b0 : Bool} {u : Nat → α} {h : Heap α} (S : Setup3 P M ti tj tk T keep w P.used b0 u h) :
    ∃ res h', run (loop3cDispatch P M ti tj tk) h = some (res, h') ∧
      Contracted3 P M keep w b0 u res h' ∧
      AgreeD h h' (fun q => Blk M.gctr (P.nf * P.nc * P.nComp) q ∨
        Blk M.g (P.leng + P.used) q) ∧
      AgreeI h h' (fun q => q = M.empty ∨ Blk M.fl 4 q) := by
  obtain ⟨res, h', hr, h1, h2, h3, h4⟩ := run_of_wp (loop3cDispatch_wp S)
  exact ⟨res, h', hr, contracted3_of h1 h2, h3, h4⟩

/-- **C41** The selected loop and the general loop agree in return value, flag and integrals. -/
theorem C41_dispatch_eq_general {P : Nest3 α} {M : MemN} {ti tj tk : Tbl} {T : Ptr → Option Int}
    {keep : Nat → Nat → Nat → Bool} {w : Nat → Nat → Nat → Nat → α}
    {b0 : Bool} {u : Nat → α} {h : Heap α} (S : Setup3 P M ti tj tk T keep w P.used b0 u h) :
    ∃ res h1 h2, run (loop3cDispatch P M ti tj tk) h = some (res, h1) ∧
      run (loop3c P M ti tj tk) h = some (res, h2) ∧ h1.I M.empty = h2.I M.empty ∧
      (res = true → ∀ comp ic jc kc n, comp < P.nComp → ic < P.iCtr → jc < P.jCtr →
        kc < P.kCtr → n < P.nf →
        h1.D (M.gctr + outIdx3 P.nf P.iCtr P.jCtr P.kCtr comp ic jc kc n) =
        h2.D (M.gctr + outIdx3 P.nf P.iCtr P.jCtr P.kCtr comp ic jc kc n)) := by
  obtain ⟨r1, h1, e1, c1, _, _⟩ := C41_dispatch S
  obtain ⟨r2, h2, e2, q1, q2, _, _⟩ := run_of_wp (loop3c_wp (le_refl _) S)
  have c2 := contracted3_of q1 q2
  have hr : r1 = r2 := by rw [Bool.eq_iff_iff, c1.ret, c2.ret]
  subst hr
  refine ⟨r1, h1, h2, e1, e2, by rw [c1.flag, c2.flag], ?_⟩
  intro hres comp ic jc kc n a b c d f
  rw [c1.value hres comp ic jc kc n a b c d f, c2.value hres comp ic jc kc n a b c d f]

/-! ### The hypotheses can be met -/

theorem demo_setup3Nopt (P : Nest3 α) (w : Nat → Nat → Nat → Nat → α)
    (h1 : 1 ≤ P.iCtr) (h2 : 1 ≤ P.jCtr) (h3 : 1 ≤ P.kCtr) (h5 : 1 ≤ P.nComp)
    (h6 : 0 < P.leng) (hg0 : ∀ ip jp kp, P.g0 ip jp kp = demoG0 ⟨2,0⟩)
    (hgout : ∀ ip jp kp, P.gout ip jp kp = demoGout P.len0 (w ip jp kp)) :
    Setup3Nopt P ⟨⟨0,0⟩, ⟨1,0⟩, ⟨2,0⟩, ⟨3,0⟩⟩ ⟨4,0⟩ (fun _ => none) (fun _ _ _ => true) w
      false (fun _ => 0) (blankHeap ⟨1,0⟩) where
  ictr := h1
  jctr := h2
  kctr := h3
  ncomp := h5
  ro := fun _ _ h => by cases h
  tblw := fun _ _ => blankHeap_I _ _
  tblT := fun _ _ => rfl
  tblfl := disj_of_buf (by decide)
  tblempty := fun k _ e => by have := congrArg Ptr.buf e; simp at this
  fl := fun _ _ => blankHeap_I _ _
  flT := fun _ _ => rfl
  emptyT := rfl
  emptyfl := fun k _ e => by have := congrArg Ptr.buf e; simp at this
  g := fun _ _ => blankHeap_D _ _
  disj := disj_of_buf (by decide)
  acc := blankHeap_acc _ _ _
  kern := fun ip jp kp _ _ _ => by rw [hg0, hgout]; exact demo_kernel h6

attribute [local irreducible] demoGout

/-- sample primitive integrals -/
def demoW3 (ip jp _kp n : Nat) : ℤ := (ip : ℤ) + 2*jp + n

/-- a concrete triple of shells, both with and without pre-built tables -/
example : ∃ (P : Nest3 ℤ) (M : MemN) (h : Heap ℤ), P.iCtr = 2 ∧ P.kCtr = 3 ∧ P.skip 1 0 0 = true ∧
    Setup3Nopt P M ⟨4,0⟩ (fun _ => none) (fun _ _ _ => true) demoW3
      false (fun _ => 0) h ∧
    ∃ ti tj tk T h2, Setup3 P M ti tj tk T (fun _ _ _ => true) demoW3
      P.used false (fun _ => 0) h2 := by
  let P : Nest3 ℤ :=
    { iPrim := 2, jPrim := 3, kPrim := 1, iCtr := 2, jCtr := 1, kCtr := 3, ci := fun k => k
      cj := fun k => 1 - k, ck := fun k => k, common := 2
      skip := fun ip jp _ => ip == 1 && jp == 0, eij := fun _ _ _ => 3
      g0 := fun _ _ _ => demoG0 ⟨2,0⟩, gout := fun ip jp kp => demoGout 18 (demoW3 ip jp kp)
      nf := 6, nComp := 3, leng := 5 }
  have S := demo_setup3Nopt P demoW3 (by decide) (by decide) (by decide)
    (by decide) (by decide) (fun _ _ _ => rfl) (fun _ _ _ => rfl)
  refine ⟨P, _, _, rfl, rfl, rfl, S, ?_⟩
  obtain ⟨_, h', _, T', S', _⟩ := run_of_wp S.tables
  exact ⟨_, _, _, T', h', S'⟩

end Verif.Props
