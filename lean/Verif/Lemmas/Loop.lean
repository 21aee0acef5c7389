import Verif.Lemmas.Nest
import Verif.Lemmas.Fblas
import Verif.Model.Loop2e

/-
The frame around the loop nests: initialisation of the flags, the nest, the final
transposition of the components.
-/
namespace Verif.Model
open Verif Prog

variable {α : Type} [CommRing α] [DecidableEq α]

theorem initFlags_wp {nfl : Nat} {fl : Ptr} {h : Heap α} (ha : ∀ k, k < nfl → h.I (fl + k) ≠ .oob) :
    wp (initFlags nfl fl : Prog α Unit) (fun _ h' =>
      AssignedI h h' (fun k => k < nfl) (fun k => fl + k) (fun _ => 1)) h := by
  unfold initFlags
  refine wp_forN (fun i h1 => AssignedI h h1 (fun k => k < i) (fun k => fl + k) (fun _ => 1))
    (AssignedI.init _ _ _ (by intro k; omega)) ?_ (fun _ H => H)
  intro i hi h1 H1
  simp only [wp_stI]
  exact ⟨H1.ne_oob (ha i hi), H1.set i (fun _ _ _ => rfl) (fun k => by omega)⟩

/-- the value of component `x / R`, row `x % R` -/
def compMajor (R nC : Nat) (v : Nat → α) (x : Nat) : α := v ((x % R) * nC + x / R)

theorem tAssigned_holds {h h' : Heap α} {at' : Ptr} {R nC : Nat} {f : Nat × Nat → α}
    (H : AssignedD h h' (fun p : Nat × Nat => p.1 < nC ∧ p.2 < R) (tAddr at' R) f) :
    HoldsD h' at' (R*nC) (fun x => f (x / R, x % R)) := by
  intro x hx
  have hR : 0 < R := Nat.pos_of_ne_zero (by rintro rfl; simp at hx)
  have := H.val (x / R, x % R) ⟨Nat.div_lt_of_lt_mul hx, Nat.mod_lt _ hR⟩
  simp only [tAddr] at this
  rwa [show x / R * R + x % R = x by rw [Nat.mul_comm]; exact Nat.div_add_mod x R] at this

theorem transposeMacro_acc {h : Heap α} {empty gctr a : Ptr} {R nC : Nat} {b0 : Bool}
    {u v : Nat → α} (hA : AccSt h empty gctr (R*nC) b0 u) (hv : HoldsD h a (R*nC) v)
    (hd : Disj a (R*nC) gctr (R*nC)) :
    wp (transposeMacro empty gctr a R nC) (fun _ h' =>
      AccSt h' empty gctr (R*nC) true (fun x => u x + compMajor R nC v x) ∧
      AgreeD h h' (Blk gctr (R*nC)) ∧ AgreeI h h' (fun q => q = empty)) h := by
  have hblk : ∀ k : Nat × Nat, k.1 < nC ∧ k.2 < R → Blk gctr (R*nC) (tAddr gctr R k) := by
    intro k hk
    refine ⟨k.1*R+k.2, ?_, rfl⟩
    rw [Nat.mul_comm R nC]; exact radix_lt hk.1 hk.2
  unfold transposeMacro
  simp only [wp_mbind, wp_ldI]
  refine ⟨_, hA.flag, ?_⟩
  cases b0 with
  | false =>
    simp only [Bool.false_eq_true, if_false, ne_eq, one_ne_zero, not_false_eq_true, if_true,
      wp_mbind, wp_stI]
    refine wp_mono (dmatTranspose_wp (m := R) (n := nC) (at' := gctr) hv
      (by rw [Nat.mul_comm]; exact hA.alloc) (by rw [Nat.mul_comm nC R]; exact hd)) ?_
    intro _ h1 H1
    have hh := tAssigned_holds H1
    refine ⟨by rw [H1.int, hA.flag]; simp, ⟨by simp, ?_, ?_, by simp⟩, ?_, ?_⟩
    · intro i hi; rw [Heap.setI_D, hh i hi]; simp
    · intro _ i hi; rw [Heap.setI_D, hh i hi]; dsimp only; rw [hA.zero rfl i hi, zero_add]; rfl
    · exact (H1.agree hblk)
    · intro q hq; rw [Heap.setI_I_ne _ _ hq, H1.int]
  | true =>
    simp only [if_true, ne_eq, not_true_eq_false, if_false]
    refine wp_mono (dplusTranspose_wp (m := R) (n := nC) (at' := gctr) hv
      (B := u) (by rw [Nat.mul_comm]; exact hA.holds rfl) (by rw [Nat.mul_comm nC R]; exact hd)) ?_
    intro _ h1 H1
    have hh := tAssigned_holds H1
    refine ⟨⟨by rw [H1.int, hA.flag], ?_, ?_, by simp⟩, H1.agree hblk, AgreeI.of_eq H1.int _⟩
    · intro i hi; rw [hh i hi]; simp
    · intro _ i hi; rw [hh i hi]
      simp only [compMajor]
      rw [show i / R * R + i % R = i by rw [Nat.mul_comm]; exact Nat.div_add_mod i R]

/-- A loop function: flags, a nest `op` accumulating into the block chosen by
ALIAS_ADDR_IF_EQUAL(x, m), transposition, return value. -/
def loopFrame (nfl : Nat) (fl empty gctr xempty gctrx : Ptr) (R nC : Nat) (op : Prog α Unit) :
    Prog α Bool := do
  initFlags nfl fl
  op
  let le ← ldI xempty
  if 1 < nC ∧ le = 0 then transposeMacro empty gctr gctrx R nC else pure ()
  let e ← ldI empty
  pure (e = 0)

/-- the read-only table extended by the never written flag of the innermost level -/
def withG (T : Ptr → Option Int) (gflag : Ptr) : Ptr → Option Int :=
  fun q => if q = gflag then some 1 else T q

theorem loopFrame_wp {T T' : Ptr → Option Int} {fl empty gctr xempty gctrx own g g1' : Ptr}
    {nfl leng R nC r E : Nat} {op : Prog α Unit} {b b0 : Bool} {u v : Nat → α} {h : Heap α}
    {SI : Ptr → Prop}
    (hT' : ∀ q x, T' q = some x → T q = some x ∨ ∃ k, k < nfl ∧ q = fl + k ∧ x = 1)
    (hx : aliasAddr nC gctr empty own (g + leng) (R*nC) = (gctrx, xempty, g1'))
    (hnC : 1 ≤ nC) (hr : r < nfl) (hown : own = fl + r)
    (hSI : ∀ q, SI q → ∃ k, k < nfl ∧ k ≠ r ∧ q = fl + k)
    (hfl : ∀ k, k < nfl → h.I (fl + k) ≠ .oob) (hTfl : ∀ k, k < nfl → T (fl + k) = none)
    (hTe : T empty = none) (hfe : ∀ k, k < nfl → empty ≠ fl + k)
    (hT : RO T h) (hA : AccSt h empty gctr (R*nC) b0 u)
    (hg : AllocD h g E) (hlen : g1'.off ≤ g.off + E) (hlen0 : leng ≤ E) (hgd : Disj gctr (R*nC) g E)
    (hop : Contrib T' op xempty gctrx (R*nC) b v (Scr g leng g1' (g.off+E)) SI) :
    wp (loopFrame nfl fl empty gctr xempty gctrx R nC op) (fun res h' =>
      res = (b0 || b) ∧
      AccSt h' empty gctr (R*nC) (b0 || b) (fun x => u x + compMajor R nC v x) ∧
      AgreeD h h' (fun q => Blk gctr (R*nC) q ∨ Blk g E q) ∧
      AgreeI h h' (fun q => q = empty ∨ Blk fl nfl q)) h := by
  have hscr : ∀ q, Scr g leng g1' (g.off+E) q → Blk g E q := by
    rintro q ⟨h1, h2⟩
    have hle : g.off ≤ g1'.off := by
      have := @alias_le nC (R*nC) gctr empty own (g+leng)
      rw [hx] at this
      simp only [Ptr.add_off] at this; omega
    exact ⟨q.off - g.off, by omega, Ptr.ext_iff'.2 ⟨h1, by simp only [Ptr.add_off]; omega⟩⟩
  unfold loopFrame
  simp only [wp_mbind]
  refine wp_mono (wp_allocMono (initFlags_wp hfl)) ?_
  rintro _ h1 ⟨H1, hm1⟩
  have hI1 : AgreeI h h1 (Blk fl nfl) := H1.agree (fun k hk => ⟨k, hk, rfl⟩)
  have hD1 : h1.D = h.D := H1.dbl
  have hT1 : RO T h1 := hT.agree hI1 (by rintro q ⟨k, hk, rfl⟩; exact hTfl k hk)
  have hT1' : RO T' h1 := by
    intro q x hq
    rcases hT' q x hq with h2 | ⟨k, hk, rfl, rfl⟩
    · exact hT1 q x h2
    · exact H1.val k hk
  have hA1 : AccSt h1 empty gctr (R*nC) b0 u := hA.agree (WD := fun _ => False) (AgreeD.of_eq hD1 _)
    hI1 hm1 (fun _ _ x => x) (by rintro ⟨k, hk, e⟩; exact hfe k hk e)
  have hSD1 : ∀ q, Scr g leng g1' (g.off+E) q → h1.D q ≠ .oob := by
    intro q hq
    obtain ⟨i, hi, rfl⟩ := hscr q hq
    rw [hD1]; exact hg i hi
  have hSI1 : ∀ q, SI q → h1.I q ≠ .oob := by
    intro q hq; obtain ⟨k, hk, _, rfl⟩ := hSI q hq
    rw [H1.val k hk]; simp
  have hWI : ∀ q, (q = fl + r ∨ SI q) → Blk fl nfl q := by
    rintro q (rfl | hq)
    · exact ⟨r, hr, rfl⟩
    · obtain ⟨k, hk, _, rfl⟩ := hSI q hq; exact ⟨k, hk, rfl⟩
  by_cases h1c : nC = 1
  · subst h1c
    rw [aliasAddr_one, Prod.mk.injEq, Prod.mk.injEq] at hx
    obtain ⟨rfl, rfl, rfl⟩ := hx
    refine wp_mono (hop h1 b0 u hT1' hA1 hSD1 hSI1) ?_
    rintro _ h2 ⟨hA2, hD2, hI2⟩
    simp only [Nat.lt_irrefl, false_and, if_false, wp_pure, wp_mbind, wp_ldI]
    refine ⟨_, hA2.flag, _, hA2.flag, ?_, ?_, ?_, ?_⟩
    · cases b0 <;> cases b <;> simp
    · refine hA2.congr (fun i hi => ?_)
      rw [Nat.mul_one] at hi
      simp only [compMajor, Nat.mod_eq_of_lt hi, Nat.div_eq_of_lt hi, Nat.mul_one, Nat.add_zero]
    · exact (AgreeD.of_eq hD1 (fun _ => False)).trans hD2 (fun _ x => x.elim)
        (fun q hq => hq.imp id (hscr q))
    · exact hI1.trans hI2 (fun _ x => Or.inr x) (fun q hq => hq.imp id (fun y => hWI q (Or.inr y)))
  · rw [aliasAddr_ne h1c, Prod.mk.injEq, Prod.mk.injEq] at hx
    obtain ⟨rfl, rfl, rfl⟩ := hx
    have hxb : ∀ q, Blk (g+leng) (R*nC) q → Blk g E q := by
      rintro q ⟨i, hi, rfl⟩
      simp only [Ptr.add_off] at hlen
      exact ⟨leng + i, by omega, by rw [Ptr.add_assoc]⟩
    have hAx : AccSt h1 own (g+leng) (R*nC) false (fun _ => 0) := by
      refine ⟨by rw [hown]; exact H1.val r hr, ?_, by simp, fun _ _ _ => rfl⟩
      intro i hi
      obtain ⟨j, hj, e⟩ := hxb _ ⟨i, hi, rfl⟩
      rw [e, hD1]; exact hg j hj
    refine wp_mono (wp_allocMono (hop h1 false _ hT1' hAx hSD1 hSI1)) ?_
    rintro _ h2 ⟨⟨hA2, hD2, hI2⟩, hm2⟩
    simp only [Bool.false_or, zero_add] at hA2
    have hA2' : AccSt h2 empty gctr (R*nC) b0 u := hA1.agree hD2 hI2 hm2
      (by
        rintro i hi (hq | hq)
        · exact hgd.not_blk hi (hxb _ hq)
        · exact hgd.not_blk hi (hscr _ hq))
      (by
        rintro (e | hq)
        · exact hfe r hr (e.trans hown)
        · obtain ⟨k, hk, _, e⟩ := hSI _ hq; exact hfe k hk e)
    have hD12 : AgreeD h h2 (Blk g E) := (AgreeD.of_eq hD1 (fun _ => False)).trans hD2
      (fun _ x => x.elim) (fun q hq => hq.elim (hxb q) (hscr q))
    have hI12 : AgreeI h h2 (Blk fl nfl) := hI1.trans hI2 (fun _ x => x)
      (fun q hq => hWI q (hq.imp (fun e => e.trans hown) id))
    simp only [wp_ldI]
    refine ⟨_, hA2.flag, ?_⟩
    have hgt : 1 < nC := by omega
    cases b with
    | false =>
      simp only [Bool.false_eq_true, if_false, one_ne_zero, and_false, wp_pure, Bool.or_false]
      refine ⟨_, hA2'.flag, ?_, ?_, hD12.mono (fun q hq => Or.inr hq),
        hI12.mono (fun q hq => Or.inr hq)⟩
      · cases b0 <;> simp
      · refine hA2'.congr (fun i hi => ?_)
        have hR : 0 < R := Nat.pos_of_ne_zero (by rintro rfl; simp at hi)
        have h5 : v ((i % R) * nC + i / R) = 0 := hA2.zero rfl _ (by
          exact radix_lt (Nat.mod_lt _ hR) (Nat.div_lt_of_lt_mul hi))
        simp only [compMajor, h5, add_zero]
    | true =>
      simp only [hgt, if_true, and_self, Bool.or_true, wp_mbind]
      refine wp_mono (transposeMacro_acc hA2' (hA2.holds rfl) ?_) ?_
      · intro i j hi hj e
        obtain ⟨k, hk, e2⟩ := hxb _ ⟨i, hi, rfl⟩
        exact hgd j k hj hk (e.symm.trans e2)
      · rintro _ h3 ⟨hA3, hD3, hI3⟩
        simp only [wp_ldI, wp_pure]
        refine ⟨_, hA3.flag, by simp, hA3, hD12.trans hD3 (fun q hq => Or.inr hq)
          (fun q hq => Or.inl hq), hI12.trans hI3 (fun q hq => Or.inr hq) (fun q hq => Or.inl hq)⟩

end Verif.Model
