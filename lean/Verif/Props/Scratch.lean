import Verif.Model.Scratch
import Verif.Lemmas.Cart
import Verif.Props.Index
import Verif.Props.Ssc

/-!
C35: the local arrays of fixed length.  MXRYSROOTS = 32 numbers per root, CART_MAX = 136 numbers per component of a
shell; ANG_MAX = 15 (include/cint.h.in:120-123).
-/
namespace Verif.Props
open Verif Prog Model Spec Lemmas

section
variable {α : Type} [Field α] [LinearOrder α]

/-- `n` cells at `p`, and no more -/
def ArrayOf (h : Heap α) (p : Ptr) (n : Nat) : Prop := ∀ k, h.D (p + k) ≠ .oob ↔ k < n
def ArrayOfI (h : Heap α) (p : Ptr) (n : Nat) : Prop := ∀ k, h.I (p + k) ≠ .oob ↔ k < n

/-- the roots as the rest of the model has them (`g0_2e`): full interaction, long range, short range with a quadrature
of its own, short range as difference of two -/
def rootVal (R : Rys2 α) (K : Consts α) (e : EnvG) (d : G2 α) (n : Nat) : α :=
  let aij := d.ai + d.aj
  let akl := d.ak + d.al
  let a0 := aij * akl / (aij + akl)
  let x := a0 * ((d.rij 0 - d.rkl 0) * (d.rij 0 - d.rkl 0) + (d.rij 1 - d.rkl 1) * (d.rij 1 - d.rkl 1)
    + (d.rij 2 - d.rkl 2) * (d.rij 2 - d.rkl 2))
  let theta := d.omega * d.omega / (d.omega * d.omega + a0)
  if d.omega = 0 then R.u e.nrys_roots x n
  else if d.omega < 0 then
    if e.rys_order = e.nrys_roots then R.sru e.nrys_roots x (K.sqrt theta) n
    else if n < e.rys_order then R.u e.rys_order x n
    else scaleRoot theta (R.u e.rys_order (theta*x) (n - e.rys_order))
  else scaleRoot theta (R.u e.nrys_roots (x * theta) n)

theorem rootsTo_wp (u : Ptr) (n : Nat) (f : Nat → α) (h : Heap α) (hu : ∀ k < n, h.D (u + k) ≠ .oob) :
    wp (rootsTo u n f) (fun _ h' => AssignedD h h' (fun k => k < n) (fun k => u + k) f) h := by
  unfold rootsTo
  refine wp_forN (fun i h' => AssignedD h h' (fun k => k < i) (fun k => u + k) f)
    (AssignedD.init _ _ _ (fun k => by omega)) ?_ (fun _ H => H)
  intro i hi h1 H
  refine (wp_st _ _ _ _).2 ⟨H.ne_oob (hu i hi), ?_⟩
  exact H.set i (fun k hk e => by simp only [Ptr.add_right_inj] at e; rw [e]) (fun k => by omega)

theorem scaleTo_wp (theta : α) (u : Ptr) (a b : Nat) (f : Nat → α) (h0 h : Heap α) (hab : a ≤ b)
    (H : AssignedD h0 h (fun k => k < b) (fun k => u + k) f) :
    wp (scaleTo theta u a b)
      (fun _ h' => AssignedD h0 h' (fun k => k < b) (fun k => u + k) fun k => if k < a then f k else scaleRoot theta (f k)) h := by
  unfold scaleTo
  refine wp_forN (fun i h' => AssignedD h0 h' (fun k => k < b) (fun k => u + k)
    fun k => if k < a then f k else if k < a + i then scaleRoot theta (f k) else f k) ?_ ?_ ?_
  · refine H.congr (fun _ => Iff.rfl) fun k _ => ?_
    rw [Nat.add_zero]; split <;> rfl
  · intro i hi h1 H1
    rw [wp_mbind]
    refine (wp_ld _ _ _).2 ⟨_, H1.val (a+i) (by omega), ?_⟩
    rw [if_neg (by omega), if_neg (by omega)]
    refine (wp_st _ _ _ _).2 ⟨?_, ?_⟩
    · rw [H1.val (a+i) (by omega)]; simp
    refine H1.upd (a+i) _ (by omega) (fun k _ e => by simpa using e) (fun k hk hne => ?_) ?_
    · by_cases c : k < a
      · rw [if_pos c, if_pos c]
      · rw [if_neg c, if_neg c]
        by_cases c2 : k < a + i
        · rw [if_pos c2, if_pos (by omega)]
        · rw [if_neg c2, if_neg (by omega)]
    · show (if a + i < a then f (a+i) else if a+i < a+(i+1) then scaleRoot theta (f (a+i)) else f (a+i)) = _
      rw [if_neg (by omega), if_pos (by omega)]
  · intro h' H1
    refine H1.congr (fun _ => Iff.rfl) fun k hk => ?_
    show (if k < a then f k else scaleRoot theta (f k)) = if k < a then f k else if k < a + (b-a) then scaleRoot theta (f k) else f k
    by_cases c : k < a
    · rw [if_pos c, if_pos c]
    · rw [if_neg c, if_neg c, if_pos (by omega)]

theorem rootsTo_two (u : Ptr) (m n : Nat) (f g : Nat → α) (h0 h1 : Heap α)
    (hu : ∀ k < m + n, h0.D (u + k) ≠ .oob) (H : AssignedD h0 h1 (fun k => k < m) (fun k => u + k) f) :
    wp (rootsTo (u + m) n g) (fun _ h' => AssignedD h0 h' (fun k => k < m + n) (fun k => u + k)
      fun k => if k < m then f k else g (k - m)) h1 := by
  refine wp_mono (rootsTo_wp (u + m) n g h1 fun k hk => ?_) ?_
  · rw [Ptr.add_assoc]; exact H.ne_oob (hu _ (by omega))
  · intro _ h' H'
    refine ⟨fun k hk => ?_, fun q hq => ?_, H'.int.trans H.int⟩
    · by_cases c : k < m
      · rw [if_pos c, H'.frame _ (fun j _ e => ?_)]
        · exact H.val k c
        · rw [Ptr.add_assoc, Ptr.add_right_inj] at e; omega
      · rw [if_neg c]
        have := H'.val (k - m) (by omega)
        rw [Ptr.add_assoc, Nat.add_sub_of_le (by omega)] at this
        exact this
    · rw [H'.frame q (fun k hk e => hq (m + k) (by omega) (by rw [← Ptr.add_assoc]; exact e))]
      exact H.frame q (fun k hk => hq k (by omega))

/-- the number of roots as the init functions set it -/
def RootCount (e : EnvG) : Prop := e.nrys_roots = e.rys_order ∨ e.nrys_roots = e.rys_order + e.rys_order

theorem rootCount_int2e (li lj lk ll : Nat) (ng : Inc) (sr : Bool) : RootCount (initInt2e li lj lk ll ng sr) := by
  unfold RootCount initInt2e srRoots
  dsimp only
  split
  · right; omega
  · left; rfl

/-- C35, roots: when there are at most 32 of them CINTg0_2e stays inside its array `u` and stores exactly the roots. -/
theorem C35_roots_fit (R : Rys2 α) (K : Consts α) {e : EnvG} (hc : RootCount e) (d : G2 α) (cutoff : α) {u : Ptr} {h : Heap α}
    (hu : ArrayOf h u 32) (hn : e.nrys_roots ≤ 32) :
    ∃ r h', run (rootsArr R K e d cutoff u) h = some (r, h') ∧
      (∀ q, (∀ k < e.nrys_roots, q ≠ u + k) → h'.D q = h.D q) ∧ h'.I = h.I ∧
      (r = true → ∀ n < e.nrys_roots, h'.D (u + n) = .val (rootVal R K e d n)) := by
  have hcell : ∀ k < e.nrys_roots, h.D (u + k) ≠ .oob := fun k hk => (hu k).2 (by omega)
  refine run_of_wp (Q := fun r h' => (∀ q, (∀ k < e.nrys_roots, q ≠ u + k) → h'.D q = h.D q) ∧ h'.I = h.I ∧
      (r = true → ∀ n < e.nrys_roots, h'.D (u + n) = .val (rootVal R K e d n))) ?_
  unfold rootsArr rootVal
  dsimp only
  by_cases c0 : d.omega = 0
  · simp only [if_pos c0]
    rw [wp_mbind]
    refine wp_mono (rootsTo_wp _ _ _ _ hcell) fun _ h' H => ?_
    exact ⟨fun q hq => H.frame q hq, H.int, fun _ n hn => H.val n hn⟩
  · simp only [if_neg c0]
    by_cases c1 : d.omega < 0
    · simp only [if_pos c1]
      split
      · exact ⟨fun _ _ => rfl, rfl, fun x => by cases x⟩
      · by_cases c2 : e.rys_order = e.nrys_roots
        · simp only [if_pos c2]
          rw [wp_mbind]
          refine wp_mono (rootsTo_wp _ _ _ _ hcell) fun _ h' H => ?_
          exact ⟨fun q hq => H.frame q hq, H.int, fun _ n hn => H.val n hn⟩
        · simp only [if_neg c2]
          have e2 : e.nrys_roots = e.rys_order + e.rys_order := hc.resolve_left fun x => c2 x.symm
          rw [wp_mbind]
          refine wp_mono (rootsTo_wp _ _ _ _ fun k hk => hcell k (by omega)) fun _ h1 H1 => ?_
          rw [wp_mbind]
          refine wp_mono (rootsTo_two _ _ _ _ _ _ _ (fun k hk => hcell k (by omega)) H1) fun _ h2 H2 => ?_
          rw [← e2] at H2
          split
          · exact ⟨fun q hq => H2.frame q hq, H2.int, fun x => by cases x⟩
          · rw [wp_mbind]
            refine wp_mono (scaleTo_wp _ _ _ _ _ _ _ (by omega) H2) fun _ h3 H3 => ?_
            refine ⟨fun q hq => H3.frame q hq, H3.int, fun _ n hn => (H3.val n hn).trans ?_⟩
            by_cases c : n < e.rys_order
            · simp only [if_pos c]
            · simp only [if_neg c]
    · simp only [if_neg c1]
      rw [wp_mbind]
      refine wp_mono (rootsTo_wp _ _ _ _ hcell) fun _ h1 H1 => ?_
      rw [wp_mbind]
      refine wp_mono (scaleTo_wp _ _ _ _ _ _ _ (by omega) H1) fun _ h3 H3 => ?_
      refine ⟨fun q hq => H3.frame q hq, H3.int, fun _ n hn => (H3.val n hn).trans ?_⟩
      rw [if_neg (by omega)]

/-- C35, recursion coefficients: likewise for the nine arrays of `Rys2eT`; they receive the numbers the rest of the model
uses. -/
theorem C35_coefficients_fit {e : EnvG} (d : G2 α) {u : Ptr} {bc : Nat → Ptr} {h : Heap α} {f : Nat → α}
    (hbc : ∀ k < 9, ArrayOf h (bc k) 32) (hn : e.nrys_roots ≤ 32)
    (hb : ∀ k < 9, (bc k).buf ≠ u.buf) (hb' : ∀ k < 9, ∀ k' < 9, (bc k).buf = (bc k').buf → k = k')
    (hf : ∀ n < e.nrys_roots, h.D (u + n) = .val (f n)) :
    ∃ h', run (bcArr e d u bc) h = some ((), h') ∧
      (∀ k < 9, ∀ n < e.nrys_roots, h'.D (bc k + n) = .val (bcMember (bc2e e d f) k n)) ∧
      (∀ q, (∀ k < 9, ∀ n < e.nrys_roots, q ≠ bc k + n) → h'.D q = h.D q) ∧ h'.I = h.I := by
  have main : wp (bcArr e d u bc) (fun _ h' => AssignedD h h' (fun p : Nat × Nat => p.1 < 9 ∧ p.2 < e.nrys_roots)
      (fun p => bc p.1 + p.2) (fun p => bcMember (bc2e e d f) p.1 p.2)) h := by
    unfold bcArr
    dsimp only
    refine wp_forN (fun i h' => AssignedD h h' (fun p : Nat × Nat => p.1 < 9 ∧ p.2 < i)
      (fun p => bc p.1 + p.2) (fun p => bcMember (bc2e e d f) p.1 p.2))
      (AssignedD.init _ _ _ (fun k => by omega)) ?_ (fun _ H => H)
    intro i hi h1 H
    rw [wp_mbind]
    refine (wp_ld _ _ _).2 ⟨f i, ?_, ?_⟩
    · rw [H.frame _ (fun p hp e => hb p.1 hp.1 (by have := congrArg Ptr.buf e; exact this.symm))]; exact hf i hi
    have inj : ∀ k n k' n' : Nat, k < 9 → k' < 9 → bc k + n = bc k' + n' → k = k' ∧ n = n' := by
      intro k n k' n' hk hk' ee
      have e1 : k = k' := hb' k hk k' hk' (congrArg Ptr.buf ee :)
      subst e1
      exact ⟨rfl, by simpa using ee⟩
    have stp : ∀ {h2 : Heap α} (m : Nat), m < 9 → AssignedD h h2 (fun p : Nat × Nat => p.1 < 9 ∧ p.2 < i ∨ p.1 < m ∧ p.2 = i)
        (fun p => bc p.1 + p.2) (fun p => bcMember (bc2e e d f) p.1 p.2) →
        h2.D (bc m + i) ≠ .oob ∧
        AssignedD h (h2.setD (bc m + i) (bcMember (bc2e e d f) m i)) (fun p : Nat × Nat => p.1 < 9 ∧ p.2 < i ∨ p.1 < m+1 ∧ p.2 = i)
        (fun p => bc p.1 + p.2) (fun p => bcMember (bc2e e d f) p.1 p.2) := by
      intro h2 m hm H2
      refine ⟨H2.ne_oob ((hbc m hm i).2 (by omega)), ?_⟩
      refine H2.set (m, i) (fun p hp ee => ?_) (fun p => ?_)
      · obtain ⟨x, y⟩ := inj _ _ _ _ (by omega) hm ee
        rw [x, y]
      · rw [Prod.ext_iff]; dsimp only; omega
    have H0 : AssignedD h h1 (fun p : Nat × Nat => p.1 < 9 ∧ p.2 < i ∨ p.1 < 0 ∧ p.2 = i)
        (fun p => bc p.1 + p.2) (fun p => bcMember (bc2e e d f) p.1 p.2) :=
      H.congr (fun p => by omega) (fun _ _ => rfl)
    simp only [wp_mbind, wp_st]
    obtain ⟨a0, H0⟩ := stp 0 (by omega) H0
    obtain ⟨a1, H1⟩ := stp 1 (by omega) H0
    obtain ⟨a2, H2⟩ := stp 2 (by omega) H1
    obtain ⟨a3, H3⟩ := stp 3 (by omega) H2
    obtain ⟨a4, H4⟩ := stp 4 (by omega) H3
    obtain ⟨a5, H5⟩ := stp 5 (by omega) H4
    obtain ⟨a6, H6⟩ := stp 6 (by omega) H5
    obtain ⟨a7, H7⟩ := stp 7 (by omega) H6
    obtain ⟨a8, H8⟩ := stp 8 (by omega) H7
    refine ⟨a0, a1, a2, a3, a4, a5, a6, a7, a8, ?_⟩
    exact H8.congr (fun p => by omega) (fun _ _ => rfl)
  obtain ⟨_, h', hr, H⟩ := run_of_wp main
  exact ⟨h', hr, fun k hk n hn => H.val (k, n) ⟨hk, hn⟩, fun q hq => H.frame q (fun p hp => hq _ hp.1 _ hp.2), H.int⟩

/-- C35: with more than 32 roots the array `u` is overrun (in the two cases without screening inside CINTg0_2e). -/
theorem C35_roots_overrun (R : Rys2 α) (K : Consts α) {e : EnvG} (d : G2 α) (cutoff : α) {u : Ptr} {h : Heap α}
    (hu : ArrayOf h u 32) (hn : 32 < e.nrys_roots) (ho : 0 ≤ d.omega) : run (rootsArr R K e d cutoff u) h = none := by
  have hq : h.D (u + 32) = .oob := by
    by_contra hne
    have := (hu 32).1 hne
    omega
  have key : ∀ f : Nat → α, MustStore (rootsTo u e.nrys_roots f) (u + 32) := fun f =>
    mustStore_forN hn fun h hq => by simp [st, run, hq]
  unfold rootsArr
  dsimp only
  split
  · exact mustStore_bind_left (key _) h hq
  · rw [if_neg (not_lt.2 ho)]
    exact mustStore_bind_left (key _) h hq

end

/-- C35, four-centre integrals: exactly when the roots fit. -/
theorem C35_roots_int2e (li lj lk ll : Nat) (ng : Inc) (sr : Bool) :
    (initInt2e li lj lk ll ng sr).nrys_roots ≤ 32 ↔ li + lj + lk + ll + (ng.i + ng.j + ng.k + ng.l) ≤ 63 := by
  unfold initInt2e srRoots
  dsimp only
  split <;> omega

/-- three-centre two-electron integrals -/
theorem C35_roots_int3c2e (li lj lk : Nat) (ng : Inc) (sr : Bool) :
    (initInt3c2e li lj lk ng sr).nrys_roots ≤ 32 ↔ li + lj + lk + (ng.i + ng.j + ng.k) ≤ 63 := by
  unfold initInt3c2e srRoots
  dsimp only
  split <;> omega

/-- two-centre two-electron integrals -/
theorem C35_roots_int2c2e (li lk : Nat) (ng : Inc) (sr : Bool) :
    (initInt2c2e li lk ng sr).nrys_roots ≤ 32 ↔ li + lk + (ng.i + ng.k) ≤ 63 := by
  unfold initInt2c2e srRoots
  dsimp only
  split <;> omega

/-- nuclear attraction -/
theorem C35_roots_int1e (li lj : Nat) (ng : Inc) (h0 : ng.rys = 0) :
    (initInt1e li lj ng).nrys_roots ≤ 32 ↔ li + lj + (ng.i + ng.j) ≤ 63 := by
  unfold initInt1e
  dsimp only
  rw [h0, if_neg (by omega)]
  omega

/-- nuclear attraction on grids -/
theorem C35_roots_grids (li lj : Nat) (ng : Inc) (h0 : ng.rys = 0) (sr : Bool) :
    (initGrids li lj ng sr).nrys_roots ≤ 32 ↔ li + lj + (ng.i + ng.j) ≤ 63 := by
  unfold initGrids initInt1e srRoots
  dsimp only
  simp only [h0, Nat.lt_irrefl, gt_iff_lt, if_false]
  split <;> omega

/-- C35 for documented shells (`l ≤ 15`): up to third derivatives every quartet fits; with four or more increments
the quartet of four shells with `l = 15` does not. -/
theorem C35_documented (ng : Inc) (sr : Bool) :
    (∀ li lj lk ll, li ≤ 15 → lj ≤ 15 → lk ≤ 15 → ll ≤ 15 → (initInt2e li lj lk ll ng sr).nrys_roots ≤ 32) ↔
      ng.i + ng.j + ng.k + ng.l ≤ 3 := by
  constructor
  · intro H
    have := (C35_roots_int2e 15 15 15 15 ng sr).1 (H 15 15 15 15 le_rfl le_rfl le_rfl le_rfl)
    omega
  · intro H li lj lk ll h1 h2 h3 h4
    exact (C35_roots_int2e _ _ _ _ _ _).2 (by omega)

/-- C35: three-centre and two-centre integrals with `l ≤ 15` always fit up to 18 and 33 increments. -/
theorem C35_documented_fewer (ng : Inc) (sr : Bool) :
    ((∀ li lj lk, li ≤ 15 → lj ≤ 15 → lk ≤ 15 → (initInt3c2e li lj lk ng sr).nrys_roots ≤ 32) ↔ ng.i + ng.j + ng.k ≤ 18) ∧
    ((∀ li lk, li ≤ 15 → lk ≤ 15 → (initInt2c2e li lk ng sr).nrys_roots ≤ 32) ↔ ng.i + ng.k ≤ 33) ∧
    (ng.rys = 0 → ((∀ li lj, li ≤ 15 → lj ≤ 15 → (initInt1e li lj ng).nrys_roots ≤ 32) ↔ ng.i + ng.j ≤ 33)) := by
  refine ⟨⟨fun H => ?_, fun H li lj lk h1 h2 h3 => ?_⟩, ⟨fun H => ?_, fun H li lk h1 h2 => ?_⟩,
    fun h0 => ⟨fun H => ?_, fun H li lj h1 h2 => ?_⟩⟩
  · have := (C35_roots_int3c2e 15 15 15 ng sr).1 (H 15 15 15 le_rfl le_rfl le_rfl); omega
  · exact (C35_roots_int3c2e _ _ _ _ _).2 (by omega)
  · have := (C35_roots_int2c2e 15 15 ng sr).1 (H 15 15 le_rfl le_rfl); omega
  · exact (C35_roots_int2c2e _ _ _ _).2 (by omega)
  · have := (C35_roots_int1e 15 15 ng h0).1 (H 15 15 le_rfl le_rfl); omega
  · exact (C35_roots_int1e _ _ _ h0).2 (by omega)

/-! ### CART_MAX -/

section
variable {α : Type}

/-- the cells that exist stay the same -/
theorem run_oobI {A : Type} {p : Prog α A} {h h' : Heap α} {a : A} (e : run p h = some (a, h')) {q : Ptr}
    (hq : h.I q = .oob) : h'.I q = .oob := by
  induction p generalizing h with
  | ret a => simp only [run, Option.some.injEq, Prod.mk.injEq] at e; rw [← e.2]; exact hq
  | fail => simp [run] at e
  | rdD p k ih => simp only [run] at e; split at e; exacts [ih _ e hq, by simp at e]
  | wrI p v k ih =>
    simp only [run] at e
    split at e
    · simp at e
    · rename_i hne
      refine ih e ?_
      rw [Heap.setI_I_ne _ _ (fun x => hne (by rw [← x]; exact hq))]; exact hq
  | rdI p k ih => simp only [run] at e; split at e; exacts [ih _ e hq, by simp at e]
  | wrD p v k ih => simp only [run] at e; split at e; exacts [by simp at e, ih e hq]

/-- partial correctness of loops -/
theorem run_forS_inv {S : Type} {n : Nat} {s s' : S} {f : Nat → S → Prog α S} {h h' : Heap α} (J : Nat → S → Heap α → Prop)
    (h0 : J 0 s h) (hs : ∀ i, i < n → ∀ s h s' h', J i s h → run (f i s) h = some (s', h') → J (i+1) s' h')
    (e : run (forS n s f) h = some (s', h')) : J n s' h' := by
  induction n generalizing s' h' with
  | zero => simp only [forS, run, Option.some.injEq, Prod.mk.injEq] at e; rw [← e.1, ← e.2]; exact h0
  | succ n ih =>
    have e' : run (forS n s f >>= fun s' => f n s') h = some (s', h') := e
    rw [run_bind] at e'
    cases h1 : run (forS n s f) h with
    | none => rw [h1] at e'; cases e'
    | some r =>
      rw [h1] at e'
      exact hs n (by omega) _ _ _ _ (ih (fun i hi => hs i (by omega)) (s' := r.1) (h' := r.2) h1) e'

/-- a run of CINTcart_comp stores to every cell below `ncart l` -/
theorem cartComp_stores {nx ny nz : Ptr} {l r : Nat} {h h' : Heap α} (e : run (cartComp nx ny nz l) h = some (r, h')) :
    ∀ k < ncart l, h.I (nx + k) ≠ .oob := by
  have key : r = tri (l+1) ∧ (∀ k < tri (l+1), h.I (nx + k) ≠ .oob) ∧ ∀ q, h.I q = .oob → h'.I q = .oob := by
    refine run_forS_inv (fun a inc h1 => inc = tri a ∧ (∀ k < tri a, h.I (nx + k) ≠ .oob) ∧ ∀ q, h.I q = .oob → h1.I q = .oob)
      ⟨rfl, fun k hk => absurd hk (by show ¬ k < tri 0; rw [show tri 0 = 0 from rfl]; omega), fun _ hq => hq⟩ ?_ e
    rintro a ha inc h1 inc' h2 ⟨rfl, H1, H2⟩ e1
    have := run_forS_inv (fun b inc h1 => inc = tri a + b ∧ (∀ k < tri a + b, h.I (nx + k) ≠ .oob) ∧ ∀ q, h.I q = .oob → h1.I q = .oob)
      ⟨rfl, H1, H2⟩ ?_ e1
    · rw [show l - (l - a) + 1 = a + 1 by omega] at this
      rw [tri_succ]
      exact ⟨this.1, this.2.1, this.2.2⟩
    · rintro b hb inc h3 inc' h4 ⟨rfl, G1, G2⟩ e2
      have h5 : h3.I (nx + (tri a + b)) ≠ .oob := by
        intro x
        rw [run_bind] at e2
        simp [stI, run, x] at e2
      have hret : inc' = tri a + b + 1 := by
        have hw : ∀ {A : Type} (p : Prog α A) (m : Nat), run (p >>= fun _ => (pure m : Prog α Nat)) h3 = some (inc', h4) → inc' = m := by
          intro A p m e3
          rw [run_bind] at e3
          cases h6 : run p h3 with
          | none => rw [h6] at e3; cases e3
          | some x =>
            rw [h6] at e3
            simp only [Option.bind_some, monad_pure_eq, run, Option.some.injEq, Prod.mk.injEq] at e3
            exact e3.1.symm
        exact hw (do
          stI (nx + (tri a + b)) ((l - a : Nat) : Int)
          stI (ny + (tri a + b)) ((l - (l - a) - b : Nat) : Int)
          stI (nz + (tri a + b)) ((l - (l - a) - (l - (l - a) - b) : Nat) : Int)) _ e2
      refine ⟨by omega, fun k hk => ?_, fun q hq => run_oobI e2 (G2 q hq)⟩
      by_cases c : k = tri a + b
      · subst c
        exact fun x => h5 (G2 _ x)
      · exact G1 k (by omega)
  exact key.2.1

/-- C35, components: with local arrays of 136 cells the list of Cartesian components can be made exactly for `l ≤ 15`;
for every larger shell the arrays are overrun. -/
theorem C35_components {nx ny nz : Ptr} {h : Heap α} (hx : ArrayOfI h nx 136) (hy : ArrayOfI h ny 136)
    (hz : ArrayOfI h nz 136) (dxy : nx.buf ≠ ny.buf) (dxz : nx.buf ≠ nz.buf) (dyz : ny.buf ≠ nz.buf) (l : Nat) :
    (run (cartComp nx ny nz l) h).isSome ↔ l ≤ 15 := by
  constructor
  · intro hs
    by_contra hl
    obtain ⟨⟨r, h'⟩, e⟩ := Option.isSome_iff_exists.1 hs
    have h136 : 136 < ncart l := by
      have := tri_mono (a := 17) (b := l + 1) (by omega)
      rw [ncart_eq_tri]
      have h17 : tri 17 = 153 := rfl
      omega
    have := (hx 136).1 (cartComp_stores e 136 h136)
    omega
  · intro hl
    have hle := ncart_le hl
    have bx : ∀ {p q : Ptr}, p.buf ≠ q.buf → ∀ i j, i < ncart l → j < ncart l → p + i ≠ q + j :=
      fun hne i j _ _ e => hne (congrArg Ptr.buf e :)
    obtain ⟨_, _, e, _⟩ := run_of_wp (cartComp_wp nx ny nz l h (fun k hk => (hx k).2 (by omega))
      (fun k hk => (hy k).2 (by omega)) (fun k hk => (hz k).2 (by omega)) (bx dxy) (bx dxz) (bx dyz))
    rw [e]; rfl

end

/-- memory with three arrays of 136 integers and ten arrays of 32 numbers -/
def scratchHeap : Heap ℚ where
  D := fun p => if p.off < 32 then .undef else .oob
  I := fun p => if p.off < 136 then .undef else .oob

example : ArrayOf scratchHeap ⟨7, 0⟩ 32 := by
  intro k
  unfold scratchHeap
  show (if 0 + k < 32 then Cell.undef else Cell.oob) ≠ Cell.oob ↔ k < 32
  rw [Nat.zero_add]; split <;> simp_all

example : ArrayOfI scratchHeap ⟨2, 0⟩ 136 := by
  intro k
  unfold scratchHeap
  show (if 0 + k < 136 then Cell.undef else Cell.oob) ≠ Cell.oob ↔ k < 136
  rw [Nat.zero_add]; split <;> simp_all

/-- the quartet (15 15|15 15) uses 31 roots; the second derivative of three of the shells would need 34 -/
example : (initInt2e 15 15 15 15 {} true).nrys_roots = 31 ∧ (initInt2e 15 15 15 15 { i := 2, j := 2, k := 2 } false).nrys_roots = 34 := by
  constructor <;> rfl

end Verif.Props
