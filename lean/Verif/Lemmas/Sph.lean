import Verif.Model.Sph
import Verif.Spec.Sph
import Verif.Lemmas.Fblas
import Verif.Lemmas.Out
import Verif.Core.Writes
import Mathlib.Algebra.BigOperators.Ring.Finset
import Mathlib.Tactic.Ring

/-! Every kernel of the Cartesian to spherical transformation is multiplication by the table. -/
namespace Verif.Lemmas
open Verif Verif.Model Verif.Prog Verif.Spec

variable {α : Type} [Field α]

def keysOK (nf : Nat) (r : List (Nat × Dec)) : Bool := (r.map (·.1)).Nodup ∧ (r.map (·.1)).all (· < nf)

theorem rowCoef_none {r : List (Nat × Dec)} {k : Nat} (h : k ∉ r.map (·.1)) : (rowCoef r k : α) = 0 := by
  induction r with
  | nil => rfl
  | cons e r ih =>
    simp only [List.map_cons, List.mem_cons, not_or] at h
    rw [rowCoef, if_neg h.1, ih h.2]

theorem row_sum {nf : Nat} {r : List (Nat × Dec)} (hk : keysOK nf r = true) (f : Nat → α) :
    ∑ k ∈ Finset.range nf, rowCoef r k * f k = (r.map fun e => decVal e.2 * f e.1).sum := by
  induction r with
  | nil => simp [rowCoef]
  | cons e r ih =>
    have hk' := hk
    unfold keysOK at hk'
    simp only [List.map_cons, List.nodup_cons, List.all_cons, Bool.and_eq_true, decide_eq_true_eq] at hk'
    obtain ⟨⟨h1, h2⟩, h3, h4⟩ := hk'
    have ih := ih (by unfold keysOK; simp only [decide_eq_true_eq]; exact ⟨h2, h4⟩)
    rw [List.map_cons, List.sum_cons, ← ih]
    have : ∀ k ∈ Finset.range nf, (rowCoef (e :: r) k : α) * f k =
        (if k = e.1 then decVal e.2 * f k else 0) + rowCoef r k * f k := by
      intro k _
      rw [rowCoef]
      split
      · rename_i hke
        rw [hke, rowCoef_none h1]; ring
      · ring
    rw [Finset.sum_congr rfl this, Finset.sum_add_distrib, Finset.sum_ite_eq' (Finset.range nf) e.1,
      if_pos (Finset.mem_range.2 h3)]

/-- what a kernel must compute in row `m` -/
def rowTerms (l m : Nat) : List (Nat × Nat) :=
  ((c2sRows.getD l []).getD m []).map fun e => (m*ncart l + e.1, e.1)

/-- a hand-written kernel lists exactly the nonzero entries of the table -/
def kernOK (l : Nat) (rows : List (Nat × List (Nat × Nat))) : Bool :=
  rows = (List.range (l*2+1)).map fun m => (m, rowTerms l m)

theorem kern_d_bra : kernOK 2 dBraRows = true := by decide +kernel
theorem kern_d_ket : kernOK 2 dKetRows = true := by decide +kernel
theorem kern_f_bra : kernOK 3 fBraRows = true := by decide +kernel
theorem kern_f_ket : kernOK 3 fKetRows = true := by decide +kernel
theorem kern_g_bra : kernOK 4 gBraRows = true := by decide +kernel
theorem kern_g_ket : kernOK 4 gKetRows = true := by decide +kernel

/-- every row of the table has distinct columns, all in range -/
theorem table_keys : ∀ l, l < 16 → ∀ m, m < l*2+1 → keysOK (ncart l) ((c2sRows.getD l []).getD m []) = true := by
  decide +kernel

theorem table_id0 : c2sRows.getD 0 [] = [[(0, ⟨1, 0⟩)]] := rfl
theorem table_id1 : c2sRows.getD 1 [] = [[(0, ⟨1, 0⟩)], [(1, ⟨1, 0⟩)], [(2, ⟨1, 0⟩)]] := rfl

theorem coef_id {l m k : Nat} (hl : l ≤ 1) (hm : m < l*2+1) :
    (c2sCoef l m k : α) = if k = m then 1 else 0 := by
  unfold c2sCoef
  obtain rfl | rfl : l = 0 ∨ l = 1 := by omega
  · obtain rfl : m = 0 := by omega
    rw [table_id0]
    simp [rowCoef, decVal]
  · rw [table_id1]
    obtain rfl | rfl | rfl : m = 0 ∨ m = 1 ∨ m = 2 := by omega
    all_goals simp [rowCoef, decVal]

/-- row `m` applied to `f` -/
def sphV (l m : Nat) (f : Nat → α) : α := ∑ k ∈ Finset.range (ncart l), c2sCoef l m k * f k

theorem sphV_id {l m : Nat} (hl : l ≤ 1) (hm : m < l*2+1) (f : Nat → α) : sphV l m f = f m := by
  unfold sphV
  rw [Finset.sum_congr rfl fun k _ => by rw [coef_id hl hm]]
  simp only [ite_mul, one_mul, zero_mul]
  rw [Finset.sum_ite_eq', if_pos]
  rw [Finset.mem_range]
  obtain rfl | rfl : l = 0 ∨ l = 1 := by omega
  · exact hm
  · exact hm

theorem sphV_terms {l m : Nat} (hl : l < 16) (hm : m < l*2+1) (f : Nat → α) :
    sphV l m f = (((c2sRows.getD l []).getD m []).map fun e => decVal e.2 * f e.1).sum :=
  row_sum (table_keys l hl m hm) f

theorem sphV_congr {l m : Nat} {f g : Nat → α} (h : ∀ k, k < ncart l → f k = g k) : sphV l m f = sphV l m g :=
  Finset.sum_congr rfl fun k hk => by rw [h k (Finset.mem_range.1 hk)]

theorem combFrom_wp {coeff g : Ptr} {pos : Nat → Nat} {h : Heap α} {C X : Nat → α} :
    ∀ {ts : List (Nat × Nat)} {s : α},
    (∀ t ∈ ts, h.D (coeff + t.1) = .val (C t.1) ∧ h.D (g + pos t.2) = .val (X t.2)) →
    wp (combFrom coeff g pos ts s) (fun v h' => v = s + (ts.map fun t => C t.1 * X t.2).sum ∧ h' = h) h
  | [], s, _ => by simp [combFrom]
  | t :: ts, s, H => by
    unfold combFrom
    simp only [wp_mbind, wp_ld]
    obtain ⟨h1, h2⟩ := H t List.mem_cons_self
    refine ⟨_, h1, _, h2, wp_mono (combFrom_wp (fun t ht => H t (List.mem_cons_of_mem _ ht))) ?_⟩
    rintro v h' ⟨rfl, rfl⟩
    refine ⟨?_, rfl⟩
    rw [List.map_cons, List.sum_cons]; ring

theorem comb_wp {coeff g : Ptr} {pos : Nat → Nat} {h : Heap α} {C X : Nat → α} {ts : List (Nat × Nat)}
    (H : ∀ t ∈ ts, h.D (coeff + t.1) = .val (C t.1) ∧ h.D (g + pos t.2) = .val (X t.2)) :
    wp (comb coeff g pos ts) (fun v h' => v = (ts.map fun t => C t.1 * X t.2).sum ∧ h' = h) h := by
  cases ts with
  | nil => simp [comb]
  | cons t ts =>
    unfold comb
    simp only [wp_mbind, wp_ld]
    obtain ⟨h1, h2⟩ := H t List.mem_cons_self
    refine ⟨_, h1, _, h2, wp_mono (combFrom_wp (fun t ht => H t (List.mem_cons_of_mem _ ht))) ?_⟩
    rintro v h' ⟨rfl, rfl⟩
    exact ⟨rfl, rfl⟩

theorem ncart_pos (l : Nat) : 0 < ncart l := by
  unfold ncart
  have : (l+1)*(l+2) = (l*l + 3*l) + 2 := by ring
  omega

/-- the value of the terms of row `m` -/
theorem rowTerms_val {l m : Nat} (hl : l < 16) (hm : m < l*2+1) (f : Nat → α) :
    ((rowTerms l m).map fun t => (c2sCoef l (t.1 / ncart l) (t.1 % ncart l) : α) * f t.2).sum = sphV l m f := by
  rw [sphV_terms hl hm]
  unfold rowTerms
  rw [List.map_map]
  congr 1
  refine List.map_congr_left fun e he => ?_
  have hk := table_keys l hl m hm
  unfold keysOK at hk
  simp only [decide_eq_true_eq, List.all_eq_true, List.mem_map] at hk
  have h1 : e.1 < ncart l := hk.2 e.1 ⟨e, he, rfl⟩
  simp only [Function.comp]
  rw [(digit h1).1, (digit h1).2]
  congr 1
  unfold c2sCoef
  generalize (c2sRows.getD l []).getD m [] = r at he hk
  have hnd := hk.1
  clear hk
  induction r with
  | nil => cases he
  | cons a r ih =>
    rw [rowCoef]
    rcases List.mem_cons.1 he with rfl | he
    · rw [if_pos rfl]
    · simp only [List.map_cons, List.nodup_cons] at hnd
      rw [if_neg, ih he hnd.2]
      rintro h
      exact hnd.1 (h ▸ List.mem_map_of_mem he)

theorem rowTerms_lt {l m : Nat} (hl : l < 16) (hm : m < l*2+1) {t : Nat × Nat} (ht : t ∈ rowTerms l m) :
    t.1 < ncart l * (l*2+1) ∧ t.2 < ncart l := by
  unfold rowTerms at ht
  obtain ⟨e, he, rfl⟩ := List.mem_map.1 ht
  have hk := table_keys l hl m hm
  unfold keysOK at hk
  simp only [decide_eq_true_eq, List.all_eq_true, List.mem_map] at hk
  have h1 : e.1 < ncart l := hk.2 e.1 ⟨e, he, rfl⟩
  exact ⟨digit_lt h1 hm, h1⟩

/-- the sources of a kernel: the table and a block of Cartesian values -/
def SrcOk (tab gcart : Ptr) (n : Nat) (X : Nat → α) (h : Heap α) : Prop :=
  HoldsTab h tab ∧ HoldsD h gcart n X

/-- one pass over the rows of a hand-written kernel -/
theorem stRows_wp {l : Nat} (hl : l < 16) {coeff gsph gcart : Ptr} {dst src : Nat → Nat} {h0 : Heap α}
    {X : Nat → α} {n : Nat} {X' : Nat → α} {nsrc : Nat}
    (hsrc : ∀ b, b < ncart l → src b < nsrc ∧ X' (src b) = X b)
    (hcoef : HoldsD h0 coeff (ncart l * (l*2+1)) fun x => c2sCoef l (x / ncart l) (x % ncart l))
    (hX : HoldsD h0 gcart nsrc X')
    (hc : ∀ x m, x < ncart l * (l*2+1) → m < l*2+1 → coeff + x ≠ gsph + dst m)
    (hg : ∀ x m, x < nsrc → m < l*2+1 → gcart + x ≠ gsph + dst m)
    (hal : ∀ m, m < l*2+1 → h0.D (gsph + dst m) ≠ .oob)
    (hinj : ∀ m m', m < l*2+1 → m' < l*2+1 → dst m = dst m' → m = m') (hn : n ≤ l*2+1) :
    wp (stRows coeff gsph gcart dst src ((List.range' (l*2+1-n) n).map fun m => (m, rowTerms l m)))
      (fun _ h' => AssignedD h0 h' (fun m : Nat => l*2+1-n ≤ m ∧ m < l*2+1) (fun m => gsph + dst m)
        (fun m => sphV l m X)) h0 := by
  induction n generalizing h0 with
  | zero =>
    simp only [List.range'_zero, List.map_nil, stRows, wp_pure]
    exact AssignedD.init _ _ _ (fun k => by omega)
  | succ n ih =>
    rw [List.range'_succ, List.map_cons]
    unfold stRows
    rw [wp_mbind]
    have hm : l*2+1-(n+1) < l*2+1 := by omega
    let m0 := l*2+1-(n+1)
    refine wp_mono (comb_wp (C := fun x => c2sCoef l (x / ncart l) (x % ncart l)) (X := X) (fun t ht => ?_)) ?_
    · obtain ⟨h1, h2⟩ := rowTerms_lt hl hm ht
      refine ⟨hcoef _ h1, ?_⟩
      rw [hX _ (hsrc _ h2).1, (hsrc _ h2).2]
    rintro v h' ⟨rfl, rfl⟩
    rw [rowTerms_val hl hm]
    rw [wp_mbind, wp_st]
    refine ⟨hal _ hm, ?_⟩
    have e1 : l*2+1-(n+1)+1 = l*2+1-n := by omega
    rw [e1]
    refine wp_mono (ih (h0 := h'.setD (gsph + dst (l*2+1-(n+1))) (sphV l (l*2+1-(n+1)) X)) ?_ ?_ ?_ (by omega)) ?_
    · intro x hx
      rw [Heap.setD_D_ne _ _ (hc x _ hx hm)]
      exact hcoef x hx
    · intro x hx
      rw [Heap.setD_D_ne _ _ (hg x _ hx hm)]
      exact hX x hx
    · intro m hm'
      rw [Heap.setD_D]
      split
      · simp
      · exact hal m hm'
    · rintro _ h2 H
      refine ⟨?_, ?_, ?_⟩
      · intro m hm'
        by_cases h1 : m = l*2+1-(n+1)
        · rw [H.frame]
          · rw [h1, Heap.setD_D, if_pos rfl]
          · intro k hk e
            have := hinj m k (by omega) hk.2 ((Ptr.add_right_inj _ _ _).1 e)
            omega
        · exact H.val m (by omega)
      · intro q hq
        rw [H.frame q (fun k hk => hq k (by omega)), Heap.setD_D_ne _ _ (hq _ (by omega))]
      · rw [H.int, Heap.setD_I]

theorem holdsTab_agree {h h' : Heap α} {tab : Ptr} (H : HoldsTab h tab) {W : Ptr → Prop} (ha : AgreeD h h' W)
    (hd : ∀ q, W q → q.buf ≠ tab.buf) : HoldsTab h' tab :=
  fun l hl x hx => by
    rw [ha (tab + c2sOff.getD l 0 + x) (fun hw => hd _ hw rfl)]
    exact H l hl x hx

/-- a two-level family of stores done row by row -/
theorem rows2 {n nd : Nat} {f : Nat → Prog α Unit} {h : Heap α} {addr : Nat → Nat → Ptr} {v : Nat → Nat → α}
    (hinj : ∀ i m i' m', i < n → m < nd → i' < n → m' < nd → addr i m = addr i' m' → i = i' ∧ m = m')
    (H : ∀ i, i < n → ∀ h1, AgreeD h h1 (fun q => ∃ i m, i < n ∧ m < nd ∧ q = addr i m) →
      (∀ q, h.D q ≠ .oob → h1.D q ≠ .oob) → wp (f i) (fun _ h' => AssignedD h1 h' (fun m => m < nd) (addr i) (v i)) h1) :
    wp (forN n f) (fun _ h' => AssignedD h h' (fun p : Nat × Nat => p.1 < n ∧ p.2 < nd) (fun p => addr p.1 p.2)
      (fun p => v p.1 p.2)) h := by
  refine wp_forN (fun i h1 => AssignedD h h1 (fun p : Nat × Nat => p.1 < i ∧ p.2 < nd) (fun p => addr p.1 p.2)
      (fun p => v p.1 p.2)) ?_ ?_ ?_
  · exact AssignedD.init _ _ _ (by intro k; omega)
  · intro i hi h1 H1
    refine wp_mono (H i hi h1 ?_ (fun q hq => H1.ne_oob hq)) ?_
    · intro q hq
      exact H1.frame q (fun k hk e => hq ⟨k.1, k.2, by omega, hk.2, e⟩)
    · rintro _ h2 H2
      refine ⟨?_, ?_, by rw [H2.int, H1.int]⟩
      · rintro ⟨i', m⟩ ⟨h3, h4⟩
        dsimp only at h3 h4 ⊢
        by_cases e : i' = i
        · subst e; exact H2.val m h4
        · rw [H2.frame _ (fun k hk e' => e (hinj _ _ _ _ (by omega) h4 hi hk e').1)]
          exact H1.val (i', m) ⟨by show i' < i; omega, h4⟩
      · intro q hq
        rw [H2.frame q (fun k hk => hq (i, k) ⟨by show i < i+1; omega, hk⟩),
          H1.frame q (fun k hk => hq k ⟨by omega, hk.2⟩)]
  · intro h' H'; exact H'

/-- What a transformation of one index delivers: the result is in the scratch array or still in the
source, only the scratch array has changed. -/
structure KOut (l : Nat) (h h' : Heap α) (r gcart gsph : Ptr) (N : Nat) (V : Nat → α) : Prop where
  val : HoldsD h' r N V
  agree : AgreeD h h' (Blk gsph N)
  int : h'.I = h.I
  res : r = if l ≤ 1 then gcart else gsph

/-- the transformed last index -/
def ketV (l nbra : Nat) (X : Nat → α) (x : Nat) : α := sphV l (x / nbra) fun k => X (k*nbra + x % nbra)
/-- the transformed first index -/
def braV (l : Nat) (X : Nat → α) (x : Nat) : α := sphV l (x % (l*2+1)) fun k => X (x / (l*2+1) * ncart l + k)

theorem lenCart_eq (l : Nat) : lenCart l = ncart l := rfl

theorem range_eq' (n : Nat) : List.range n = List.range' (n - n) n := by
  rw [Nat.sub_self, List.range_eq_range']

theorem rowsBra_wp {l : Nat} (hl : l < 16) (hl2 : 2 ≤ l) {rows : List (Nat × List (Nat × Nat))} (hr : kernOK l rows = true)
    {tab gsph gcart : Ptr} {nket : Nat} {h : Heap α} {X : Nat → α} (hT : HoldsTab h tab)
    (hX : HoldsD h gcart (ncart l * nket) X) (hS : AllocD h gsph ((l*2+1)*nket)) (ht : tab.buf ≠ gsph.buf)
    (hd : Disj gcart (ncart l * nket) gsph ((l*2+1)*nket)) :
    wp (rowsBra rows (c2sAt tab l) gsph nket gcart l)
      (fun r h' => KOut l h h' r gcart gsph ((l*2+1)*nket) (braV l X)) h := by
  unfold rowsBra
  rw [wp_mbind]
  have hr' : rows = (List.range' (l*2+1-(l*2+1)) (l*2+1)).map fun m => (m, rowTerms l m) := by
    rw [← range_eq']; exact of_decide_eq_true hr
  have e2 : 2*l+1 = l*2+1 := by omega
  rw [e2, hr']
  have key := rows2 (n := nket) (nd := l*2+1) (h := h)
    (f := fun i => stRows (c2sAt tab l) (gsph + i*(l*2+1)) (gcart + i*lenCart l) (fun m => m) (fun b => b)
      ((List.range' (l*2+1-(l*2+1)) (l*2+1)).map fun m => (m, rowTerms l m)))
    (addr := fun i m => gsph + (i*(l*2+1) + m)) (v := fun i m => sphV l m fun k => X (i*ncart l + k))
    (by
      intro i m i' m' _ hm _ hm' e
      exact radix_inj hm hm' ((Ptr.add_right_inj _ _ _).1 e)) (by
      intro i hi h1 ha hm
      refine wp_mono (stRows_wp hl (n := l*2+1) (nsrc := ncart l) (X' := fun k => X (i*ncart l + k))
        (X := fun k => X (i*ncart l + k)) (fun b hb => ⟨hb, rfl⟩) ?_ ?_ ?_ ?_ ?_ (fun _ _ _ _ e => e) (le_refl _)) ?_
      · exact (holdsTab_agree hT ha (by rintro q ⟨_, _, _, _, rfl⟩; exact fun e => ht e.symm)) l hl
      · intro k hk
        rw [lenCart_eq, Ptr.add_assoc, ha]
        · exact hX _ (digit_lt hk hi)
        · rintro ⟨i', m', hi', hm', e⟩
          exact hd _ _ (digit_lt hk hi) (digit_lt hm' hi') e
      · intro x m _ _ e
        exact ht (by have := congrArg Ptr.buf e; exact this)
      · intro x m hx hm'
        rw [lenCart_eq, Ptr.add_assoc, Ptr.add_assoc]
        exact hd _ _ (digit_lt hx hi) (digit_lt hm' hi)
      · intro m hm'
        rw [Ptr.add_assoc]
        exact hm _ (hS _ (digit_lt hm' hi))
      · rintro _ h2 H2
        refine H2.reindex (fun m hm => ⟨m, ⟨by omega, hm⟩, ?_, rfl⟩) (fun m hm => ⟨m, hm.2, ?_⟩)
        · rw [Ptr.add_assoc]
        · rw [Ptr.add_assoc])
  refine wp_mono key ?_
  rintro _ h' H
  rw [wp_pure]
  refine ⟨?_, ?_, H.int, by rw [if_neg (by omega)]⟩
  · intro x hx
    have h0 : 0 < l*2+1 := by omega
    have h1 := H.val (x / (l*2+1), x % (l*2+1)) ⟨Nat.div_lt_of_lt_mul hx, Nat.mod_lt _ h0⟩
    dsimp only at h1
    rw [Nat.mul_comm (x / (l*2+1)), Nat.div_add_mod] at h1
    exact h1
  · intro q hq
    refine H.frame q (fun k hk e => hq ⟨_, digit_lt hk.2 hk.1, e⟩)

theorem rowsKet_wp {l : Nat} (hl : l < 16) (hl2 : 2 ≤ l) {rows : List (Nat × List (Nat × Nat))} (hr : kernOK l rows = true)
    {tab gsph gcart : Ptr} {nbra : Nat} {h : Heap α} {X : Nat → α} (hT : HoldsTab h tab)
    (hX : HoldsD h gcart (nbra * ncart l) X) (hS : AllocD h gsph (nbra*(l*2+1))) (ht : tab.buf ≠ gsph.buf)
    (hd : Disj gcart (nbra * ncart l) gsph (nbra*(l*2+1))) :
    wp (rowsKet rows (c2sAt tab l) gsph gcart nbra nbra)
      (fun r h' => KOut l h h' r gcart gsph (nbra*(l*2+1)) (ketV l nbra X)) h := by
  unfold rowsKet
  rw [wp_mbind]
  have hr' : rows = (List.range' (l*2+1-(l*2+1)) (l*2+1)).map fun m => (m, rowTerms l m) := by
    rw [← range_eq']; exact of_decide_eq_true hr
  rw [hr']
  have key := rows2 (n := nbra) (nd := l*2+1) (h := h)
    (f := fun i => stRows (c2sAt tab l) gsph gcart (fun m => m*nbra+i) (fun b => b*nbra+i)
      ((List.range' (l*2+1-(l*2+1)) (l*2+1)).map fun m => (m, rowTerms l m)))
    (addr := fun i m => gsph + (m*nbra+i)) (v := fun i m => sphV l m fun k => X (k*nbra+i))
    (by
      intro i m i' m' hi _ hi' _ e
      exact (radix_inj hi hi' ((Ptr.add_right_inj _ _ _).1 e)).symm) (by
      intro i hi h1 ha hm
      refine wp_mono (stRows_wp hl (n := l*2+1) (nsrc := nbra * ncart l) (X' := X)
        (X := fun k => X (k*nbra+i)) (fun b hb => ⟨digit_lt hi hb, rfl⟩) ?_ ?_ ?_ ?_ ?_ ?_ (le_refl _)) ?_
      · exact (holdsTab_agree hT ha (by rintro q ⟨_, _, _, _, rfl⟩; exact fun e => ht e.symm)) l hl
      · intro k hk
        rw [ha]
        · exact hX _ hk
        · rintro ⟨i', m', hi', hm', e⟩
          exact hd _ _ hk (digit_lt hi' hm') e
      · intro x m _ _ e
        exact ht (by have := congrArg Ptr.buf e; exact this)
      · intro x m hx hm'
        exact hd _ _ hx (digit_lt hi hm')
      · intro m hm'
        exact hm _ (hS _ (digit_lt hi hm'))
      · intro m m' _ _ e
        exact (radix_inj hi hi e).1
      · rintro _ h2 H2
        exact H2.congr (P' := fun m => m < l*2+1) (v' := fun m => sphV l m fun k => X (k*nbra+i))
          (fun k => by omega) (fun _ _ => rfl))
  refine wp_mono key ?_
  rintro _ h' H
  rw [wp_pure]
  refine ⟨?_, ?_, H.int, by rw [if_neg (by omega)]⟩
  · intro x hx
    have h0 : 0 < nbra := by
      rcases Nat.eq_zero_or_pos nbra with e | e
      · rw [e, Nat.zero_mul] at hx; omega
      · exact e
    have h1 := H.val (x % nbra, x / nbra) ⟨Nat.mod_lt _ h0, Nat.div_lt_of_lt_mul hx⟩
    dsimp only at h1
    rw [Nat.mul_comm (x / nbra), Nat.div_add_mod] at h1
    exact h1
  · intro q hq
    refine H.frame q (fun k hk e => hq ⟨_, digit_lt hk.1 hk.2, e⟩)

theorem KOut.same {l : Nat} (hl : l ≤ 1) {h : Heap α} {gcart gsph : Ptr} {N : Nat} {X V : Nat → α} (hX : HoldsD h gcart N X)
    (hV : ∀ x, x < N → V x = X x) : KOut l h h gcart gcart gsph N V :=
  ⟨fun x hx => by rw [hX x hx, hV x hx], AgreeD.refl _ _, rfl, by rw [if_pos hl]⟩

theorem ncart_le1 {l : Nat} (hl : l ≤ 1) : ncart l = l*2+1 := by
  obtain rfl | rfl : l = 0 ∨ l = 1 := by omega
  · rfl
  · rfl

theorem bra_id {l : Nat} (hl : l ≤ 1) (X : Nat → α) (x : Nat) : braV l X x = X x := by
  unfold braV
  have h0 : 0 < l*2+1 := by omega
  rw [sphV_id hl (Nat.mod_lt _ h0), ncart_le1 hl, Nat.mul_comm, Nat.div_add_mod]

theorem ket_id {l nbra : Nat} (hl : l ≤ 1) (X : Nat → α) {x : Nat} (hx : x < nbra*(l*2+1)) :
    ketV l nbra X x = X x := by
  unfold ketV
  rw [sphV_id hl (Nat.div_lt_of_lt_mul hx), Nat.mul_comm, Nat.div_add_mod]

theorem braSph_wp {l : Nat} (hl : l < 16)
    {tab gsph gcart : Ptr} {nket : Nat} {h : Heap α} {X : Nat → α} (hT : HoldsTab h tab)
    (hX : HoldsD h gcart (ncart l * nket) X) (hS : AllocD h gsph ((l*2+1)*nket)) (ht : tab.buf ≠ gsph.buf)
    (hd : Disj gcart (ncart l * nket) gsph ((l*2+1)*nket)) :
    wp (braSph tab l gsph nket gcart)
      (fun r h' => KOut l h h' r gcart gsph ((l*2+1)*nket) (braV l X)) h := by
  unfold braSph
  split
  · rw [wp_pure]; exact KOut.same (by omega) hX (fun x _ => bra_id (by omega) X x)
  · rw [wp_pure]; exact KOut.same (by omega) hX (fun x _ => bra_id (by omega) X x)
  · exact rowsBra_wp hl (by omega) kern_d_bra hT hX hS ht hd
  · exact rowsBra_wp hl (by omega) kern_f_bra hT hX hS ht hd
  · exact rowsBra_wp hl (by omega) kern_g_bra hT hX hS ht hd
  · rename_i h0 h1 _ _ _
    have hl2 : 2 ≤ l := by
      rcases Nat.lt_or_ge l 2 with h | h
      · obtain rfl | rfl : l = 0 ∨ l = 1 := by omega
        · exact absurd rfl h0
        · exact absurd rfl h1
      · exact h
    rw [wp_mbind]
    refine wp_mono (dgemmTN_wp (hT l hl) hX hS (fun x y _ _ e => ht (congrArg Ptr.buf e :)) hd) ?_
    rintro _ h' H
    rw [wp_pure]
    refine ⟨?_, ?_, H.int, by rw [if_neg (by omega)]⟩
    · intro x hx
      have h0 : 0 < l*2+1 := by omega
      have h1 := H.val (x / (l*2+1), x % (l*2+1)) ⟨Nat.div_lt_of_lt_mul hx, Nat.mod_lt _ h0⟩
      dsimp only [cAddr] at h1
      rw [Nat.mod_add_div] at h1
      rw [h1, lsum_eq_sum]
      unfold braV sphV
      congr 1
      refine Finset.sum_congr rfl fun k hk => ?_
      have hk' := Finset.mem_range.1 hk
      rw [Nat.add_comm k, Nat.mul_comm (lenCart l), lenCart_eq, (digit hk').1, (digit hk').2, Nat.add_comm k,
        Nat.mul_comm (ncart l)]
    · intro q hq
      refine H.frame q (fun k hk e => hq ⟨k.2 + (l*2+1)*k.1, ?_, e⟩)
      rw [Nat.add_comm, Nat.mul_comm]
      exact digit_lt hk.2 hk.1

theorem ketSph_wp {l : Nat} (hl : l < 16)
    {tab gsph gcart : Ptr} {nbra : Nat} {h : Heap α} {X : Nat → α} (hT : HoldsTab h tab)
    (hX : HoldsD h gcart (nbra * ncart l) X) (hS : AllocD h gsph (nbra*(l*2+1))) (ht : tab.buf ≠ gsph.buf)
    (hd : Disj gcart (nbra * ncart l) gsph (nbra*(l*2+1))) :
    wp (ketSph tab l gsph gcart nbra nbra)
      (fun r h' => KOut l h h' r gcart gsph (nbra*(l*2+1)) (ketV l nbra X)) h := by
  unfold ketSph
  split
  · rw [wp_pure]; exact KOut.same (by omega) hX (fun x hx => ket_id (by omega) X hx)
  · rw [wp_pure]; exact KOut.same (by omega) hX (fun x hx => ket_id (by omega) X hx)
  · exact rowsKet_wp hl (by omega) kern_d_ket hT hX hS ht hd
  · exact rowsKet_wp hl (by omega) kern_f_ket hT hX hS ht hd
  · exact rowsKet_wp hl (by omega) kern_g_ket hT hX hS ht hd
  · rename_i h0 h1 _ _ _
    have hl2 : 2 ≤ l := by
      rcases Nat.lt_or_ge l 2 with h | h
      · obtain rfl | rfl : l = 0 ∨ l = 1 := by omega
        · exact absurd rfl h0
        · exact absurd rfl h1
      · exact h
    rw [wp_mbind]
    refine wp_mono (gemmAcc_wp (m := nbra) (ldc := nbra) (c := gsph) (bidx := fun kp j => kp+lenCart l*j) (le_refl nbra) hX (hT l hl)
      (fun kp j hk hj => by rw [Nat.add_comm, Nat.mul_comm (lenCart l)]; exact digit_lt hk hj)
      (fun j i hj hi => hS _ (by rw [Nat.add_comm, Nat.mul_comm nbra j]; exact digit_lt hi hj))
      (fun x j i hx hj hi => hd _ _ hx (by rw [Nat.add_comm, Nat.mul_comm nbra j]; exact digit_lt hi hj))
      (fun x j i _ _ _ e => ht (congrArg Ptr.buf e :))) ?_
    rintro _ h' H
    rw [wp_pure]
    refine ⟨?_, ?_, H.int, by rw [if_neg (by omega)]⟩
    · intro x hx
      have h0 : 0 < nbra := by
        rcases Nat.eq_zero_or_pos nbra with e | e
        · rw [e, Nat.zero_mul] at hx; omega
        · exact e
      have h1 := H.val (x / nbra, x % nbra) ⟨Nat.div_lt_of_lt_mul hx, Nat.mod_lt _ h0⟩
      dsimp only [cAddr] at h1
      rw [Nat.mod_add_div] at h1
      rw [h1, lsum_eq_sum]
      unfold ketV sphV
      congr 1
      refine Finset.sum_congr rfl fun k hk => ?_
      have hk' := Finset.mem_range.1 hk
      rw [Nat.add_comm k, Nat.mul_comm (lenCart l), lenCart_eq, (digit hk').1, (digit hk').2, Nat.add_comm (x % nbra),
        Nat.mul_comm nbra, mul_comm]
    · intro q hq
      refine H.frame q (fun k hk e => hq ⟨k.2 + nbra*k.1, ?_, e⟩)
      rw [Nat.add_comm, Nat.mul_comm]
      exact digit_lt hk.2 hk.1

/-- a transformed middle index -/
def midV (l nbra : Nat) (X : Nat → α) (x : Nat) : α :=
  ketV l nbra (fun y => X (x / (nbra*(l*2+1)) * (nbra * ncart l) + y)) (x % (nbra*(l*2+1)))

theorem sph2eInner_wp {l : Nat} (hl : l < 16)
    {tab gsph gcart : Ptr} {nbra ncall : Nat} {h : Heap α} {X : Nat → α} (hT : HoldsTab h tab)
    (hX : HoldsD h gcart (nbra * ncart l * ncall) X) (hS : AllocD h gsph (nbra*(l*2+1)*ncall)) (ht : tab.buf ≠ gsph.buf)
    (hd : Disj gcart (nbra * ncart l * ncall) gsph (nbra*(l*2+1)*ncall)) :
    wp (sph2eInner tab gsph gcart l nbra ncall (nbra*(l*2+1)) (nbra * ncart l))
      (fun r h' => KOut l h h' r gcart gsph (nbra*(l*2+1)*ncall) (midV l nbra X)) h := by
  have hid : l ≤ 1 → KOut l h h gcart gcart gsph (nbra*(l*2+1)*ncall) (midV l nbra X) := by
    intro hl1
    rw [ncart_le1 hl1] at hX
    refine KOut.same hl1 hX (fun x hx => ?_)
    unfold midV
    have h0 : 0 < nbra*(l*2+1) := by
      rcases Nat.eq_zero_or_pos (nbra*(l*2+1)) with e | e
      · rw [e, Nat.zero_mul] at hx; omega
      · exact e
    rw [ket_id hl1 _ (Nat.mod_lt _ h0), ncart_le1 hl1, Nat.mul_comm, Nat.div_add_mod]
  unfold sph2eInner
  split
  · rw [wp_pure]; exact hid (by omega)
  · rw [wp_pure]; exact hid (by omega)
  · rename_i h0 h1
    have hl2 : 2 ≤ l := by
      rcases Nat.lt_or_ge l 2 with h | h
      · obtain rfl | rfl : l = 0 ∨ l = 1 := by omega
        · exact absurd rfl h0
        · exact absurd rfl h1
      · exact h
    rw [wp_mbind]
    refine wp_mono (rows2 (n := ncall) (nd := nbra*(l*2+1)) (h := h)
      (addr := fun i m => gsph + (i*(nbra*(l*2+1)) + m))
      (v := fun i m => ketV l nbra (fun y => X (i*(nbra*ncart l) + y)) m) ?_ ?_) ?_
    · intro i m i' m' _ hm _ hm' e
      exact radix_inj hm hm' ((Ptr.add_right_inj _ _ _).1 e)
    · intro i hi h1 ha hm
      rw [wp_mbind]
      refine wp_mono (ketSph_wp (X := fun y => X (i*(nbra*ncart l) + y)) hl ?_ ?_ ?_ ht ?_) ?_
      · exact holdsTab_agree hT ha (by rintro q ⟨_, _, _, _, rfl⟩; exact fun e => ht e.symm)
      · intro k hk
        rw [Ptr.add_assoc, ha]
        · exact hX _ (digit_lt hk hi)
        · rintro ⟨i', m', hi', hm', e⟩
          exact hd _ _ (digit_lt hk hi) (digit_lt hm' hi') e
      · intro k hk
        rw [Ptr.add_assoc]
        exact hm _ (hS _ (digit_lt hk hi))
      · intro k m hk hm'
        rw [Ptr.add_assoc, Ptr.add_assoc]
        exact hd _ _ (digit_lt hk hi) (digit_lt hm' hi)
      · rintro r h2 K
        rw [wp_pure]
        have hr := K.res
        rw [if_neg (by omega)] at hr
        refine ⟨fun m hm' => ?_, fun q hq => ?_, K.int⟩
        · rw [← Ptr.add_assoc, ← hr]
          exact K.val m hm'
        · refine K.agree q ?_
          rintro ⟨m, hm', e⟩
          refine hq m hm' ?_
          rw [← Ptr.add_assoc]; exact e
    · rintro _ h' H
      rw [wp_pure]
      refine ⟨?_, ?_, H.int, by rw [if_neg (by omega)]⟩
      · intro x hx
        have h0 : 0 < nbra*(l*2+1) := by
          rcases Nat.eq_zero_or_pos (nbra*(l*2+1)) with e | e
          · rw [e, Nat.zero_mul] at hx; omega
          · exact e
        have h1 := H.val (x / (nbra*(l*2+1)), x % (nbra*(l*2+1))) ⟨Nat.div_lt_of_lt_mul hx, Nat.mod_lt _ h0⟩
        dsimp only at h1
        rw [Nat.mul_comm (x / (nbra*(l*2+1))), Nat.div_add_mod] at h1
        exact h1
      · intro q hq
        refine H.frame q (fun k hk e => hq ⟨_, digit_lt hk.2 hk.1, e⟩)

end Verif.Lemmas
