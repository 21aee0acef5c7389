import Verif.Model.PolyFits
import Verif.Core.Assign
import Mathlib.RingTheory.Polynomial.Chebyshev
import Mathlib.Algebra.BigOperators.Group.Finset.Basic
import Mathlib.Tactic.Ring
import Mathlib.Tactic.LinearCombination

namespace Verif.Lemmas.PolyFits
open Verif Prog Verif.Model.PolyFits

variable {α : Type}

theorem wp_at {a : List α} {i : Nat} {y : α} (h : Heap α) (hy : a[i]? = some y) (Q : α → Heap α → Prop) :
    wp (at_ a i) Q h ↔ Q y h := by
  unfold at_; rw [hy]; rfl

theorem run_at_none {a : List α} {i : Nat} (h : Heap α) (hy : a.length ≤ i) : run (at_ a i) h = none := by
  unfold at_; rw [List.getElem?_eq_none hy]; rfl

section
variable [LinearOrder α]

theorem wp_scan (a : List α) (v : α) (h : Heap α) : ∀ (k i : Nat), i + k ≤ a.length →
    wp (scan a v i k) (fun r h' => h' = h ∧ i ≤ r ∧ r ≤ i + k ∧ (∀ j, i ≤ j → j < r → ∃ y, a[j]? = some y ∧ y ≤ v) ∧
      (r < i + k → ∃ y, a[r]? = some y ∧ v < y)) h := by
  intro k
  induction k with
  | zero => intro i _; exact ⟨rfl, le_rfl, le_rfl, fun j a b => by omega, fun a => by omega⟩
  | succ k ih =>
    intro i hi
    have e : a[i]? = some (a[i]'(by omega)) := List.getElem?_eq_getElem (by omega)
    unfold scan
    rw [wp_mbind, wp_at h e]
    split
    · rename_i hlt
      exact ⟨rfl, le_rfl, by omega, fun j a b => by omega, fun _ => ⟨_, e, hlt⟩⟩
    · rename_i hlt
      refine wp_mono (ih (i+1) (by omega)) ?_
      rintro r h' ⟨e1, e2, e3, e4, e5⟩
      refine ⟨e1, by omega, by omega, fun j hj hr => ?_, fun hr => e5 (by omega)⟩
      rcases Nat.eq_or_lt_of_le hj with e6 | e6
      · subst e6; exact ⟨_, e, not_lt.1 hlt⟩
      · exact e4 j e6 hr

/-- a value between the first and the last limit: the interval that contains it -/
theorem wp_search (a : List α) (v : α) (n : Nat) (h : Heap α) (hn : a.length = n) (h2 : 2 ≤ n) {f l : α}
    (hf : a[0]? = some f) (hfv : f ≤ v) (hl : a[n-1]? = some l) (hvl : v < l) :
    wp (searchsorted a v n) (fun i h' => h' = h ∧ i + 1 < n ∧ ∃ lo hi, a[i]? = some lo ∧ a[i+1]? = some hi ∧ lo ≤ v ∧ v < hi) h := by
  subst hn
  have em : a[a.length/2]? = some (a[a.length/2]'(by omega)) := List.getElem?_eq_getElem (by omega)
  unfold searchsorted
  rw [wp_mbind, wp_at h em]
  split
  · rename_i hm
    rw [wp_mbind]
    refine wp_mono (wp_scan a v h (a.length - (a.length/2+1)) (a.length/2+1) (by omega)) ?_
    rintro r h' ⟨e1, e2, e3, e4, e5⟩
    have hr : r < a.length := by
      by_contra hc
      rcases Nat.eq_or_lt_of_le (show a.length/2 ≤ a.length - 1 by omega) with e6 | e6
      · simp only [e6] at em hm
        rw [List.getElem?_eq_getElem (show a.length - 1 < a.length by omega)] at hl
        exact absurd hvl (not_lt.2 ((Option.some.inj hl) ▸ hm))
      obtain ⟨y, hy, hyv⟩ := e4 (a.length - 1) (by omega) (by omega)
      rw [hl] at hy
      exact absurd hvl (not_lt.2 ((Option.some.inj hy) ▸ hyv))
    obtain ⟨y, hy, hvy⟩ := e5 (by omega)
    rw [wp_pure]
    refine ⟨e1, by omega, ?_⟩
    have hlo : ∃ lo, a[r-1]? = some lo ∧ lo ≤ v := by
      rcases Nat.eq_or_lt_of_le e2 with e6 | e6
      · rw [← e6]; exact ⟨_, em, hm⟩
      · exact e4 (r-1) (by omega) (by omega)
    obtain ⟨lo, e7, e8⟩ := hlo
    exact ⟨lo, y, e7, by rw [show r - 1 + 1 = r by omega]; exact hy, e8, hvy⟩
  · rename_i hm
    rw [wp_mbind]
    refine wp_mono (wp_scan a v h (a.length/2 - 1) 1 (by omega)) ?_
    rintro r h' ⟨e1, e2, e3, e4, e5⟩
    rw [wp_pure]
    refine ⟨e1, by omega, ?_⟩
    have hlo : ∃ lo, a[r-1]? = some lo ∧ lo ≤ v := by
      rcases Nat.eq_or_lt_of_le e2 with e6 | e6
      · rw [← e6]; exact ⟨_, hf, hfv⟩
      · exact e4 (r-1) (by omega) (by omega)
    obtain ⟨lo, e7, e8⟩ := hlo
    have hhi : ∃ y, a[r]? = some y ∧ v < y := by
      rcases Nat.lt_or_ge r (1 + (a.length/2 - 1)) with e6 | e6
      · exact e5 e6
      · rw [show r = a.length/2 by omega]; exact ⟨_, em, not_le.1 hm⟩
    obtain ⟨y, hy, hvy⟩ := hhi
    exact ⟨lo, y, e7, by rw [show r - 1 + 1 = r by omega]; exact hy, e8, hvy⟩

/-- a value not less than any of the limits: the index of the last limit -/
theorem wp_search_last (a : List α) (v : α) (n : Nat) (h : Heap α) (hn : a.length = n) (h2 : 2 ≤ n)
    (hall : ∀ (j : Nat) (y : α), a[j]? = some y → y ≤ v) :
    wp (searchsorted a v n) (fun i h' => h' = h ∧ i = n - 1) h := by
  subst hn
  have em : a[a.length/2]? = some (a[a.length/2]'(by omega)) := List.getElem?_eq_getElem (by omega)
  unfold searchsorted
  rw [wp_mbind, wp_at h em, if_pos (hall _ _ em), wp_mbind]
  refine wp_mono (wp_scan a v h (a.length - (a.length/2+1)) (a.length/2+1) (by omega)) ?_
  rintro r h' ⟨e1, e2, e3, e4, e5⟩
  rw [wp_pure]
  refine ⟨e1, ?_⟩
  rcases Nat.lt_or_ge r (a.length/2+1 + (a.length - (a.length/2+1))) with e6 | e6
  · obtain ⟨y, hy, hvy⟩ := e5 e6
    exact absurd hvy (not_lt.2 (hall _ _ hy))
  · omega
end

variable [Field α]

/-- the Chebyshev sum with 14 coefficients, the first one halved -/
noncomputable def cheb (c : Nat → α) (u : α) : α :=
  ∑ k ∈ Finset.range 14, (if k = 0 then 1/2 else 1) * c k * (Polynomial.Chebyshev.T α k).eval u

/-- `(d, g)` after `t` steps -/
def cl (c : Nat → α) (u : α) : Nat → α × α
  | 0 => (0, c 13)
  | t+1 => let d := u*2 * (cl c u t).2 - (cl c u t).1 + c (11 - 2*t + 1)
           (d, u*2 * d - (cl c u t).2 + c (11 - 2*t))

theorem T_step (u : α) (n : ℕ) : (Polynomial.Chebyshev.T α ((n + 2 : ℕ) : ℤ)).eval u =
    2 * u * (Polynomial.Chebyshev.T α ((n + 1 : ℕ) : ℤ)).eval u - (Polynomial.Chebyshev.T α (n : ℤ)).eval u := by
  have := Polynomial.Chebyshev.T_add_two α (n : ℤ)
  push_cast
  rw [this]
  simp

theorem cl_cheb (c : Nat → α) (u : α) : u * (cl c u 6).2 - (cl c u 6).1 + c 0 * (1/2) = cheb c u := by
  have h0 : (Polynomial.Chebyshev.T α ((0 : ℕ) : ℤ)).eval u = 1 := by simp
  have h1 : (Polynomial.Chebyshev.T α ((1 : ℕ) : ℤ)).eval u = u := by simp
  have h2 := T_step u 0
  have h3 := T_step u 1
  have h4 := T_step u 2
  have h5 := T_step u 3
  have h6 := T_step u 4
  have h7 := T_step u 5
  have h8 := T_step u 6
  have h9 := T_step u 7
  have h10 := T_step u 8
  have h11 := T_step u 9
  have h12 := T_step u 10
  have h13 := T_step u 11
  simp only [Nat.reduceAdd] at h2 h3 h4 h5 h6 h7 h8 h9 h10 h11 h12 h13
  rw [h1, h0] at h2
  rw [h2, h1] at h3
  rw [h3, h2] at h4
  rw [h4, h3] at h5
  rw [h5, h4] at h6
  rw [h6, h5] at h7
  rw [h7, h6] at h8
  rw [h8, h7] at h9
  rw [h9, h8] at h10
  rw [h10, h9] at h11
  rw [h11, h10] at h12
  rw [h12, h11] at h13
  simp only [cheb, Finset.sum_range_succ, Finset.sum_range_zero]
  rw [h0, h1, h2, h3, h4, h5, h6, h7, h8, h9, h10, h11, h12, h13]
  simp only [cl, Nat.reduceMul, Nat.reduceSub, Nat.reduceAdd, one_ne_zero, if_true, if_false, OfNat.ofNat_ne_zero]
  ring

theorem wp_clenshaw (x : Ptr) (s : Nat) (u : α) (c : Nat → α) (h : Heap α) (hc : ∀ k, k < 14 → h.D (x + k*s) = .val (c k)) :
    wp (clenshaw x s u) (fun y h' => y = cheb c u ∧ h' = h) h := by
  unfold clenshaw
  rw [wp_mbind, wp_ld]
  refine ⟨_, hc 13 (by omega), ?_⟩
  rw [wp_mbind]
  refine wp_forS (fun t dg h' => dg = cl c u t ∧ h' = h) ⟨rfl, rfl⟩ ?_ ?_
  · rintro t ht dg h' ⟨rfl, rfl⟩
    rw [wp_mbind, wp_ld]
    refine ⟨_, hc (11 - 2*t + 1) (by omega), ?_⟩
    rw [wp_mbind, wp_ld]
    exact ⟨_, hc (11 - 2*t) (by omega), rfl, rfl⟩
  · rintro dg h' ⟨rfl, rfl⟩
    rw [wp_mbind, wp_ld]
    refine ⟨_, by simpa using hc 0 (by omega), ?_⟩
    rw [wp_pure]
    exact ⟨cl_cheb c u, rfl⟩

omit [Field α] in
theorem wp_stores {n : Nat} {f : Nat → Prog α α} {addr : Nat → Ptr} {v : Nat → α} {h : Heap α}
    (hinj : ∀ i j, addr i = addr j → i = j) (hok : ∀ i, i < n → h.D (addr i) ≠ .oob)
    (H : ∀ i, i < n → ∀ h1 : Heap α, (∀ q, (∀ j, j < n → q ≠ addr j) → h1.D q = h.D q) → wp (f i) (fun y h2 => y = v i ∧ h2 = h1) h1) :
    wp (forN n fun i => do let y ← f i; st (addr i) y) (fun _ h' => AssignedD h h' (· < n) addr v) h := by
  refine wp_forN (fun i h1 => AssignedD h h1 (· < i) addr v) (AssignedD.init _ _ _ (fun k hk => by omega)) ?_ (fun _ x => x)
  intro i hi h1 H1
  rw [wp_mbind]
  refine wp_mono (H i hi h1 (fun q hq => H1.frame q (fun k hk => hq k (by omega)))) ?_
  rintro y h2 ⟨rfl, rfl⟩
  rw [wp_st]
  exact ⟨H1.ne_oob (hok i hi), H1.set i (fun k hk e => by rw [hinj _ _ e]) (fun k => by omega)⟩

theorem wp_clenshawD1 (rr x : Ptr) (u : α) (n : Nat) (c : Nat → Nat → α) (h : Heap α)
    (hok : ∀ i, i < n → h.D (rr + i) ≠ .oob) (hb : ∀ i j k, i < n → j < n → k < 14 → x + (14*i+k) ≠ rr + j)
    (hc : ∀ i k, i < n → k < 14 → h.D (x + (14*i+k)) = .val (c i k)) :
    wp (clenshawD1 rr x u n) (fun _ h' => AssignedD h h' (· < n) (fun i => rr + i) (fun i => cheb (c i) u)) h := by
  refine wp_stores (fun i j e => by simpa using e) hok ?_
  intro i hi h1 H1
  refine wp_clenshaw _ _ _ _ _ (fun k hk => ?_)
  rw [Ptr.add_assoc, Nat.mul_one, H1 _ (fun j hj => hb i j k hi hj hk), hc i k hi hk]

theorem wp_row (rr x : Ptr) (u : α) (i N : Nat) (v : Nat → α) (h : Heap α) (hok : ∀ j, j < N → h.D (rr + (j+14*i)) ≠ .oob)
    (A : ∀ j, j < N → ∀ h2 : Heap α, (∀ q, (∀ j', j' < N → q ≠ rr + (j' + 14*i)) → h2.D q = h.D q) →
      wp (clenshaw (x + (196*i + j)) 14 u) (fun y h3 => y = v j ∧ h3 = h2) h2) :
    wp (forN N fun j => do
      let y ← clenshaw (x + (196*i + j)) 14 u
      st (rr + (j + 14*i)) y) (fun _ h' => AssignedD h h' (· < N) (fun j => rr + (j + 14*i)) v) h :=
  wp_stores (fun a b e => by simpa using e) hok A

section
attribute [local irreducible] Verif.Prog.forN

theorem wp_clenshawDc (rr x : Ptr) (u : α) (n : Nat) (c : Nat → Nat → Nat → α) (h : Heap α)
    (hok : ∀ i j, i < n → j < 14 → h.D (rr + (j+14*i)) ≠ .oob) (hb : x.buf ≠ rr.buf)
    (hc : ∀ i k j, i < n → k < 14 → j < 14 → h.D (x + (196*i + 14*k + j)) = .val (c i k j)) :
    wp (clenshawDc rr x u n) (fun _ h' => AssignedD h h' (fun k : Nat × Nat => k.1 < n ∧ k.2 < 14) (fun k => rr + (k.2 + 14*k.1))
      (fun m => cheb (fun k => c m.1 k m.2) u)) h := by
  unfold clenshawDc
  refine wp_forN (fun i h1 => AssignedD h h1 (fun k : Nat × Nat => k.1 < i ∧ k.2 < 14) (fun k => rr + (k.2 + 14*k.1))
      (fun m => cheb (fun k => c m.1 k m.2) u)) (AssignedD.init _ _ _ (fun k hk => by omega)) ?_ (fun _ x => x)
  intro i hi h1 H1
  have A : ∀ j, j < 14 → ∀ h2 : Heap α, (∀ q, (∀ j', j' < 14 → q ≠ rr + (j' + 14*i)) → h2.D q = h1.D q) →
      wp (clenshaw (x + (196*i + j)) 14 u) (fun y h3 => y = cheb (fun k => c i k j) u ∧ h3 = h2) h2 := by
    intro j hj h2 H2
    refine wp_clenshaw (x + (196*i+j)) 14 u (fun k => c i k j) h2 (fun k hk => ?_)
    have ne : ∀ m : Nat, x + (196*i+j) + k*14 ≠ rr + m := fun m e => hb (by simpa only [Ptr.add_buf] using congrArg Ptr.buf e)
    rw [H2 _ (fun _ _ => ne _), H1.frame _ (fun _ _ => ne _), Ptr.add_assoc, show 196*i+j+k*14 = 196*i+14*k+j by omega]
    exact hc i k j hi hk hj
  refine wp_mono (wp_row rr x u i 14 (fun j => cheb (fun k => c i k j) u) h1 (fun j hj => H1.ne_oob (hok i j hi hj)) A) ?_
  intro _ h2 H2
  have C : AssignedD h1 h2 (fun k : Nat × Nat => k.1 = i ∧ k.2 < 14) (fun k => rr + (k.2 + 14*k.1)) (fun m => cheb (fun k => c m.1 k m.2) u) := by
    refine H2.reindex ?_ ?_
    · rintro ⟨a, b⟩ ⟨e, hb'⟩
      simp only at e hb'
      subst e
      exact ⟨b, hb', rfl, rfl⟩
    · intro j hj; exact ⟨(i, j), ⟨rfl, hj⟩, rfl⟩
  refine H1.comp C ?_ ?_
  · intro k k' hk hk' e
    have e' : k.2 + 14*k.1 = k'.2 + 14*k'.1 := (Ptr.add_right_inj _ _ _).1 e
    exact absurd e' (by omega)
  · intro k; omega
end

end Verif.Lemmas.PolyFits
