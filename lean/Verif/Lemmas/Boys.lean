import Verif.Spec.Boys
import Verif.Model.Boys
import Verif.Core.Frame
import Mathlib.MeasureTheory.Integral.IntervalIntegral.FundThmCalculus
import Mathlib.MeasureTheory.Integral.IntervalIntegral.IntegrationByParts
import Mathlib.Analysis.SpecialFunctions.ExpDeriv
import Mathlib.Analysis.SpecialFunctions.Integrals.Basic
import Mathlib.Analysis.SpecificLimits.Normed
import Mathlib.Analysis.SpecialFunctions.Log.Basic
import Mathlib.Tactic.FieldSimp
import Mathlib.Tactic.Linarith
import Mathlib.Tactic.LinearCombination
import Mathlib.Tactic.Positivity
import Mathlib.Tactic.NormNum
import Mathlib.Data.Nat.Bitwise
import Mathlib.Topology.Algebra.Order.Floor

namespace Verif.Lemmas
open Verif.Spec MeasureTheory

theorem boys_cont (m : ℕ) (t : ℝ) : Continuous fun u : ℝ => u^(2*m) * Real.exp (-t*u^2) := by
  fun_prop

theorem boys_int (s : ℝ) (m : ℕ) (t : ℝ) :
    IntervalIntegrable (fun u : ℝ => u^(2*m) * Real.exp (-t*u^2)) volume s 1 :=
  (boys_cont m t).intervalIntegrable _ _

/-- integration by parts -/
theorem boys_rec (s : ℝ) (m : ℕ) (t : ℝ) :
    (2*m+1) * boys s m t = Real.exp (-t) - Real.exp (-t*s^2) * s^(2*m+1) + 2*t*boys s (m+1) t := by
  have hd : ∀ u ∈ Set.uIcc s 1, HasDerivAt (fun u : ℝ => u^(2*m+1) * Real.exp (-t*u^2))
      ((2*m+1) * (u^(2*m) * Real.exp (-t*u^2)) - 2*t*(u^(2*(m+1)) * Real.exp (-t*u^2))) u := by
    intro u _
    have h1 : HasDerivAt (fun u : ℝ => u^(2*m+1)) ((2*m+1 : ℕ) * u^(2*m)) u := by
      simpa using hasDerivAt_pow (2*m+1) u
    have h2 : HasDerivAt (fun u : ℝ => -t*u^2) (-t*(2*u)) u := by
      have := (hasDerivAt_pow 2 u).const_mul (-t)
      simpa using this
    have h3 := h1.mul h2.exp
    refine h3.congr_deriv ?_
    push_cast
    ring
  have hi : IntervalIntegrable (fun u : ℝ => (2*m+1) * (u^(2*m) * Real.exp (-t*u^2)) -
      2*t*(u^(2*(m+1)) * Real.exp (-t*u^2))) volume s 1 :=
    ((boys_int s m t).const_mul _).sub ((boys_int s (m+1) t).const_mul _)
  have := intervalIntegral.integral_eq_sub_of_hasDerivAt hd hi
  rw [intervalIntegral.integral_sub ((boys_int s m t).const_mul _) ((boys_int s (m+1) t).const_mul _),
    intervalIntegral.integral_const_mul, intervalIntegral.integral_const_mul] at this
  unfold boys
  have e1 : (1:ℝ)^(2*m+1) * Real.exp (-t*1^2) = Real.exp (-t) := by simp
  rw [e1] at this
  linear_combination this

theorem boys_nonneg {s : ℝ} (h1 : s ≤ 1) (m : ℕ) (t : ℝ) : 0 ≤ boys s m t := by
  unfold boys
  refine intervalIntegral.integral_nonneg h1 fun u _ => ?_
  have : 0 ≤ u^(2*m) := (even_two_mul m).pow_nonneg u
  positivity

theorem boys_anti {s : ℝ} (h0 : 0 ≤ s) (h1 : s ≤ 1) (m : ℕ) (t : ℝ) : boys s (m+1) t ≤ boys s m t := by
  unfold boys
  refine intervalIntegral.integral_mono_on h1 (boys_int s _ t) (boys_int s _ t) fun u hu => ?_
  have hu0 : 0 ≤ u := h0.trans hu.1
  refine mul_le_mul_of_nonneg_right ?_ (Real.exp_pos _).le
  exact pow_le_pow_of_le_one hu0 hu.2 (by omega)

theorem boys_anti' {s : ℝ} (h0 : 0 ≤ s) (h1 : s ≤ 1) (m n : ℕ) (t : ℝ) :
    boys s (m+n) t ≤ boys s m t := by
  induction n with
  | zero => exact le_refl _
  | succ n ih => exact (boys_anti h0 h1 (m+n) t).trans ih

theorem boys_zero (s : ℝ) (m : ℕ) : boys s m 0 = (1 - s^(2*m+1)) / (2*m+1) := by
  have := boys_rec s m 0
  have hp : (2*(m:ℝ)+1) ≠ 0 := by positivity
  field_simp
  simp at this
  linear_combination this

/-- the starting value of the upward recursion -/
theorem boys_erf (s : ℝ) {t : ℝ} (ht : 0 < t) :
    boys s 0 t = Real.sqrt Real.pi / 2 / Real.sqrt t * (erf (Real.sqrt t) - erf (s * Real.sqrt t)) := by
  have hs : Real.sqrt t ≠ 0 := (Real.sqrt_pos.2 ht).ne'
  have hp : Real.sqrt Real.pi ≠ 0 := (Real.sqrt_pos.2 Real.pi_pos).ne'
  unfold boys erf
  have h1 : ∀ u : ℝ, u^(2*0) * Real.exp (-t*u^2) = Real.exp (-(u * Real.sqrt t)^2) := by
    intro u
    rw [mul_pow, Real.sq_sqrt ht.le]
    simp only [Nat.mul_zero, pow_zero, one_mul]
    congr 1
    ring
  simp_rw [h1]
  have h2 := intervalIntegral.integral_comp_mul_right (a := s) (b := 1)
    (fun v : ℝ => Real.exp (-v^2)) hs
  rw [h2]
  have hc : Continuous fun v : ℝ => Real.exp (-v^2) := by fun_prop
  have h3 := intervalIntegral.integral_add_adjacent_intervals
    (hc.intervalIntegrable (μ := volume) 0 (s * Real.sqrt t)) (hc.intervalIntegrable (μ := volume) (s * Real.sqrt t) (1 * Real.sqrt t))
  rw [one_mul] at h3 ⊢
  rw [← h3, smul_eq_mul]
  field_simp
  ring

/-- half the exponentials, as in the code -/
theorem boys_rec' (s : ℝ) (m : ℕ) (t : ℝ) :
    ((m:ℝ)+1/2) * boys s m t =
      1/2*Real.exp (-t) - 1/2*Real.exp (-t*s^2)*s^(2*m+1) + t*boys s (m+1) t := by
  linear_combination (1/2) * boys_rec s m t

/-- `∏_{j<k} t/(b+1+j)` -/
noncomputable def risePow (t b : ℝ) : ℕ → ℝ
  | 0 => 1
  | k+1 => risePow t b k * (t / (b+1+k))

/-- partial sums of the series -/
noncomputable def riseSum (t b e e1 l2 : ℝ) : ℕ → ℝ
  | 0 => e - e1
  | k+1 => riseSum t b e e1 l2 k + (e - e1*l2^(k+1)) * risePow t b (k+1)

theorem risePow_nonneg {t b : ℝ} (ht : 0 ≤ t) (hb : 0 ≤ b) (k : ℕ) : 0 ≤ risePow t b k := by
  induction k with
  | zero => simp [risePow]
  | succ k ih => simp only [risePow]; positivity

theorem risePow_le {t b : ℝ} (ht : 0 ≤ t) (hb : 0 ≤ b) (k : ℕ) : risePow t b k ≤ t^k / k.factorial := by
  induction k with
  | zero => simp [risePow]
  | succ k ih =>
    simp only [risePow, Nat.factorial_succ, pow_succ]
    push_cast
    have e : t^k * t / (((k:ℝ)+1) * k.factorial) = t^k / k.factorial * (t / (k+1)) := by
      field_simp
    rw [e]
    refine mul_le_mul ih ?_ (by positivity) (by positivity)
    exact div_le_div_of_nonneg_left ht (by positivity) (by linarith)

theorem risePow_small {t b : ℝ} (ht : 0 ≤ t) (hb : 0 ≤ b) {ε : ℝ} (hε : 0 < ε) :
    ∃ k, risePow t b k ≤ ε := by
  have h := FloorSemiring.tendsto_pow_div_factorial_atTop (K := ℝ) t
  have := h.eventually (gt_mem_nhds hε)
  obtain ⟨k, hk⟩ := this.exists
  exact ⟨k, (risePow_le ht hb k).trans hk.le⟩

/-- the series with its exact remainder -/
theorem boys_series (s : ℝ) (m : ℕ) (t : ℝ) (N : ℕ) :
    ((m:ℝ)+1/2) * boys s m t = riseSum t (m+1/2) (1/2*Real.exp (-t))
      (1/2*Real.exp (-t*s^2)*s^(2*m+1)) (s^2) N + t * risePow t (m+1/2) N * boys s (m+N+1) t := by
  induction N with
  | zero =>
    simp only [riseSum, risePow, Nat.add_zero]
    linear_combination boys_rec' s m t
  | succ N ih =>
    rw [ih]
    simp only [riseSum, risePow]
    have h := boys_rec' s (m+N+1) t
    have hp : ((m:ℝ)+1/2+1+N) ≠ 0 := by positivity
    have hs : s^(2*(m+N+1)+1) = s^(2*m+1) * (s^2)^(N+1) := by ring
    have e : m + (N+1) + 1 = m+N+1+1 := by ring
    rw [e]
    rw [hs] at h
    push_cast at h
    generalize risePow t ((m:ℝ)+1/2) N = R
    generalize Real.exp (-t*s^2) = X at h ⊢
    field_simp
    linear_combination (2*t*R) * h

/-- For `t` below `m+1/2` the boundary term at `u = 1` exceeds the one at `u = s`. -/
theorem bdry_pos {s t : ℝ} {m : ℕ} (h0 : 0 < s) (h1 : s < 1) (ht : t < m+1/2) :
    0 < 1/2*Real.exp (-t) - 1/2*Real.exp (-t*s^2)*s^(2*m+1) := by
  have hl : Real.log (s^2) ≤ s^2 - 1 := Real.log_le_sub_one_of_pos (by positivity)
  rw [Real.log_pow] at hl
  have hs : s^(2*m+1) = Real.exp ((2*m+1) * Real.log s) := by
    rw [← Real.rpow_natCast, Real.rpow_def_of_pos h0]
    push_cast
    ring_nf
  rw [hs, mul_assoc, ← Real.exp_add, sub_pos]
  refine mul_lt_mul_of_pos_left (Real.exp_lt_exp.2 ?_) (by norm_num)
  push_cast at hl
  have hs2 : s^2 < 1 := by nlinarith
  have hm : (0:ℝ) ≤ m := Nat.cast_nonneg m
  nlinarith

/-- Below `m` the whole of the next function is smaller by the boundary terms. -/
theorem boys_next_le {s t : ℝ} {m : ℕ}
    (hb : 0 ≤ 1/2*Real.exp (-t) - 1/2*Real.exp (-t*s^2)*s^(2*m+1)) :
    t * boys s (m+1) t ≤ ((m:ℝ)+1/2) * boys s m t := by
  have := boys_rec' s m t
  linarith

/-! ### programs -/
open Verif.Model Verif.Prog

/-- the array `f[0..n)` holds good values where `P` says so, nothing else has changed -/
structure Fill {α : Type} (h h' : Heap α) (f : Ptr) (n : ℕ) (P : ℕ → Prop) (Good : ℕ → α → Prop) : Prop where
  vals : ∀ i, P i → ∃ v, h'.D (f + i) = .val v ∧ Good i v
  alloc : ∀ i, i < n → h'.D (f + i) ≠ .oob
  frame : ∀ q, ¬ Blk f n q → h'.D q = h.D q
  int : h'.I = h.I

theorem Fill.init {α : Type} {h : Heap α} {f : Ptr} {n : ℕ} {P : ℕ → Prop} {Good : ℕ → α → Prop}
    (ha : AllocD h f n) (hP : ∀ i, ¬ P i) : Fill h h f n P Good :=
  ⟨fun i hi => absurd hi (hP i), ha, fun _ _ => rfl, rfl⟩

theorem Fill.set {α : Type} {h h' : Heap α} {f : Ptr} {n : ℕ} {P P' : ℕ → Prop} {Good : ℕ → α → Prop}
    (H : Fill h h' f n P Good) {i : ℕ} (hi : i < n) {v : α} (hv : Good i v)
    (hP : ∀ j, P' j → j = i ∨ P j) : Fill h (h'.setD (f + i) v) f n P' Good := by
  refine ⟨fun j hj => ?_, fun j hj => ?_, fun q hq => ?_, H.int⟩
  · by_cases e : j = i
    · exact ⟨v, by rw [e, Heap.setD_D_self], e ▸ hv⟩
    · rw [Heap.setD_D_ne _ _ (by simpa using e)]
      exact H.vals j ((hP j hj).resolve_left e)
  · rw [Heap.setD_D]
    split
    · simp
    · exact H.alloc j hj
  · rw [Heap.setD_D_ne _ _ (fun e => hq ⟨i, hi, e⟩)]
    exact H.frame q hq

theorem gammaSeries_wp {t b e tol : ℝ} {h : Heap ℝ} (fuel k : ℕ)
    (hK : ∃ K, k ≤ K ∧ K < k + fuel ∧ e * risePow t b K ≤ tol) :
    wp (gammaSeries t tol fuel (b+1+k) (e * risePow t b k) (riseSum t b e 0 0 k))
      (fun r h' => h' = h ∧ ∃ N, r = riseSum t b e 0 0 N ∧ e * risePow t b N ≤ tol) h := by
  induction fuel generalizing k with
  | zero => obtain ⟨K, h1, h2, _⟩ := hK; omega
  | succ n ih =>
    simp only [gammaSeries]
    split
    · rename_i hgt
      have := ih (k+1) (by
        obtain ⟨K, h1, h2, h3⟩ := hK
        have : K ≠ k := by rintro rfl; linarith
        exact ⟨K, by omega, by omega, h3⟩)
      have e1 : b + 1 + ((k+1 : ℕ):ℝ) = b + 1 + k + 1 := by push_cast; ring
      have e2 : e * risePow t b (k+1) = e * risePow t b k * (t/(b+1+k)) := by
        simp only [risePow]; ring
      have e3 : riseSum t b e 0 0 (k+1) = riseSum t b e 0 0 k + e * risePow t b k * (t/(b+1+k)) := by
        simp only [riseSum, risePow]; ring
      rw [e1, e2, e3] at this
      exact this
    · rename_i hgt
      exact ⟨rfl, k, rfl, not_lt.1 hgt⟩

/-- the C library, exactly -/
structure LibExact (L : BoysLib ℝ) : Prop where
  exp : ∀ x, L.exp x = Real.exp x
  sqrt : ∀ x, L.sqrt x = Real.sqrt x
  erf : ∀ x, L.erf x = Spec.erf x
  erfc : ∀ x, L.erfc x = Spec.erfc x
  pi : L.sqrtpie4 = Real.sqrt Real.pi / 2

/-- `v` is `F_i(t)` with a relative error at most `eps`, from below -/
def Near (eps : ℝ) (s t : ℝ) (i : ℕ) (v : ℝ) : Prop :=
  v ≤ boys s i t ∧ boys s i t - v ≤ eps * boys s i t

theorem fmt1GammaInc_wp {L : BoysLib ℝ} (hL : LibExact L) {eps t : ℝ} (he : 0 < eps) (ht : 0 ≤ t)
    (m : ℕ) : ∃ n0, ∀ fuel, n0 ≤ fuel → ∀ (h : Heap ℝ) (f : Ptr), AllocD h f (m+1) →
    wp (fmt1GammaInc L eps fuel f t m) (fun _ h' => Fill h h' f (m+1) (· < m+1) (Near eps 0 t)) h := by
  obtain ⟨K, hK⟩ := risePow_small ht (b := (m:ℝ)+1/2) (by positivity) he
  refine ⟨K+1, fun fuel hf h f ha => ?_⟩
  have hpos : 0 < 1/2*Real.exp (-t) := by positivity
  have hs0 : ∀ N, riseSum t (m+1/2) (1/2*Real.exp (-t)) 0 0 N =
      riseSum t (m+1/2) (1/2*Real.exp (-t)) (1/2*Real.exp (-t*0^2)*0^(2*m+1)) (0^2) N := by
    intro N; simp
  have hb0 : ∀ i, 0 ≤ 1/2*Real.exp (-t) - 1/2*Real.exp (-t*0^2)*(0:ℝ)^(2*i+1) := by
    intro i; simp; positivity
  simp only [fmt1GammaInc, wp_mbind, hL.exp]
  have w := gammaSeries_wp (t := t) (b := (m:ℝ)+1/2) (e := 1/2*Real.exp (-t))
    (tol := eps * (1/2*Real.exp (-t))) (h := h) fuel 0
    ⟨K, by omega, by omega, by nlinarith⟩
  have e0 : (m:ℝ)+1/2+1+((0:ℕ):ℝ) = m+1/2+1 := by simp
  have e1 : riseSum t ((m:ℝ)+1/2) (1/2*Real.exp (-t)) 0 0 0 = 1/2*Real.exp (-t) := by simp [riseSum]
  have e2 : 1/2*Real.exp (-t) * risePow t ((m:ℝ)+1/2) 0 = 1/2*Real.exp (-t) := by simp [risePow]
  rw [e0, e1, e2] at w
  refine wp_mono w ?_
  rintro r h' ⟨rfl, N, rfl, hN⟩
  have hser := boys_series 0 m t N
  rw [← hs0] at hser
  have hbp : (0:ℝ) < (m:ℝ)+1/2 := by positivity
  have hRN : risePow t ((m:ℝ)+1/2) N ≤ eps := by
    by_contra hc
    push Not at hc
    nlinarith
  have hR0 := risePow_nonneg (t := t) ht (b := (m:ℝ)+1/2) hbp.le N
  have hG0 : 0 ≤ boys 0 (m+N+1) t := boys_nonneg (by norm_num) _ _
  have hGl : boys 0 (m+N+1) t ≤ boys 0 (m+1) t := by
    have := boys_anti' (s := 0) (le_refl _) (by norm_num) (m+1) N t
    rwa [show m+1+N = m+N+1 by omega] at this
  have hnext := boys_next_le (hb0 m)
  have hgood : Near eps 0 t m (riseSum t ((m:ℝ)+1/2) (1/2*Real.exp (-t)) 0 0 N / ((m:ℝ)+1/2)) := by
    have hrem : 0 ≤ t * risePow t ((m:ℝ)+1/2) N * boys 0 (m+N+1) t := by positivity
    have hrem2 : t * risePow t ((m:ℝ)+1/2) N * boys 0 (m+N+1) t ≤ eps * (((m:ℝ)+1/2) * boys 0 m t) := by
      calc t * risePow t ((m:ℝ)+1/2) N * boys 0 (m+N+1) t
          = risePow t ((m:ℝ)+1/2) N * (t * boys 0 (m+N+1) t) := by ring
        _ ≤ eps * (t * boys 0 (m+1) t) :=
          mul_le_mul hRN (mul_le_mul_of_nonneg_left hGl ht) (by positivity) he.le
        _ ≤ _ := mul_le_mul_of_nonneg_left hnext he.le
    constructor
    · rw [div_le_iff₀ hbp]
      linarith
    · have : boys 0 m t - riseSum t ((m:ℝ)+1/2) (1/2*Real.exp (-t)) 0 0 N / ((m:ℝ)+1/2) =
          t * risePow t ((m:ℝ)+1/2) N * boys 0 (m+N+1) t / ((m:ℝ)+1/2) := by
        field_simp at hser ⊢
        linarith
      rw [this, div_le_iff₀ hbp]
      linarith
  simp only [wp_st, wp_pure]
  refine ⟨ha m (by omega), ?_⟩
  have F0 : Fill h' (h'.setD (f + m) (riseSum t ((m:ℝ)+1/2) (1/2*Real.exp (-t)) 0 0 N / ((m:ℝ)+1/2)))
      f (m+1) (fun i => m - 0 ≤ i ∧ i < m+1) (Near eps 0 t) :=
    (Fill.init (P := fun _ => False) ha (fun _ => id)).set (by omega) hgood (fun j hj => by omega)
  refine wp_forS (fun k (b : ℝ) h2 => Fill h' h2 f (m+1) (fun i => m - k ≤ i ∧ i < m+1) (Near eps 0 t) ∧
    b = (m:ℝ) + 1/2 - k) ⟨F0, by simp⟩ ?_ ?_
  · rintro k hk b h2 ⟨F, rfl⟩
    simp only [wp_mbind, wp_ld, wp_st, wp_pure]
    obtain ⟨v, hv, hn⟩ := F.vals (m-k) ⟨by omega, by omega⟩
    refine ⟨v, hv, F.alloc _ (by omega), F.set (by omega) ?_ (fun j hj => by omega), by push_cast; ring⟩
    obtain ⟨j, hj⟩ : ∃ j, m - k = j + 1 := ⟨m-k-1, by omega⟩
    have hc : (m:ℝ) + 1/2 - k - 1 = (j:ℝ) + 1/2 := by
      have : (m:ℝ) = k + (j+1) := by
        have : m = k + (j+1) := by omega
        exact_mod_cast this
      rw [this]; ring
    rw [hj] at hn ⊢
    rw [hc, Nat.add_sub_cancel]
    have hjp : (0:ℝ) < (j:ℝ)+1/2 := by positivity
    have hr := boys_rec' 0 j t
    have hnx := boys_next_le (hb0 j)
    have hz : 1/2*Real.exp (-t*0^2)*(0:ℝ)^(2*j+1) = 0 := by simp
    rw [hz] at hr
    have e : boys 0 j t - (1/2*Real.exp (-t) + t*v)/((j:ℝ)+1/2) = t*(boys 0 (j+1) t - v)/((j:ℝ)+1/2) := by
      field_simp at hr ⊢
      linarith
    have h3 : t*(boys 0 (j+1) t - v) ≤ eps*(((j:ℝ)+1/2)*boys 0 j t) := by
      calc t*(boys 0 (j+1) t - v) ≤ t*(eps*boys 0 (j+1) t) := mul_le_mul_of_nonneg_left hn.2 ht
        _ = eps*(t*boys 0 (j+1) t) := by ring
        _ ≤ _ := mul_le_mul_of_nonneg_left hnx he.le
    have h4 : 0 ≤ t*(boys 0 (j+1) t - v) := mul_nonneg ht (by linarith [hn.1])
    constructor
    · have : 0 ≤ t*(boys 0 (j+1) t - v)/((j:ℝ)+1/2) := div_nonneg h4 hjp.le
      linarith
    · rw [e, div_le_iff₀ hjp]
      linarith
  · rintro b h2 ⟨F, _⟩
    exact ⟨fun i hi => F.vals i ⟨by omega, hi⟩, F.alloc, F.frame, F.int⟩

/-- `v` is exactly `F_i(t)` -/
def Exact (s t : ℝ) (i : ℕ) (v : ℝ) : Prop := v = boys s i t

theorem Exact.near {eps s t : ℝ} (he : 0 ≤ eps) (hs : s ≤ 1) {i : ℕ} {v : ℝ} (H : Exact s t i v) :
    Near eps s t i v := by
  have := boys_nonneg hs i t
  rw [Exact] at H
  subst H
  exact ⟨le_refl _, by simp; positivity⟩

theorem Fill.mono {α : Type} {h h' : Heap α} {f : Ptr} {n : ℕ} {P : ℕ → Prop} {G G' : ℕ → α → Prop}
    (H : Fill h h' f n P G) (hG : ∀ i v, G i v → G' i v) : Fill h h' f n P G' :=
  ⟨fun i hi => (H.vals i hi).imp fun _ hv => ⟨hv.1, hG _ _ hv.2⟩, H.alloc, H.frame, H.int⟩

theorem turnoverTable_get (m : ℕ) (hm : m < 40) : ∃ q : ℚ, turnoverTable[m]? = some q := by
  have : turnoverTable.length = 40 := rfl
  exact ⟨_, List.getElem?_eq_getElem (by omega)⟩

theorem turnoverTable_bound : ∀ m : ℕ, ∀ q : ℚ, turnoverTable[m]? = some q → q ≤ m + 1/2 := by
  intro m q h
  have hm : m < 40 := by
    by_contra hc
    rw [List.getElem?_eq_none (by have : turnoverTable.length = 40 := rfl; omega)] at h
    cases h
  have H : ∀ m < 40, turnoverTable.getD m 0 ≤ (m:ℚ) + 1/2 := by decide +kernel
  have := H m hm
  rwa [List.getD_eq_getElem?_getD, h] at this

theorem gammaIncLike_wp {L : BoysLib ℝ} (hL : LibExact L) {eps t : ℝ} (he : 0 < eps) (ht : 0 ≤ t)
    {m : ℕ} (hm : m < 40) : ∃ n0, ∀ fuel, n0 ≤ fuel → ∀ (h : Heap ℝ) (f : Ptr), AllocD h f (m+1) →
    wp (gammaIncLike L eps fuel f t m) (fun _ h' => Fill h h' f (m+1) (· < m+1) (Near eps 0 t) ∧
      (∀ q : ℚ, turnoverTable[m]? = some q → (t = 0 ∨ (q:ℝ) ≤ t) →
        Fill h h' f (m+1) (· < m+1) (Exact 0 t))) h := by
  obtain ⟨n0, hn0⟩ := fmt1GammaInc_wp hL he ht m
  obtain ⟨q, hq⟩ := turnoverTable_get m hm
  refine ⟨n0, fun fuel hf h f ha => ?_⟩
  unfold gammaIncLike
  split
  · rename_i h0
    subst h0
    suffices H : wp (do st f 1; forN m fun k => st (f + (k+1)) (1 / (2*((k : ℝ)+1)+1)))
        (fun _ h' => Fill h h' f (m+1) (· < m+1) (Exact 0 0)) h from
      wp_mono H fun _ h' F => ⟨F.mono fun i v => Exact.near he.le (by norm_num), fun _ _ _ => F⟩
    simp only [wp_mbind, wp_st]
    refine ⟨by simpa using ha 0 (by omega), ?_⟩
    have F0 : Fill h (h.setD f 1) f (m+1) (· < 0+1) (Exact 0 0) := by
      have := (Fill.init (P := fun _ => False) (Good := Exact 0 0) ha (fun _ => id)).set (i := 0) (v := 1)
        (P' := (· < 0+1)) (by omega) (by rw [Exact, boys_zero]; simp) (fun j hj => by omega)
      simpa using this
    refine wp_forN (fun k h2 => Fill h h2 f (m+1) (· < k+1) (Exact 0 0)) F0 ?_ (fun _ F => F)
    intro k hk h2 F
    simp only [wp_st]
    refine ⟨F.alloc _ (by omega), F.set (by omega) ?_ (fun j hj => by omega)⟩
    rw [Exact, boys_zero]
    push_cast
    simp
  · rename_i h0
    have htp : 0 < t := lt_of_le_of_ne ht (Ne.symm h0)
    simp only [turnover, hq]
    rw [wp_mbind, wp_pure]
    split
    · rename_i hlt
      refine wp_mono (hn0 fuel hf h f ha) fun _ h' F => ⟨F, fun q' hq' hor => ?_⟩
      cases hq'
      rcases hor with hor | hor
      · exact absurd hor h0
      · exact absurd hlt (not_lt.2 hor)
    · suffices H : wp (do
          let tt := L.sqrt t
          st f (L.sqrtpie4 / tt * L.erf tt)
          let e := L.exp (-t)
          let b := 1/2 / t
          forN m fun k => do
            let x ← ld (f + k)
            st (f + (k+1)) (b * ((2*((k : ℝ)+1)-1) * x - e)))
          (fun _ h' => Fill h h' f (m+1) (· < m+1) (Exact 0 t)) h from
        wp_mono H fun _ h' F => ⟨F.mono fun i v => Exact.near he.le (by norm_num), fun _ _ _ => F⟩
      simp only [wp_mbind, wp_st, hL.exp, hL.sqrt, hL.erf, hL.pi]
      refine ⟨by simpa using ha 0 (by omega), ?_⟩
      have F0 : Fill h (h.setD f (Real.sqrt Real.pi / 2 / Real.sqrt t * Spec.erf (Real.sqrt t))) f (m+1)
          (· < 0+1) (Exact 0 t) := by
        have := (Fill.init (P := fun _ => False) (Good := Exact 0 t) ha (fun _ => id)).set (i := 0)
          (v := Real.sqrt Real.pi / 2 / Real.sqrt t * Spec.erf (Real.sqrt t))
          (P' := (· < 0+1)) (by omega) (by rw [Exact, boys_erf _ htp]; simp [Spec.erf]) (fun j hj => by omega)
        simpa using this
      refine wp_forN (fun k h2 => Fill h h2 f (m+1) (· < k+1) (Exact 0 t)) F0 ?_ (fun _ F => F)
      intro k hk h2 F
      simp only [wp_mbind, wp_ld, wp_st]
      obtain ⟨v, hv, hE⟩ := F.vals k (by omega)
      refine ⟨v, hv, F.alloc _ (by omega), F.set (by omega) ?_ (fun j hj => by omega)⟩
      rw [Exact] at hE ⊢
      rw [hE]
      have hr := boys_rec' 0 k t
      have hz : 1/2*Real.exp (-t*0^2)*(0:ℝ)^(2*k+1) = 0 := by simp
      rw [hz] at hr
      field_simp
      linarith

/-! ### lower limit above zero -/

theorem powLoop_eq {α : Type} [Field α] [LinearOrder α] (b : α) (x fuel k : ℕ) (hf : x < 2^(k+fuel)) :
    powLoop x fuel (2^k) (b^(2^k)) (b^(x % 2^k)) = b^x := by
  induction fuel generalizing k with
  | zero =>
    simp only [powLoop]
    rw [Nat.mod_eq_of_lt (by simpa using hf)]
  | succ n ih =>
    simp only [powLoop]
    split
    · have := ih (k+1) (by rw [show k+1+n = k+(n+1) by omega]; exact hf)
      rw [← this]
      have e1 : 2^k * 2 = 2^(k+1) := by ring
      have e2 : b^(2^k) * b^(2^k) = b^(2^(k+1)) := by rw [← pow_add]; congr 1; ring
      have e3 : (if 2^k &&& x ≠ 0 then b^(x % 2^k) * b^(2^k) else b^(x % 2^k)) = b^(x % 2^(k+1)) := by
        rw [Nat.mod_pow_succ, Nat.and_comm, Nat.and_two_pow, Nat.testBit_eq_decide_div_mod_eq]
        rcases Nat.mod_two_eq_zero_or_one (x / 2^k) with hx | hx
        · simp [hx]
        · simp [hx, pow_add]
      rw [e1, e2, e3]
    · rename_i hgt
      rw [Nat.mod_eq_of_lt (by omega)]

theorem pow_eq {α : Type} [Field α] [LinearOrder α] (b : α) (x : ℕ) : Model.pow b x = b^x := by
  have h : x < 2^(0+(x+1)) := by
    rw [Nat.zero_add]
    exact lt_trans (Nat.lt_succ_self x) Nat.lt_two_pow_self
  have := powLoop_eq b x (x+1) 0 h
  simpa [Model.pow, Nat.mod_one] using this

theorem fabs_eq (x : ℝ) : fabs x = |x| := by
  unfold fabs
  split
  · rename_i h; rw [abs_of_neg h]
  · rename_i h; rw [abs_of_nonneg (not_lt.1 h)]

theorem erfcSeries_wp {t b e e1 l2 tol : ℝ} {h : Heap ℝ} (fuel k : ℕ)
    (hK : ∃ K, k ≤ K ∧ K < k + fuel ∧ |(e - e1*l2^K) * risePow t b K| ≤ tol) :
    wp (erfcSeries t l2 tol e fuel (b+1+k) (risePow t b k) (e1*l2^k) ((e - e1*l2^k) * risePow t b k)
        (riseSum t b e e1 l2 k))
      (fun r h' => h' = h ∧ ∃ N, r = riseSum t b e e1 l2 N ∧ |(e - e1*l2^N) * risePow t b N| ≤ tol) h := by
  induction fuel generalizing k with
  | zero => obtain ⟨K, h1, h2, _⟩ := hK; omega
  | succ n ih =>
    simp only [erfcSeries, fabs_eq]
    split
    · rename_i hgt
      have := ih (k+1) (by
        obtain ⟨K, h1, h2, h3⟩ := hK
        have : K ≠ k := by rintro rfl; linarith
        exact ⟨K, by omega, by omega, h3⟩)
      have e1' : b + 1 + ((k+1 : ℕ):ℝ) = b + 1 + k + 1 := by push_cast; ring
      have e2 : risePow t b (k+1) = risePow t b k * (t/(b+1+k)) := rfl
      have e3 : riseSum t b e e1 l2 (k+1) =
          riseSum t b e e1 l2 k + (e - e1*l2^(k+1)) * risePow t b (k+1) := rfl
      have e4 : e1*l2^(k+1) = e1*l2^k*l2 := by ring
      rw [e1', e3, e2, e4] at this
      exact this
    · rename_i hgt
      exact ⟨rfl, k, rfl, not_lt.1 hgt⟩

/-- `v` is `F_i(t)` from below with an error at most `eps F_m(t) t^(m-i) / ∏_{i≤j<m} (j+1/2)` -/
def NearDown (eps : ℝ) (s t : ℝ) (m i : ℕ) (v : ℝ) : Prop :=
  v ≤ boys s i t ∧ boys s i t - v ≤ eps * boys s m t * ∏ j ∈ Finset.Ico i m, t/((j:ℝ)+1/2)

theorem fmt1Erfc_wp {L : BoysLib ℝ} (hL : LibExact L) {eps t s : ℝ} (he : 0 < eps) (ht : 0 ≤ t)
    (hs0 : 0 < s) (hs1 : s < 1) {m : ℕ} (htm : t < m+1/2) :
    ∃ n0, ∀ fuel, n0 ≤ fuel → ∀ (h : Heap ℝ) (f : Ptr), AllocD h f (m+1) →
    wp (fmt1Erfc L eps fuel f t s m) (fun _ h' => Fill h h' f (m+1) (· < m+1) (NearDown eps s t m)) h := by
  have hbp : (0:ℝ) < (m:ℝ)+1/2 := by positivity
  -- boundary terms
  let e := 1/2*Real.exp (-t)
  let e1 := 1/2*Real.exp (-t*s^2)*s^(2*m+1)
  have hpos : 0 < e - e1 := bdry_pos hs0 hs1 htm
  have he1 : 0 ≤ e1 := by positivity
  have he0 : 0 < e := by positivity
  have hsq : s^2 ≤ 1 := by nlinarith
  have hdel : ∀ k, e - e1 ≤ e - e1*(s^2)^k := by
    intro k
    have : e1*(s^2)^k ≤ e1*1 := mul_le_mul_of_nonneg_left (pow_le_one₀ (by positivity) hsq) he1
    linarith
  have hdel2 : ∀ k, e - e1*(s^2)^k ≤ e := by
    intro k
    have : 0 ≤ e1*(s^2)^k := by positivity
    linarith
  obtain ⟨K, hK⟩ := risePow_small ht (b := (m:ℝ)+1/2) hbp.le (ε := eps*(e-e1)/e) (by positivity)
  refine ⟨K+1, fun fuel hf h f ha => ?_⟩
  have hRK := risePow_nonneg (t := t) ht (b := (m:ℝ)+1/2) hbp.le
  have w := erfcSeries_wp (t := t) (b := (m:ℝ)+1/2) (e := e) (e1 := e1) (l2 := s^2)
    (tol := eps * (e-e1)) (h := h) fuel 0
    ⟨K, by omega, by omega, by
      rw [abs_of_nonneg (mul_nonneg (hpos.le.trans (hdel K)) (hRK K))]
      calc (e - e1*(s^2)^K) * risePow t ((m:ℝ)+1/2) K ≤ e * (eps*(e-e1)/e) :=
            mul_le_mul (hdel2 K) hK (hRK K) he0.le
        _ = eps*(e-e1) := by field_simp⟩
  have hfab : fabs (e - e1) = e - e1 := by rw [fabs_eq, abs_of_pos hpos]
  have ee1 : 1/2*Real.exp (-t*(s*s))*s*(s*s)^m = e1 := by
    show _ = 1/2*Real.exp (-t*s^2)*s^(2*m+1)
    rw [← pow_two]; ring
  simp only [fmt1Erfc, wp_mbind, hL.exp, pow_eq]
  rw [ee1]
  change wp (erfcSeries t (s*s) (eps * fabs (e-e1)) e fuel _ 1 e1 (e-e1) (e-e1)) _ h
  rw [hfab]
  have e0 : (m:ℝ)+1/2+1+((0:ℕ):ℝ) = m+1/2+1 := by simp
  have r1 : risePow t ((m:ℝ)+1/2) 0 = 1 := rfl
  have r2 : riseSum t ((m:ℝ)+1/2) e e1 (s^2) 0 = e - e1 := rfl
  rw [e0, r1, r2, pow_zero, mul_one, mul_one, pow_two] at w
  refine wp_mono w ?_
  rintro r h' ⟨rfl, N, rfl, hN⟩
  rw [← pow_two] at hN ⊢
  have hser : ((m:ℝ)+1/2) * boys s m t = riseSum t (m+1/2) e e1 (s^2) N +
    t * risePow t (m+1/2) N * boys s (m+N+1) t := boys_series s m t N
  rw [abs_of_nonneg (mul_nonneg (hpos.le.trans (hdel N)) (hRK N))] at hN
  have hRN : risePow t ((m:ℝ)+1/2) N ≤ eps := by
    have h1 : (e-e1) * risePow t ((m:ℝ)+1/2) N ≤ eps*(e-e1) :=
      (mul_le_mul_of_nonneg_right (hdel N) (hRK N)).trans hN
    by_contra hc
    push Not at hc
    nlinarith
  have hR0 := hRK N
  have hG0 : 0 ≤ boys s (m+N+1) t := boys_nonneg hs1.le _ _
  have hGl : boys s (m+N+1) t ≤ boys s (m+1) t := by
    have := boys_anti' hs0.le hs1.le (m+1) N t
    rwa [show m+1+N = m+N+1 by omega] at this
  have hnext : t * boys s (m+1) t ≤ ((m:ℝ)+1/2) * boys s m t := boys_next_le hpos.le
  have hgood : NearDown eps s t m m (riseSum t ((m:ℝ)+1/2) e e1 (s^2) N / ((m:ℝ)+1/2)) := by
    have hrem : 0 ≤ t * risePow t ((m:ℝ)+1/2) N * boys s (m+N+1) t := by positivity
    have hrem2 : t * risePow t ((m:ℝ)+1/2) N * boys s (m+N+1) t ≤ eps * (((m:ℝ)+1/2) * boys s m t) := by
      calc t * risePow t ((m:ℝ)+1/2) N * boys s (m+N+1) t
          = risePow t ((m:ℝ)+1/2) N * (t * boys s (m+N+1) t) := by ring
        _ ≤ eps * (t * boys s (m+1) t) :=
          mul_le_mul hRN (mul_le_mul_of_nonneg_left hGl ht) (by positivity) he.le
        _ ≤ _ := mul_le_mul_of_nonneg_left hnext he.le
    constructor
    · rw [div_le_iff₀ hbp]
      linarith
    · have : boys s m t - riseSum t ((m:ℝ)+1/2) e e1 (s^2) N / ((m:ℝ)+1/2) =
          t * risePow t ((m:ℝ)+1/2) N * boys s (m+N+1) t / ((m:ℝ)+1/2) := by
        field_simp at hser ⊢
        linarith
      rw [this, div_le_iff₀ hbp]
      simp only [Finset.Ico_self, Finset.prod_empty]
      linarith
  simp only [wp_st, wp_pure]
  refine ⟨ha m (by omega), ?_⟩
  have F0 : Fill h' (h'.setD (f + m) (riseSum t ((m:ℝ)+1/2) e e1 (s^2) N / ((m:ℝ)+1/2)))
      f (m+1) (fun i => m - 0 ≤ i ∧ i < m+1) (NearDown eps s t m) :=
    (Fill.init (P := fun _ => False) ha (fun _ => id)).set (by omega) hgood (fun j hj => by omega)
  refine wp_forS (fun k (st : ℝ × ℝ × ℝ) h2 =>
    Fill h' h2 f (m+1) (fun i => m - k ≤ i ∧ i < m+1) (NearDown eps s t m) ∧
    st.1 = (m:ℝ) + 1/2 - k ∧ st.2.1 = 1/2*Real.exp (-t*s^2)*s^(2*(m-k)+1) ∧
      NearDown eps s t m (m-k) st.2.2) ⟨F0, by simp, rfl, hgood⟩ ?_ ?_
  · rintro k hk ⟨b, e1', v⟩ h2 ⟨F, hb, he1', hn⟩
    dsimp only at hb he1' hn
    subst hb he1'
    simp only [wp_mbind, wp_st, wp_pure]
    obtain ⟨j, hj⟩ : ∃ j, m - k = j + 1 := ⟨m-k-1, by omega⟩
    have hj2 : m - (k+1) = j := by omega
    have hc : (m:ℝ) + 1/2 - k - 1 = (j:ℝ) + 1/2 := by
      have : (m:ℝ) = k + (j+1) := by
        have : m = k + (j+1) := by omega
        exact_mod_cast this
      rw [this]; ring
    have he2 : 1/2*Real.exp (-t*s^2)*s^(2*(j+1)+1) / s^2 = 1/2*Real.exp (-t*s^2)*s^(2*j+1) := by
      rw [show 2*(j+1)+1 = 2*j+1+2 by ring, pow_add]
      field_simp
    rw [hj] at hn ⊢
    rw [hc, Nat.add_sub_cancel, he2]
    have hjp : (0:ℝ) < (j:ℝ)+1/2 := by positivity
    have hr := boys_rec' s j t
    have hN2 : NearDown eps s t m j ((1/2*Real.exp (-t) - 1/2*Real.exp (-t*s^2)*s^(2*j+1) + t*v)/((j:ℝ)+1/2)) := by
      have e' : boys s j t - (1/2*Real.exp (-t) - 1/2*Real.exp (-t*s^2)*s^(2*j+1) + t*v)/((j:ℝ)+1/2) =
          t/((j:ℝ)+1/2)*(boys s (j+1) t - v) := by
        generalize Real.exp (-t*s^2) = X at hr ⊢
        field_simp at hr ⊢
        linarith
      have h4 : 0 ≤ t/((j:ℝ)+1/2)*(boys s (j+1) t - v) :=
        mul_nonneg (by positivity) (by linarith [hn.1])
      constructor
      · linarith
      · rw [e', Finset.prod_eq_prod_Ico_succ_bot (by omega)]
        have := mul_le_mul_of_nonneg_left hn.2 (show 0 ≤ t/((j:ℝ)+1/2) by positivity)
        linarith
    refine ⟨F.alloc _ (by omega), F.set (by omega) hN2 (fun i hi => by omega), by rw [← hc]; push_cast; ring,
      by rw [hj2], by rw [hj2]; exact hN2⟩
  · rintro b h2 ⟨F, _⟩
    exact ⟨fun i hi => F.vals i ⟨by omega, hi⟩, F.alloc, F.frame, F.int⟩

theorem boys_small {s t : ℝ} (h0 : 0 ≤ s) (h1 : s ≤ 1) (ht : 0 ≤ t) (m : ℕ) :
    boys s m t ≤ Real.exp (-(t*s^2)) := by
  have h : boys s m t ≤ ∫ u in s..1, Real.exp (-(t*s^2)) := by
    unfold boys
    refine intervalIntegral.integral_mono_on h1 (boys_int s _ t) (by simp) fun u hu => ?_
    have hu0 : 0 ≤ u := h0.trans hu.1
    have h2 : u^(2*m) ≤ 1 := pow_le_one₀ hu0 hu.2
    have h3 : Real.exp (-t*u^2) ≤ Real.exp (-(t*s^2)) := by
      apply Real.exp_le_exp.2
      have : s^2 ≤ u^2 := pow_le_pow_left₀ h0 hu.1 2
      nlinarith
    calc u^(2*m) * Real.exp (-t*u^2) ≤ 1 * Real.exp (-(t*s^2)) :=
          mul_le_mul h2 h3 (Real.exp_pos _).le (by norm_num)
      _ = _ := one_mul _
  rw [intervalIntegral.integral_const, smul_eq_mul] at h
  have : 0 < Real.exp (-(t*s^2)) := Real.exp_pos _
  nlinarith

/-- the outcome of `fmt_erfc_like` in each of its branches -/
def ErfcOut (eps s t : ℝ) (m i : ℕ) (v : ℝ) : Prop :=
  (200 < t*s^2 → v = 0 ∧ boys s i t ≤ Real.exp (-200)) ∧
  (t*s^2 ≤ 200 → ∀ q : ℚ, turnoverTable[m]? = some q →
    ((t = 0 ∨ (q:ℝ) ≤ t) → v = boys s i t) ∧ NearDown eps s t m i v)

theorem fmtErfcLike_wp {L : BoysLib ℝ} (hL : LibExact L) {eps t s : ℝ} (he : 0 < eps) (ht : 0 ≤ t)
    (hs0 : 0 < s) (hs1 : s < 1) {m : ℕ} (hm : m < 40) :
    ∃ n0, ∀ fuel, n0 ≤ fuel → ∀ (h : Heap ℝ) (f : Ptr), AllocD h f (m+1) →
    wp (fmtErfcLike L eps fuel f t s m) (fun _ h' => Fill h h' f (m+1) (· < m+1) (ErfcOut eps s t m)) h := by
  obtain ⟨q, hq⟩ := turnoverTable_get m hm
  have hqb : (q:ℝ) ≤ m + 1/2 := by
    have := turnoverTable_bound m q hq
    have h2 : ((q:ℚ):ℝ) ≤ ((m + 1/2 : ℚ) : ℝ) := by exact_mod_cast this
    push_cast at h2
    exact h2
  have hex : ∀ i ≤ m, NearDown eps s t m i (boys s i t) := fun i hi => by
    refine ⟨le_refl _, ?_⟩
    have h1 := boys_nonneg hs1.le m t
    have h2 : 0 ≤ ∏ j ∈ Finset.Ico i m, t/((j:ℝ)+1/2) := Finset.prod_nonneg fun j _ => by positivity
    rw [sub_self]
    positivity
  -- exactness gives the outcome
  have hout : t*s^2 ≤ 200 → ∀ i, i < m+1 → ∀ v, Exact s t i v → ErfcOut eps s t m i v := by
    intro h1 i hi v hv
    rw [Exact] at hv
    subst hv
    exact ⟨fun h2 => absurd h2 (not_lt.2 h1), fun _ _ _ => ⟨fun _ => rfl, hex i (by omega)⟩⟩
  have hfill : t*s^2 ≤ 200 → ∀ h h' f, Fill h h' f (m+1) (· < m+1) (Exact s t) →
      Fill h h' f (m+1) (· < m+1) (ErfcOut eps s t m) := fun h1 h h' f F =>
    ⟨fun i hi => (F.vals i hi).imp fun v hv => ⟨hv.1, hout h1 i hi v hv.2⟩, F.alloc, F.frame, F.int⟩
  have h0 : s ≠ 0 := hs0.ne'
  by_cases hbr : 0 < t ∧ t < q
  · obtain ⟨n0, hn0⟩ := fmt1Erfc_wp hL he ht hs0 hs1 (m := m) (lt_of_lt_of_le hbr.2 hqb)
    refine ⟨n0, fun fuel hf h f ha => ?_⟩
    unfold fmtErfcLike
    rw [if_neg h0]
    dsimp only
    split
    · rename_i hbig
      rw [← pow_two] at hbig
      refine wp_forN (fun k h2 => Fill h h2 f (m+1) (· < k) (ErfcOut eps s t m))
        (Fill.init ha (fun i => by omega)) ?_ (fun _ F => F)
      intro k hk h2 F
      simp only [wp_st]
      refine ⟨F.alloc _ hk, F.set hk ⟨fun _ => ⟨rfl, ?_⟩, fun h3 => absurd hbig (not_lt.2 h3)⟩
        (fun j hj => by omega)⟩
      exact (boys_small hs0.le hs1.le ht k).trans (Real.exp_le_exp.2 (by linarith))
    · rename_i hsm
      rw [← pow_two] at hsm
      rw [if_neg hbr.1.ne']
      simp only [turnover, hq]
      rw [wp_mbind, wp_pure, if_pos hbr.2]
      refine wp_mono (hn0 fuel hf h f ha) fun _ h' F => F.mono fun i v hv => ?_
      refine ⟨fun h3 => absurd h3 hsm, fun _ q' hq' => ⟨fun hor => ?_, hv⟩⟩
      rw [hq] at hq'
      cases hq'
      rcases hor with hor | hor
      · exact absurd hor hbr.1.ne'
      · exact absurd hbr.2 (not_lt.2 hor)
  · refine ⟨0, fun fuel hf h f ha => ?_⟩
    unfold fmtErfcLike
    rw [if_neg h0]
    dsimp only
    split
    · rename_i hbig
      rw [← pow_two] at hbig
      refine wp_forN (fun k h2 => Fill h h2 f (m+1) (· < k) (ErfcOut eps s t m))
        (Fill.init ha (fun i => by omega)) ?_ (fun _ F => F)
      intro k hk h2 F
      simp only [wp_st]
      refine ⟨F.alloc _ hk, F.set hk ⟨fun _ => ⟨rfl, ?_⟩, fun h3 => absurd hbig (not_lt.2 h3)⟩
        (fun j hj => by omega)⟩
      exact (boys_small hs0.le hs1.le ht k).trans (Real.exp_le_exp.2 (by linarith))
    · rename_i hsm
      rw [← pow_two] at hsm
      have hsm' := not_lt.1 hsm
      refine wp_mono (Q := fun _ h' => Fill h h' f (m+1) (· < m+1) (Exact s t)) ?_
        (fun _ h' F => hfill hsm' h h' f F)
      split
      · rename_i ht0
        subst ht0
        simp only [wp_mbind, wp_st]
        refine ⟨by simpa using ha 0 (by omega), ?_⟩
        have F0 : Fill h (h.setD f (1 - s)) f (m+1) (· < 0+1) (Exact s 0) := by
          have := (Fill.init (P := fun _ => False) (Good := Exact s 0) ha (fun _ => id)).set (i := 0)
            (v := 1 - s) (P' := (· < 0+1)) (by omega) (by rw [Exact, boys_zero]; simp) (fun j hj => by omega)
          simpa using this
        refine wp_forS (fun k (e1 : ℝ) h2 => Fill h h2 f (m+1) (· < k+1) (Exact s 0) ∧ e1 = s^(2*k+1))
          ⟨F0, by simp⟩ ?_ (fun _ _ F => F.1)
        rintro k hk e1 h2 ⟨F, rfl⟩
        simp only [wp_mbind, wp_st, wp_pure]
        refine ⟨F.alloc _ (by omega), F.set (by omega) ?_ (fun j hj => by omega), by ring⟩
        rw [Exact, boys_zero]
        push_cast
        ring
      · rename_i ht0
        have htp : 0 < t := lt_of_le_of_ne ht (Ne.symm ht0)
        simp only [turnover, hq]
        rw [wp_mbind, wp_pure, if_neg (fun hc => hbr ⟨htp, hc⟩)]
        simp only [wp_mbind, wp_st, hL.exp, hL.sqrt, hL.erfc, hL.pi]
        refine ⟨by simpa using ha 0 (by omega), ?_⟩
        have hv0 : Real.sqrt Real.pi / 2 / Real.sqrt t * (Spec.erfc (s*Real.sqrt t) - Spec.erfc (Real.sqrt t)) =
            boys s 0 t := by
          rw [boys_erf _ htp]
          simp only [Spec.erfc]
          ring
        rw [hv0]
        have F0 : Fill h (h.setD f (boys s 0 t)) f (m+1) (· < 0+1) (Exact s t) := by
          have := (Fill.init (P := fun _ => False) (Good := Exact s t) ha (fun _ => id)).set (i := 0)
            (v := boys s 0 t) (P' := (· < 0+1)) (by omega) rfl (fun j hj => by omega)
          simpa using this
        refine wp_forS (fun k (p : ℝ × ℝ) h2 => Fill h h2 f (m+1) (· < k+1) (Exact s t) ∧
          p.1 = boys s k t ∧ p.2 = Real.exp (-t*s^2) * s^(2*k+1))
          ⟨F0, rfl, by simp [pow_two]⟩ ?_ (fun _ _ F => F.1)
        rintro k hk ⟨v, e1⟩ h2 ⟨F, hv, he1⟩
        dsimp only at hv he1
        subst hv he1
        simp only [wp_mbind, wp_st, wp_pure]
        have hr : 1/2/t*((2*(k:ℝ)+1)*boys s k t - Real.exp (-t) + Real.exp (-t*s^2)*s^(2*k+1)) =
            boys s (k+1) t := by
          have := boys_rec s k t
          generalize Real.exp (-t*s^2) = X at this ⊢
          field_simp
          linarith
        refine ⟨F.alloc _ (by omega), F.set (by omega) hr (fun j hj => by omega), hr, by ring⟩

end Verif.Lemmas
