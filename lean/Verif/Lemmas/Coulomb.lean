import Verif.Spec.Coulomb
import Verif.Lemmas.Gauss
import Mathlib.MeasureTheory.Function.Jacobian
import Mathlib.MeasureTheory.Integral.Prod
import Mathlib.MeasureTheory.Integral.IntervalIntegral.IntegrationByParts
import Mathlib.Analysis.SpecialFunctions.Sqrt
import Mathlib.Topology.Algebra.Polynomial

/-! Integrals of products of Gaussians with the potential of a point or Gaussian charge. -/
namespace Verif.Lemmas
open Verif.Spec MeasureTheory Polynomial

/-! ### Moments of the product with `e^(-V(x-C)²)` as polynomials -/

/-- normalised moments of `x^k` for the Gaussian with exponent `p/(1-ρ)` around `P + ρ(C-P)`, as polynomials in `ρ` -/
noncomputable def redPow (p P c : ℝ) : ℕ → ℝ[X]
  | 0 => 1
  | 1 => C P + X * C (c - P)
  | k+2 => C ((k+1 : ℕ) : ℝ) * (C (1/(2*p)) * (1 - X)) * redPow p P c k + (C P + X * C (c - P)) * redPow p P c (k+1)

theorem redPow_succ (p P c : ℝ) (k : ℕ) : redPow p P c (k+1) =
    C (k : ℝ) * (C (1/(2*p)) * (1 - X)) * redPow p P c (k-1) + (C P + X * C (c - P)) * redPow p P c k := by
  cases k with
  | zero => simp [redPow]
  | succ k => rw [redPow]; rfl

theorem redPow_degree (p P c : ℝ) (k : ℕ) : (redPow p P c k).natDegree ≤ k := by
  have h1 : (C P + X * C (c - P)).natDegree ≤ 1 := by
    refine (natDegree_add_le _ _).trans (max_le (by simp) ?_)
    refine natDegree_mul_le.trans ?_
    simp
  have h2 : ∀ a : ℝ, (C a * (C (1/(2*p)) * (1 - X))).natDegree ≤ 1 := by
    intro a
    rw [← mul_assoc, ← C_mul]
    refine natDegree_mul_le.trans ?_
    rw [natDegree_C, zero_add]
    refine (natDegree_sub_le _ _).trans ?_
    simp
  induction k using Nat.strong_induction_on with
  | _ k ih =>
    match k with
    | 0 => simp [redPow]
    | 1 => exact h1
    | k+2 =>
      rw [redPow]
      refine (natDegree_add_le _ _).trans (max_le ?_ ?_)
      · refine natDegree_mul_le.trans ?_
        have := h2 ((k+1 : ℕ) : ℝ)
        have := ih k (by omega)
        omega
      · refine natDegree_mul_le.trans ?_
        have := ih (k+1) (by omega)
        omega

/-- the same for a polynomial -/
noncomputable def red (p P c : ℝ) (q : ℝ[X]) : ℝ[X] :=
  ∑ k ∈ Finset.range (q.natDegree + 1), C (q.coeff k) * redPow p P c k

theorem red_degree (p P c : ℝ) (q : ℝ[X]) : (red p P c q).natDegree ≤ q.natDegree := by
  refine natDegree_sum_le_of_forall_le _ _ (fun k hk => ?_)
  rw [Finset.mem_range] at hk
  refine (natDegree_C_mul_le _ _).trans ((redPow_degree p P c k).trans (by omega))

theorem moment_sum {p : ℝ} (hp : 0 < p) (P : ℝ) {ι : Type} (s : Finset ι) (q : ι → ℝ[X]) :
    moment p P (∑ i ∈ s, q i) = ∑ i ∈ s, moment p P (q i) := by
  classical
  induction s using Finset.induction_on with
  | empty => simp [moment]
  | insert a s ha ih => rw [Finset.sum_insert ha, Finset.sum_insert ha, moment_add hp, ih]

theorem moment_redPow {p ρ : ℝ} (hp : 0 < p) (hρ : ρ < 1) (P c : ℝ) (k : ℕ) :
    moment (p/(1-ρ)) (P + ρ*(c-P)) (X^k) = Real.sqrt (Real.pi/(p/(1-ρ))) * (redPow p P c k).eval ρ := by
  have hp' : 0 < p/(1-ρ) := div_pos hp (by linarith)
  have hrec : ∀ k : ℕ, moment (p/(1-ρ)) (P + ρ*(c-P)) (X^(k+1)) =
      (k:ℝ) * (1/(2*(p/(1-ρ)))) * moment (p/(1-ρ)) (P + ρ*(c-P)) (X^(k-1)) +
      (P + ρ*(c-P)) * moment (p/(1-ρ)) (P + ρ*(c-P)) (X^k) := by
    intro k
    have := moment_vrr hp' (P + ρ*(c-P)) 0 k
    simpa using this
  have hr : 1/(2*(p/(1-ρ))) = 1/(2*p)*(1-ρ) := by
    have : 1 - ρ ≠ 0 := by linarith
    field_simp
  induction k using Nat.strong_induction_on with
  | _ k ih =>
    cases k with
    | zero =>
      rw [pow_zero, moment_one]
      simp [redPow]
    | succ k =>
      rw [hrec k, redPow_succ, ih k (by omega), hr]
      rw [show moment (p/(1-ρ)) (P + ρ*(c-P)) (X^(k-1)) = Real.sqrt (Real.pi/(p/(1-ρ))) * (redPow p P c (k-1)).eval ρ from
        ih (k-1) (by omega)]
      simp only [eval_add, eval_mul, eval_C, eval_sub, eval_one, eval_X]
      ring

theorem moment_red {p ρ : ℝ} (hp : 0 < p) (hρ : ρ < 1) (P c : ℝ) (q : ℝ[X]) :
    moment (p/(1-ρ)) (P + ρ*(c-P)) q = Real.sqrt (Real.pi/(p/(1-ρ))) * (red p P c q).eval ρ := by
  have hp' : 0 < p/(1-ρ) := div_pos hp (by linarith)
  conv_lhs => rw [q.as_sum_range_C_mul_X_pow]
  rw [moment_sum hp']
  unfold red
  rw [eval_finset_sum, Finset.mul_sum]
  refine Finset.sum_congr rfl (fun k _ => ?_)
  rw [moment_C_mul, moment_redPow hp hρ, eval_mul, eval_C]
  ring

/-- one direction: a polynomial times two Gaussians, the second with exponent `pρ/(1-ρ)` -/
theorem int1_red {p ρ : ℝ} (hp : 0 < p) (h0 : 0 ≤ ρ) (hρ : ρ < 1) (P c : ℝ) (q : ℝ[X]) :
    ∫ x, q.eval x * Real.exp (-p*(x-P)^2) * Real.exp (-(p*ρ/(1-ρ))*(x-c)^2) =
      Real.exp (-(p*ρ)*(P-c)^2) * (Real.sqrt (Real.pi/p) * Real.sqrt (1-ρ) * (red p P c q).eval ρ) := by
  have h1 : 0 < 1 - ρ := by linarith
  have hs : p + p*ρ/(1-ρ) = p/(1-ρ) := by field_simp; ring
  have hne : p + p*ρ/(1-ρ) ≠ 0 := by rw [hs]; positivity
  have hc : (p*P + p*ρ/(1-ρ)*c)/(p + p*ρ/(1-ρ)) = P + ρ*(c-P) := by
    rw [hs]; field_simp; ring
  have hm : p*(p*ρ/(1-ρ))/(p + p*ρ/(1-ρ)) = p*ρ := by
    rw [hs]; field_simp
  have hsq : Real.sqrt (Real.pi/(p/(1-ρ))) = Real.sqrt (Real.pi/p) * Real.sqrt (1-ρ) := by
    rw [← Real.sqrt_mul (by positivity)]
    congr 1
    field_simp
  rw [← hsq, ← moment_red hp hρ]
  unfold moment
  rw [← integral_const_mul]
  congr 1
  funext x
  have := gauss_product hne P c x
  rw [hc, hm, hs] at this
  linear_combination q.eval x * this

/-! ### Three dimensions -/

/-- polynomial times Gaussian with exponent `p` around `P` -/
noncomputable def pg (p : ℝ) (P : Fin 3 → ℝ) (q : Fin 3 → ℝ[X]) (r : Fin 3 → ℝ) : ℝ :=
  ∏ k, ((q k).eval (r k) * Real.exp (-p*(r k - P k)^2))

/-- `e^(-V|r-C|²)` -/
noncomputable def gV (V : ℝ) (c r : Fin 3 → ℝ) : ℝ := Real.exp (-V * ∑ k, (r k - c k)^2)

theorem gV_prod (V : ℝ) (c r : Fin 3 → ℝ) : gV V c r = ∏ k, Real.exp (-V*(r k - c k)^2) := by
  unfold gV
  rw [← Real.exp_sum, Finset.mul_sum]

theorem integrable_pg_gV {p V : ℝ} (hp : 0 < p) (hV : 0 ≤ V) (P c : Fin 3 → ℝ) (q : Fin 3 → ℝ[X]) :
    Integrable fun r => pg p P q r * gV V c r := by
  have : Integrable (fun r : Fin 3 → ℝ => ∏ k, ((q k).eval (r k) * Real.exp (-p*(r k - P k)^2) * Real.exp (-V*(r k - c k)^2))) := by
    refine Integrable.fintype_prod (μ := fun _ => volume) (f := fun k x => (q k).eval x * Real.exp (-p*(x - P k)^2) * Real.exp (-V*(x - c k)^2)) (fun k => ?_)
    have hne : p + V ≠ 0 := by positivity
    have h1 := (integrable_poly_gauss (p := p + V) (by positivity) ((p*P k + V*c k)/(p+V)) (q k)).const_mul
      (Real.exp (-(p*V/(p+V))*(P k - c k)^2))
    refine h1.congr (Filter.Eventually.of_forall fun x => ?_)
    have := gauss_product hne (P k) (c k) x
    dsimp only
    linear_combination (-(q k).eval x) * this
  refine this.congr (Filter.Eventually.of_forall fun r => ?_)
  dsimp only
  rw [Finset.prod_mul_distrib, gV_prod]
  rfl

theorem int_pg_gV {p ρ : ℝ} (hp : 0 < p) (h0 : 0 ≤ ρ) (hρ : ρ < 1) (P c : Fin 3 → ℝ) (q : Fin 3 → ℝ[X]) :
    ∫ r, pg p P q r * gV (p*ρ/(1-ρ)) c r =
      Real.exp (-(p*ρ) * ∑ k, (P k - c k)^2) * (Real.sqrt (Real.pi/p) * Real.sqrt (1-ρ))^3 *
        ∏ k, (red p (P k) (c k) (q k)).eval ρ := by
  have : ∀ r, pg p P q r * gV (p*ρ/(1-ρ)) c r =
      ∏ k, ((q k).eval (r k) * Real.exp (-p*(r k - P k)^2) * Real.exp (-(p*ρ/(1-ρ))*(r k - c k)^2)) := by
    intro r
    rw [Finset.prod_mul_distrib, gV_prod]
    rfl
  simp_rw [this]
  rw [integral_fintype_prod_volume_eq_prod (fun k x => (q k).eval x * Real.exp (-p*(x - P k)^2) *
    Real.exp (-(p*ρ/(1-ρ))*(x - c k)^2))]
  simp_rw [int1_red hp h0 hρ]
  rw [Finset.prod_mul_distrib, Finset.prod_mul_distrib, ← Real.exp_sum, Finset.mul_sum, Finset.prod_const]
  simp only [Finset.card_univ, Fintype.card_fin]
  ring

/-- weight of the substitution -/
noncomputable def gk (p τ t : ℝ) : ℝ := Real.sqrt p * τ / Real.sqrt (1 - τ^2*t^2)^3
/-- exponent of the substitution -/
noncomputable def gE (p τ t : ℝ) : ℝ := p*(τ^2*t^2)/(1-τ^2*t^2)

/-- the potential as an integral over Gaussians, without the factor `2/√π` -/
noncomputable def potT (p τ : ℝ) (c r : Fin 3 → ℝ) : ℝ := ∫ t in Set.Ioo (0:ℝ) 1, gk p τ t * gV (gE p τ t) c r

theorem rho_bounds {τ t : ℝ} (h0 : 0 < τ) (h1 : τ ≤ 1) (ht : t ∈ Set.Ioo (0:ℝ) 1) : 0 ≤ τ^2*t^2 ∧ τ^2*t^2 < 1 := by
  obtain ⟨a, b⟩ := ht
  refine ⟨by positivity, ?_⟩
  have h2 : τ*t < 1 := by nlinarith
  have h3 : 0 ≤ τ*t := by positivity
  nlinarith

theorem int_kern {p τ t : ℝ} (hp : 0 < p) (h0 : 0 < τ) (h1 : τ ≤ 1) (ht : t ∈ Set.Ioo (0:ℝ) 1) (P c : Fin 3 → ℝ)
    (q : Fin 3 → ℝ[X]) :
    ∫ r, pg p P q r * (gk p τ t * gV (gE p τ t) c r) =
      Real.sqrt p * τ * Real.sqrt (Real.pi/p)^3 * (Real.exp (-(p*(τ^2*t^2)) * ∑ k, (P k - c k)^2) *
        ∏ k, (red p (P k) (c k) (q k)).eval (τ^2*t^2)) := by
  obtain ⟨ha, hb⟩ := rho_bounds h0 h1 ht
  have : ∀ r, pg p P q r * (gk p τ t * gV (gE p τ t) c r) = gk p τ t * (pg p P q r * gV (gE p τ t) c r) := fun r => by ring
  simp_rw [this]
  rw [integral_const_mul]
  unfold gE
  rw [int_pg_gV hp ha hb]
  unfold gk
  have hs : 0 < Real.sqrt (1 - τ^2*t^2) := Real.sqrt_pos.2 (by linarith)
  field_simp

theorem pg_norm_le (p : ℝ) (P : Fin 3 → ℝ) (q : Fin 3 → ℝ[X]) (r : Fin 3 → ℝ) :
    ‖pg p P q r‖ ≤ pg p P (fun k => 1 + (q k)^2) r := by
  unfold pg
  rw [Real.norm_eq_abs, Finset.abs_prod]
  refine Finset.prod_le_prod (fun k _ => abs_nonneg _) (fun k _ => ?_)
  rw [abs_mul, abs_of_pos (Real.exp_pos _)]
  refine mul_le_mul_of_nonneg_right ?_ (Real.exp_pos _).le
  simp only [eval_add, eval_one, eval_pow]
  rw [abs_le]
  constructor <;> nlinarith [sq_nonneg ((q k).eval (r k) - 1), sq_nonneg ((q k).eval (r k) + 1)]

theorem gk_nonneg {p τ t : ℝ} (h0 : 0 < τ) : 0 ≤ gk p τ t := by unfold gk; positivity

theorem measurable_kern (p τ : ℝ) (P c : Fin 3 → ℝ) (q : Fin 3 → ℝ[X]) :
    Measurable fun z : (Fin 3 → ℝ) × ℝ => pg p P q z.1 * (gk p τ z.2 * gV (gE p τ z.2) c z.1) := by
  have hpg : Measurable fun z : (Fin 3 → ℝ) × ℝ => pg p P q z.1 := by
    unfold pg
    refine Finset.measurable_prod _ (fun k _ => ?_)
    refine Measurable.mul ?_ ?_
    · exact (q k).continuous.measurable.comp ((measurable_pi_apply k).comp measurable_fst)
    · fun_prop
  refine hpg.mul (Measurable.mul ?_ ?_)
  · unfold gk; fun_prop
  · unfold gV gE; fun_prop

theorem integrable_kern {p τ : ℝ} (hp : 0 < p) (h0 : 0 < τ) (h1 : τ ≤ 1) (P c : Fin 3 → ℝ) (q : Fin 3 → ℝ[X]) :
    Integrable (fun z : (Fin 3 → ℝ) × ℝ => pg p P q z.1 * (gk p τ z.2 * gV (gE p τ z.2) c z.1))
      (volume.prod (volume.restrict (Set.Ioo 0 1))) := by
  have hm := (measurable_kern p τ P c q).aestronglyMeasurable (μ := volume.prod (volume.restrict (Set.Ioo 0 1)))
  have hi : ∀ t ∈ Set.Ioo (0:ℝ) 1, ∀ q : Fin 3 → ℝ[X],
      Integrable fun r => pg p P q r * (gk p τ t * gV (gE p τ t) c r) := by
    intro t ht q
    obtain ⟨ha, hb⟩ := rho_bounds h0 h1 ht
    have hV : 0 ≤ gE p τ t := by unfold gE; exact div_nonneg (mul_nonneg hp.le ha) (by linarith)
    refine ((integrable_pg_gV hp hV P c q).const_mul (gk p τ t)).congr (Filter.Eventually.of_forall fun r => ?_)
    dsimp only; ring
  rw [integrable_prod_iff' hm]
  constructor
  · rw [ae_restrict_iff' measurableSet_Ioo]
    exact Filter.Eventually.of_forall fun t ht => hi t ht q
  · let G : ℝ → ℝ := fun t => Real.sqrt p * τ * Real.sqrt (Real.pi/p)^3 * (Real.exp (-(p*(τ^2*t^2)) * ∑ k, (P k - c k)^2) *
        ∏ k, (red p (P k) (c k) (1 + (q k)^2)).eval (τ^2*t^2))
    have hG : Continuous G := by
      refine Continuous.mul continuous_const (Continuous.mul (by fun_prop) ?_)
      refine continuous_finset_prod _ (fun k _ => ?_)
      exact (red p (P k) (c k) (1 + (q k)^2)).continuous.comp (by fun_prop)
    have hGi : Integrable G (volume.restrict (Set.Ioo 0 1)) :=
      (hG.integrableOn_Icc (a := 0) (b := 1)).mono_set Set.Ioo_subset_Icc_self
    refine hGi.mono' hm.norm.prod_swap.integral_prod_right' ?_
    rw [ae_restrict_iff' measurableSet_Ioo]
    refine Filter.Eventually.of_forall fun t ht => ?_
    rw [Real.norm_eq_abs, abs_of_nonneg (integral_nonneg fun r => norm_nonneg _)]
    refine le_trans ?_ (le_of_eq (int_kern hp h0 h1 ht P c (fun k => 1 + (q k)^2)))
    refine integral_mono (hi t ht q).norm (hi t ht _) (fun r => ?_)
    dsimp only
    rw [norm_mul, Real.norm_eq_abs (gk p τ t * _), abs_of_nonneg (mul_nonneg (gk_nonneg h0) (show 0 ≤ gV _ c r from (Real.exp_pos _).le))]
    exact mul_le_mul_of_nonneg_right (pg_norm_le p P q r) (mul_nonneg (gk_nonneg h0) (Real.exp_pos _).le)

/-- the integral of a polynomial times Gaussian with the potential -/
theorem int_pg_potT {p τ : ℝ} (hp : 0 < p) (h0 : 0 < τ) (h1 : τ ≤ 1) (P c : Fin 3 → ℝ) (q : Fin 3 → ℝ[X]) :
    Integrable (fun r => pg p P q r * potT p τ c r) ∧
    ∫ r, pg p P q r * potT p τ c r = Real.sqrt p * τ * Real.sqrt (Real.pi/p)^3 *
      ∫ t in (0:ℝ)..1, (Real.exp (-(p*(τ^2*t^2)) * ∑ k, (P k - c k)^2) *
        ∏ k, (red p (P k) (c k) (q k)).eval (τ^2*t^2)) := by
  have hI := integrable_kern hp h0 h1 P c q
  have hr : ∀ r, pg p P q r * potT p τ c r = ∫ t in Set.Ioo (0:ℝ) 1, pg p P q r * (gk p τ t * gV (gE p τ t) c r) := by
    intro r
    unfold potT
    rw [integral_const_mul]
  constructor
  · simp_rw [hr]
    exact hI.integral_prod_left
  · simp_rw [hr]
    rw [integral_integral_swap hI]
    rw [intervalIntegral.integral_of_le zero_le_one, integral_Ioc_eq_integral_Ioo, ← integral_const_mul]
    refine setIntegral_congr_fun measurableSet_Ioo (fun t ht => ?_)
    exact int_kern hp h0 h1 ht P c q

/-! ### The potential -/

theorem gv_hasDeriv {p τ t : ℝ} (ht : 0 < 1 - τ^2*t^2) :
    HasDerivAt (fun t => Real.sqrt p * (τ*t) / Real.sqrt (1 - τ^2*t^2)) (gk p τ t) t := by
  have hs : 0 < Real.sqrt (1 - τ^2*t^2) := Real.sqrt_pos.2 ht
  have h1 : HasDerivAt (fun t : ℝ => 1 - τ^2*t^2) (-(τ^2*(2*t))) t := by
    have := ((hasDerivAt_pow 2 t).const_mul (τ^2)).const_sub 1
    refine this.congr_deriv ?_
    simp
  have h2 := h1.sqrt ht.ne'
  have h3 : HasDerivAt (fun t : ℝ => Real.sqrt p * (τ*t)) (Real.sqrt p * τ) t := by
    have := ((hasDerivAt_id t).const_mul τ).const_mul (Real.sqrt p)
    refine this.congr_deriv ?_
    simp
  refine (h3.div h2 hs.ne').congr_deriv ?_
  unfold gk
  have hsq : Real.sqrt (1 - τ^2*t^2)^2 = 1 - τ^2*t^2 := Real.sq_sqrt ht.le
  generalize Real.sqrt (1 - τ^2*t^2) = y at *
  field_simp
  have : τ^2*t^2 = 1 - y^2 := by linarith
  linear_combination (Real.sqrt p * τ) * this + 0

theorem gv_sq {p τ t : ℝ} (hp : 0 ≤ p) (ht : 0 < 1 - τ^2*t^2) :
    (Real.sqrt p * (τ*t) / Real.sqrt (1 - τ^2*t^2))^2 = gE p τ t := by
  unfold gE
  rw [div_pow, mul_pow, Real.sq_sqrt hp, Real.sq_sqrt ht.le]
  ring

/-- away from the charge the potential of a point charge is the integral over Gaussians -/
theorem potT_point {p : ℝ} (hp : 0 < p) {c r : Fin 3 → ℝ} (hr : 0 < ∑ k, (r k - c k)^2) :
    2 / Real.sqrt Real.pi * potT p 1 c r = coulomb c r := by
  let f : ℝ → ℝ := fun t => Real.sqrt p * (1*t) / Real.sqrt (1 - 1^2*t^2)
  have hb : ∀ t ∈ Set.Ioo (0:ℝ) 1, 0 < 1 - (1:ℝ)^2*t^2 := fun t ht => by
    have := (rho_bounds one_pos (le_refl (1:ℝ)) ht).2; linarith
  have hd : ∀ t ∈ Set.Ioo (0:ℝ) 1, HasDerivWithinAt f (gk p 1 t) (Set.Ioo 0 1) t :=
    fun t ht => (gv_hasDeriv (hb t ht)).hasDerivWithinAt
  have hsp : 0 < Real.sqrt p := Real.sqrt_pos.2 hp
  have hinj : Set.InjOn f (Set.Ioo 0 1) := by
    intro t ht t' ht' h
    have h2 : (f t)^2 = (f t')^2 := by rw [h]
    have e1 := gv_sq hp.le (hb t ht)
    have e2 := gv_sq hp.le (hb t' ht')
    have h3 : gE p 1 t = gE p 1 t' := by rw [← e1, ← e2]; exact h2
    unfold gE at h3
    have b1 := hb t ht
    have b2 := hb t' ht'
    rw [div_eq_div_iff b1.ne' b2.ne'] at h3
    have h4 : p * (t^2 - t'^2) = 0 := by linear_combination h3
    have h5 : t^2 = t'^2 := by
      rcases mul_eq_zero.1 h4 with h | h
      · exact absurd h hp.ne'
      · linarith
    exact (pow_left_inj₀ ht.1.le ht'.1.le two_ne_zero).1 h5
  have himg : f '' Set.Ioo 0 1 = Set.Ioi 0 := by
    ext v
    constructor
    · rintro ⟨t, ht, rfl⟩
      have := Real.sqrt_pos.2 (hb t ht)
      show 0 < Real.sqrt p * (1*t) / Real.sqrt (1 - 1^2*t^2)
      have := ht.1
      positivity
    · intro hv
      have hv : 0 < v := hv
      have hpv : 0 < p + v^2 := by positivity
      have hs : 0 < Real.sqrt (p + v^2) := Real.sqrt_pos.2 hpv
      have hss : Real.sqrt (p + v^2)^2 = p + v^2 := Real.sq_sqrt hpv.le
      have hlt : v < Real.sqrt (p + v^2) := by
        refine Real.lt_sqrt_of_sq_lt ?_; linarith
      refine ⟨v / Real.sqrt (p+v^2), ⟨by positivity, (div_lt_one hs).2 hlt⟩, ?_⟩
      show Real.sqrt p * (1*(v / Real.sqrt (p+v^2))) / Real.sqrt (1 - 1^2*(v / Real.sqrt (p+v^2))^2) = v
      have : 1 - 1^2*(v / Real.sqrt (p+v^2))^2 = p / (p+v^2) := by
        rw [div_pow, hss]; field_simp; ring
      rw [this, Real.sqrt_div hp.le]
      field_simp
  have key := integral_image_eq_integral_abs_deriv_smul measurableSet_Ioo hd hinj
    (fun x => Real.exp (-(∑ k, (r k - c k)^2) * x^2))
  rw [himg, integral_gaussian_Ioi] at key
  have hpt : potT p 1 c r = ∫ x in Set.Ioo (0:ℝ) 1, |gk p 1 x| • Real.exp (-(∑ k, (r k - c k)^2) * f x^2) := by
    unfold potT
    refine setIntegral_congr_fun measurableSet_Ioo (fun t ht => ?_)
    rw [abs_of_nonneg (gk_nonneg one_pos), smul_eq_mul, show f t^2 = gE p 1 t from gv_sq hp.le (hb t ht)]
    unfold gV
    congr 2; ring
  rw [hpt, ← key]
  unfold coulomb
  have h2 : 0 < Real.sqrt Real.pi := Real.sqrt_pos.2 Real.pi_pos
  have h3 := Real.sqrt_pos.2 hr
  rw [Real.sqrt_div Real.pi_pos.le]
  field_simp

theorem sq_dist_pos {c r : Fin 3 → ℝ} (h : r ≠ c) : 0 < ∑ k, (r k - c k)^2 := by
  have h0 : 0 ≤ ∑ k, (r k - c k)^2 := Finset.sum_nonneg fun k _ => sq_nonneg _
  refine lt_of_le_of_ne h0 (fun he => h ?_)
  funext k
  have := (Finset.sum_eq_zero_iff_of_nonneg (fun k _ => sq_nonneg (r k - c k))).1 he.symm k (Finset.mem_univ _)
  have := pow_eq_zero_iff (two_ne_zero) |>.1 this
  linarith

/-- the same for almost all points -/
theorem potT_point_ae {p : ℝ} (hp : 0 < p) (c : Fin 3 → ℝ) :
    ∀ᵐ r : Fin 3 → ℝ, coulomb c r = 2 / Real.sqrt Real.pi * potT p 1 c r := by
  have : ∀ᵐ r : Fin 3 → ℝ, r ≠ c := by
    rw [ae_iff]
    simp
  filter_upwards [this] with r hr
  exact (potT_point hp (sq_dist_pos hr)).symm

theorem red_one (p P c : ℝ) : red p P c 1 = 1 := by
  unfold red
  simp [redPow]

/-- potential of a Gaussian charge -/
theorem gauss_potential {ζ : ℝ} (hζ : 0 < ζ) (c r : Fin 3 → ℝ) :
    potential ζ c r = 2 / Real.sqrt Real.pi * Real.sqrt ζ * ∫ t in (0:ℝ)..1, Real.exp (-(ζ*t^2) * ∑ k, (r k - c k)^2) := by
  unfold potential
  rw [if_pos hζ]
  have h1 : ∫ r', gaussCharge ζ c r' * coulomb r' r = (ζ/Real.pi)^(3/2:ℝ) * (2 / Real.sqrt Real.pi) *
      ∫ r', pg ζ c (fun _ => 1) r' * potT ζ 1 r r' := by
    rw [← integral_const_mul]
    refine integral_congr_ae ?_
    filter_upwards [potT_point_ae hζ r] with r' hr'
    have hsym : coulomb r' r = coulomb r r' := by
      unfold coulomb
      congr 3
      funext k
      ring
    rw [hsym, hr']
    unfold gaussCharge pg
    simp only [eval_one, one_mul]
    rw [← Real.exp_sum, Finset.mul_sum]
    ring
  rw [h1, (int_pg_potT hζ one_pos (le_refl 1) c r (fun _ => 1)).2]
  have h2 : ∀ t : ℝ, Real.exp (-(ζ*(1^2*t^2)) * ∑ k, (c k - r k)^2) * ∏ k, (red ζ (c k) (r k) 1).eval (1^2*t^2) =
      Real.exp (-(ζ*t^2) * ∑ k, (r k - c k)^2) := by
    intro t
    simp only [red_one, eval_one, Finset.prod_const_one, mul_one, one_pow, one_mul]
    congr 2
    refine Finset.sum_congr rfl (fun k _ => ?_)
    ring
  simp_rw [h2]
  have h3 : (ζ/Real.pi)^(3/2:ℝ) * Real.sqrt (Real.pi/ζ)^3 = 1 := by
    have e : (ζ/Real.pi)^(3/2:ℝ) = Real.sqrt (ζ/Real.pi)^3 := by
      rw [Real.sqrt_eq_rpow, ← Real.rpow_natCast, ← Real.rpow_mul (by positivity)]
      norm_num
    rw [e, ← mul_pow, ← Real.sqrt_mul (by positivity)]
    rw [show ζ/Real.pi*(Real.pi/ζ) = 1 by field_simp, Real.sqrt_one, one_pow]
  generalize (∫ t in (0:ℝ)..1, Real.exp (-(ζ*t^2) * ∑ k, (r k - c k)^2)) = I
  linear_combination (2 / Real.sqrt Real.pi * Real.sqrt ζ * I) * h3

/-- the integral over Gaussians for a Gaussian charge -/
theorem potT_gauss {p ζ : ℝ} (hp : 0 < p) (hζ : 0 < ζ) (c r : Fin 3 → ℝ) :
    2 / Real.sqrt Real.pi * potT p (Real.sqrt (ζ/(p+ζ))) c r = potential ζ c r := by
  rw [gauss_potential hζ]
  let τ := Real.sqrt (ζ/(p+ζ))
  have hτ : τ^2 = ζ/(p+ζ) := Real.sq_sqrt (by positivity)
  have hτ0 : 0 < τ := Real.sqrt_pos.2 (by positivity)
  have hb : ∀ t ∈ Set.uIcc (0:ℝ) 1, 0 < 1 - τ^2*t^2 := by
    intro t ht
    rw [Set.uIcc_of_le zero_le_one] at ht
    have h1 : t^2 ≤ 1 := by nlinarith [ht.1, ht.2]
    have h2 : ζ/(p+ζ) < 1 := by rw [div_lt_one (by positivity)]; linarith
    have h3 : 0 ≤ ζ/(p+ζ) := by positivity
    rw [hτ]
    nlinarith
  let S := ∑ k, (r k - c k)^2
  have key := intervalIntegral.integral_comp_mul_deriv (f := fun t => Real.sqrt p * (τ*t) / Real.sqrt (1 - τ^2*t^2))
    (f' := gk p τ) (g := fun x => Real.exp (-S*x^2)) (fun t ht => gv_hasDeriv (hb t ht)) (by
      refine ContinuousOn.div (by fun_prop) (by fun_prop) (fun t ht => ?_)
      have := Real.sqrt_pos.2 (hb t ht)
      positivity) (by fun_prop)
  have hf1 : Real.sqrt p * (τ*1) / Real.sqrt (1 - τ^2*1^2) = Real.sqrt ζ := by
    have : 1 - τ^2*1^2 = p/(p+ζ) := by rw [hτ]; field_simp; ring
    rw [this]
    show Real.sqrt p * (Real.sqrt (ζ/(p+ζ))*1) / _ = _
    rw [Real.sqrt_div hζ.le, Real.sqrt_div hp.le]
    have := Real.sqrt_pos.2 hp
    have := Real.sqrt_pos.2 (show 0 < p + ζ by positivity)
    field_simp
  have hpt : potT p τ c r = ∫ t in (0:ℝ)..1, ((fun x => Real.exp (-S*x^2)) ∘
      fun t => Real.sqrt p * (τ*t) / Real.sqrt (1 - τ^2*t^2)) t * gk p τ t := by
    unfold potT
    rw [intervalIntegral.integral_of_le zero_le_one, integral_Ioc_eq_integral_Ioo]
    refine setIntegral_congr_fun measurableSet_Ioo (fun t ht => ?_)
    dsimp only [Function.comp]
    rw [gv_sq hp.le (hb t (by rw [Set.uIcc_of_le zero_le_one]; exact Set.Ioo_subset_Icc_self ht))]
    unfold gV
    rw [mul_comm]
    congr 2; ring
  have hsc := intervalIntegral.mul_integral_comp_mul_left (a := 0) (b := 1) (f := fun x => Real.exp (-S*x^2)) (Real.sqrt ζ)
  have hpow : ∀ t : ℝ, Real.exp (-S*(Real.sqrt ζ * t)^2) = Real.exp (-(ζ*t^2) * S) := by
    intro t
    rw [mul_pow, Real.sq_sqrt hζ.le]
    congr 1; ring
  simp_rw [hpow, mul_zero, mul_one] at hsc
  show 2 / Real.sqrt Real.pi * potT p τ c r = _
  rw [hpt, key]
  rw [hf1, mul_zero, mul_zero, zero_div, mul_assoc]
  exact congrArg _ hsc.symm

end Verif.Lemmas
