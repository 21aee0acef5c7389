import Verif.Spec.Gauss
import Mathlib.Analysis.SpecialFunctions.Gaussian.GaussianIntegral
import Mathlib.MeasureTheory.Integral.IntegralEqImproper
import Mathlib.Algebra.Polynomial.Derivative
import Mathlib.Analysis.Calculus.Deriv.Polynomial
import Mathlib.Tactic.FieldSimp
import Mathlib.Tactic.LinearCombination
import Mathlib.Tactic.Positivity
import Mathlib.Tactic.NormNum

namespace Verif.Lemmas
open Verif.Spec MeasureTheory Polynomial

/-- `∫ q(x) e^(-p (x-P)²) dx` for a polynomial `q` -/
noncomputable def moment (p P : ℝ) (q : ℝ[X]) : ℝ := ∫ x, q.eval x * Real.exp (-p*(x-P)^2)

theorem integrable_pow_gauss {p : ℝ} (hp : 0 < p) (n : ℕ) :
    Integrable fun x : ℝ => x^n * Real.exp (-p*x^2) := by
  have := integrable_rpow_mul_exp_neg_mul_sq hp (s := n) (by linarith [(Nat.cast_nonneg n : (0:ℝ) ≤ n)])
  simpa only [Real.rpow_natCast] using this

theorem integrable_poly_gauss0 {p : ℝ} (hp : 0 < p) (q : ℝ[X]) :
    Integrable fun x : ℝ => q.eval x * Real.exp (-p*x^2) := by
  induction q using Polynomial.induction_on' with
  | add q r hq hr =>
    have := hq.add hr
    refine this.congr (Filter.Eventually.of_forall fun x => ?_)
    simp [Polynomial.eval_add, add_mul]
  | monomial n c =>
    have := (integrable_pow_gauss hp n).const_mul c
    refine this.congr (Filter.Eventually.of_forall fun x => ?_)
    simp [Polynomial.eval_monomial, mul_assoc]

theorem integrable_poly_gauss {p : ℝ} (hp : 0 < p) (P : ℝ) (q : ℝ[X]) :
    Integrable fun x : ℝ => q.eval x * Real.exp (-p*(x-P)^2) := by
  have h := (integrable_poly_gauss0 hp (q.comp (X + C P))).comp_sub_right P
  refine h.congr (Filter.Eventually.of_forall fun x => ?_)
  simp [Polynomial.eval_comp]

theorem moment_add {p : ℝ} (hp : 0 < p) (P : ℝ) (q r : ℝ[X]) :
    moment p P (q + r) = moment p P q + moment p P r := by
  unfold moment
  rw [← integral_add (integrable_poly_gauss hp P q) (integrable_poly_gauss hp P r)]
  congr 1
  funext x
  rw [Polynomial.eval_add, add_mul]

theorem moment_C_mul (p P c : ℝ) (q : ℝ[X]) : moment p P (C c * q) = c * moment p P q := by
  unfold moment
  rw [← integral_const_mul]
  congr 1
  funext x
  rw [Polynomial.eval_mul, Polynomial.eval_C, mul_assoc]

theorem moment_one {p : ℝ} (P : ℝ) : moment p P 1 = Real.sqrt (Real.pi / p) := by
  unfold moment
  rw [← integral_gaussian p]
  have := integral_sub_right_eq_self (μ := volume) (fun x : ℝ => Real.exp (-p*x^2)) P
  rw [← this]
  congr 1
  funext x
  simp

/-- integration by parts: `∫ (x-P) q e^(-p(x-P)²) = (1/2p) ∫ q' e^(-p(x-P)²)` -/
theorem moment_parts {p : ℝ} (hp : 0 < p) (P : ℝ) (q : ℝ[X]) :
    moment p P ((X - C P) * q) = 1/(2*p) * moment p P (derivative q) := by
  have hd : ∀ x : ℝ, HasDerivAt (fun x : ℝ => q.eval x * Real.exp (-p*(x-P)^2))
      ((derivative q - C (2*p) * ((X - C P) * q)).eval x * Real.exp (-p*(x-P)^2)) x := by
    intro x
    have h2 : HasDerivAt (fun x : ℝ => -p*(x-P)^2) (-p*(2*(x-P))) x := by
      have h1 := ((hasDerivAt_id x).sub_const P).pow 2
      have := h1.const_mul (-p)
      refine this.congr_deriv ?_
      simp
    refine ((q.hasDerivAt x).mul h2.exp).congr_deriv ?_
    simp
    ring
  have h0 := integral_eq_zero_of_hasDerivAt_of_integrable hd (integrable_poly_gauss hp P _)
    (integrable_poly_gauss hp P q)
  have h1 : moment p P (derivative q - C (2*p) * ((X - C P) * q)) = 0 := h0
  have h2 : derivative q - C (2*p) * ((X - C P) * q) = derivative q + C (-(2*p)) * ((X - C P) * q) := by
    rw [C_neg]; ring
  rw [h2, moment_add hp, moment_C_mul] at h1
  field_simp
  linarith

/-- polynomials of the product of two factors -/
noncomputable def pq (A B : ℝ) (i j : ℕ) : ℝ[X] := (X - C A)^i * (X - C B)^j

/-- the vertical recursion -/
theorem moment_vrr {p : ℝ} (hp : 0 < p) (P A : ℝ) (i : ℕ) :
    moment p P ((X - C A)^(i+1)) = (i:ℝ) * (1/(2*p)) * moment p P ((X - C A)^(i-1)) +
      (P - A) * moment p P ((X - C A)^i) := by
  have h : (X - C A)^(i+1) = (X - C P) * (X - C A)^i + C (P - A) * (X - C A)^i := by
    rw [C_sub]; ring
  rw [h, moment_add hp, moment_C_mul, moment_parts hp]
  have hd : derivative ((X - C A)^i) = C (i:ℝ) * (X - C A)^(i-1) := by
    rw [derivative_pow]
    simp
  rw [hd, moment_C_mul]
  ring

/-- the horizontal recursion -/
theorem moment_hrr {p : ℝ} (hp : 0 < p) (P A B : ℝ) (i j : ℕ) :
    moment p P (pq A B i (j+1)) = moment p P (pq A B (i+1) j) + (A - B) * moment p P (pq A B i j) := by
  have h : pq A B i (j+1) = pq A B (i+1) j + C (A - B) * pq A B i j := by
    unfold pq
    rw [C_sub]; ring
  rw [h, moment_add hp, moment_C_mul]

theorem moment_pq_comm (p P A B : ℝ) (i j : ℕ) : moment p P (pq A B i j) = moment p P (pq B A j i) := by
  unfold pq
  rw [mul_comm]

/-- Gaussian product theorem in one dimension -/
theorem gauss_product {a b : ℝ} (hab : a + b ≠ 0) (A B x : ℝ) :
    Real.exp (-a*(x-A)^2) * Real.exp (-b*(x-B)^2) =
      Real.exp (-(a*b/(a+b))*(A-B)^2) * Real.exp (-(a+b)*(x-(a*A+b*B)/(a+b))^2) := by
  rw [← Real.exp_add, ← Real.exp_add]
  congr 1
  field_simp
  ring

/-- one-dimensional overlap -/
theorem ovlp1_eq {a b : ℝ} (hab : a + b ≠ 0) (A B : ℝ) (i j : ℕ) :
    ∫ x, gto1 a A i x * gto1 b B j x =
      Real.exp (-(a*b/(a+b))*(A-B)^2) * moment (a+b) ((a*A+b*B)/(a+b)) (pq A B i j) := by
  unfold moment gto1
  rw [← integral_const_mul]
  congr 1
  funext x
  have := gauss_product hab A B x
  simp only [pq, eval_mul, eval_pow, eval_sub, eval_X, eval_C]
  linear_combination (x-A)^i * (x-B)^j * this

/-- a primitive is the product of its factors -/
theorem gto_prod (a : ℝ) (A : Fin 3 → ℝ) (n : Fin 3 → ℕ) (r : Fin 3 → ℝ) :
    gto a A n r = ∏ k, gto1 a (A k) (n k) (r k) := by
  unfold gto gto1
  rw [Finset.prod_mul_distrib, ← Real.exp_sum, Finset.mul_sum]

theorem braket_gto (a b : ℝ) (A B : Fin 3 → ℝ) (n m : Fin 3 → ℕ) :
    braket (gto a A n) (gto b B m) = ∏ k, ∫ x, gto1 a (A k) (n k) x * gto1 b (B k) (m k) x := by
  unfold braket
  rw [← integral_fintype_prod_volume_eq_prod (fun k x => gto1 a (A k) (n k) x * gto1 b (B k) (m k) x)]
  congr 1
  funext r
  rw [gto_prod, gto_prod, Finset.prod_mul_distrib]

/-- three-dimensional overlap in the form the code produces -/
theorem braket_gto_eq {a b : ℝ} (hab : a + b ≠ 0) (A B : Fin 3 → ℝ) (n m : Fin 3 → ℕ) :
    braket (gto a A n) (gto b B m) = Real.exp (-(a*b/(a+b)) * ∑ k, (A k - B k)^2) *
      ∏ k, moment (a+b) ((a*A k+b*B k)/(a+b)) (pq (A k) (B k) (n k) (m k)) := by
  rw [braket_gto]
  simp_rw [ovlp1_eq hab]
  rw [Finset.prod_mul_distrib, ← Real.exp_sum, Finset.mul_sum]

end Verif.Lemmas
