import Verif.Model.Norm
import Mathlib.MeasureTheory.Integral.Gamma

/-! C36: normalisation of a primitive. -/
namespace Verif.Props
open Verif.Model MeasureTheory

/-- C36.  The radial function `N r^l e^(-a r²)` has norm one: `∫_0^∞ (N r^l e^(-a r²))² r² dr = 1`. -/
theorem C36_norm (l : ℕ) {a : ℝ} (ha : 0 < a) :
    ∫ r in Set.Ioi (0:ℝ), (gtoNorm l a * r^l * Real.exp (-a*r^2))^2 * r^2 = 1 := by
  have hint : ∀ r ∈ Set.Ioi (0:ℝ), (gtoNorm l a * r^l * Real.exp (-a*r^2))^2 * r^2 =
      gtoNorm l a^2 * (r^(((2*l+2 : ℕ)):ℝ) * Real.exp (-(2*a)*r^(2:ℝ))) := by
    intro r hr
    rw [Real.rpow_natCast, Real.rpow_two]
    have : Real.exp (-a*r^2) ^ 2 = Real.exp (-(2*a)*r^2) := by
      rw [← Real.exp_nat_mul]; congr 1; push_cast; ring
    rw [mul_pow, mul_pow, this]
    ring
  rw [setIntegral_congr_fun measurableSet_Ioi hint, integral_const_mul,
    integral_rpow_mul_exp_neg_mul_rpow (by norm_num) (by push_cast; linarith [(Nat.cast_nonneg l : (0:ℝ) ≤ l)])
      (by positivity)]
  have hn : ((((l:Int)*2+2+1 : Int)) : ℝ) * (1/2) = ((((2*l+2 : ℕ)):ℝ) + 1)/2 := by push_cast; ring
  have hG : 0 < Real.Gamma (((((2*l+2 : ℕ)):ℝ) + 1)/2) := Real.Gamma_pos_of_pos (by positivity)
  have hP : 0 < (2*a)^(((((2*l+2 : ℕ)):ℝ) + 1)/2) := Real.rpow_pos_of_pos (by positivity) _
  unfold gtoNorm gaussianInt
  dsimp only
  rw [hn, Real.exp_log hG, div_pow, one_pow, Real.sq_sqrt (by positivity), neg_div,
    Real.rpow_neg (by positivity)]
  field_simp

/-- C36.  The constant is positive, so it is the normalisation constant. -/
theorem C36_norm_pos (l : ℕ) {a : ℝ} (ha : 0 < a) : 0 < gtoNorm l a := by
  have hG : 0 < Real.Gamma ((((l:Int)*2+2+1 : Int) : ℝ) * (1/2)) :=
    Real.Gamma_pos_of_pos (by push_cast; positivity)
  have hP : 0 < (2*a)^((((l:Int)*2+2+1 : Int) : ℝ) * (1/2)) := Real.rpow_pos_of_pos (by positivity) _
  unfold gtoNorm gaussianInt
  dsimp only
  have := Real.exp_pos (Real.log (Real.Gamma ((((l:Int)*2+2+1 : Int) : ℝ) * (1/2))))
  positivity

/-- a `d` function with exponent 3/2 -/
example : ∫ r in Set.Ioi (0:ℝ), (gtoNorm (2:ℕ) (3/2) * r^2 * Real.exp (-(3/2)*r^2))^2 * r^2 = 1 :=
  C36_norm 2 (by norm_num)

end Verif.Props
