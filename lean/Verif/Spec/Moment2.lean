import Verif.Spec.Rys2
import Mathlib.MeasureTheory.Integral.Bochner.Basic
import Mathlib.Analysis.SpecialFunctions.Exp
import Mathlib.MeasureTheory.Measure.Lebesgue.Basic

/-! The Gaussian distribution in two variables that belongs to a set of recursion coefficients. -/
namespace Verif.Spec
open MeasureTheory

/-- density (not normalised) of the Gaussian with mean `(c00, c0p)` and covariance matrix
`[[b10, b00], [b00, b01]]` -/
noncomputable def gauss2 (k : RecCoeff ℝ) (x y : ℝ) : ℝ :=
  Real.exp (-(k.b01*(x-k.c00)^2 - 2*k.b00*(x-k.c00)*(y-k.c0p) + k.b10*(y-k.c0p)^2) / (2*(k.b10*k.b01 - k.b00^2)))

/-- expectation value of `f` -/
noncomputable def mean2 (k : RecCoeff ℝ) (f : ℝ → ℝ → ℝ) : ℝ :=
  (∫ x, ∫ y, f x y * gauss2 k x y) / (∫ x, ∫ y, gauss2 k x y)

end Verif.Spec
