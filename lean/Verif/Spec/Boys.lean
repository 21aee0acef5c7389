import Mathlib.MeasureTheory.Integral.IntervalIntegral.Basic
import Mathlib.Analysis.SpecialFunctions.Exp
import Mathlib.Analysis.SpecialFunctions.Sqrt
import Mathlib.Analysis.SpecialFunctions.Trigonometric.Basic

/-! Auxiliary functions of the Coulomb integrals, as mathematics. -/
namespace Verif.Spec

/-- `F_m(t) = ∫_s^1 u^(2m) exp(-t u²) du`; the usual Boys function is the case `s = 0`. -/
noncomputable def boys (s : ℝ) (m : ℕ) (t : ℝ) : ℝ := ∫ u in s..1, u^(2*m) * Real.exp (-t*u^2)

/-- the error function -/
noncomputable def erf (x : ℝ) : ℝ := 2 / Real.sqrt Real.pi * ∫ u in (0:ℝ)..x, Real.exp (-u^2)

/-- the complementary error function -/
noncomputable def erfc (x : ℝ) : ℝ := 1 - erf x

end Verif.Spec
