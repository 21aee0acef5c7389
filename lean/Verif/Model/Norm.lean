import Mathlib.Analysis.SpecialFunctions.Pow.Real
import Mathlib.Analysis.SpecialFunctions.Gamma.Basic
import Mathlib.Analysis.SpecialFunctions.Log.Basic

/-! Normalisation of a primitive, src/misc.c.  Real arithmetic; the C library functions are the real
functions (`lgamma(x) = log Γ(x)` for `x > 0`, `pow` is the real power). -/
namespace Verif.Model

/-- `_gaussian_int`, src/misc.c:72-76.  `n` is an `FINT`; `(n + 1) * .5` converts after the addition. -/
noncomputable def gaussianInt (n : Int) (alpha : ℝ) : ℝ :=
  let n1 : ℝ := ((n + 1 : Int) : ℝ) * (1/2)
  Real.exp (Real.log (Real.Gamma n1)) / (2 * alpha ^ n1)

/-- CINTgto_norm, src/misc.c:86-93 -/
noncomputable def gtoNorm (n : Int) (a : ℝ) : ℝ := 1 / Real.sqrt (gaussianInt (n*2+2) (2*a))

end Verif.Model
