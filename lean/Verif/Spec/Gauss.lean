import Mathlib.MeasureTheory.Integral.Pi
import Mathlib.MeasureTheory.Measure.Lebesgue.Basic
import Mathlib.Analysis.SpecialFunctions.Exp
import Mathlib.Analysis.Calculus.Deriv.Basic

/-! Cartesian Gaussian functions and their one-electron integrals, as mathematics. -/
namespace Verif.Spec
open MeasureTheory

/-- one factor of a primitive: `(x-A)^n e^(-a (x-A)²)` -/
noncomputable def gto1 (a A : ℝ) (n : ℕ) (x : ℝ) : ℝ := (x-A)^n * Real.exp (-a*(x-A)^2)

/-- a primitive Cartesian Gaussian centred at `A` with exponent `a`:
`(x-A_x)^n_x (y-A_y)^n_y (z-A_z)^n_z e^(-a |r-A|²)` -/
noncomputable def gto (a : ℝ) (A : Fin 3 → ℝ) (n : Fin 3 → ℕ) (r : Fin 3 → ℝ) : ℝ :=
  (∏ k, (r k - A k)^n k) * Real.exp (-a * ∑ k, (r k - A k)^2)

/-- overlap of two functions on space -/
noncomputable def braket (f g : (Fin 3 → ℝ) → ℝ) : ℝ := ∫ r, f r * g r

end Verif.Spec

namespace Verif.Spec
/-- A contracted Cartesian Gaussian: `np` primitives with exponents `a`; coefficient `ip` of
contraction `ic` is `c (np*ic + ip)`; centre `R`; powers `n`. -/
noncomputable def cgto (np : ℕ) (a c : ℕ → ℝ) (R : Fin 3 → ℝ) (ic : ℕ) (n : Fin 3 → ℕ) (r : Fin 3 → ℝ) : ℝ :=
  ∑ ip ∈ Finset.range np, c (np*ic + ip) * gto (a ip) R n r

/-- normalisation the library applies to s and p functions (1/√(4π) and √(3/(4π)) to 18 digits) -/
noncomputable def spNorm (l : ℕ) : ℝ :=
  if l = 0 then 0.282094791773878143 else if l = 1 then 0.488602511902919921 else 1
end Verif.Spec
