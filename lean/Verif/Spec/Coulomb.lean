import Verif.Spec.Gauss
import Mathlib.MeasureTheory.Integral.IntervalIntegral.Basic
import Mathlib.Analysis.SpecialFunctions.Pow.Real
import Mathlib.Analysis.Real.Pi.Bounds
import Mathlib.Algebra.Polynomial.Eval.Degree

/-! Electrostatic potentials and quadrature, as mathematics. -/
namespace Verif.Spec
open MeasureTheory Polynomial

/-- the potential at `r` of a unit point charge at `C`: `1/|r-C|` -/
noncomputable def coulomb (C r : Fin 3 → ℝ) : ℝ := 1 / Real.sqrt (∑ k, (r k - C k)^2)

/-- the normalised Gaussian charge distribution `(ζ/π)^(3/2) e^(-ζ|r-C|²)` -/
noncomputable def gaussCharge (ζ : ℝ) (C r : Fin 3 → ℝ) : ℝ :=
  (ζ/Real.pi)^(3/2 : ℝ) * Real.exp (-ζ * ∑ k, (r k - C k)^2)

/-- the potential at `r` of a unit charge centred at `C`, spread out as `gaussCharge ζ` for `ζ > 0`, a point
charge otherwise -/
noncomputable def potential (ζ : ℝ) (C r : Fin 3 → ℝ) : ℝ :=
  if 0 < ζ then ∫ r', gaussCharge ζ C r' * coulomb r' r else coulomb C r

/-- `⟨f| V |g⟩` for a function `V` of the position -/
noncomputable def braketV (V : (Fin 3 → ℝ) → ℝ) (f g : (Fin 3 → ℝ) → ℝ) : ℝ := ∫ r, f r * V r * g r

/-- `u`, `w` are the roots and weights of Rys quadrature with `n` points and argument `x`: with `s = u/(1+u)`,
`∑ w F(s) = ∫₀¹ F(t²) e^(-x t²) dt` for all polynomials `F` of degree below `2n` -/
structure RysExact (n : ℕ) (x : ℝ) (u w : ℕ → ℝ) : Prop where
  nonneg : ∀ k, k < n → 0 ≤ u k
  sum_eq : ∀ F : ℝ[X], F.natDegree < 2*n →
    ∑ k ∈ Finset.range n, w k * F.eval (u k/(1+u k)) = ∫ t in (0:ℝ)..1, F.eval (t^2) * Real.exp (-x*t^2)

/-- the same for the part of the interval above `l`: `∑ w F(s) = ∫ₗ¹ F(t²) e^(-x t²) dt` -/
structure RysExactSR (n : ℕ) (x l : ℝ) (u w : ℕ → ℝ) : Prop where
  nonneg : ∀ k, k < n → 0 ≤ u k
  sum_eq : ∀ F : ℝ[X], F.natDegree < 2*n →
    ∑ k ∈ Finset.range n, w k * F.eval (u k/(1+u k)) = ∫ t in l..1, F.eval (t^2) * Real.exp (-x*t^2)

end Verif.Spec
