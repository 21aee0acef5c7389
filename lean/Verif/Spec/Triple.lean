import Verif.Spec.Gauss

/-! One-electron integrals over three functions. -/
namespace Verif.Spec
open MeasureTheory

/-- `∫ f g k V` -/
noncomputable def triple (V f g k : (Fin 3 → ℝ) → ℝ) : ℝ := ∫ r, f r * g r * k r * V r

/-- The exponent of the prefactor of the product of three Gaussians with exponents `a`, `b`, `c` at `A`, `B`, `D`. -/
noncomputable def tripleExponent (a b c : ℝ) (A B D : Fin 3 → ℝ) : ℝ :=
  (a*b * ∑ k, (A k - B k)^2 + a*c * ∑ k, (A k - D k)^2 + b*c * ∑ k, (B k - D k)^2) / (a+b+c)

end Verif.Spec
