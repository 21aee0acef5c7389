import Verif.Spec.Gauss

/-! One-electron integrals over four functions. -/
namespace Verif.Spec
open MeasureTheory

/-- `∫ f g h k` -/
noncomputable def overlap4 (f g h k : (Fin 3 → ℝ) → ℝ) : ℝ := ∫ r, f r * g r * h r * k r

/-- The exponent of the prefactor of the product of four Gaussians with exponents `a`, `b`, `c`, `d` at `A`, `B`, `C`, `D`. -/
noncomputable def quadExponent (a b c d : ℝ) (A B C D : Fin 3 → ℝ) : ℝ :=
  (a*b * ∑ k, (A k - B k)^2 + a*c * ∑ k, (A k - C k)^2 + a*d * ∑ k, (A k - D k)^2 + b*c * ∑ k, (B k - C k)^2 +
    b*d * ∑ k, (B k - D k)^2 + c*d * ∑ k, (C k - D k)^2) / (a+b+c+d)

end Verif.Spec
