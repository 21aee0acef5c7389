import Verif.Spec.Eri
import Mathlib.MeasureTheory.Integral.Bochner.Basic

/-! Interaction of complex charge distributions. -/
namespace Verif.Spec
open MeasureTheory

/-- `∫∫ f(r₁) V(r₁,r₂) g(r₂)` for complex charge distributions `f` and `g` -/
noncomputable def repulsionC (V : (Fin 3 → ℝ) → (Fin 3 → ℝ) → ℝ) (f g : (Fin 3 → ℝ) → ℂ) : ℂ :=
  ∫ z : (Fin 3 → ℝ) × (Fin 3 → ℝ), f z.1 * (V z.1 z.2 : ℂ) * g z.2

end Verif.Spec
