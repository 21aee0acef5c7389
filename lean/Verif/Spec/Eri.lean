import Verif.Spec.Coulomb
import Verif.Spec.Boys

/-! Two-electron integrals, as mathematics. -/
namespace Verif.Spec
open MeasureTheory

/-- `∬ f(r₁) V(r₁,r₂) g(r₂) dr₁ dr₂` -/
noncomputable def repulsion (V : (Fin 3 → ℝ) → (Fin 3 → ℝ) → ℝ) (f g : (Fin 3 → ℝ) → ℝ) : ℝ :=
  ∫ z : (Fin 3 → ℝ) × (Fin 3 → ℝ), f z.1 * V z.1 z.2 * g z.2

/-- `|r-C|` -/
noncomputable def dist3 (C r : Fin 3 → ℝ) : ℝ := Real.sqrt (∑ k, (r k - C k)^2)

/-- the long-range part of the Coulomb interaction: `erf(ω r₁₂)/r₁₂` -/
noncomputable def coulombLR (ω : ℝ) (C r : Fin 3 → ℝ) : ℝ := erf (ω * dist3 C r) / dist3 C r

/-- the short-range part: `erfc(ω r₁₂)/r₁₂` -/
noncomputable def coulombSR (ω : ℝ) (C r : Fin 3 → ℝ) : ℝ := (1 - erf (ω * dist3 C r)) / dist3 C r

/-- the interaction selected by `env[PTR_RANGE_OMEGA]`: full for 0, long-range for positive, short-range for
negative values -/
noncomputable def interaction (omega : ℝ) : (Fin 3 → ℝ) → (Fin 3 → ℝ) → ℝ :=
  if omega = 0 then coulomb else if omega < 0 then coulombSR (-omega) else coulombLR omega

end Verif.Spec
