import Verif.Spec.Eri

/-! The potential of a charge at a point of a grid, as mathematics. -/
namespace Verif.Spec
open MeasureTheory

/-- The potential at `r` of a unit charge centred at `C`, a point charge for `ζ = 0` and the normalised Gaussian charge
distribution with exponent `ζ` for `ζ > 0`, with the interaction selected by `env[PTR_RANGE_OMEGA]`. -/
noncomputable def gridPotential (omega ζ : ℝ) (C r : Fin 3 → ℝ) : ℝ :=
  if 0 < ζ then ∫ r', gaussCharge ζ C r' * interaction omega r' r else interaction omega C r

end Verif.Spec
