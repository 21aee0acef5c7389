import Verif.Spec.Eri

/-! Slater-type interactions and the quadrature used for them, as mathematics. -/
namespace Verif.Spec
open MeasureTheory Polynomial

/-- the Yukawa interaction `e^(-ζ r₁₂)/r₁₂` -/
noncomputable def yukawa (ζ : ℝ) (C r : Fin 3 → ℝ) : ℝ := Real.exp (-ζ * dist3 C r) / dist3 C r

/-- the Slater-type geminal `e^(-ζ r₁₂)` -/
noncomputable def slater (ζ : ℝ) (C r : Fin 3 → ℝ) : ℝ := Real.exp (-ζ * dist3 C r)

/-- The interaction of int2e_yp (`stg` false) and int2e_stg (`stg` true) as selected by `env[PTR_F12_ZETA]` -/
noncomputable def f12Interaction (stg : Bool) (ζ : ℝ) : (Fin 3 → ℝ) → (Fin 3 → ℝ) → ℝ :=
  if 0 < ζ then if stg then slater ζ else yukawa ζ else coulomb

/-- `u`, `w` are the roots and weights of the quadrature with `n` points and arguments `x`, `U`:
`∑ w F(u) = ∫₀¹ F(t²) t⁻² e^(-x t² + U (1 - t⁻²)) dt` for all polynomials `F` of degree below `2n` -/
structure StgExact (n : ℕ) (x U : ℝ) (u w : ℕ → ℝ) : Prop where
  range : ∀ k, k < n → 0 ≤ u k ∧ u k < 1
  sum_eq : ∀ F : ℝ[X], F.natDegree < 2*n →
    ∑ k ∈ Finset.range n, w k * F.eval (u k) = ∫ t in (0:ℝ)..1, F.eval (t^2) * (Real.exp (-x*t^2 + U*(1 - 1/t^2)) / t^2)

end Verif.Spec
