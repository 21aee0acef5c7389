import Mathlib.Analysis.SpecialFunctions.Sqrt
import Mathlib.Analysis.Real.Pi.Bounds
import Mathlib.Data.Nat.Factorial.Basic
import Mathlib.Analysis.Complex.Basic

/-! Real solid harmonics. -/
namespace Verif.Spec
open Finset

/-- the order `m` of the `i`-th spherical function: -l, …, l; for p shells x, y, z, i.e. 1, -1, 0 -/
def mAt (l i : Nat) : Int := if l = 1 then (if i = 0 then 1 else if i = 1 then -1 else 0) else (i : Int) - l

/-- `ρ^|m| cos mφ` for `m ≥ 0`, `ρ^|m| sin |m|φ` for `m < 0` -/
noncomputable def azim (m : Int) (x y : ℝ) : ℝ :=
  if 0 ≤ m then (((x : ℂ) + y * Complex.I)^m.natAbs).re else (((x : ℂ) + y * Complex.I)^m.natAbs).im

/-- `r^(l-m)` times the `m`-th derivative of the Legendre polynomial `P_l` at `z/r`, with `r2 = r²` -/
noncomputable def zonal (l m : Nat) (r2 z : ℝ) : ℝ :=
  ∑ k ∈ range ((l-m)/2+1), (-1)^k * ((2*l-2*k).factorial : ℝ) /
    (2^l * k.factorial * (l-k).factorial * (l-m-2*k).factorial) * r2^k * z^(l-m-2*k)

/-- normalisation over the unit sphere -/
noncomputable def sphNorm (l m : Nat) : ℝ :=
  Real.sqrt ((2*l+1) / (4*Real.pi) * (if m = 0 then 1 else 2) * (l-m).factorial / (l+m).factorial)

/-- the normalised real solid harmonic `r^l Y_lm` -/
noncomputable def solid (l : Nat) (m : Int) (x y z : ℝ) : ℝ :=
  sphNorm l m.natAbs * azim m x y * zonal l m.natAbs (x^2+y^2+z^2) z

end Verif.Spec
