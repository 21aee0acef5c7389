import Verif.Spec.Harmonic

/-! Spinor spherical harmonics (times r^l). -/
namespace Verif.Spec
open Finset

/-- the complex solid harmonic `r^l Y_lm` with the phase of Condon and Shortley -/
noncomputable def solidC (l : Nat) (m : Int) (x y z : ℝ) : ℂ :=
  (if 0 ≤ m then (-1)^m.natAbs else 1) * ((Real.sqrt ((2*l+1) / (4*Real.pi) * (l-m.natAbs).factorial / (l+m.natAbs).factorial) : ℝ) : ℂ) *
    ((x : ℂ) + (if 0 ≤ m then 1 else -1) * Complex.I * y)^m.natAbs * ((zonal l m.natAbs (x^2+y^2+z^2) z : ℝ) : ℂ)

/-- total angular momentum: `l + 1/2` or `l - 1/2` -/
noncomputable def jOf (l : Nat) (plus : Bool) : ℝ := if plus then l + 1/2 else l - 1/2
/-- its projection for the `i`-th function: `-j, …, j` -/
noncomputable def mjOf (l : Nat) (plus : Bool) (i : Nat) : ℝ := i - jOf l plus

/-- the order of the spherical harmonic in the component with spin up (`s = false`) and down: `m_j - 1/2` and `m_j + 1/2` -/
def mlOf (l : Nat) (plus : Bool) (i : Nat) (s : Bool) : Int := (i : Int) - l + (if plus then -1 else 0) + (if s then 1 else 0)

/-- Clebsch–Gordan coefficient -/
noncomputable def clebsch (l : Nat) (plus : Bool) (i : Nat) (s : Bool) : ℝ :=
  match plus, s with
  | true, false => Real.sqrt ((l + mjOf l plus i + 1/2) / (2*l+1))
  | true, true => Real.sqrt ((l - mjOf l plus i + 1/2) / (2*l+1))
  | false, false => -Real.sqrt ((l - mjOf l plus i + 1/2) / (2*l+1))
  | false, true => Real.sqrt ((l + mjOf l plus i + 1/2) / (2*l+1))

/-- component with spin up (`s = false`) or down of the spinor spherical harmonic times `r^l` -/
noncomputable def spinHarm (l : Nat) (plus : Bool) (i : Nat) (s : Bool) (x y z : ℝ) : ℂ :=
  (clebsch l plus i s : ℂ) * solidC l (mlOf l plus i s) x y z

/-- function `i` of a shell with the given kappa: whether j = l + 1/2, and the number of the function among those with this j -/
def spinIdx (kappa : Int) (l i : Nat) : Bool × Nat :=
  if kappa < 0 then (true, i) else if i < 2*l then (false, i) else (true, i - 2*l)

end Verif.Spec
