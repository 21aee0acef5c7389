import Verif.Spec.Spinor

/-! Spinor integrals with a real spherical auxiliary function. -/
namespace Verif.Spec
open Verif Verif.Model

variable {α : Type} [Field α]

/-- Spinor components `i` and `j` of the first two shells and real spherical function `k` of the third, in terms of the Cartesian
integrals `x c m`: component `c` of the operator, the index of the first shell is the fastest, then that of the third, then
that of the second. -/
def spin3 (si ph : Bool) (ki kj : Int) (li lj lk : Nat) (x : Nat → Nat → α) (i j k : Nat) : Cx α :=
  spinor2 si ph ki kj li lj (fun t a b => Cx.ofR (∑ c ∈ Finset.range (ncart lk),
    c2sCoef lk k c * x t ((b*ncart lk + c)*ncart li + a))) i j

end Verif.Spec
