import Verif.Spec.Spinor

/-! Specification of the two-electron integrals between two-component functions. -/
namespace Verif.Spec
open Verif

variable {α : Type} [Field α]

/-- The integral over spinors: the functions of the first electron (shells 0 and 1) and those of the second electron (shells
2 and 3) are transformed independently.  `x c1 c2 p` is the Cartesian integral number `p` (the index of shell 0 is fastest, then
2, 3 and 1) of the component `c1` of the operator in the spin space of the first and `c2` in that of the second electron. -/
def spin4 (si1 ph1 si2 ph2 : Bool) (kap : Nat → Int) (l : Nat → Nat) (x : Nat → Nat → Nat → α) (i j k m : Nat) : Cx α :=
  spinor2 si2 ph2 (kap 2) (kap 3) (l 2) (l 3) (fun c2 a b =>
    spinor2 si1 ph1 (kap 0) (kap 1) (l 0) (l 1) (fun c1 p q =>
      Cx.ofR (x c1 c2 (((q*ncart (l 3) + b)*ncart (l 2) + a)*ncart (l 0) + p))) i j) k m

end Verif.Spec
