import Verif.Model.C2sTable
import Verif.Spec.Cart
import Verif.Core.Frame
import Mathlib.Algebra.Field.Defs
import Mathlib.Algebra.BigOperators.Group.Finset.Basic

/-! The matrix of the Cartesian to spherical transformation. -/
namespace Verif.Spec
open Verif Verif.Model

variable {α : Type}

/-- value of a decimal literal -/
def decVal [Field α] (d : Dec) : α := (d.man : α) / 10^d.dec

/-- entry `k` of a sparse row -/
def rowCoef [Field α] : List (Nat × Dec) → Nat → α
  | [], _ => 0
  | e :: r, k => if k = e.1 then decVal e.2 else rowCoef r k

/-- coefficient of Cartesian component `k` in spherical component `m` of a shell of angular momentum `l`
in the table g_trans_cart2sph -/
def c2sCoef [Field α] (l m k : Nat) : α := rowCoef ((c2sRows.getD l []).getD m []) k

/-- the table is stored at `tab`, part `l` starting at offset `c2sOff[l]` as rows of `ncart l` numbers -/
def HoldsTab [Field α] (h : Heap α) (tab : Ptr) : Prop :=
  ∀ l, l < 16 → HoldsD h (tab + c2sOff.getD l 0) (ncart l * (l*2+1)) fun x => c2sCoef l (x / ncart l) (x % ncart l)

open Finset in
/-- spherical component (m1, m2) of a two-index block `X`, first index fastest -/
def sph2 [Field α] (l1 l2 : Nat) (X : Nat → α) (m1 m2 : Nat) : α :=
  ∑ k1 ∈ range (ncart l1), ∑ k2 ∈ range (ncart l2),
    c2sCoef l1 m1 k1 * c2sCoef l2 m2 k2 * X (k2*ncart l1 + k1)

open Finset in
/-- spherical component of a three-index block stored in the order 1, 3, 2 -/
def sph3 [Field α] (l1 l2 l3 : Nat) (X : Nat → α) (m1 m2 m3 : Nat) : α :=
  ∑ k1 ∈ range (ncart l1), ∑ k2 ∈ range (ncart l2), ∑ k3 ∈ range (ncart l3),
    c2sCoef l1 m1 k1 * c2sCoef l2 m2 k2 * c2sCoef l3 m3 k3 * X ((k2*ncart l3 + k3)*ncart l1 + k1)

open Finset in
/-- spherical component of a four-index block stored in the order 1, 3, 4, 2 -/
def sph4 [Field α] (l1 l2 l3 l4 : Nat) (X : Nat → α) (m1 m2 m3 m4 : Nat) : α :=
  ∑ k1 ∈ range (ncart l1), ∑ k2 ∈ range (ncart l2), ∑ k3 ∈ range (ncart l3), ∑ k4 ∈ range (ncart l4),
    c2sCoef l1 m1 k1 * c2sCoef l2 m2 k2 * c2sCoef l3 m3 k3 * c2sCoef l4 m4 k4 *
      X (((k2*ncart l4 + k4)*ncart l3 + k3)*ncart l1 + k1)

end Verif.Spec
