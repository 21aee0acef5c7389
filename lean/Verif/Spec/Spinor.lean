import Verif.Model.CjTable
import Verif.Model.Bas
import Verif.Spec.Sph
import Mathlib.Algebra.QuadraticAlgebra.Basic
import Mathlib.Data.Fintype.BigOperators

/-! The matrices of the Cartesian to spinor transformation. -/
namespace Verif.Spec
open Verif Verif.Model

/-- the numbers `x + y i` with `i*i = -1`; `star` is complex conjugation -/
abbrev Cx (α : Type) [Zero α] [One α] [Neg α] := QuadraticAlgebra α (-1) 0

variable {α : Type} [Field α]

/-- a real number -/
def Cx.ofR (x : α) : Cx α := ⟨x, 0⟩
/-- the imaginary unit -/
def Cx.i : Cx α := ⟨0, 1⟩

/-- row of the table of shells `l` for spinor component `m` of a shell with the given kappa: the rows with j = l - 1/2
come first, there are 2l of them; kappa > 0 selects these, kappa < 0 those with j = l + 1/2, kappa = 0 both -/
def jRow (kappa : Int) (l m : Nat) : Nat := if kappa < 0 then 2*l + m else m

/-- coefficient of Cartesian component `k` with spin up (`s = false`) or down (`s = true`) in spinor component `m`
in the tables g_trans_cart2jR, g_trans_cart2jI: a row holds the components with spin up before those with spin down -/
def cjCoef (kappa : Int) (l m : Nat) (s : Bool) (k : Nat) : Cx α :=
  ⟨rowCoef ((cjRowsR.getD l []).getD (jRow kappa l m) []) ((if s then ncart l else 0) + k),
   rowCoef ((cjRowsI.getD l []).getD (jRow kappa l m) []) ((if s then ncart l else 0) + k)⟩

/-- the tables are stored at `R` and `I`, part `l` starting at the offset `cjLt[l]` -/
def HoldsJ (h : Heap α) (R I : Ptr) : Prop :=
  ∀ l, l < 13 → ∀ r, r < 4*l+2 → ∀ x, x < 2 * ncart l →
    h.D (R + (((cjLt.getD l none).getD 0) + (r * (2 * ncart l) + x))) = .val (rowCoef ((cjRowsR.getD l []).getD r []) x) ∧
    h.D (I + (((cjLt.getD l none).getD 0) + (r * (2 * ncart l) + x))) = .val (rowCoef ((cjRowsI.getD l []).getD r []) x)

/-- The 2 × 2 matrix of the scalar `g 3` and of the vector `g 0, g 1, g 2` on spinors: `g 3 + i (sx g 0 + sy g 1 + sz g 2)`
with the Pauli matrices `sx, sy, sz`. -/
def pauli (g : Nat → Cx α) : Bool → Bool → Cx α
  | false, false => g 3 + Cx.i * g 2
  | false, true => Cx.i * (g 0 - Cx.i * g 1)
  | true, false => Cx.i * (g 0 + Cx.i * g 1)
  | true, true => g 3 - Cx.i * g 2

/-- the matrix of a scalar -/
def scalar2 (g : Cx α) : Bool → Bool → Cx α
  | false, false => g
  | true, true => g
  | _, _ => 0

/-- the matrix in spin space of an operator with the components `g`: `si` for operators with a scalar and a vector part, otherwise the
only component is a scalar -/
def spinMat (si : Bool) (g : Nat → Cx α) (s t : Bool) : Cx α := if si then pauli g s t else scalar2 (g 0) s t

/-- the factor i of the operators for which the integrals are those of i times the operator -/
def phase (ph : Bool) (z : Cx α) : Cx α := if ph then Cx.i * z else z

/-- Matrix element between spinor component `i` of the first and `j` of the second shell, in terms of the Cartesian integrals `x c m n`
(component `c` of the operator, Cartesian functions `m` and `n`). -/
def spinor2 (si ph : Bool) (k1 k2 : Int) (l1 l2 : Nat) (x : Nat → Nat → Nat → Cx α) (i j : Nat) : Cx α :=
  phase ph (∑ m ∈ Finset.range (ncart l1), ∑ n ∈ Finset.range (ncart l2), ∑ s : Bool, ∑ t : Bool,
    star (cjCoef k1 l1 i s m) * spinMat si (fun c => x c m n) s t * cjCoef k2 l2 j t n)

/-- element `k` of the array of complex numbers at `p` is `z` -/
def HoldsC (h : Heap α) (p : Ptr) (k : Nat) (z : Cx α) : Prop :=
  h.D (p + 2*k) = .val z.re ∧ h.D (p + (2*k+1)) = .val z.im

end Verif.Spec
