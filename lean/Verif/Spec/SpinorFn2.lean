import Verif.Spec.SpinorFn
import Verif.Spec.Oper2

/-! Operators with spin on two electrons, between two-component functions. -/
namespace Verif.Spec
open Verif Verif.Model

/-- Entries of the matrix of `one + x σ_x + y σ_y + z σ_z` in spin space; `false` is spin up. -/
def Quat.entry (q : Quat) : Bool → Bool → Op
  | false, false => q.one ++ q.z
  | false, true => q.x ++ Op.mul (.cst 0 (-1)) q.y
  | true, false => q.x ++ Op.mul (.cst 0 1) q.y
  | true, true => q.one ++ Op.mul (.cst (-1) 0) q.z

/-- an operator on electron 1 times one on electron 2 -/
def Op.times (P Q : Op) : Op2 := P.flatMap fun s => Q.map fun t => (s, t)

/-- Matrix in the spin spaces of both electrons of a sum of products: `σ`, `τ` are the spins of the functions of electron 1, `σ'`, `τ'`
of those of electron 2. -/
def matrix2 (qs : List (Quat × Quat)) (σ τ σ' τ' : Bool) : Op2 :=
  qs.flatMap fun q => (q.1.entry σ τ).times (q.2.entry σ' τ')

/-- the operators whose integrals are returned, one for each tensor component; without spin only the part without Pauli matrices -/
def Def2e.ops (D : Def2e) : List (List (Quat × Quat)) :=
  D.comps.map fun qs => qs.map fun q => (if D.spin1 then q.1 else .sf q.1.one, if D.spin2 then q.2 else .sf q.2.one)

/-- Pauli matrices of both electrons stand next to the interaction -/
def Inter2.spin : Inter2 → Bool
  | .none => false
  | .gaunt | .gauge1 | .gauge2 => true

/-- Numerator of the factor of the spinor integrals.  Where both electrons contribute a factor i to an integral with Pauli matrices of
both electrons next to the interaction, the real integrals include the product `i·i = -1`, which for spinor integrals comes from the output functions. -/
def Def2e.spinNum (D : Def2e) : Int := if D.inter.spin && D.imag1 && D.imag2 then -D.num else D.num

end Verif.Spec
