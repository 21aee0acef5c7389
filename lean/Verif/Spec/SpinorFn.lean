import Verif.Spec.Spinor
import Verif.Spec.Oper
import Verif.Spec.Cart
import Mathlib.Analysis.Complex.Basic

/-! Two-component functions and operators on them. -/
namespace Verif.Spec
open Verif Verif.Model

/-- the complex number -/
noncomputable def Cx.toC (z : Cx ℝ) : ℂ := ⟨z.re, z.im⟩

/-- Matrix in spin space of `⟨f| one + x σ_x + y σ_y + z σ_z |g⟩`, `f` centred at `A`, `g` centred at `B`; `false` is spin up. -/
noncomputable def Quat.mat (O A B : Pt) (f g : Pt → ℝ) (q : Quat) : Bool → Bool → ℂ
  | false, false => Op.val O A B f g q.one + Op.val O A B f g q.z
  | false, true => Op.val O A B f g q.x - Complex.I * Op.val O A B f g q.y
  | true, false => Op.val O A B f g q.x + Complex.I * Op.val O A B f g q.y
  | true, true => Op.val O A B f g q.one - Op.val O A B f g q.z

/-- the operators whose integrals are returned; without `spin` only the part without Pauli matrices -/
def Def1e.ops (D : Def1e) : List Quat :=
  (tens (D.bra.map Quat.dag) D.ket).map fun q => if D.spin then q else .sf q.one

end Verif.Spec
