import Verif.Spec.SpinorFn
import Verif.Spec.OperV

/-! Operators on two-component functions, with a potential. -/
namespace Verif.Spec
open Verif Verif.Model

/-- Matrix in spin space of `⟨f| one + x σ_x + y σ_y + z σ_z |g⟩`, the function `V` of the position between the parts that act on `f`
and those that act on `g`; `f` centred at `A`, `g` centred at `B`; `false` is spin up. -/
noncomputable def Quat.matV (V : Pt → ℝ) (O A B : Pt) (f g : Pt → ℝ) (q : Quat) : Bool → Bool → ℂ
  | false, false => Op.valV V O A B f g q.one + Op.valV V O A B f g q.z
  | false, true => Op.valV V O A B f g q.x - Complex.I * Op.valV V O A B f g q.y
  | true, false => Op.valV V O A B f g q.x + Complex.I * Op.valV V O A B f g q.y
  | true, true => Op.valV V O A B f g q.one - Op.valV V O A B f g q.z

end Verif.Spec
