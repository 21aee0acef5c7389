import Verif.Lemmas.Oper3Match
import Verif.Model.Oper31
import Verif.Spec.Oper31

/-! The generated one-electron integrals over three functions against the definitions of the same name. -/
namespace Verif.Lemmas
open Verif Verif.Model Verif.Spec

set_option maxRecDepth 100000

/-- the program, which adds no arrays, computes what the definition says, with the right `int_type` -/
def matches31 (x : Bool × Gen2e) (y : Bool × Def2e) : Bool :=
  matches2e x.2 y.2 && onThree x.2 y.2 && x.1 == y.1 && x.2.prog.more.isEmpty

theorem all_match31 : ∀ x ∈ Auto3c1e.all31.zip defs31, x.1.1 ≠ "int3c1e_ip1_r6_origk" → matches31 x.1.2 x.2.2 = true := by
  decide +kernel

/-- `CINTgout1e_int3c1e_ip1_r6_origk` with the missing line `G1E_D_I(g76, g12, envs->i_l+0, envs->j_l, envs->k_l)` -/
def repairedR6 : Gen2e :=
  { Auto3c1e.int3c1e_ip1_r6_origk with
    prog := { Auto3c1e.int3c1e_ip1_r6_origk.prog with
      steps := Auto3c1e.int3c1e_ip1_r6_origk.prog.steps ++ [⟨.d, 0, 76, 12, ![0, 0, 0, 0]⟩] } }

theorem repaired_match : matches31 (false, repairedR6) (false, TripleDefs.ip1_r6k) = true := by decide +kernel

theorem all_names31 : Auto3c1e.all31.map (·.1) = defs31.map (·.1) := by decide +kernel
theorem names_nodup31 : (defs31.map (·.1)).Nodup := by decide +kernel

end Verif.Lemmas
