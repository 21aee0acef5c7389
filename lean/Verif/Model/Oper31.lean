import Verif.Model.Auto3c1e
import Verif.Model.Int3c1e

/-! The generated one-electron integrals over three functions in their driver. -/
namespace Verif.Model
open Verif Prog

variable {α : Type} [Field α]

/-- The integral as CINT3c1e_drv sees it: `f_gout` has no loop over roots (src/autocode/int3c1e.c, src/cint3c1e_a.c); for
`int_type` INT1E_TYPE_RINV it is called once per root.  `O` is the common origin. -/
def Gen2e.int31 (G : Gen2e) (O : Nat → α) : Int2e α :=
  { G.int O with
    gout := fun e d idx g gout em =>
      goutOvlp e { a := ![d.ai, d.aj, d.ak, d.al], R := ![d.ri, d.rj, d.rk, d.rl], O := O } G.prog idx g gout em }

/-- `int_type` of the wrappers (`INT1E_TYPE_OVLP` or `INT1E_TYPE_RINV`) with `env[PTR_RINV_ZETA]` and `env + PTR_RINV_ORIG` -/
def opOf31 (rinv : Bool) (zeta : α) (orig : Nat → α) : Op3c1e α := if rinv then .rinv zeta orig else .ovlp

end Verif.Model
