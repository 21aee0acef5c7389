import Verif.Model.Nuc
import Verif.Model.Int2e

/-! The two-electron integrals of src/autocode. -/
namespace Verif.Model
open Verif Prog

variable {α : Type} [Field α]

/-- A two-electron integral of src/autocode: `ng`, the factor `envs.common_factor` is multiplied with (a fraction) and the
function `f_gout` -/
structure Gen2e where
  ng : Inc
  gbits : Nat
  /-- `ng[POS_E1] * ng[POS_E2] * ng[TENSOR]` -/
  nComp : Nat
  num : Int := 1
  den : Nat := 1
  prog : GoutProg

/-- the integral as the drivers see it; `O` is the common origin -/
def Gen2e.int (G : Gen2e) (O : Nat → α) : Int2e α where
  ng := G.ng
  gbits := G.gbits
  nComp := G.nComp
  common := (G.num : α) / (G.den : α)
  gout := fun e d idx g gout em =>
    goutRys e { a := ![d.ai, d.aj, d.ak, d.al], R := ![d.ri, d.rj, d.rk, d.rl], O := O } G.prog idx g gout em

/-- the integral over two functions as CINT2c2e_drv sees it.  The macros of its `f_gout` get the literal 0 in place of `envs->j_l`
(e.g. src/autocode/int3c2e.c:321): in this driver's envs `j_l` is the angular momentum of the second function, the index table is the
one-electron one. -/
def Gen2e.int2c (G : Gen2e) (O : Nat → α) : Int2e α :=
  { G.int O with
    gout := fun e d idx g gout em =>
      goutRys { e with j_l := 0 } { a := ![d.ai, d.aj, d.ak, d.al], R := ![d.ri, d.rj, d.rk, d.rl], O := O } G.prog idx g gout em }

end Verif.Model
