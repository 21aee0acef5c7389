import Verif.Model.Int2c2e
import Verif.Model.Int2eOpt
import Verif.Model.OptIdx

/-!
Two-electron two-centre integrals with an optimizer: the constructor CINTall_2c2e_optimizer, CINT2c2e_loop and CINT2c2e_drv.
-/
namespace Verif.Model
open Verif Prog

variable {α : Type} [Field α] [LinearOrder α] (X : Int2e α)

section
variable (s : Call2c α) (R : Rys2 α) (K : Consts α)

/-- CINT2c2e_loop, src/cint2c2e.c:150-236.  It is CINT2c2e_loop_nopt with the index table of the optimizer (not checked for
NULL: using a NULL table fails); the arrays are allocated in another order (:178, :201). -/
def loop2c2eOpt (O : Opt2) (fpd : Nat) (gctr empty : Ptr) (buf c : Nat) (fl : Ptr) : Prog α Bool := do
  let m1 := mallocI fpd buf c s.tblLen
  let v ← ldI (O.ixa + ixPos2 s.si.l s.sk.l)
  if v = -1 then Prog.fail else do
    let m2 := mallocD fpd buf m1.2 (s.len X)
    let A : Arrays2c := { g := m2.1, idx := O.ixbuf + v.toNat, tbl := m1.1 }
    loop2c2e (s.pair X R K A) ⟨gctr, empty, A.g, fl⟩ A.tbl (s.env X).nf X.nComp (s.leng X)

/-- CINT2c2e_drv with an optimizer, src/cint2c2e.c:258-260 -/
def drv2c2eOpt (O : Opt2) (fpd : Nat) (trans : (buf c : Nat) → Ptr → Prog α Ptr) (nfo : Nat → Nat) (out : Ptr)
    (dims : Option Ptr) (buf c : Nat) (empty fl counts : Ptr) : Prog α Bool :=
  drv2c2eBy X s (fun gctr c' => loop2c2eOpt X s R K O fpd gctr empty buf c' fl) fpd trans nfo out dims buf c empty counts
end

/-- a call for shells of a basis -/
def basisCall2c (B : Nat → PShell α) (envCut omega : α) (i k : Nat) : Call2c α :=
  { si := B i, sk := B k, envCut, omega }

/-- CINTall_2c2e_optimizer, src/optimizer.c:205-213; `ANG_MAX` is 15.  The logarithms of the coefficients are not stored
(Model/Int2eOpt.lean), and no pair data are made. -/
def optimizer2c2e (B : Nat → PShell α) (nbas : Nat) (omega : α) (P : OptPtrs) (loc : Ptr) : Prog α Opt2 := do
  setNon0coeff B nbas P.ctab P.cpool P.stab P.spool
  genIdx2 (maxAng B nbas) 15 (fun i k => (initInt2c2e i k X.ng (decide (omega < 0))).nf)
    (fun i k p => g1eIndex p loc (initInt2c2e i k X.ng (decide (omega < 0)))) P.ixa P.ixbuf
  pure { nbas := nbas, pair := none, ctab := P.ctab, cpool := P.cpool
         stab := P.stab, spool := P.spool, ixa := P.ixa, ixbuf := P.ixbuf }

end Verif.Model
