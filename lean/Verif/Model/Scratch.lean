import Verif.Model.G2e

/-!
The local arrays of fixed length: `u[MXRYSROOTS]` of CINTg0_2e, CINTg1e_nuc and CINTg0_1e_grids and the nine arrays of
`Rys2eT` (src/g2e.h:12-22), MXRYSROOTS = 32 (include/cint.h.in:123).  Elsewhere in the model (`Rys2`, `bc2e`) their
contents are functions of the root number; here they are arrays.
-/
namespace Verif.Model
open Verif Prog

variable {α : Type} [Field α] [LinearOrder α]

/-- the stores of CINTrys_roots, CINTsr_rys_roots to their argument `u` -/
def rootsTo (u : Ptr) (n : Nat) (f : Nat → α) : Prog α Unit := forN n fun i => st (u + i) (f i)

/-- the loops of src/g2e.c:4471-4475, :4488-4491 over `irys = a, ..., b-1` (the weights are in `g`) -/
def scaleTo (theta : α) (u : Ptr) (a b : Nat) : Prog α Unit :=
  forN (b - a) fun n => do
    let x ← ld (u + (a + n))
    st (u + (a + n)) (scaleRoot theta x)

/-- what CINTg0_2e does with `u`, src/g2e.c:4445-4492; result: does it go on? -/
def rootsArr (R : Rys2 α) (K : Consts α) (e : EnvG) (d : G2 α) (cutoff : α) (u : Ptr) : Prog α Bool :=
  let nroots := e.nrys_roots
  let aij := d.ai + d.aj
  let akl := d.ak + d.al
  let r := fun c => d.rij c - d.rkl c
  let rr := r 0 * r 0 + r 1 * r 1 + r 2 * r 2
  let a1 := aij * akl
  let a0 := a1 / (aij + akl)
  let x := a0 * rr
  if d.omega = 0 then do
    rootsTo u nroots (R.u nroots x)
    pure true
  else if d.omega < 0 then
    let theta := d.omega * d.omega / (d.omega * d.omega + a0)
    if theta * x > cutoff ∨ theta * x > 40 then pure false else
    let rorder := e.rys_order
    if rorder = nroots then do
      rootsTo u nroots (R.sru nroots x (K.sqrt theta))
      pure true
    else do
      rootsTo u rorder (R.u rorder x)
      rootsTo (u + rorder) rorder (R.u rorder (theta*x))
      if e.g_size = 2 then pure false else do
        scaleTo theta u rorder nroots
        pure true
  else
    let theta := d.omega * d.omega / (d.omega * d.omega + a0)
    do
      rootsTo u nroots (R.u nroots (x * theta))
      scaleTo theta u 0 nroots
      pure true

/-- the members of `Rys2eT` in the order b00, b10, b01, c00x, c00y, c00z, c0px, c0py, c0pz -/
def bcMember (B : Rys2eT α) (k n : Nat) : α :=
  match k with
  | 0 => B.b00 n
  | 1 => B.b10 n
  | 2 => B.b01 n
  | 3 => B.c00 0 n
  | 4 => B.c00 1 n
  | 5 => B.c00 2 n
  | 6 => B.c0p 0 n
  | 7 => B.c0p 1 n
  | _ => B.c0p 2 n

/-- the loop of src/g2e.c:4516-4540, `bc k` is the array of member `k` -/
def bcArr (e : EnvG) (d : G2 α) (u : Ptr) (bc : Nat → Ptr) : Prog α Unit :=
  let aij := d.ai + d.aj
  let akl := d.ak + d.al
  let a1 := aij * akl
  let a0 := a1 / (aij + akl)
  forN e.nrys_roots fun irys => do
    let x ← ld (u + irys)
    let u2 := a0 * x
    let tmp4 := 1/2 / (u2 * (aij + akl) + a1)
    let tmp5 := u2 * tmp4
    let tmp1 := 2 * tmp5
    let tmp2 := tmp1 * akl
    let tmp3 := tmp1 * aij
    st (bc 0 + irys) tmp5
    st (bc 1 + irys) (tmp5 + tmp4 * akl)
    st (bc 2 + irys) (tmp5 + tmp4 * aij)
    st (bc 3 + irys) ((d.rij 0 - rxij e d 0) - tmp2 * (d.rij 0 - d.rkl 0))
    st (bc 4 + irys) ((d.rij 1 - rxij e d 1) - tmp2 * (d.rij 1 - d.rkl 1))
    st (bc 5 + irys) ((d.rij 2 - rxij e d 2) - tmp2 * (d.rij 2 - d.rkl 2))
    st (bc 6 + irys) ((d.rkl 0 - rxkl e d 0) + tmp3 * (d.rij 0 - d.rkl 0))
    st (bc 7 + irys) ((d.rkl 1 - rxkl e d 1) + tmp3 * (d.rij 1 - d.rkl 1))
    st (bc 8 + irys) ((d.rkl 2 - rxkl e d 2) + tmp3 * (d.rij 2 - d.rkl 2))

end Verif.Model
