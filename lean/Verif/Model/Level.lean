import Verif.Model.Sparse
import Verif.Model.Fblas

/-
The code pattern shared by all contraction loops (cint1e.c, cint2e.c, cint3c2e.c,
cint2c2e.c, cint3c1e.c, cint1e_grids.c).
-/
namespace Verif.Model
open Verif Prog

variable {α : Type}

/-- `FINT _empty[n] = {1, 1, ...}` (src/cint2e.c:114 and 333 with n = 5, src/cint3c2e.c:97 with
n = 4, src/cint2c2e.c:80 with n = 3, src/cint1e.c:71 with n = 4) -/
def initFlags (n : Nat) (fl : Ptr) : Prog α Unit := forN n fun k => stI (fl + k) 1

/-- One iteration `p` of a contraction level `x` (e.g. src/cint1e.c:125-131 with 150-152;
src/cint2e.c:191-198 with 257-259; 213-218 with 252-254; 222-229 with 249-251):
```
if (x_ctr == 1) { fac1x = fac * cx[xp]; } else { fac1x = fac; *yempty = 1; }
... inner loop over y, accumulating into gctry ...
if (!*yempty) { PRIM2CTR(x, gctry, leny); }
``` -/
def levelBody [Add α] [Mul α] (ctr prim : Nat) (xempty yempty gctrx gctry : Ptr) (c : Nat → α)
    (leny : Nat) (non0ctr non0idx : Ptr) (p : Nat) (inner : α → Prog α Unit) (fac : α) :
    Prog α Unit := do
  if ctr = 1 then pure () else stI yempty 1
  inner (if ctr = 1 then fac * c p else fac)
  let e ← ldI yempty
  if e = 0 then prim2ctr ctr prim xempty gctrx gctry c p leny non0ctr non0idx else pure ()

/-- The innermost step (src/cint1e.c:147-148, src/cint2e.c:242-246): with the prefactor
`fac1i` (`envs->fac[0]`) evaluate the intermediates `g`, and unless that reports a negligible
value assemble `gout` and contract it.  `g0` models the evaluation of `g` (result: non-zero
return value), `fgout` the assembly with its `empty` argument, which `rdE` supplies. -/
def primBodyE [Add α] [Mul α] (rdE : Prog α Int) (ctr prim : Nat) (iempty gctri gout : Ptr)
    (c : Nat → α) (len0 : Nat) (non0ctr non0idx : Ptr) (p : Nat) (fac1i : α)
    (g0 : α → Prog α Bool) (fgout : α → Ptr → Int → Prog α Unit) : Prog α Unit := do
  let r ← g0 fac1i
  if r then do
    let e ← rdE
    fgout fac1i gout e
    prim2ctr ctr prim iempty gctri gout c p len0 non0ctr non0idx
  else pure ()

/-- `primBodyE` with the argument read from the flag `*gempty` -/
def primBody [Add α] [Mul α] (ctr prim : Nat) (iempty gempty gctri gout : Ptr) (c : Nat → α)
    (len0 : Nat) (non0ctr non0idx : Ptr) (p : Nat) (fac1i : α) (g0 : α → Prog α Bool)
    (fgout : α → Ptr → Int → Prog α Unit) : Prog α Unit :=
  primBodyE (ldI gempty) ctr prim iempty gctri gout c len0 non0ctr non0idx p fac1i g0 fgout

/-- macro ALIAS_ADDR_IF_EQUAL(x, y), src/cint2e.c:24-31 (y is the outer level): the inner
block and flag coincide with the outer ones if the outer level has one contraction,
otherwise they are fresh (`own` flag).  Result: inner block, inner flag, new free pointer. -/
def aliasAddr (ctry : Nat) (gctry yempty own g1 : Ptr) (lenx : Nat) : Ptr × Ptr × Ptr :=
  if ctry = 1 then (gctry, yempty, g1) else (g1, own, g1 + lenx)

/-- macro TRANSPOSE(a), src/cint2e.c:49-55 -/
def transposeMacro [Add α] (empty gctr a : Ptr) (rows ncomp : Nat) : Prog α Unit := do
  let e ← ldI empty
  if e ≠ 0 then do
    dmatTranspose gctr a rows ncomp
    stI empty 0
  else
    dplusTranspose gctr a rows ncomp

end Verif.Model
