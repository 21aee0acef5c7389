import Verif.Core.Prog

/-
src/cint_bas.c: shell sizes, AO offsets, Cartesian components.
-/

namespace Verif.Model
open Verif Prog

/-- One row of the `bas` table (include/cint.h.in slots ATOM_OF .. PTR_COEFF).
Simplification: angular momentum, primitive and contraction counts are natural
numbers (the C code never checks them for being negative). -/
structure Shell where
  atomOf : Nat := 0
  angOf : Nat
  nprim : Nat := 1
  nctr : Nat := 1
  kappa : Int := 0
  ptrExp : Nat := 0
  ptrCoeff : Nat := 0
deriving Repr, DecidableEq, Inhabited

/-- CINTlen_cart, src/cint_bas.c:12-15 -/
def lenCart (l : Nat) : Nat := (l + 1) * (l + 2) / 2

/-- CINTlen_spinor, src/cint_bas.c:17-26 -/
def lenSpinor (b : Shell) : Nat :=
  if b.kappa = 0 then 4 * b.angOf + 2
  else if b.kappa < 0 then 2 * b.angOf + 2
  else 2 * b.angOf

/-- _len_spinor, src/cart2sph.c:3537-3546 (the copy used by the transformation code) -/
def lenSpinorC2S (kappa : Int) (l : Nat) : Nat :=
  if 0 = kappa then 4 * l + 2
  else if kappa < 0 then 2 * l + 2
  else 2 * l

/-- CINTcgto_cart, src/cint_bas.c:36-40 (CINTcgtos_cart 31-35 is identical) -/
def cgtoCart (b : Shell) : Nat := (b.angOf + 1) * (b.angOf + 2) / 2 * b.nctr

/-- CINTcgto_spheric, src/cint_bas.c:49-52 (CINTcgtos_spheric 45-48 is identical) -/
def cgtoSpheric (b : Shell) : Nat := (b.angOf * 2 + 1) * b.nctr

/-- CINTcgto_spinor, src/cint_bas.c:61-64 (CINTcgtos_spinor 57-60 is identical) -/
def cgtoSpinor (b : Shell) : Nat := lenSpinor b * b.nctr

/-- Accumulation loop `s = 0; for (i = 0; i < nbas; i++) s += f(i)` -/
def accum (f : Nat → Nat) : Nat → Nat
  | 0 => 0
  | n+1 => accum f n + f n

/-- CINTtot_pgto_spheric, src/cint_bas.c:69-79 -/
def totPgtoSpheric (bas : Nat → Shell) (nbas : Nat) : Nat :=
  accum (fun i => ((bas i).angOf * 2 + 1) * (bas i).nprim) nbas

/-- CINTtot_pgto_spinor, src/cint_bas.c:84-93 -/
def totPgtoSpinor (bas : Nat → Shell) (nbas : Nat) : Nat :=
  accum (fun i => lenSpinor (bas i) * (bas i).nprim) nbas

/-- tot_cgto_accum, src/cint_bas.c:95-104; `f` is the function-pointer argument -/
def totCgtoAccum (f : Shell → Nat) (bas : Nat → Shell) (nbas : Nat) : Nat :=
  accum (fun i => f (bas i)) nbas

/-- CINTtot_cgto_spheric, src/cint_bas.c:108-111 -/
def totCgtoSpheric (bas : Nat → Shell) (nbas : Nat) : Nat := totCgtoAccum cgtoSpheric bas nbas
/-- CINTtot_cgto_spinor, src/cint_bas.c:116-119 -/
def totCgtoSpinor (bas : Nat → Shell) (nbas : Nat) : Nat := totCgtoAccum cgtoSpinor bas nbas
/-- CINTtot_cgto_cart, src/cint_bas.c:124-127 -/
def totCgtoCart (bas : Nat → Shell) (nbas : Nat) : Nat := totCgtoAccum cgtoCart bas nbas

/-- shells_cgto_offset, src/cint_bas.c:129-137.  The loop `for (i = 1; i < nbas; i++)`
runs `nbas - 1` times (none when `nbas ≤ 1`); `ao_loc[0]` is always written. -/
def shellsCgtoOffset {α : Type} (f : Shell → Nat) (aoLoc : Ptr) (bas : Nat → Shell) (nbas : Nat) :
    Prog α Unit := do
  stI aoLoc 0
  forN (nbas - 1) fun a => do        -- i = a + 1
    let x ← ldI (aoLoc + a)
    stI (aoLoc + (a + 1)) (x + (f (bas a) : Int))

/-- CINTshells_cart_offset, src/cint_bas.c:141-144 -/
def shellsCartOffset {α : Type} := @shellsCgtoOffset α cgtoCart
/-- CINTshells_spheric_offset, src/cint_bas.c:149-152 -/
def shellsSphericOffset {α : Type} := @shellsCgtoOffset α cgtoSpheric
/-- CINTshells_spinor_offset, src/cint_bas.c:157-160 -/
def shellsSpinorOffset {α : Type} := @shellsCgtoOffset α cgtoSpinor

/-- CINTcart_comp, src/cint_bas.c:166-180.  The descending loops
`for (lx = lmax; lx >= 0; lx--) for (ly = lmax - lx; ly >= 0; ly--)` are written
with ascending counters `a = lmax - lx` and `b = lmax - lx - ly`. -/
def cartComp {α : Type} (nx ny nz : Ptr) (lmax : Nat) : Prog α Nat :=
  forS (lmax + 1) 0 fun a inc =>
    let lx := lmax - a
    forS (lmax - lx + 1) inc fun b inc => do
      let ly := lmax - lx - b
      let lz := lmax - lx - ly
      stI (nx + inc) (lx : Int)
      stI (ny + inc) (ly : Int)
      stI (nz + inc) (lz : Int)
      pure (inc + 1)

end Verif.Model
