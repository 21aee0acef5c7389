import Verif.Model.Wrap
import Verif.Model.Spinor
import Verif.Model.Int4c1e
import Verif.Model.GridsSpinor

/-!
The functions of the libcint 2 interface with spinor output, src/misc.h:54-60 and 72-76 (macros `ALL_CINT`, `ALL_CINT1E`,
`c##NAME`), for integrals over four functions (`cint4c1e_cart`, `cint4c1e_sph`, src/cint4c1e.c:356) and on lists of points
(src/cint1e_grids.c:368).  They call `NAME_spinor`
with `dims = NULL` and `cache = NULL`, giving the array of doubles as an array of complex numbers; the driver then allocates the cache
itself (src/cint1e.c:248-252, src/cint2e.c:905-914, src/cint2c2e.c:308-312, src/cint3c2e.c:650-658).

Not modelled: failure of `malloc`.
-/
namespace Verif.Model
open Verif Verif.Prog

variable {α : Type} [Field α] [LinearOrder α]

/-- the spinor function for a one-electron integral with all its arguments, src/cint1e.c:380-388 and the autocode functions -/
def int1eSp (K : Consts α) (L : MathLib α) (X : Int1e α) (s : Call α) (e1 nT : Nat) (kd : SpKind) (tab : JTab) (ki kj : Int) (fpd : Nat)
    (out : Ptr) (dims : Option Ptr) (cache : Option Nat) (stack : Nat) (fl loc counts : Ptr) : Prog α Bool :=
  drv1eSp K L X s e1 nT kd tab ki kj fpd out dims (cacheOr cache stack) 0 fl loc counts

/-- the same without `dims` and `cache`, src/misc.h:72-76 -/
def cint1eSp (K : Consts α) (L : MathLib α) (X : Int1e α) (s : Call α) (e1 nT : Nat) (kd : SpKind) (tab : JTab) (ki kj : Int) (fpd : Nat)
    (out : Ptr) (stack : Nat) (fl loc counts : Ptr) : Prog α Bool :=
  int1eSp K L X s e1 nT kd tab ki kj fpd out none none stack fl loc counts

/-- the spinor function for a four-centre integral without optimizer with all its arguments, src/cint2e.c:1216-1225 -/
def int2eSp (X : Int2e α) (s : Call2 α) (R : Rys2 α) (K : Consts α) (L : MathLib α) (e1 e2 nT : Nat) (k1 k2 : SpKind) (tab : JTab)
    (kap : Nat → Int) (fpd : Nat) (out : Ptr) (dims : Option Ptr) (cache : Option Nat) (stack : Nat) (empty fl loc counts : Ptr) :
    Prog α Bool :=
  drv2eSp X s (fun gctr c => loop2eRun X s R K L fpd gctr empty (cacheOr cache stack) c fl loc) e1 e2 nT k1 k2 tab kap fpd out dims
    (cacheOr cache stack) 0 empty counts

/-- the same without `dims` and `cache`, src/misc.h:54-60 -/
def cint2eSp (X : Int2e α) (s : Call2 α) (R : Rys2 α) (K : Consts α) (L : MathLib α) (e1 e2 nT : Nat) (k1 k2 : SpKind) (tab : JTab)
    (kap : Nat → Int) (fpd : Nat) (out : Ptr) (stack : Nat) (empty fl loc counts : Ptr) : Prog α Bool :=
  int2eSp X s R K L e1 e2 nT k1 k2 tab kap fpd out none none stack empty fl loc counts

/-- the spinor function for a two-centre integral without optimizer with all its arguments, src/cint2c2e.c:377-387 -/
def int2c2eSp (X : Int2e α) (s : Call2c α) (R : Rys2 α) (K : Consts α) (kd : SpKind) (tab : JTab) (ki kk : Int) (fpd : Nat) (out : Ptr)
    (dims : Option Ptr) (cache : Option Nat) (stack : Nat) (empty fl loc counts : Ptr) : Prog α Bool :=
  drv2c2eSp X s (fun gctr c => loop2c2eRun X s R K fpd gctr empty (cacheOr cache stack) c fl loc) kd tab ki kk fpd out dims
    (cacheOr cache stack) 0 empty counts

/-- the same without `dims` and `cache`, src/misc.h:54-60 -/
def cint2c2eSp (X : Int2e α) (s : Call2c α) (R : Rys2 α) (K : Consts α) (kd : SpKind) (tab : JTab) (ki kk : Int) (fpd : Nat) (out : Ptr)
    (stack : Nat) (empty fl loc counts : Ptr) : Prog α Bool :=
  int2c2eSp X s R K kd tab ki kk fpd out none none stack empty fl loc counts

/-- the spinor function for a three-centre integral without optimizer with all its arguments, src/cint3c2e.c:720-730 -/
def int3c2eSp (X : Int2e α) (s : Call3 α) (R : Rys2 α) (K : Consts α) (L : MathLib α) (e1 nT : Nat) (kd : SpKind) (sph : Ptr) (tab : JTab)
    (ki kj : Int) (fpd : Nat) (out : Ptr) (dims : Option Ptr) (cache : Option Nat) (stack : Nat) (empty fl loc counts : Ptr) :
    Prog α Bool :=
  drv3c2eSp X s (fun gctr c => loop3c2eRun X s R K L fpd gctr empty (cacheOr cache stack) c fl loc) e1 nT kd sph tab ki kj fpd out dims
    (cacheOr cache stack) 0 empty counts

/-- the same without `dims` and `cache`, src/misc.h:54-60 -/
def cint3c2eSp (X : Int2e α) (s : Call3 α) (R : Rys2 α) (K : Consts α) (L : MathLib α) (e1 nT : Nat) (kd : SpKind) (sph : Ptr)
    (tab : JTab) (ki kj : Int) (fpd : Nat) (out : Ptr) (stack : Nat) (empty fl loc counts : Ptr) : Prog α Bool :=
  int3c2eSp X s R K L e1 nT kd sph tab ki kj fpd out none none stack empty fl loc counts

/-- int4c1e_cart and int4c1e_sph with all their arguments, src/cint4c1e.c:324-347 -/
def int4c1e (s : Call2 α) (K : Consts α) (L : MathLib α) (fpd : Nat) (trans : (buf c : Nat) → Ptr → Prog α Ptr) (nfo : Nat → Nat)
    (out : Ptr) (dims : Option Ptr) (cache : Option Nat) (stack : Nat) (empty fl loc counts : Ptr) : Prog α Bool :=
  drv4c1e s K L fpd trans nfo out dims (cacheOr cache stack) 0 empty fl loc counts

/-- the same without `dims` and `cache`, src/misc.h:36-47 -/
def cint4c1e (s : Call2 α) (K : Consts α) (L : MathLib α) (fpd : Nat) (trans : (buf c : Nat) → Ptr → Prog α Ptr) (nfo : Nat → Nat)
    (out : Ptr) (stack : Nat) (empty fl loc counts : Ptr) : Prog α Bool :=
  int4c1e s K L fpd trans nfo out none none stack empty fl loc counts

/-- int1e_grids_cart, int1e_grids_sph and the autocode functions with all their arguments, src/cint1e_grids.c:331-366 -/
def int1eGrids (X : IntG α) (s : CallG α) (R : Rys2 α) (K : Consts α) (L : MathLib α) (fpd sh : Nat)
    (trans : (buf c : Nat) → Nat → Ptr → Prog α Ptr) (nfo : Nat → Nat) (out : Ptr) (dims : Option Ptr) (cache : Option Nat)
    (stack : Nat) (fl loc counts loc2 : Ptr) : Prog α Bool :=
  drvGrids X s R K L fpd sh trans nfo out dims (cacheOr cache stack) 0 fl loc counts loc2

/-- the same without `dims` and `cache`, src/misc.h:36-47 -/
def cint1eGrids (X : IntG α) (s : CallG α) (R : Rys2 α) (K : Consts α) (L : MathLib α) (fpd sh : Nat)
    (trans : (buf c : Nat) → Nat → Ptr → Prog α Ptr) (nfo : Nat → Nat) (out : Ptr) (stack : Nat) (fl loc counts loc2 : Ptr) :
    Prog α Bool :=
  int1eGrids X s R K L fpd sh trans nfo out none none stack fl loc counts loc2

/-- int1e_grids_spinor and the autocode functions with all their arguments -/
def int1eGridsSp (X : IntG α) (s : CallG α) (R : Rys2 α) (K : Consts α) (L : MathLib α) (e1 nT : Nat) (kd : SpKind) (tab : JTab)
    (ki kj : Int) (fpd sh : Nat) (out : Ptr) (dims : Option Ptr) (cache : Option Nat) (stack : Nat) (fl loc counts loc2 : Ptr) :
    Prog α Bool :=
  drvGridsSp X s R K L e1 nT kd tab ki kj fpd sh out dims (cacheOr cache stack) 0 fl loc counts loc2

/-- the same without `dims` and `cache`, src/misc.h:54-60 -/
def cint1eGridsSp (X : IntG α) (s : CallG α) (R : Rys2 α) (K : Consts α) (L : MathLib α) (e1 nT : Nat) (kd : SpKind) (tab : JTab)
    (ki kj : Int) (fpd sh : Nat) (out : Ptr) (stack : Nat) (fl loc counts loc2 : Ptr) : Prog α Bool :=
  int1eGridsSp X s R K L e1 nT kd tab ki kj fpd sh out none none stack fl loc counts loc2

end Verif.Model
