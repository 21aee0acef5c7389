import Verif.Model.WrapSp
import Verif.Model.Int2eOpt
import Verif.Model.Int3c2eOpt
import Verif.Model.Int2c2eOpt

/-!
The functions of the libcint 2 and Fortran interface called with an optimizer, src/misc.h:35-60 (macro `ALL_CINT`, argument `opt`
not NULL) and src/c2f.h:9-58.  They call the function of the same name with `dims = NULL`, `cache = NULL` and the optimizer they were
given; the driver then allocates the cache itself.

Not modelled: failure of `malloc`.
-/
namespace Verif.Model
open Verif Verif.Prog

variable {α : Type} [Field α] [LinearOrder α]

/-- the function for a four-centre integral with all its arguments and an optimizer, src/cint2e.c:1186-1213 -/
def int2eOpt (X : Int2e α) (s : Call2 α) (R : Rys2 α) (K : Consts α) (L : MathLib α) (O : Opt2) (i j k l : Nat) (fpd : Nat)
    (trans : (buf c : Nat) → Ptr → Prog α Ptr) (nfo : Nat → Nat) (out : Ptr) (dims : Option Ptr) (cache : Option Nat)
    (stack : Nat) (empty fl loc counts : Ptr) : Prog α Bool :=
  drv2eOpt X s R K L O i j k l fpd trans nfo out dims (cacheOr cache stack) 0 empty fl loc counts

/-- the same without `dims` and `cache`, src/misc.h:36-47 -/
def cint2eOpt (X : Int2e α) (s : Call2 α) (R : Rys2 α) (K : Consts α) (L : MathLib α) (O : Opt2) (i j k l : Nat) (fpd : Nat)
    (trans : (buf c : Nat) → Ptr → Prog α Ptr) (nfo : Nat → Nat) (out : Ptr) (stack : Nat) (empty fl loc counts : Ptr) :
    Prog α Bool :=
  int2eOpt X s R K L O i j k l fpd trans nfo out none none stack empty fl loc counts

/-- the function for a three-centre integral with all its arguments and an optimizer, src/cint3c2e.c:693-717 -/
def int3c2eOpt (X : Int2e α) (s : Call3 α) (R : Rys2 α) (K : Consts α) (L : MathLib α) (O : Opt2) (i j : Nat) (fpd : Nat)
    (trans : (buf c : Nat) → Ptr → Prog α Ptr) (nfo : Nat → Nat) (out : Ptr) (dims : Option Ptr) (cache : Option Nat)
    (stack : Nat) (empty fl loc counts : Ptr) : Prog α Bool :=
  drv3c2eOpt X s R K L O i j fpd trans nfo out dims (cacheOr cache stack) 0 empty fl loc counts

/-- the same without `dims` and `cache`, src/misc.h:36-47 -/
def cint3c2eOpt (X : Int2e α) (s : Call3 α) (R : Rys2 α) (K : Consts α) (L : MathLib α) (O : Opt2) (i j : Nat) (fpd : Nat)
    (trans : (buf c : Nat) → Ptr → Prog α Ptr) (nfo : Nat → Nat) (out : Ptr) (stack : Nat) (empty fl loc counts : Ptr) :
    Prog α Bool :=
  int3c2eOpt X s R K L O i j fpd trans nfo out none none stack empty fl loc counts

/-- the function for a two-centre integral with all its arguments and an optimizer, src/cint2c2e.c:351-375 -/
def int2c2eOpt (X : Int2e α) (s : Call2c α) (R : Rys2 α) (K : Consts α) (O : Opt2) (fpd : Nat)
    (trans : (buf c : Nat) → Ptr → Prog α Ptr) (nfo : Nat → Nat) (out : Ptr) (dims : Option Ptr) (cache : Option Nat)
    (stack : Nat) (empty fl counts : Ptr) : Prog α Bool :=
  drv2c2eOpt X s R K O fpd trans nfo out dims (cacheOr cache stack) 0 empty fl counts

/-- the same without `dims` and `cache`, src/misc.h:36-47 -/
def cint2c2eOpt (X : Int2e α) (s : Call2c α) (R : Rys2 α) (K : Consts α) (O : Opt2) (fpd : Nat)
    (trans : (buf c : Nat) → Ptr → Prog α Ptr) (nfo : Nat → Nat) (out : Ptr) (stack : Nat) (empty fl counts : Ptr) :
    Prog α Bool :=
  int2c2eOpt X s R K O fpd trans nfo out none none stack empty fl counts

/-- the spinor function for a four-centre integral with all its arguments and an optimizer, src/cint2e.c:1215-1225 -/
def int2eSpOpt (X : Int2e α) (s : Call2 α) (R : Rys2 α) (K : Consts α) (L : MathLib α) (O : Opt2) (i j k l : Nat) (e1 e2 nT : Nat)
    (k1 k2 : SpKind) (tab : JTab) (kap : Nat → Int) (fpd : Nat) (out : Ptr) (dims : Option Ptr) (cache : Option Nat) (stack : Nat)
    (empty fl loc counts : Ptr) : Prog α Bool :=
  drv2eSp X s (fun gctr c => loop2eOpt X s R K L O i j k l fpd gctr empty (cacheOr cache stack) c fl loc) e1 e2 nT k1 k2 tab kap fpd out
    dims (cacheOr cache stack) 0 empty counts

/-- the same without `dims` and `cache`, src/misc.h:54-60 -/
def cint2eSpOpt (X : Int2e α) (s : Call2 α) (R : Rys2 α) (K : Consts α) (L : MathLib α) (O : Opt2) (i j k l : Nat) (e1 e2 nT : Nat)
    (k1 k2 : SpKind) (tab : JTab) (kap : Nat → Int) (fpd : Nat) (out : Ptr) (stack : Nat) (empty fl loc counts : Ptr) : Prog α Bool :=
  int2eSpOpt X s R K L O i j k l e1 e2 nT k1 k2 tab kap fpd out none none stack empty fl loc counts

/-- the spinor function for a three-centre integral with all its arguments and an optimizer, src/cint3c2e.c:719-728 -/
def int3c2eSpOpt (X : Int2e α) (s : Call3 α) (R : Rys2 α) (K : Consts α) (L : MathLib α) (O : Opt2) (i j : Nat) (e1 nT : Nat)
    (kd : SpKind) (sph : Ptr) (tab : JTab) (ki kj : Int) (fpd : Nat) (out : Ptr) (dims : Option Ptr) (cache : Option Nat) (stack : Nat)
    (empty fl loc counts : Ptr) : Prog α Bool :=
  drv3c2eSp X s (fun gctr c => loop3c2eOpt X s R K L O i j fpd gctr empty (cacheOr cache stack) c fl loc) e1 nT kd sph tab ki kj fpd out
    dims (cacheOr cache stack) 0 empty counts

/-- the same without `dims` and `cache`, src/misc.h:54-60 -/
def cint3c2eSpOpt (X : Int2e α) (s : Call3 α) (R : Rys2 α) (K : Consts α) (L : MathLib α) (O : Opt2) (i j : Nat) (e1 nT : Nat)
    (kd : SpKind) (sph : Ptr) (tab : JTab) (ki kj : Int) (fpd : Nat) (out : Ptr) (stack : Nat) (empty fl loc counts : Ptr) :
    Prog α Bool :=
  int3c2eSpOpt X s R K L O i j e1 nT kd sph tab ki kj fpd out none none stack empty fl loc counts

/-- the spinor function for a two-centre integral with all its arguments and an optimizer, src/cint2c2e.c:377-387 -/
def int2c2eSpOpt (X : Int2e α) (s : Call2c α) (R : Rys2 α) (K : Consts α) (O : Opt2) (kd : SpKind) (tab : JTab) (ki kk : Int) (fpd : Nat)
    (out : Ptr) (dims : Option Ptr) (cache : Option Nat) (stack : Nat) (empty fl counts : Ptr) : Prog α Bool :=
  drv2c2eSp X s (fun gctr c => loop2c2eOpt X s R K O fpd gctr empty (cacheOr cache stack) c fl) kd tab ki kk fpd out dims
    (cacheOr cache stack) 0 empty counts

/-- the same without `dims` and `cache`, src/misc.h:54-60 -/
def cint2c2eSpOpt (X : Int2e α) (s : Call2c α) (R : Rys2 α) (K : Consts α) (O : Opt2) (kd : SpKind) (tab : JTab) (ki kk : Int) (fpd : Nat)
    (out : Ptr) (stack : Nat) (empty fl counts : Ptr) : Prog α Bool :=
  int2c2eSpOpt X s R K O kd tab ki kk fpd out none none stack empty fl counts

end Verif.Model
