import Verif.Model.Drv1e
import Verif.Model.Int2e
import Verif.Model.Int2c2e
import Verif.Model.Int3c2e
import Verif.Model.Int3c1e

/-!
The functions without `dims` and `cache` arguments (the interface of libcint 2), src/misc.h:35-76 (macros `ALL_CINT`,
`ALL_CINT1E`) and src/c2f.h:9-58 (the same for Fortran, which passes `natm`, `nbas` and the optimizer by reference).  They call
the function of the same name with `dims = NULL` and `cache = NULL`; the driver then allocates the cache itself
(src/cint1e.c:197-202, src/cint2e.c:817-826, src/cint2c2e.c:247-252, src/cint3c2e.c:570-579, src/cint3c1e.c:379-388).

The wrappers of the spinor functions are in `Model/WrapSp`.  Not modelled: failure of `malloc`.
-/
namespace Verif.Model
open Verif Verif.Prog

variable {α : Type} [Field α] [LinearOrder α]

/-- `if (cache == NULL) { stack = malloc(...); cache = stack; }`, src/cint1e.c:198-202 and the same lines of the other drivers:
the buffer used for the cache.  `stack` is the block `malloc` returns. -/
def cacheOr (cache : Option Nat) (stack : Nat) : Nat :=
  match cache with
  | none => stack
  | some c => c

/-- the function for a one-electron integral with all its arguments, src/cint1e.c:360-378, 396-414 (int1e_ovlp, int1e_nuc) and the autocode functions -/
def int1e (X : Int1e α) (s : Call α) (K : Consts α) (L : MathLib α) (fpd : Nat)
    (trans : (buf c : Nat) → Ptr → Prog α Ptr) (nfo : Nat → Nat) (out : Ptr) (dims : Option Ptr) (cache : Option Nat)
    (stack : Nat) (fl loc counts : Ptr) : Prog α Bool :=
  drv1e X s K L fpd trans nfo out dims (cacheOr cache stack) 0 fl loc counts

/-- the same without `dims` and `cache`, src/misc.h:62-70 -/
def cint1e (X : Int1e α) (s : Call α) (K : Consts α) (L : MathLib α) (fpd : Nat)
    (trans : (buf c : Nat) → Ptr → Prog α Ptr) (nfo : Nat → Nat) (out : Ptr) (stack : Nat) (fl loc counts : Ptr) :
    Prog α Bool :=
  int1e X s K L fpd trans nfo out none none stack fl loc counts

/-- the function for a four-centre two-electron integral without optimizer with all its arguments, src/cint2e.c:1186-1213 -/
def int2e (X : Int2e α) (s : Call2 α) (R : Rys2 α) (K : Consts α) (L : MathLib α) (fpd : Nat)
    (trans : (buf c : Nat) → Ptr → Prog α Ptr) (nfo : Nat → Nat) (out : Ptr) (dims : Option Ptr) (cache : Option Nat)
    (stack : Nat) (empty fl loc counts : Ptr) : Prog α Bool :=
  drv2e X s R K L fpd trans nfo out dims (cacheOr cache stack) 0 empty fl loc counts

/-- the same without `dims` and `cache`, src/misc.h:36-47 -/
def cint2e (X : Int2e α) (s : Call2 α) (R : Rys2 α) (K : Consts α) (L : MathLib α) (fpd : Nat)
    (trans : (buf c : Nat) → Ptr → Prog α Ptr) (nfo : Nat → Nat) (out : Ptr) (stack : Nat) (empty fl loc counts : Ptr) :
    Prog α Bool :=
  int2e X s R K L fpd trans nfo out none none stack empty fl loc counts

/-- the function for a two-centre two-electron integral without optimizer with all its arguments, src/cint2c2e.c:351-375 -/
def int2c2e (X : Int2e α) (s : Call2c α) (R : Rys2 α) (K : Consts α) (fpd : Nat)
    (trans : (buf c : Nat) → Ptr → Prog α Ptr) (nfo : Nat → Nat) (out : Ptr) (dims : Option Ptr) (cache : Option Nat)
    (stack : Nat) (empty fl loc counts : Ptr) : Prog α Bool :=
  drv2c2e X s R K fpd trans nfo out dims (cacheOr cache stack) 0 empty fl loc counts

/-- the same without `dims` and `cache`, src/misc.h:36-47 -/
def cint2c2e (X : Int2e α) (s : Call2c α) (R : Rys2 α) (K : Consts α) (fpd : Nat)
    (trans : (buf c : Nat) → Ptr → Prog α Ptr) (nfo : Nat → Nat) (out : Ptr) (stack : Nat) (empty fl loc counts : Ptr) :
    Prog α Bool :=
  int2c2e X s R K fpd trans nfo out none none stack empty fl loc counts

/-- the function for a three-centre two-electron integral without optimizer with all its arguments, src/cint3c2e.c:693-717 -/
def int3c2e (X : Int2e α) (s : Call3 α) (R : Rys2 α) (K : Consts α) (L : MathLib α) (fpd : Nat)
    (trans : (buf c : Nat) → Ptr → Prog α Ptr) (nfo : Nat → Nat) (out : Ptr) (dims : Option Ptr) (cache : Option Nat)
    (stack : Nat) (empty fl loc counts : Ptr) : Prog α Bool :=
  drv3c2e X s R K L fpd trans nfo out dims (cacheOr cache stack) 0 empty fl loc counts

/-- the same without `dims` and `cache`, src/misc.h:36-47 -/
def cint3c2e (X : Int2e α) (s : Call3 α) (R : Rys2 α) (K : Consts α) (L : MathLib α) (fpd : Nat)
    (trans : (buf c : Nat) → Ptr → Prog α Ptr) (nfo : Nat → Nat) (out : Ptr) (stack : Nat) (empty fl loc counts : Ptr) :
    Prog α Bool :=
  int3c2e X s R K L fpd trans nfo out none none stack empty fl loc counts

/-- the function for a one-electron integral over three functions with all its arguments, src/cint3c1e.c:459-482, 494-517 -/
def int3c1e (X : Int2e α) (s : Call3 α) (R : Rys α) (K : Consts α) (L : MathLib α) (op : Op3c1e α) (fpd : Nat)
    (trans : (buf c : Nat) → Ptr → Prog α Ptr) (nfo : Nat → Nat) (out : Ptr) (dims : Option Ptr) (cache : Option Nat)
    (stack : Nat) (empty fl loc counts : Ptr) : Prog α Bool :=
  drv3c1e X s R K L op fpd trans nfo out dims (cacheOr cache stack) 0 empty fl loc counts

/-- the same without `dims` and `cache`, src/misc.h:36-47 -/
def cint3c1e (X : Int2e α) (s : Call3 α) (R : Rys α) (K : Consts α) (L : MathLib α) (op : Op3c1e α) (fpd : Nat)
    (trans : (buf c : Nat) → Ptr → Prog α Ptr) (nfo : Nat → Nat) (out : Ptr) (stack : Nat) (empty fl loc counts : Ptr) :
    Prog α Bool :=
  int3c1e X s R K L op fpd trans nfo out none none stack empty fl loc counts

end Verif.Model
