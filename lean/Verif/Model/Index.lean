import Verif.Model.Env

/-
Index tables: which entries of `g` are multiplied for a tuple of Cartesian components.
The local arrays `i_nx[CART_MAX]`, ... (CART_MAX = 136) are consecutive blocks at `loc`.
-/
namespace Verif.Model
open Verif Prog

variable {α : Type}

/-- local array of shell `s` (0 = i, 1 = j, ...) and direction `c` (0 = x, 1 = y, 2 = z) -/
def compArr (loc : Ptr) (s c : Nat) : Ptr := loc + (3*s + c)*136

def compFill (loc : Ptr) (s l : Nat) : Prog α Unit := do
  let _ ← cartComp (compArr loc s 0) (compArr loc s 1) (compArr loc s 2) l
  pure ()

/-- the statements `idx[n+0] = ofx + di * i_nx[i]; ...; n += 3` -/
def idxTriple (idx loc : Ptr) (n : Nat) (ofx ofy ofz di : Int) (i : Nat) : Prog α Nat := do
  let x ← ldI (compArr loc 0 0 + i)
  stI (idx + n) (ofx + di * x)
  let y ← ldI (compArr loc 0 1 + i)
  stI (idx + (n+1)) (ofy + di * y)
  let z ← ldI (compArr loc 0 2 + i)
  stI (idx + (n+2)) (ofz + di * z)
  pure (n + 3)

/-- CINTg1e_index_xyz, src/g1e.c:88-122 -/
def g1eIndex (idx loc : Ptr) (e : EnvG) : Prog α Unit := do
  let di : Int := e.g_stride_i
  let dj : Int := e.g_stride_j
  compFill loc 0 e.i_l
  compFill loc 1 e.j_l
  let ofx : Int := 0
  let ofy : Int := e.g_size
  let ofz : Int := e.g_size * 2
  let _ ← forS e.nfj 0 fun j n => do
    let jx ← ldI (compArr loc 1 0 + j)
    let jy ← ldI (compArr loc 1 1 + j)
    let jz ← ldI (compArr loc 1 2 + j)
    let ofjx := ofx + dj * jx
    let ofjy := ofy + dj * jy
    let ofjz := ofz + dj * jz
    forS e.nfi n fun i n => idxTriple idx loc n ofjx ofjy ofjz di i
  pure ()

/-- the cases `i_l = 0, 1, 2` and the default of the switch, src/g2e.c:219-268 -/
def idxSwitch (idx loc : Ptr) (i_l nfi : Nat) (n : Nat) (ofkx ofky ofkz di : Int) :
    Prog α Nat :=
  match i_l with
  | 0 => do
    stI (idx + (n+0)) ofkx
    stI (idx + (n+1)) ofky
    stI (idx + (n+2)) ofkz
    pure (n + 3)
  | 1 => do
    stI (idx + (n+0)) (ofkx + di)
    stI (idx + (n+1)) ofky
    stI (idx + (n+2)) ofkz
    stI (idx + (n+3)) ofkx
    stI (idx + (n+4)) (ofky + di)
    stI (idx + (n+5)) ofkz
    stI (idx + (n+6)) ofkx
    stI (idx + (n+7)) ofky
    stI (idx + (n+8)) (ofkz + di)
    pure (n + 9)
  | 2 => do
    stI (idx + (n+0)) (ofkx + di*2)
    stI (idx + (n+1)) ofky
    stI (idx + (n+2)) ofkz
    stI (idx + (n+3)) (ofkx + di)
    stI (idx + (n+4)) (ofky + di)
    stI (idx + (n+5)) ofkz
    stI (idx + (n+6)) (ofkx + di)
    stI (idx + (n+7)) ofky
    stI (idx + (n+8)) (ofkz + di)
    stI (idx + (n+9)) ofkx
    stI (idx + (n+10)) (ofky + di*2)
    stI (idx + (n+11)) ofkz
    stI (idx + (n+12)) ofkx
    stI (idx + (n+13)) (ofky + di)
    stI (idx + (n+14)) (ofkz + di)
    stI (idx + (n+15)) ofkx
    stI (idx + (n+16)) ofky
    stI (idx + (n+17)) (ofkz + di*2)
    pure (n + 18)
  | _ => forS nfi n fun i n => idxTriple idx loc n ofkx ofky ofkz di i

/-- CINTg2e_index_xyz, src/g2e.c:174-273 -/
def g2eIndex (idx loc : Ptr) (e : EnvG) : Prog α Unit := do
  let di : Int := e.g_stride_i
  let dk : Int := e.g_stride_k
  let dl : Int := e.g_stride_l
  let dj : Int := e.g_stride_j
  compFill loc 0 e.i_l
  compFill loc 1 e.j_l
  compFill loc 2 e.k_l
  compFill loc 3 e.l_l
  let ofx : Int := 0
  let ofy : Int := e.g_size
  let ofz : Int := e.g_size * 2
  let _ ← forS e.nfj 0 fun j n => do
    forS e.nfl n fun l n => do
      let jx ← ldI (compArr loc 1 0 + j)
      let lx ← ldI (compArr loc 3 0 + l)
      let jy ← ldI (compArr loc 1 1 + j)
      let ly ← ldI (compArr loc 3 1 + l)
      let jz ← ldI (compArr loc 1 2 + j)
      let lz ← ldI (compArr loc 3 2 + l)
      let oflx := ofx + dj * jx + dl * lx
      let ofly := ofy + dj * jy + dl * ly
      let oflz := ofz + dj * jz + dl * lz
      forS e.nfk n fun k n => do
        let kx ← ldI (compArr loc 2 0 + k)
        let ky ← ldI (compArr loc 2 1 + k)
        let kz ← ldI (compArr loc 2 2 + k)
        let ofkx := oflx + dk * kx
        let ofky := ofly + dk * ky
        let ofkz := oflz + dk * kz
        idxSwitch idx loc e.i_l e.nfi n ofkx ofky ofkz di
  pure ()

/-- CINTg3c1e_index_xyz, src/g3c1e.c:79-123 -/
def g3c1eIndex (idx loc : Ptr) (e : EnvG) : Prog α Unit := do
  let dj : Int := e.g_stride_j
  let dk : Int := e.g_stride_k
  compFill loc 0 e.i_l
  compFill loc 1 e.j_l
  compFill loc 2 e.k_l
  let ofx : Int := 0
  let ofy : Int := e.g_size
  let ofz : Int := e.g_size * 2
  let _ ← forS e.nfk 0 fun k n => do
    let kx ← ldI (compArr loc 2 0 + k)
    let ky ← ldI (compArr loc 2 1 + k)
    let kz ← ldI (compArr loc 2 2 + k)
    let ofkx := ofx + dk * kx
    let ofky := ofy + dk * ky
    let ofkz := ofz + dk * kz
    forS e.nfj n fun j n => do
      let jx ← ldI (compArr loc 1 0 + j)
      let jy ← ldI (compArr loc 1 1 + j)
      let jz ← ldI (compArr loc 1 2 + j)
      let ofjx := ofkx + dj * jx
      let ofjy := ofky + dj * jy
      let ofjz := ofkz + dj * jz
      forS e.nfi n fun i n => idxTriple idx loc n ofjx ofjy ofjz 1 i
  pure ()

end Verif.Model
