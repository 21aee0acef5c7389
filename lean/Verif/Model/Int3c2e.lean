import Verif.Model.Int2e
import Verif.Model.Nests

/-!
Two-electron three-centre integrals from the call to the filled output array, without an optimizer: CINT3c2e_drv,
CINT3c2e_loop_nopt and the scratch memory they carve out of `cache` (layout: Model/Drv1e.lean).
-/
namespace Verif.Model
open Verif Prog

variable {α : Type}

/-- The input data of a call: the three shells, `env[PTR_EXPCUTOFF]` and `env[PTR_RANGE_OMEGA]`. -/
structure Call3 (α : Type) where
  si : PShell α
  sj : PShell α
  sk : PShell α
  envCut : α
  omega : α

section
variable (X : Int2e α) (s : Call3 α)

section
variable [Zero α] [LT α] [DecidableLT α]

def Call3.env : EnvG := initInt3c2e s.si.l s.sj.l s.sk.l X.ng (decide (s.omega < 0))
/-- number of contractions, src/cint3c2e.c:140 -/
def Call3.nctr : Nat := s.si.nctr * s.sj.nctr * s.sk.nctr
/-- `leng`, src/cint3c2e.c:142, :565 -/
def Call3.leng : Nat := (s.env X).g_size * 3 * (2^X.gbits + 1)
/-- size of the sparsity tables, src/cint3c2e.c:128 -/
def Call3.tblLen : Nat := s.si.nprim + s.sj.nprim + s.sk.nprim + s.si.nprim * s.si.nctr +
  s.sj.nprim * s.sj.nctr + s.sk.nprim * s.sk.nctr

/-- The cache size asked for by CINT3c2e_drv, src/cint3c2e.c:543-553, :563-569; exact, in C `pdata_size` is a FINT and the
rest CACHE_SIZE_T. -/
def cacheSize3c2e : Nat :=
  let nf := (s.env X).nf
  let nc := nf * s.si.nctr * s.sj.nctr * s.sk.nctr
  let pdata_size := s.si.nprim * s.sj.nprim * 5 + s.si.nprim * s.si.nctr + s.sj.nprim * s.sj.nctr
    + s.sk.nprim * s.sk.nctr + (s.si.nprim + s.sj.nprim) * 2 + s.sk.nprim + nf * 3 + 16
  max (s.leng X + nf * X.nComp + nc * X.nComp * 3 + pdata_size) (nc * X.nComp + nf * 3)

/-- MALLOC_INSTACK of the arrays of CINT3c2e_loop_nopt, src/cint3c2e.c:82-83, 122, 128, 149 -/
def arrays3c2e (fpd buf c : Nat) : Arrays2e :=
  let m1 := mallocD fpd buf c (s.si.nprim + s.sj.nprim)
  let m2 := mallocD fpd buf m1.2 (5 * (s.si.nprim * s.sj.nprim))
  let m3 := mallocI fpd buf m2.2 ((s.env X).nf * 3)
  let m4 := mallocI fpd buf m3.2 s.tblLen
  { logMaxc := m1.1, pdata := m2.1, idx := m3.1, tbl := m4.1, g := ⟨buf, alignUp fpd m4.2 / fpd⟩ }
end

variable [Field α] [LinearOrder α] (R : Rys2 α) (K : Consts α) (L : MathLib α)

/-- `envs->expcutoff`, src/g3c2e.c:58-62 -/
def cutoff3c2e (envCut : α) : α := if envCut = 0 then 60 else if (40 : α) > envCut then 40 else envCut

/-- arguments of CINTset_pairdata, src/cint3c2e.c:87-89 -/
def Call3.pairArgs : PairArgs α :=
  { si := s.si, sj := s.sj, li := (s.env X).li_ceil, lj := (s.env X).lj_ceil
    rr := rr2 s.si.r s.sj.r, cutoff := cutoff3c2e s.envCut, omega := s.omega }

/-- `expcutoff` after src/cint3c2e.c:105-119 (`lk_ceil` is always 0, see `initInt3c2e`) -/
def Call3.cutoff : α :=
  let e := s.env X
  let omega2 := s.omega * s.omega
  if s.omega < 0 ∧ e.rys_order > 1 then
    let lij := e.li_ceil + e.lj_ceil
    let cut1 := if lij > 0 then
        let dist_ij := L.sqrt (rr2 s.si.r s.sj.r)
        let aij := s.si.a (s.si.nprim-1) + s.sj.a (s.sj.nprim-1)
        let theta := omega2 / (omega2 + aij)
        cutoff3c2e s.envCut + (lij : α) * L.log ((dist_ij + theta*8 + 1)/(dist_ij + 1))
      else cutoff3c2e s.envCut
    if e.lk_ceil > 0 then
      let theta := omega2 / (omega2 + s.sk.a (s.sk.nprim-1))
      cut1 + (e.lk_ceil : α) * L.log (theta*8 + 1)
    else cut1
  else cutoff3c2e s.envCut

/-- `envs` inside the primitive loops: exponents, centres, `rij` from the pair data, `rkl` (src/cint3c2e.c:104; `al[0] = 0`,
`rkl`: src/g3c2e.c:103-106).  `rl` is not set in C. -/
def Call3.g3 (ip jp kp : Nat) : G2 α :=
  { ai := s.si.a ip, aj := s.sj.a jp, ak := s.sk.a kp, al := 0
    ri := s.si.r, rj := s.sj.r, rk := s.sk.r, rl := s.sk.r
    rij := fun c => pairVal L (s.pairArgs X) ip jp c
    rkl := s.sk.r
    omega := s.omega }

/-- The same as seen by CINTg0_2e, where `rkrl` and `rx_in_rklrx` are the centre of the third shell (src/g3c2e.c:108-112);
in terms of `rkrl2`, `rxkl` (Model/G2e.lean) with `lk_ceil = 0`: the centre `rl` is that of the third shell, and `rk` is 0. -/
def Call3.g3r (ip jp kp : Nat) : G2 α := { s.g3 X L ip jp kp with rk := fun _ => 0 }

/-- The loops of CINT3c2e_loop_nopt; the pair data stored by `setPairdata` are used directly.
`common_factor`: src/g3c2e.c:55-57. -/
def Call3.triple (A : Arrays2e) : Nest3 α :=
  { iPrim := s.si.nprim, jPrim := s.sj.nprim, kPrim := s.sk.nprim
    iCtr := s.si.nctr, jCtr := s.sj.nctr, kCtr := s.sk.nctr
    ci := s.si.c, cj := s.sj.c, ck := s.sk.c
    common := X.common * (K.pi*K.pi*K.pi * 2 / K.sqrtpi * commonFacSp s.si.l * commonFacSp s.sj.l * commonFacSp s.sk.l)
    skip := fun ip jp _ => decide (pairVal L (s.pairArgs X) ip jp 4 > s.cutoff X L)
    eij := fun ip jp _ => pairVal L (s.pairArgs X) ip jp 3
    g0 := fun ip jp kp fac => g0_2e R K (s.env X) (s.g3r X L ip jp kp)
      (s.cutoff X L - pairVal L (s.pairArgs X) ip jp 4) A.g fac
    gout := fun ip jp kp _ gout em => X.gout (s.env X) (s.g3 X L ip jp kp) A.idx A.g gout em
    nf := (s.env X).nf, nComp := X.nComp, leng := s.leng X }

/-- CINT3c2e_loop_nopt, src/cint3c2e.c:56-206.  `empty` is the driver's variable, `fl` the local array `_empty[4]`, `loc` the
local arrays of CINTg2e_index_xyz, `c` the incoming `cache`. -/
def loop3c2eRun (fpd : Nat) (gctr empty : Ptr) (buf c : Nat) (fl loc : Ptr) : Prog α Bool := do
  let A := arrays3c2e X s fpd buf c
  fillLogMaxC L A.logMaxc s.si
  fillLogMaxC L (A.logMaxc + s.si.nprim) s.sj
  let emptyPair ← setPairdata L A.pdata (s.pairArgs X)
  if emptyPair then pure false else do
    g2eIndex A.idx loc (s.env X)
    loop3cNopt (s.triple X R K L A) ⟨gctr, empty, A.g, fl⟩ A.tbl false

/-- CINT3c2e_drv, src/cint3c2e.c:555-622, with `out` not NULL and `is_ssc` 0; `loop gctr cache` is the loop function.
`trans` transforms a block using the remaining cache; `nfo` is the number of output functions of the shells (`nfi`, or
`2l+1`; 1 for the absent fourth).  When the caller passes no cache the driver allocates one of size `cacheSize3c2e`. -/
def drv3c2eBy (loop : Ptr → Nat → Prog α Bool) (fpd : Nat) (trans : (buf c : Nat) → Ptr → Prog α Ptr) (nfo : Nat → Nat)
    (out : Ptr) (dims : Option Ptr) (buf c : Nat) (empty counts : Ptr) : Prog α Bool := do
  let nf := (s.env X).nf
  let nc := nf * s.si.nctr * s.sj.nctr * s.sk.nctr
  let m := mallocD fpd buf c (nc * X.nComp)
  stI empty 1
  let _ ← loop m.1 m.2
  let e ← ldI empty
  let S : Shape := { ic := s.si.nctr, jc := s.sj.nctr, kc := s.sk.nctr, lc := 1
                     di := nfo 0, dj := nfo 1, dk := nfo 2, dl := nfo 3, nf := nf }
  outStage 3 (decide (e = 0)) X.nComp nc (c2s3c S (trans buf m.2)) out m.1 dims counts
    (fun t => nfo t * four s.si.nctr s.sj.nctr s.sk.nctr 1 t)
  pure (decide (e = 0))

/-- CINT3c2e_drv without an optimizer, src/cint3c2e.c:583-585 -/
def drv3c2e (fpd : Nat) (trans : (buf c : Nat) → Ptr → Prog α Ptr) (nfo : Nat → Nat) (out : Ptr)
    (dims : Option Ptr) (buf c : Nat) (empty fl loc counts : Ptr) : Prog α Bool :=
  drv3c2eBy X s (fun gctr c' => loop3c2eRun X s R K L fpd gctr empty buf c' fl loc) fpd trans nfo out dims buf c empty counts

end
end Verif.Model
