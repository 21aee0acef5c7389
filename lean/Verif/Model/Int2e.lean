import Verif.Model.Drv1e
import Verif.Model.G2e
import Verif.Model.Loop2e

/-!
Two-electron four-centre integrals from the call to the filled output array, without an optimizer: CINT2e_drv,
CINT2e_loop_nopt and the scratch memory they carve out of `cache`.  The layout of the cache is described in
Model/Drv1e.lean.
-/
namespace Verif.Model
open Verif Prog

variable {α : Type}

/-- What distinguishes the integrals: the `ng` array, `common_factor` relative to that of plain repulsion integrals, and
the function that evaluates the integrand (`f_gout`). -/
structure Int2e (α : Type) where
  ng : Inc
  /-- `ng[GSHIFT]` -/
  gbits : Nat
  /-- `ng[POS_E1] * ng[POS_E2] * ng[TENSOR]` -/
  nComp : Nat
  /-- factor on `envs->common_factor` -/
  common : α
  gout : EnvG → G2 α → (idx g gout : Ptr) → Int → Prog α Unit

/-- The input data of a call: the four shells, `env[PTR_EXPCUTOFF]` and `env[PTR_RANGE_OMEGA]`. -/
structure Call2 (α : Type) where
  si : PShell α
  sj : PShell α
  sk : PShell α
  sl : PShell α
  envCut : α
  omega : α

section
variable (X : Int2e α) (s : Call2 α)

section
variable [Zero α] [LT α] [DecidableLT α]

def Call2.env : EnvG := initInt2e s.si.l s.sj.l s.sk.l s.sl.l X.ng (decide (s.omega < 0))
/-- number of contractions, src/cint2e.c:170 -/
def Call2.nctr : Nat := s.si.nctr * s.sj.nctr * s.sk.nctr * s.sl.nctr
/-- `leng`, src/cint2e.c:172, :807 -/
def Call2.leng : Nat := (s.env X).g_size * 3 * (2^X.gbits + 1)
/-- size of the sparsity tables, src/cint2e.c:155 -/
def Call2.tblLen : Nat := s.si.nprim + s.sj.nprim + s.sk.nprim + s.sl.nprim + s.si.nprim * s.si.nctr +
  s.sj.nprim * s.sj.nctr + s.sk.nprim * s.sk.nctr + s.sl.nprim * s.sl.nctr

/-- The cache size asked for by CINT2e_drv, src/cint2e.c:784-792, :806-810; exact, in C in `size_t` (the driver
returns 0 instead when it is not below INT32_MAX, unless compiled with I8 or CACHE_SIZE_I8). -/
def cacheSize2e : Nat :=
  let nf := (s.env X).nf
  let nc := nf * s.si.nctr * s.sj.nctr * s.sk.nctr * s.sl.nctr
  let pdata_size := (s.si.nprim * s.sj.nprim + s.sk.nprim * s.sl.nprim) * 5 + s.si.nprim * s.si.nctr
    + s.sj.nprim * s.sj.nctr + s.sk.nprim * s.sk.nctr + s.sl.nprim * s.sl.nctr
    + (s.si.nprim + s.sj.nprim + s.sk.nprim + s.sl.nprim) * 2 + nf * 3
  max (s.leng X + nf * X.nComp + nc * X.nComp * 3 + pdata_size) (nc * X.nComp + nf * 4)

/-- the arrays of CINT2e_loop_nopt in the cache, src/cint2e.c:92-93, 148, 155, 180 -/
structure Arrays2e where
  logMaxc : Ptr
  pdata : Ptr
  idx : Ptr
  tbl : Ptr
  g : Ptr

/-- MALLOC_INSTACK of these arrays.  `g` is the last; the pieces of it that are needed depend on which of the
accumulators coincide. -/
def arrays2e (fpd buf c : Nat) : Arrays2e :=
  let m1 := mallocD fpd buf c (s.si.nprim + s.sj.nprim + s.sk.nprim + s.sl.nprim)
  let m2 := mallocD fpd buf m1.2 (5 * (s.si.nprim * s.sj.nprim))
  let m3 := mallocI fpd buf m2.2 ((s.env X).nf * 3)
  let m4 := mallocI fpd buf m3.2 s.tblLen
  { logMaxc := m1.1, pdata := m2.1, idx := m3.1, tbl := m4.1, g := ⟨buf, alignUp fpd m4.2 / fpd⟩ }
end

variable [Field α] [LinearOrder α] (R : Rys2 α) (K : Consts α) (L : MathLib α)

/-- `envs->expcutoff`, src/g2e.c:69-74 -/
def cutoff2e (envCut : α) : α := if envCut = 0 then 60 else (if (40 : α) > envCut then 40 else envCut) + 1

/-- arguments of CINTset_pairdata, src/cint2e.c:99-101 -/
def Call2.pairArgs : PairArgs α :=
  { si := s.si, sj := s.sj, li := (s.env X).li_ceil, lj := (s.env X).lj_ceil
    rr := rr2 s.si.r s.sj.r, cutoff := cutoff2e s.envCut, omega := s.omega }

/-- `expcutoff` after src/cint2e.c:124-141 -/
def Call2.cutoff : α :=
  let e := s.env X
  let expcutoff := cutoff2e s.envCut
  let lij := e.li_ceil + e.lj_ceil
  if s.omega < 0 ∧ e.rys_order > 1 ∧ lij > 0 then
    let omega2 := s.omega * s.omega
    let aij := s.si.a (s.si.nprim-1) + s.sj.a (s.sj.nprim-1)
    let dist_ij := L.sqrt (rr2 s.si.r s.sj.r)
    let theta := omega2 / (omega2 + aij)
    expcutoff + (lij : α) * L.log ((dist_ij + theta*8 + 1)/(dist_ij + 1))
  else expcutoff

/-- `log_rr_kl`, src/cint2e.c:119-146 -/
def Call2.logRRkl : α :=
  let e := s.env X
  let akl := s.sk.a (s.sk.nprim-1) + s.sl.a (s.sl.nprim-1)
  let lr := 17/10 - 15/10 * L.log akl
  let lkl := e.lk_ceil + e.ll_ceil
  let rr_kl := rr2 s.sk.r s.sl.r
  if s.omega < 0 then
    if e.rys_order > 1 ∧ lkl > 0 then
      let omega2 := s.omega * s.omega
      let theta := omega2 / (omega2 + akl)
      lr + (lkl : α) * L.log (L.sqrt rr_kl + theta*8 + 1)
    else lr
  else if lkl > 0 then lr + (lkl : α) * L.log (L.sqrt rr_kl + 1)
  else lr

/-- `ekl` before the exponential, src/cint2e.c:202 -/
def Call2.expKL (kp lp : Nat) : α := rr2 s.sk.r s.sl.r * s.sk.a kp * s.sl.a lp / (s.sk.a kp + s.sl.a lp)

/-- `ccekl`, src/cint2e.c:203 -/
def Call2.ccekl (kp lp : Nat) : α := s.expKL kp lp - s.logRRkl X L - logMaxC L s.sk kp - logMaxC L s.sl lp

/-- `eijcutoff`, src/cint2e.c:211 -/
def Call2.eijcutoff (kp lp : Nat) : α := s.cutoff X L - s.ccekl X L kp lp

/-- `envs` inside the primitive loops: exponents, centres, `rij` from the pair data and `rkl` (src/cint2e.c:208-210) -/
def Call2.g2 (ip jp kp lp : Nat) : G2 α :=
  { ai := s.si.a ip, aj := s.sj.a jp, ak := s.sk.a kp, al := s.sl.a lp
    ri := s.si.r, rj := s.sj.r, rk := s.sk.r, rl := s.sl.r
    rij := fun c => pairVal L (s.pairArgs X) ip jp c
    rkl := fun c => (s.sk.a kp * s.sk.r c + s.sl.a lp * s.sl.r c) / (s.sk.a kp + s.sl.a lp)
    omega := s.omega }

/-- The loops of CINT2e_loop_nopt.  The pair data are read from `pdata` in the C code; here the numbers
stored there by `setPairdata` are used directly, and likewise the logarithms stored in `log_maxc`.
`common_factor`: src/g2e.c:65-67. -/
def Call2.quartet (A : Arrays2e) : Quartet α :=
  { iPrim := s.si.nprim, jPrim := s.sj.nprim, kPrim := s.sk.nprim, lPrim := s.sl.nprim
    iCtr := s.si.nctr, jCtr := s.sj.nctr, kCtr := s.sk.nctr, lCtr := s.sl.nctr
    ci := s.si.c, cj := s.sj.c, ck := s.sk.c, cl := s.sl.c
    common := X.common * (K.pi*K.pi*K.pi * 2 / K.sqrtpi * commonFacSp s.si.l * commonFacSp s.sj.l *
      commonFacSp s.sk.l * commonFacSp s.sl.l)
    skipKL := fun kp lp => decide (s.ccekl X L kp lp > s.cutoff X L)
    skipIJ := fun ip jp kp lp => decide (pairVal L (s.pairArgs X) ip jp 4 > s.eijcutoff X L kp lp)
    eij := fun ip jp => pairVal L (s.pairArgs X) ip jp 3
    ekl := fun kp lp => L.exp (-s.expKL kp lp)
    g0 := fun ip jp kp lp fac => g0_2e R K (s.env X) (s.g2 X L ip jp kp lp)
      (s.eijcutoff X L kp lp - pairVal L (s.pairArgs X) ip jp 4) A.g fac
    gout := fun ip jp kp lp _ gout em => X.gout (s.env X) (s.g2 X L ip jp kp lp) A.idx A.g gout em
    nf := (s.env X).nf, nComp := X.nComp, leng := s.leng X }

/-- the pointers passed to the loops; those of the sparsity tables are set by `Mem2e.withTables` -/
def mem2e (gctr empty g fl tbl : Ptr) : Mem2e := ⟨gctr, empty, g, fl, tbl, tbl, tbl, tbl, tbl, tbl, tbl, tbl⟩

/-- CINT2e_loop_nopt, src/cint2e.c:57-266.  `empty` is the driver's variable, `fl` the local array `_empty[5]`, `loc` the
local arrays of CINTg2e_index_xyz, `c` the incoming `cache`. -/
def loop2eRun (fpd : Nat) (gctr empty : Ptr) (buf c : Nat) (fl loc : Ptr) : Prog α Bool := do
  let A := arrays2e X s fpd buf c
  fillLogMaxC L A.logMaxc s.si
  fillLogMaxC L (A.logMaxc + s.si.nprim) s.sj
  let emptyPair ← setPairdata L A.pdata (s.pairArgs X)
  if emptyPair then pure false else do
    fillLogMaxC L (A.logMaxc + s.si.nprim + s.sj.nprim) s.sk
    fillLogMaxC L (A.logMaxc + s.si.nprim + s.sj.nprim + s.sk.nprim) s.sl
    g2eIndex A.idx loc (s.env X)
    loop2eNopt (s.quartet X R K L A) (mem2e gctr empty A.g fl A.tbl) A.tbl false

/-- four numbers as a function -/
def four (x y z w : Nat) (t : Nat) : Nat := if t = 0 then x else if t = 1 then y else if t = 2 then z else w

/-- CINT2e_drv, src/cint2e.c:794-878, with `out` not NULL and no optimizer.  `trans` transforms a block using the
remaining cache; `nfo` is the number of output functions of the shells (`nfi`, or `2l+1`).  When the
caller passes no cache the driver allocates one of size `cacheSize2e`. -/
def drv2e (fpd : Nat) (trans : (buf c : Nat) → Ptr → Prog α Ptr) (nfo : Nat → Nat) (out : Ptr)
    (dims : Option Ptr) (buf c : Nat) (empty fl loc counts : Ptr) : Prog α Bool := do
  let nf := (s.env X).nf
  let nc := nf * s.si.nctr * s.sj.nctr * s.sk.nctr * s.sl.nctr
  let m := mallocD fpd buf c (nc * X.nComp)
  stI empty 1
  let _ ← loop2eRun X s R K L fpd m.1 empty buf m.2 fl loc
  let e ← ldI empty
  let S : Shape := { ic := s.si.nctr, jc := s.sj.nctr, kc := s.sk.nctr, lc := s.sl.nctr
                     di := nfo 0, dj := nfo 1, dk := nfo 2, dl := nfo 3, nf := nf }
  outStage 4 (decide (e = 0)) X.nComp nc (c2s2e1 S (trans buf m.2)) out m.1 dims counts
    (fun t => nfo t * four s.si.nctr s.sj.nctr s.sk.nctr s.sl.nctr t)
  pure (decide (e = 0))

/-- CINTgout2e, src/cint2e.c:961-1184.  The C function has one branch for each number of roots up to 8 with the sum
written out and a general loop; the sums are the same up to the order of the terms. -/
def gout2e (nf nroots : Nat) (idx g gout : Ptr) (empty : Int) : Prog α Unit :=
  goutLoop nf 1 idx gout empty fun ix iy iz =>
    accRoots (fun i => do
      let x ← ld (g + ix + i)
      let y ← ld (g + iy + i)
      let z ← ld (g + iz + i)
      pure fun _ => x*y*z) nroots

/-- int2e_cart, int2e_sph, src/cint2e.c:1186-1210 -/
def eriInt : Int2e α where
  ng := { rys := 0 }
  gbits := 0
  nComp := 1
  common := 1
  gout := fun e _ idx g gout em => gout2e e.nf e.nrys_roots idx g gout em

end
end Verif.Model
