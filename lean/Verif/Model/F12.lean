import Verif.Model.Int2e

/-!
Two-electron integrals over the Yukawa interaction and the Slater-type geminal (int2e_yp_sph, int2e_stg_sph), from the call
to the filled output array, without an optimizer.  The driver and the loops are those of Model/Int2e.lean (CINT2e_drv,
CINT2e_loop_nopt); what differs is the set-up (CINTinit_int2e_yp_EnvVars) and `envs->f_g0_2e`.  The definitions that depend on
the set-up are written out again.
-/
namespace Verif.Model
open Verif Prog

variable {α : Type}

/-- CINTrys_roots and CINTstg_roots (src/stg_roots.c:404-450), as functions of their arguments: `su n x U`, `sw n x U` are the roots
and weights returned by the latter. -/
structure RysF (α : Type) extends Rys2 α where
  su : (n : Nat) → (x U : α) → Nat → α
  sw : (n : Nat) → (x U : α) → Nat → α

/-- CINTinit_int2e_yp_EnvVars, src/g2e_f12.c:20-145.  The function does not set `envs->rys_order`; `order` is what
the (uninitialised) variable of the caller contains. -/
def initF12 (li lj lk ll : Nat) (ng : Inc) (order : Nat) : EnvG :=
  let lic := li + ng.i
  let ljc := lj + ng.j
  let lkc := lk + ng.k
  let llc := ll + ng.l
  let nroots := (lic + ljc + lkc + llc + 3)/2
  let dlk := dimA lkc llc
  let dll := dimB lkc llc
  let dli := dimA lic ljc
  let dlj := dimB lic ljc
  let sk := nroots * dli
  let sl := nroots * dli * dlk
  let sj := nroots * dli * dlk * dll
  { i_l := li, j_l := lj, k_l := lk, l_l := ll
    nfi := lenCart li, nfj := lenCart lj, nfk := lenCart lk, nfl := lenCart ll
    nf := lenCart li * lenCart lk * lenCart ll * lenCart lj
    li_ceil := lic, lj_ceil := ljc, lk_ceil := lkc, ll_ceil := llc
    rys_order := order, nrys_roots := nroots
    g_stride_i := nroots, g_stride_k := sk, g_stride_l := sl, g_stride_j := sj
    g_size := nroots * dli * dlk * dll * dlj
    g2d_klmax := if lkc > llc then sk else sl
    g2d_ijmax := if lic > ljc then nroots else sj }

section
variable [Field α] [LinearOrder α]

/-- CINTg0_2e_yp (src/g2e_f12.c:161-254) and, with `stg`, CINTg0_2e_stg (src/g2e_f12.c:257-351); `fac` is `envs->fac[0]`, `zeta` is
`env[PTR_F12_ZETA]`.  `envs->f_g0_2d4d` is the general recursion for all angular momenta (src/g2e_f12.c:82-94). -/
def g0F12 (stg : Bool) (R : RysF α) (K : Consts α) (e : EnvG) (d : G2 α) (zeta : α) (g : Ptr) (fac : α) : Prog α Bool :=
  let nroots := e.nrys_roots
  let aij := d.ai + d.aj
  let akl := d.ak + d.al
  let a1 := aij * akl
  let a0 := a1 / (aij + akl)
  let fac1 := fac / (K.sqrt (aij + akl) * a1)
  let r := fun c => d.rij c - d.rkl c
  let rr := r 0 * r 0 + r 1 * r 1 + r 2 * r 2
  let x := a0 * rr
  if zeta > 0 then
    let ua := 1/4 * zeta * zeta / a0
    let u := R.su nroots x ua
    do
      forN nroots fun n => st (gAx g e 2 n) (R.sw nroots x ua n)
      forN nroots fun n => do
        let z ← ld (gAx g e 2 n)
        st (gAx g e 2 n) (z * if stg then (1 - u n) * (2 * ua / zeta) else u n)
      g0Rest e d g (fun n => u n / (1 - u n)) fac1 g0General
  else do
    forN nroots fun n => st (gAx g e 2 n) (R.w nroots x n)
    g0Rest e d g (R.u nroots x) fac1 g0General
end

/-- The input data of a call: the four shells, `env[PTR_EXPCUTOFF]`, `env[PTR_RANGE_OMEGA]`, `env[PTR_F12_ZETA]`, which of the two
functions is called, and the contents of the uninitialised `envs->rys_order`. -/
structure CallF (α : Type) where
  si : PShell α
  sj : PShell α
  sk : PShell α
  sl : PShell α
  envCut : α
  omega : α
  zeta : α
  stg : Bool
  order : Nat

section
variable (X : Int2e α) (s : CallF α)

section
variable [Zero α] [LT α] [DecidableLT α]

def CallF.env : EnvG := initF12 s.si.l s.sj.l s.sk.l s.sl.l X.ng s.order
/-- number of contractions, src/cint2e.c:170 -/
def CallF.nctr : Nat := s.si.nctr * s.sj.nctr * s.sk.nctr * s.sl.nctr
/-- `leng`, src/cint2e.c:172, :807 -/
def CallF.leng : Nat := (s.env X).g_size * 3 * (2^X.gbits + 1)
/-- size of the sparsity tables, src/cint2e.c:155 -/
def CallF.tblLen : Nat := s.si.nprim + s.sj.nprim + s.sk.nprim + s.sl.nprim + s.si.nprim * s.si.nctr +
  s.sj.nprim * s.sj.nctr + s.sk.nprim * s.sk.nctr + s.sl.nprim * s.sl.nctr

/-- The cache size asked for by CINT2e_drv, src/cint2e.c:784-792, :806-810; exact, in C in `size_t` (the driver
returns 0 instead when it is not below INT32_MAX, unless compiled with I8 or CACHE_SIZE_I8). -/
def cacheSizeF : Nat :=
  let nf := (s.env X).nf
  let nc := nf * s.si.nctr * s.sj.nctr * s.sk.nctr * s.sl.nctr
  let pdata_size := (s.si.nprim * s.sj.nprim + s.sk.nprim * s.sl.nprim) * 5 + s.si.nprim * s.si.nctr
    + s.sj.nprim * s.sj.nctr + s.sk.nprim * s.sk.nctr + s.sl.nprim * s.sl.nctr
    + (s.si.nprim + s.sj.nprim + s.sk.nprim + s.sl.nprim) * 2 + nf * 3
  max (s.leng X + nf * X.nComp + nc * X.nComp * 3 + pdata_size) (nc * X.nComp + nf * 4)

/-- MALLOC_INSTACK of these arrays.  `g` is the last; the pieces of it that are needed depend on which of the
accumulators coincide. -/
def arraysF (fpd buf c : Nat) : Arrays2e :=
  let m1 := mallocD fpd buf c (s.si.nprim + s.sj.nprim + s.sk.nprim + s.sl.nprim)
  let m2 := mallocD fpd buf m1.2 (5 * (s.si.nprim * s.sj.nprim))
  let m3 := mallocI fpd buf m2.2 ((s.env X).nf * 3)
  let m4 := mallocI fpd buf m3.2 s.tblLen
  { logMaxc := m1.1, pdata := m2.1, idx := m3.1, tbl := m4.1, g := ⟨buf, alignUp fpd m4.2 / fpd⟩ }
end

variable [Field α] [LinearOrder α] (R : RysF α) (K : Consts α) (L : MathLib α)

/-- `envs->expcutoff`, src/g2e_f12.c:57-61 -/
def cutoffF (envCut : α) : α := if envCut = 0 then 60 else if (40 : α) > envCut then 40 else envCut

/-- arguments of CINTset_pairdata, src/cint2e.c:99-101 -/
def CallF.pairArgs : PairArgs α :=
  { si := s.si, sj := s.sj, li := (s.env X).li_ceil, lj := (s.env X).lj_ceil
    rr := rr2 s.si.r s.sj.r, cutoff := cutoffF s.envCut, omega := s.omega }

/-- `expcutoff` after src/cint2e.c:124-141 -/
def CallF.cutoff : α :=
  let e := s.env X
  let expcutoff := cutoffF s.envCut
  let lij := e.li_ceil + e.lj_ceil
  if s.omega < 0 ∧ e.rys_order > 1 ∧ lij > 0 then
    let omega2 := s.omega * s.omega
    let aij := s.si.a (s.si.nprim-1) + s.sj.a (s.sj.nprim-1)
    let dist_ij := L.sqrt (rr2 s.si.r s.sj.r)
    let theta := omega2 / (omega2 + aij)
    expcutoff + (lij : α) * L.log ((dist_ij + theta*8 + 1)/(dist_ij + 1))
  else expcutoff

/-- `log_rr_kl`, src/cint2e.c:119-146 -/
def CallF.logRRkl : α :=
  let e := s.env X
  let akl := s.sk.a (s.sk.nprim-1) + s.sl.a (s.sl.nprim-1)
  let lr := 17/10 - 15/10 * L.log akl
  let lkl := e.lk_ceil + e.ll_ceil
  let rr_kl := rr2 s.sk.r s.sl.r
  if s.omega < 0 then
    if e.rys_order > 1 ∧ lkl > 0 then
      let omega2 := s.omega * s.omega
      let theta := omega2 / (omega2 + akl)
      lr + (lkl : α) * L.log (L.sqrt rr_kl + theta*8 + 1)
    else lr
  else if lkl > 0 then lr + (lkl : α) * L.log (L.sqrt rr_kl + 1)
  else lr

/-- `ekl` before the exponential, src/cint2e.c:202 -/
def CallF.expKL (kp lp : Nat) : α := rr2 s.sk.r s.sl.r * s.sk.a kp * s.sl.a lp / (s.sk.a kp + s.sl.a lp)

/-- `ccekl`, src/cint2e.c:203 -/
def CallF.ccekl (kp lp : Nat) : α := s.expKL kp lp - s.logRRkl X L - logMaxC L s.sk kp - logMaxC L s.sl lp

/-- `eijcutoff`, src/cint2e.c:211 -/
def CallF.eijcutoff (kp lp : Nat) : α := s.cutoff X L - s.ccekl X L kp lp

/-- `envs` inside the primitive loops: exponents, centres, `rij` from the pair data and `rkl` (src/cint2e.c:208-210) -/
def CallF.g2 (ip jp kp lp : Nat) : G2 α :=
  { ai := s.si.a ip, aj := s.sj.a jp, ak := s.sk.a kp, al := s.sl.a lp
    ri := s.si.r, rj := s.sj.r, rk := s.sk.r, rl := s.sl.r
    rij := fun c => pairVal L (s.pairArgs X) ip jp c
    rkl := fun c => (s.sk.a kp * s.sk.r c + s.sl.a lp * s.sl.r c) / (s.sk.a kp + s.sl.a lp)
    omega := s.omega }

/-- The loops of CINT2e_loop_nopt.  The pair data are read from `pdata` in the C code; here the numbers
stored there by `setPairdata` are used directly, and likewise the logarithms stored in `log_maxc`.
`common_factor`: src/g2e_f12.c:54-56. -/
def CallF.quartet (A : Arrays2e) : Quartet α :=
  { iPrim := s.si.nprim, jPrim := s.sj.nprim, kPrim := s.sk.nprim, lPrim := s.sl.nprim
    iCtr := s.si.nctr, jCtr := s.sj.nctr, kCtr := s.sk.nctr, lCtr := s.sl.nctr
    ci := s.si.c, cj := s.sj.c, ck := s.sk.c, cl := s.sl.c
    common := X.common * (K.pi*K.pi*K.pi * 2 / K.sqrtpi * commonFacSp s.si.l * commonFacSp s.sj.l *
      commonFacSp s.sk.l * commonFacSp s.sl.l)
    skipKL := fun kp lp => decide (s.ccekl X L kp lp > s.cutoff X L)
    skipIJ := fun ip jp kp lp => decide (pairVal L (s.pairArgs X) ip jp 4 > s.eijcutoff X L kp lp)
    eij := fun ip jp => pairVal L (s.pairArgs X) ip jp 3
    ekl := fun kp lp => L.exp (-s.expKL kp lp)
    g0 := fun ip jp kp lp fac => g0F12 s.stg R K (s.env X) (s.g2 X L ip jp kp lp) s.zeta A.g fac
    gout := fun ip jp kp lp _ gout em => X.gout (s.env X) (s.g2 X L ip jp kp lp) A.idx A.g gout em
    nf := (s.env X).nf, nComp := X.nComp, leng := s.leng X }

/-- CINT2e_loop_nopt, src/cint2e.c:57-266.  `empty` is the driver's variable, `fl` the local array `_empty[5]`, `loc` the
local arrays of CINTg2e_index_xyz, `c` the incoming `cache`. -/
def loopFRun (fpd : Nat) (gctr empty : Ptr) (buf c : Nat) (fl loc : Ptr) : Prog α Bool := do
  let A := arraysF X s fpd buf c
  fillLogMaxC L A.logMaxc s.si
  fillLogMaxC L (A.logMaxc + s.si.nprim) s.sj
  let emptyPair ← setPairdata L A.pdata (s.pairArgs X)
  if emptyPair then pure false else do
    fillLogMaxC L (A.logMaxc + s.si.nprim + s.sj.nprim) s.sk
    fillLogMaxC L (A.logMaxc + s.si.nprim + s.sj.nprim + s.sk.nprim) s.sl
    g2eIndex A.idx loc (s.env X)
    loop2eNopt (s.quartet X R K L A) (mem2e gctr empty A.g fl A.tbl) A.tbl false

/-- CINT2e_drv, src/cint2e.c:794-878, with `out` not NULL and no optimizer.  `trans` transforms a block using the
remaining cache; `nfo` is the number of output functions of the shells (`nfi`, or `2l+1`).  When the
caller passes no cache the driver allocates one of size `cacheSizeF`. -/
def drvF (fpd : Nat) (trans : (buf c : Nat) → Ptr → Prog α Ptr) (nfo : Nat → Nat) (out : Ptr)
    (dims : Option Ptr) (buf c : Nat) (empty fl loc counts : Ptr) : Prog α Bool := do
  let nf := (s.env X).nf
  let nc := nf * s.si.nctr * s.sj.nctr * s.sk.nctr * s.sl.nctr
  let m := mallocD fpd buf c (nc * X.nComp)
  stI empty 1
  let _ ← loopFRun X s R K L fpd m.1 empty buf m.2 fl loc
  let e ← ldI empty
  let S : Shape := { ic := s.si.nctr, jc := s.sj.nctr, kc := s.sk.nctr, lc := s.sl.nctr
                     di := nfo 0, dj := nfo 1, dk := nfo 2, dl := nfo 3, nf := nf }
  outStage 4 (decide (e = 0)) X.nComp nc (c2s2e1 S (trans buf m.2)) out m.1 dims counts
    (fun t => nfo t * four s.si.nctr s.sj.nctr s.sk.nctr s.sl.nctr t)
  pure (decide (e = 0))

/-- int2e_yp_sph, int2e_stg_sph, src/cint2e_f12.c:11-40: `f_gout` is CINTgout2e and `ng` that of int2e_sph -/
def f12Int : Int2e α := eriInt

end
end Verif.Model
