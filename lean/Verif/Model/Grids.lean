import Verif.Model.G2e
import Verif.Model.Sph

/-!
Coulomb potential of a shell pair on a list of points: src/g1e_grids.c, src/cint1e_grids.c and the output functions
for grids of src/cart2sph.c.  GRID_BLKSIZE is 104.

The points are read-only numbers `grid p c` (`grids[p*3+c]`, with `shls[2]` already added).  As for the pair data, the
kernel uses the coordinates of the points of the block directly; the C code reads the copy `gridsT` made by the loop.
-/
namespace Verif.Model
open Verif Prog

variable {α : Type}

/-- MALLOC_ALIGN8_INSTACK, src/misc.h:30-32, for an array of `n` doubles: pointer and new `cache`.  The buffer starts
`sh` doubles behind a 64-byte boundary; positions are counted in `FINT`s, `fpd` of them make a double. -/
def mallocA (fpd sh buf c n : Nat) : Ptr × Nat :=
  let p := alignUp (8*fpd) (c + fpd*sh) - fpd*sh
  (⟨buf, p / fpd⟩, p + fpd*n)

/-- number of points in the block that starts at `off`: `MIN(ngrids - grids_offset, GRID_BLKSIZE)` -/
def bgrids (ngrids off : Nat) : Nat := min (ngrids - off) 104

/-- number of iterations of `for (grids_offset = 0; grids_offset < ngrids; grids_offset += GRID_BLKSIZE)` -/
def nblk (ngrids : Nat) : Nat := (ngrids + 103) / 104

/-- the scratch arrays of CINTg0_1e_grids, src/g1e_grids.c:79-81, 222, allocated behind the arrays of the loop -/
structure GridAux where
  u : Ptr
  rijrg : Ptr
  t2 : Ptr

def gridAux (fpd sh buf c nroots : Nat) : GridAux :=
  let m1 := mallocA fpd sh buf c (104*nroots)
  let m2 := mallocA fpd sh buf m1.2 (104*3)
  let m3 := mallocA fpd sh buf m2.2 (104*4)
  { u := m1.1, rijrg := m2.1, t2 := m3.1 }

/-- `env[PTR_RANGE_OMEGA]`, `env[PTR_RINV_ZETA]` and the argument `cutoff` of CINTg0_1e_grids -/
structure GridArgs (α : Type) where
  omega : α
  zeta : α
  cutoff : α

section
variable [Field α] [LinearOrder α]

/-- what src/g1e_grids.c:97-191 stores in `u[ig+104*i]` and `w[ig+104*i]` for a point at squared distance `rr` -/
def gridUW (R : Rys2 α) (K : Consts α) (rorder nroots : Nat) (A : GridArgs α) (aij fac rr : α) (i : Nat) : α × α :=
  if A.omega = 0 ∧ A.zeta = 0 then
    let fac1 := fac / aij
    let x := aij * rr
    (R.u nroots x i / (R.u nroots x i + 1), R.w nroots x i * fac1)
  else if A.omega < 0 then
    let omega2 := A.omega * A.omega
    let tau2 := if A.zeta = 0 then 1 else A.zeta / (A.zeta + aij)
    let a0 := if A.zeta = 0 then aij else aij * tau2
    let fac1 := if A.zeta = 0 then fac / aij else fac / aij * K.sqrt tau2
    let theta := omega2 / (omega2 + a0)
    let sqrt_theta := K.sqrt theta
    let temp_cutoff := min A.cutoff 40
    let x := a0 * rr
    if theta * x > temp_cutoff then (0, 0)
    else if rorder = nroots then
      (R.sru nroots x sqrt_theta i / (R.sru nroots x sqrt_theta i + 1) * tau2, R.srw nroots x sqrt_theta i * fac1)
    else if i < rorder then
      (R.u rorder x i / (R.u rorder x i + 1) * tau2, R.w rorder x i * fac1)
    else
      (R.u rorder (theta*x) (i-rorder) / (R.u rorder (theta*x) (i-rorder) + 1) * (tau2 * theta),
        R.w rorder (theta*x) (i-rorder) * (fac1 * -sqrt_theta))
  else
    let omega2 := A.omega * A.omega
    let theta := if A.zeta = 0 then omega2 / (omega2 + aij)
      else if A.omega = 0 then A.zeta / (A.zeta + aij)
      else omega2*A.zeta / (omega2*A.zeta + (A.zeta+omega2)*aij)
    let a0 := aij * theta
    let fac1 := fac / aij * K.sqrt theta
    let x := a0 * rr
    (R.u nroots x i / (R.u nroots x i + 1) * theta, R.w nroots x i * fac1)

/-- CINTg0_1e_grids, src/g1e_grids.c:84-191, for the `b` points `grid 0 .. grid (b-1)` of a block: first elements and
`u`; `fac` is `envs->fac[0]`.  The stores of `u` and `w` of a point are in the order of the roots (the branch with two
sets of roots stores `i` and `i+rorder` together). -/
def g0GridsInit (R : Rys2 α) (K : Consts α) (e : EnvG) (d : G1 α) (A : GridArgs α) (grid : Nat → Nat → α) (b : Nat)
    (g : Ptr) (S : GridAux) (fac : α) : Prog α Unit := do
  let nroots := e.nrys_roots
  let aij := d.ai + d.aj
  forN nroots fun i => forN b fun ig => do
    st (gAx g e 0 (ig + 104*i)) 1
    st (gAx g e 1 (ig + 104*i)) 1
  forN b fun ig => forN 3 fun c => st (S.rijrg + (ig + 104*c)) (grid ig c - d.rij c)
  forN b fun ig => do
    let r0 ← ld (S.rijrg + (ig + 104*0))
    let r1 ← ld (S.rijrg + (ig + 104*1))
    let r2 ← ld (S.rijrg + (ig + 104*2))
    let rr := r0*r0 + r1*r1 + r2*r2
    forN nroots fun i => do
      st (S.u + (ig + 104*i)) (gridUW R K e.rys_order nroots A aij fac rr i).1
      st (gAx g e 2 (ig + 104*i)) (gridUW R K e.rys_order nroots A aij fac rr i).2

/-- vertical recursion of root `n`, src/g1e_grids.c:229-267 -/
def g0GridsVrr (e : EnvG) (d : G1 α) (b : Nat) (g : Ptr) (S : GridAux) (n : Nat) : Prog α Unit := do
  let nmax := e.li_ceil + e.lj_ceil
  let di := baseDi e
  let rijrx := fun c => d.rij c - baseR e d c
  let aij2 := 1/2 / (d.ai + d.aj)
  forN b fun ig => do
    forN 3 fun c => do
      let u ← ld (S.u + (ig + 104*n))
      let r ← ld (S.rijrg + (ig + 104*c))
      st (S.t2 + 104*(c+1) + ig) (rijrx c + u * r)
    forN 3 fun c => do
      let r ← ld (S.t2 + 104*(c+1) + ig)
      let x ← ld (gAx g e c (104*n + ig))
      st (gAx g e c (104*n + di + ig)) (r * x)
  forN b fun ig => do
    let u ← ld (S.u + (ig + 104*n))
    st (S.t2 + ig) (aij2 * (1 - u))
  forN (nmax-1) fun k =>
    let i := k + 1
    forN b fun ig => forN 3 fun c => do
      let t ← ld (S.t2 + ig)
      let x2 ← ld (gAx g e c (104*n + i*di - di + ig))
      let r ← ld (S.t2 + 104*(c+1) + ig)
      let x0 ← ld (gAx g e c (104*n + i*di + ig))
      st (gAx g e c (104*n + i*di + di + ig)) ((i:α) * t * x2 + r * x0)

/-- horizontal recursion, src/g1e_grids.c:269-288 -/
def g0GridsHrr (e : EnvG) (d : G1 α) (b : Nat) (g : Ptr) : Prog α Unit :=
  let nmax := e.li_ceil + e.lj_ceil
  let di := baseDi e
  let dj := baseDj e
  forN (baseL e) fun k =>
    let j := k + 1
    forN (nmax-j+1) fun i => forN e.nrys_roots fun n => forN b fun ig => forN 3 fun c => do
      let x2 ← ld (gAx g e c (j*dj + i*di - dj + di + (ig + 104*n)))
      let x1 ← ld (gAx g e c (j*dj + i*di - dj + (ig + 104*n)))
      st (gAx g e c (j*dj + i*di + (ig + 104*n))) (x2 + rirj e d c * x1)

/-- CINTg0_1e_grids, src/g1e_grids.c:64-289 -/
def g0Grids (R : Rys2 α) (K : Consts α) (e : EnvG) (d : G1 α) (A : GridArgs α) (grid : Nat → Nat → α) (b : Nat)
    (g : Ptr) (S : GridAux) (fac : α) : Prog α Bool := do
  g0GridsInit R K e d A grid b g S fac
  if e.li_ceil + e.lj_ceil = 0 then pure true else do
  forN e.nrys_roots fun n => g0GridsVrr e d b g S n
  g0GridsHrr e d b g
  pure true

/-- `for (ig = 0; ig < b; ig++) s[ig] = f ig` for a local array -/
def loadN (f : Nat → Prog α α) : Nat → Prog α (Nat → α)
  | 0 => pure fun _ => 0
  | n+1 => do
    let s ← loadN f n
    let x ← f n
    pure fun k => if k = n then x else s k

/-- CINTgout1e_grids, src/g1e_grids.c:291-335 -/
def goutGrids (nf nroots b : Nat) (idx g gout : Ptr) (empty : Int) : Prog α Unit :=
  goutLoop nf b idx gout empty fun ix iy iz =>
    accRoots (fun i => loadN (fun ig => do
      let x ← ld (g + ix + (ig + 104*i))
      let y ← ld (g + iy + (ig + 104*i))
      let z ← ld (g + iz + (ig + 104*i))
      pure (x*y*z)) b) nroots

end

/-- what distinguishes the integrals on grids; `gout` gets the number of points of the block -/
structure IntG (α : Type) where
  ng : Inc
  /-- `ng[GSHIFT]` -/
  gbits : Nat
  /-- `ng[POS_E1] * ng[TENSOR]` -/
  nComp : Nat
  gout : EnvG → G1 α → (b : Nat) → (idx g gout : Ptr) → Int → Prog α Unit

/-- The input data of a call: shells, `env[PTR_EXPCUTOFF]`, `env[PTR_RANGE_OMEGA]`, `env[PTR_RINV_ZETA]`, and the
points `shls[2] .. shls[3]-1` of the list `env + env[PTR_GRIDS]`. -/
structure CallG (α : Type) extends Call α where
  zeta : α
  ngrids : Nat
  grid : Nat → Nat → α

section
variable [Field α] [LinearOrder α] (X : IntG α) (s : CallG α)

def CallG.envG : EnvG := initGrids s.si.l s.sj.l X.ng (decide (s.omega < 0))
/-- `leng`, src/cint1e_grids.c:93 -/
def CallG.lengG : Nat := (s.envG X).g_size * 3 * (2^X.gbits + 1)
/-- `len`, src/cint1e_grids.c:94-97 -/
def CallG.lenG : Nat := s.lengG X + 104 * (s.envG X).nf * (s.si.nctr * s.sj.nctr) * X.nComp
  + 104 * (s.envG X).nf * s.si.nctr * X.nComp + 104 * (s.envG X).nf * X.nComp

/-- int1e_grids_cache_size, src/cint1e_grids.c:199-222; exact, in C partly in `FINT` -/
def cacheSizeGrids : Nat :=
  let nf := (s.envG X).nf
  let nroots := (s.envG X).nrys_roots
  let nc := s.ngrids * nf * s.si.nctr * s.sj.nctr
  let pdata_size := s.si.nprim * s.sj.nprim * 5 + s.si.nprim * s.si.nctr + s.sj.nprim * s.sj.nctr
    + (s.si.nprim + s.sj.nprim) * 2 + nf * 3
  let leng := s.lengG X
  let len0 := 104 * nf * X.nComp
  let leni := len0 * s.si.nctr
  let lenj := leni * s.sj.nctr
  max (nc * X.nComp + leng + len0 + leni + lenj + pdata_size + 104 * max X.nComp (nroots + 10))
    (nc * X.nComp + 104 * nf * 8 * 2) + 32

/-- the arrays of CINT1e_grids_loop, src/cint1e_grids.c:58-59, 81, 86, 99, and of CINTg0_1e_grids, which is given the
`cache` behind them -/
structure ArraysG where
  logMaxc : Ptr
  pdata : Ptr
  idx : Ptr
  tbl : Ptr
  gridsT : Ptr
  aux : GridAux

def arraysG (fpd sh buf c : Nat) : ArraysG :=
  let m1 := mallocD fpd buf c (s.si.nprim + s.sj.nprim)
  let m2 := mallocD fpd buf m1.2 (5 * (s.si.nprim * s.sj.nprim))
  let m3 := mallocI fpd buf m2.2 ((s.envG X).nf * 3)
  let m4 := mallocI fpd buf m3.2 s.tblLen
  let m5 := mallocA fpd sh buf m4.2 (s.lenG X + 104*3)
  { logMaxc := m1.1, pdata := m2.1, idx := m3.1, tbl := m4.1, gridsT := m5.1
    aux := gridAux fpd sh buf m5.2 (s.envG X).nrys_roots }

variable (R : Rys2 α) (K : Consts α) (L : MathLib α)

/-- arguments of CINTset_pairdata, src/cint1e_grids.c:63-65 -/
def CallG.pairArgsG : PairArgs α :=
  { si := s.si, sj := s.sj, li := (s.envG X).li_ceil, lj := (s.envG X).lj_ceil
    rr := rr2 s.si.r s.sj.r, cutoff := setijCutoff s.envCut, omega := s.omega }

/-- `envs` inside the primitive loops, src/cint1e_grids.c:144, 156-162 -/
def CallG.g1G (ip jp : Nat) : G1 α :=
  { ai := s.si.a ip, aj := s.sj.a jp, ri := s.si.r, rj := s.sj.r
    rij := fun c => pairVal L (s.pairArgsG X) ip jp c }

/-- `cutoff`, src/cint1e_grids.c:158 -/
def CallG.gridArgs (ip jp : Nat) : GridArgs α :=
  { omega := s.omega, zeta := s.zeta, cutoff := setijCutoff s.envCut - pairVal L (s.pairArgsG X) ip jp 4 }

/-- The primitive loops of CINT1e_grids_loop for the block of points that starts at `off`. -/
def CallG.nestG (off : Nat) (idx g : Ptr) (S : GridAux) : Nest2 α :=
  let b := bgrids s.ngrids off
  { iPrim := s.si.nprim, jPrim := s.sj.nprim, iCtr := s.si.nctr, jCtr := s.sj.nctr
    ci := s.si.c, cj := s.sj.c
    common := 2 * K.pi * commonFacSp s.si.l * commonFacSp s.sj.l
    skip := fun ip jp => decide (pairVal L (s.pairArgsG X) ip jp 4 > setijCutoff s.envCut)
    eij := fun ip jp => pairVal L (s.pairArgsG X) ip jp 3
    g0 := fun ip jp fac => g0Grids R K (s.envG X) (s.g1G X L ip jp) (s.gridArgs X L ip jp)
      (fun ig c => s.grid (off + ig) c) b g S fac
    gout := fun ip jp _ gout em => X.gout (s.envG X) (s.g1G X L ip jp) b idx g gout em
    len0 := b * (s.envG X).nf * X.nComp }

omit [Field α] [LinearOrder α] in
/-- _transpose_comps, src/cint1e_grids.c:182-197 -/
def transposeComps (gctr gctrj : Ptr) (b dij ngrids nComp : Nat) : Prog α Unit :=
  forN nComp fun ic => forN dij fun n => forN b fun ig =>
    cpy (gctr + ic*dij*ngrids + (ig + n*b)) (gctrj + (n*nComp+ic)*b + ig)

/-- The body of the loop over blocks, src/cint1e_grids.c:122-177, for the block that starts at `off`; returns
`*jempty = 0`.  `fl` is the array `empty`; the pointers are those set in l.102-119 and l.135-143. -/
def gridBlock (gctr : Ptr) (A : ArraysG) (fl : Ptr) (off : Nat) : Prog α Bool := do
  let nf := (s.envG X).nf
  let nc := s.si.nctr * s.sj.nctr
  let b := bgrids s.ngrids off
  let g := A.gridsT + 104*3
  let P := s.nestG X R K L off A.idx g A.aux
  forN b fun i => forN 3 fun c => st (A.gridsT + (i + 104*c)) (s.grid (off + i) c)
  stI fl 1
  stI (fl + 1) 1
  stI (fl + 2) 1
  let jempty := fl + 2
  let g1 := g + s.lengG X
  let gctrj := if X.nComp = 1 then gctr + off*nf*nc else g1
  let g1 := if X.nComp = 1 then g1 else g1 + 104*nf*nc*X.nComp
  let (gctri, iempty, g1) := aliasAddr P.jCtr gctrj jempty (fl + 1) g1 (104*nf*s.si.nctr*X.nComp)
  let (gout, gempty, _) := aliasAddr P.iCtr gctri iempty fl g1 (104*nf*X.nComp)
  let non0ctrj := A.tbl + P.iPrim
  let non0idxi := non0ctrj + P.jPrim
  let non0idxj := non0idxi + P.iPrim*P.iCtr
  P.nest ⟨A.tbl, non0idxi⟩ ⟨non0ctrj, non0idxj⟩ P.facE jempty iempty gempty gctrj gctri gout
  let je ← ldI jempty
  if 1 < X.nComp ∧ je = 0 then
    transposeComps (gctr + off*nf*nc) gctrj b (nf*nc) s.ngrids X.nComp
  else pure ()
  let je ← ldI jempty
  pure (decide (je = 0))

/-- CINT1e_grids_loop, src/cint1e_grids.c:36-180; the state of the loop over blocks is `!all_empty` -/
def loopGrids (fpd sh : Nat) (gctr : Ptr) (buf c : Nat) (fl loc : Ptr) : Prog α Bool := do
  let A := arraysG X s fpd sh buf c
  fillLogMaxC L A.logMaxc s.si
  fillLogMaxC L (A.logMaxc + s.si.nprim) s.sj
  let empty ← setPairdata L A.pdata (s.pairArgsG X)
  if empty then pure false else do
    initFlags 4 fl
    g1eIndex A.idx loc (s.envG X)
    let non0ctrj := A.tbl + s.si.nprim
    let non0idxi := non0ctrj + s.sj.nprim
    let non0idxj := non0idxi + s.si.nprim*s.si.nctr
    non0coeffByshell non0idxi A.tbl s.si.c s.si.nprim s.si.nctr
    non0coeffByshell non0idxj non0ctrj s.sj.c s.sj.nprim s.sj.nctr
    forS (nblk s.ngrids) false fun t notEmpty => do
      let r ← gridBlock X s R K L gctr A fl (104*t)
      pure (notEmpty || r)

end

/-- dcopy_grids_ij, src/cart2sph.c:4512-4529 -/
def dcopyGridsIj (out gctr : Ptr) (ngrids ni mgrids mi mj : Nat) : Prog α Unit :=
  forN mj fun j => forN mi fun i => forN mgrids fun m =>
    cpy (out + j*(ngrids*ni) + (i*ngrids+m)) (gctr + j*(mgrids*mi) + (i*mgrids+m))

/-- c2s_cart_1e_grids, src/cart2sph.c:5080-5106 (`trans _` is `pure`), and c2s_sph_1e_grids, l.5040-5078.  `trans b`
transforms the numbers of a block of `b` points and says where the result is. -/
def c2sGrids (S : Shape) (ngrids : Nat) (trans : Nat → Ptr → Prog α Ptr) (out gctr dims : Ptr) : Prog α Unit := do
  let ni ← ldI dims
  let _nj ← ldI (dims + 1)
  let Ng ← ldI (dims + 2)
  let ofj := ni.toNat * S.dj
  let _ ← forS (nblk ngrids) gctr fun t gctr =>
    let off := 104*t
    let b := bgrids ngrids off
    forS S.jc gctr fun jc gctr =>
    forS S.ic gctr fun ic gctr => do
      let tmp1 ← trans b gctr
      let pij := out + Ng.toNat * (ofj * jc + S.di * ic) + off
      dcopyGridsIj pij tmp1 Ng.toNat ni.toNat b S.di S.dj
      pure (gctr + b * S.nf)
  pure ()

/-- c2s_grids_dset0, src/cart2sph.c:4768-4773; `loc` holds the local arrays `counts1[4]`, `dims1[4]` -/
def c2sGridsDset0 [Zero α] (out dims counts loc : Ptr) : Prog α Unit := do
  let c2 ← ldI (counts + 2)
  let c0 ← ldI counts
  let c1 ← ldI (counts + 1)
  let c3 ← ldI (counts + 3)
  stI loc c2
  stI (loc + 1) c0
  stI (loc + 2) c1
  stI (loc + 3) c3
  let d2 ← ldI (dims + 2)
  let d0 ← ldI dims
  let d1 ← ldI (dims + 1)
  let d3 ← ldI (dims + 3)
  stI (loc + 4) d2
  stI (loc + 5) d0
  stI (loc + 6) d1
  stI (loc + 7) d3
  c2sDset0 out (loc + 4) loc

/-- the transformation of one block of contracted functions in c2s_sph_1e_grids, src/cart2sph.c:5056-5060, 5068-5069 -/
def sphTransGrids [Zero α] [Add α] [Mul α] (tab : Ptr) (fpd sh li lj : Nat) (buf c : Nat) (b : Nat) (gctr : Ptr) :
    Prog α Ptr := do
  let nfi := lenCart li
  let di := li*2+1
  let dj := lj*2+1
  let m1 := mallocA fpd sh buf c (104*nfi*dj)
  let m2 := mallocA fpd sh buf m1.2 (104*nfi*dj)
  let tmp1 ← ketSph tab lj m1.1 gctr (b*nfi) (b*nfi)
  sph2eInner tab m2.1 tmp1 li b dj (b*di) (b*nfi)

section
variable [Field α] [LinearOrder α] (X : IntG α) (s : CallG α) (R : Rys2 α) (K : Consts α) (L : MathLib α)

/-- CINT1e_grids_drv, src/cint1e_grids.c:227-276, with `out` not NULL; `nfo` is the number of output functions of the
shells, `trans buf c` transforms a block using the remaining cache, `loc2` holds the local arrays of
c2s_grids_dset0 -/
def drvGrids (fpd sh : Nat) (trans : (buf c : Nat) → Nat → Ptr → Prog α Ptr) (nfo : Nat → Nat) (out : Ptr)
    (dims : Option Ptr) (buf c : Nat) (fl loc counts loc2 : Ptr) : Prog α Bool := do
  let nf := (s.envG X).nf
  let nc := s.ngrids * nf * s.si.nctr * s.sj.nctr
  let m := mallocA fpd sh buf c (nc * X.nComp)
  let hasValue ← loopGrids X s R K L fpd sh m.1 buf m.2 fl loc
  stI counts (nfo 0 * s.si.nctr : Nat)
  stI (counts + 1) (nfo 1 * s.sj.nctr : Nat)
  stI (counts + 2) (s.ngrids : Nat)
  stI (counts + 3) 1
  let dims := dims.getD counts
  let nout ← prodDims dims 3
  let S : Shape := { ic := s.si.nctr, jc := s.sj.nctr, di := nfo 0, dj := nfo 1, nf := nf }
  if hasValue then
    forN X.nComp fun n => c2sGrids S s.ngrids (trans buf m.2) (out + nout*n) (m.1 + nc*n) dims
  else
    forN X.nComp fun n => c2sGridsDset0 (out + nout*n) dims counts loc2
  pure hasValue

/-- int1e_grids_sph, int1e_grids_cart, src/cint1e_grids.c:331-360 -/
def gridsInt : IntG α where
  ng := {}
  gbits := 0
  nComp := 1
  gout := fun e _ b idx g gout em => goutGrids e.nf e.nrys_roots b idx g gout em

end
end Verif.Model
