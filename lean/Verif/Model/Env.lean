import Verif.Model.Bas

/-
The integer part of CINTEnvVars: angular momenta, number of functions, strides and sizes of
the intermediate array `g`, as set by the init functions of the different integral classes.
-/
namespace Verif.Model

/-- src/g1e.h / include/cint.h.in, struct CINTEnvVars: the members that determine the shape
of `g` and of the index table. -/
structure EnvG where
  i_l : Nat
  j_l : Nat
  k_l : Nat := 0
  l_l : Nat := 0
  nfi : Nat
  nfj : Nat
  nfk : Nat := 1
  nfl : Nat := 1
  nf : Nat
  li_ceil : Nat
  lj_ceil : Nat
  lk_ceil : Nat := 0
  ll_ceil : Nat := 0
  rys_order : Nat
  nrys_roots : Nat
  g_stride_i : Nat
  g_stride_j : Nat
  g_stride_k : Nat
  g_stride_l : Nat
  g_size : Nat
  g2d_ijmax : Nat := 0
  g2d_klmax : Nat := 0
deriving Repr

/-- The increments `ng[IINC]`, `ng[JINC]`, `ng[KINC]`, `ng[LINC]` and `ng[SLOT_RYS_ROOTS]`
(include/cint.h.in).  Non-negative in every integral of the library. -/
structure Inc where
  i : Nat := 0
  j : Nat := 0
  k : Nat := 0
  l : Nat := 0
  rys : Nat := 0

/-- `omega < 0 && rys_order <= 3` doubles the roots (src/g2e.c:84-88, src/g2c2e.c:64-68,
src/g3c2e.c:71-75, src/g1e_grids.c:31-35) -/
def srRoots (sr : Bool) (order : Nat) : Nat := if sr ∧ order ≤ 3 then order * 2 else order

/-- first dimension of a pair: `dli` (src/g1e.c:55-69, src/g2e.c:114-120) -/
def dimA (la lb : Nat) : Nat := if la > lb then la + lb + 1 else la + 1
/-- second dimension of a pair: `dlj` -/
def dimB (la lb : Nat) : Nat := if la > lb then lb + 1 else la + lb + 1

/-- CINTinit_int1e_EnvVars, src/g1e.c:16-86 -/
def initInt1e (li lj : Nat) (ng : Inc) : EnvG :=
  let lic := li + ng.i
  let ljc := lj + ng.j
  let nroots := if ng.rys > 0 then ng.rys else (lic + ljc)/2 + 1
  let dli := dimA lic ljc
  let dlj := dimB lic ljc
  let gsize := nroots * dli * dlj
  { i_l := li, j_l := lj, nfi := lenCart li, nfj := lenCart lj, nf := lenCart li * lenCart lj
    li_ceil := lic, lj_ceil := ljc, rys_order := nroots, nrys_roots := nroots
    g_stride_i := nroots, g_stride_j := nroots * dli, g_size := gsize
    g_stride_k := gsize, g_stride_l := gsize }

/-- CINTinit_int1e_grids_EnvVars, src/g1e_grids.c:16-58 (GRID_BLKSIZE is 104) -/
def initGrids (li lj : Nat) (ng : Inc) (sr : Bool) : EnvG :=
  let e := initInt1e li lj ng
  let nroots := srRoots sr e.nrys_roots
  let dli := dimA e.li_ceil e.lj_ceil
  let dlj := dimB e.li_ceil e.lj_ceil
  let gsize := 104 * nroots * dli * dlj
  { e with
    rys_order := e.nrys_roots, nrys_roots := nroots
    g_stride_i := 104 * nroots, g_stride_j := 104 * nroots * dli, g_size := gsize
    g_stride_k := gsize, g_stride_l := gsize }

/-- CINTinit_int2e_EnvVars, src/g2e.c:23-172 -/
def initInt2e (li lj lk ll : Nat) (ng : Inc) (sr : Bool) : EnvG :=
  let lic := li + ng.i
  let ljc := lj + ng.j
  let lkc := lk + ng.k
  let llc := ll + ng.l
  let order := (lic + ljc + lkc + llc)/2 + 1
  let nroots := srRoots sr order
  let dlk := dimA lkc llc
  let dll := dimB lkc llc
  let dli := dimA lic ljc
  let dlj := dimB lic ljc
  let sk := nroots * dli
  let sl := nroots * dli * dlk
  let sj := nroots * dli * dlk * dll
  { i_l := li, j_l := lj, k_l := lk, l_l := ll
    nfi := lenCart li, nfj := lenCart lj, nfk := lenCart lk, nfl := lenCart ll
    nf := lenCart li * lenCart lk * lenCart ll * lenCart lj
    li_ceil := lic, lj_ceil := ljc, lk_ceil := lkc, ll_ceil := llc
    rys_order := order, nrys_roots := nroots
    g_stride_i := nroots, g_stride_k := sk, g_stride_l := sl, g_stride_j := sj
    g_size := nroots * dli * dlk * dll * dlj
    g2d_klmax := if lkc > llc then sk else sl
    g2d_ijmax := if lic > ljc then nroots else sj }

/-- CINTinit_int3c2e_EnvVars, src/g3c2e.c:20-129.  The third shell uses the `l` slot of the
recursion (`ll_ceil`), the index table uses `k_l`. -/
def initInt3c2e (li lj lk : Nat) (ng : Inc) (sr : Bool) : EnvG :=
  let lic := li + ng.i
  let ljc := lj + ng.j
  let llc := lk + ng.k
  let order := (lic + ljc + llc)/2 + 1
  let nroots := srRoots sr order
  let dli := dimA lic ljc
  let dlj := dimB lic ljc
  let dlk := llc + 1
  let sj := nroots * dli * dlk
  { i_l := li, j_l := lj, k_l := lk, l_l := 0
    nfi := lenCart li, nfj := lenCart lj, nfk := lenCart lk, nfl := 1
    nf := lenCart li * lenCart lk * lenCart lj
    li_ceil := lic, lj_ceil := ljc, lk_ceil := 0, ll_ceil := llc
    rys_order := order, nrys_roots := nroots
    g_stride_i := nroots, g_stride_k := nroots * dli, g_stride_l := nroots * dli
    g_stride_j := sj
    g_size := nroots * dli * dlk * dlj
    g2d_klmax := nroots * dli
    g2d_ijmax := if lic > ljc then nroots else sj }

/-- CINTinit_int2c2e_EnvVars, src/g2c2e.c:16-112.  `j_l`, `nfj`, `g_stride_j` are set to those
of the second shell at the end (l.108-111). -/
def initInt2c2e (li lk : Nat) (ng : Inc) (sr : Bool) : EnvG :=
  let lic := li + ng.i
  let lkc := lk + ng.k
  let order := (lic + lkc)/2 + 1
  let nroots := srRoots sr order
  let dli := lic + 1
  let dlk := lkc + 1
  { i_l := li, j_l := lk, k_l := lk, l_l := 0
    nfi := lenCart li, nfj := lenCart lk, nfk := lenCart lk, nfl := 1
    nf := lenCart li * lenCart lk
    li_ceil := lic, lj_ceil := 0, lk_ceil := lkc, ll_ceil := 0
    rys_order := order, nrys_roots := nroots
    g_stride_i := nroots, g_stride_k := nroots * dli, g_stride_l := nroots * dli
    g_stride_j := nroots * dli
    g_size := nroots * dli * dlk
    g2d_ijmax := nroots, g2d_klmax := nroots * dli }

/-- CINTinit_int3c1e_EnvVars, src/g3c1e.c:14-77 -/
def initInt3c1e (li lj lk : Nat) (ng : Inc) : EnvG :=
  let lic := li + ng.i
  let ljc := lj + ng.j
  let lkc := lk + ng.k
  let nroots := (lic + ljc + lkc)/2 + 1
  let dli := lic + 1
  let dlj := ljc + lkc + 1
  let dlk := lkc + 1
  let nmax := lic + dlj
  { i_l := li, j_l := lj, k_l := lk, l_l := 0
    nfi := lenCart li, nfj := lenCart lj, nfk := lenCart lk, nfl := 1
    nf := lenCart li * lenCart lj * lenCart lk
    li_ceil := lic, lj_ceil := ljc, lk_ceil := lkc, ll_ceil := 0
    rys_order := nroots, nrys_roots := nroots
    g_stride_i := 1, g_stride_j := dli, g_stride_k := dli * dlj, g_stride_l := dli * dlj
    g_size := max (dli*dlj*dlk) (dli*nmax) }

/-- CINTinit_int4c1e_EnvVars, src/g4c1e.c:18-136 -/
def initInt4c1e (li lj lk ll : Nat) (ng : Inc) : EnvG :=
  let lic := li + ng.i
  let ljc := lj + ng.j
  let lkc := lk + ng.k
  let llc := ll + ng.l
  let dlk := dimA lkc llc
  let dll := dimB lkc llc
  let dli := dimA lic ljc
  let dlj := dimB lic ljc
  { i_l := li, j_l := lj, k_l := lk, l_l := ll
    nfi := lenCart li, nfj := lenCart lj, nfk := lenCart lk, nfl := lenCart ll
    nf := lenCart li * lenCart lk * lenCart ll * lenCart lj
    li_ceil := lic, lj_ceil := ljc, lk_ceil := lkc, ll_ceil := llc
    rys_order := 1, nrys_roots := 1
    g_stride_i := 1, g_stride_k := dli, g_stride_l := dli * dlk, g_stride_j := dli * dlk * dll
    g_size := dli * dlk * dll * dlj
    g2d_klmax := if lkc > llc then dli else dli * dlk
    g2d_ijmax := if lic > ljc then 1 else dli * dlk * dll }

end Verif.Model
