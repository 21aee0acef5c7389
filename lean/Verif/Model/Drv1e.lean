import Verif.Model.Nests
import Verif.Model.Index
import Verif.Model.PairData
import Verif.Model.G1e
import Verif.Model.Out

/-!
One-electron integrals without 1/r from the call to the filled output array: CINT1e_drv,
CINT1e_loop and the scratch memory they carve out of `cache`.

The cache is one buffer.  Its addresses are counted in `FINT`s (`fpd` of them fit into a double: 2
for 4-byte, 1 for 8-byte `FINT`); double number `k` of the buffer is the `FINT`s
`fpd*k .. fpd*k+fpd-1`.
-/
namespace Verif.Model
open Verif Prog

/-- `((uintptr_t)cache + 7) & (-(uintptr_t)8)`, src/misc.h:27, in units of `FINT` -/
def alignUp (fpd c : Nat) : Nat := (c + fpd - 1) / fpd * fpd

/-- MALLOC_INSTACK, src/misc.h:26-28, for an array of `n` doubles: pointer and new `cache` -/
def mallocD (fpd buf c n : Nat) : Ptr × Nat := (⟨buf, alignUp fpd c / fpd⟩, alignUp fpd c + fpd * n)
/-- MALLOC_INSTACK for an array of `n` FINTs -/
def mallocI (fpd buf c n : Nat) : Ptr × Nat := (⟨buf, alignUp fpd c⟩, alignUp fpd c + n)

variable {α : Type}

/-- what distinguishes the integrals: the `ng` array, `common_factor` and the function that
evaluates the integrand (`f_gout`), and the sets of intermediates it is evaluated for -/
structure Int1e (α : Type) where
  ng : Inc
  /-- `ng[GSHIFT]` -/
  gbits : Nat
  /-- `ng[POS_E1] * ng[TENSOR]` -/
  nComp : Nat
  /-- `envs->common_factor` -/
  common : α
  gout : EnvG → G1 α → (idx g gout : Ptr) → Int → Prog α Unit
  /-- CINTg1e_ovlp for int1e_type 0, CINTg1e_nuc with `nuc_id` -1 for type 1, CINTg1e_nuc for each
  atom for type 2 -/
  g0s : Consts α → EnvG → G1 α → List ((g : Ptr) → (fac : α) → Prog α Bool)

/-- The body of make_g1e_gout, src/cint1e.c:284-304: evaluate the intermediates and `f_gout` for each
of `l`; only the first evaluation sees the flag `empty`. -/
def makeGout (f_gout : (gout : Ptr) → Int → Prog α Unit) (g gout : Ptr) (fac : α) :
    List ((g : Ptr) → (fac : α) → Prog α Bool) → (em : Int) → Prog α Unit
  | [], _ => pure ()
  | g0 :: l, em => do
    let _ ← g0 g fac
    f_gout gout em
    makeGout f_gout g gout fac l 0

/-- The input data of a call: the two shells, `env[PTR_EXPCUTOFF]` and `env[PTR_RANGE_OMEGA]`. -/
structure Call (α : Type) where
  si : PShell α
  sj : PShell α
  envCut : α
  omega : α

/-- CINTcommon_fac_sp, src/g1e.c:565-572 -/
def commonFacSp [Field α] (l : Nat) : α :=
  if l = 0 then 282094791773878143 / 10^18 else if l = 1 then 488602511902919921 / 10^18 else 1

section
variable (X : Int1e α) (s : Call α)

def Call.env : EnvG := initInt1e s.si.l s.sj.l X.ng
/-- `leng`, src/cint1e.c:89 -/
def Call.leng : Nat := (s.env X).g_size * 3 * (2^X.gbits + 1)
/-- `len`, src/cint1e.c:90-93 -/
def Call.len : Nat := s.leng X + (s.env X).nf * (s.si.nctr * s.sj.nctr) * X.nComp
  + (s.env X).nf * s.si.nctr * X.nComp + (s.env X).nf * X.nComp
/-- size of the sparsity tables, src/cint1e.c:81 -/
def Call.tblLen : Nat :=
  s.si.nprim + s.sj.nprim + s.si.nprim * s.si.nctr + s.sj.nprim * s.sj.nctr

/-- int1e_cache_size, src/cint1e.c:163-183 (OF_CMPLX is 2); exact, in C in `FINT` -/
def cacheSize1e : Nat :=
  let nf := (s.env X).nf
  let nc := nf * s.si.nctr * s.sj.nctr
  let lenj := nf * nc * X.nComp
  let leni := nf * s.si.nctr * X.nComp
  let len0 := nf * X.nComp
  let pdata_size := s.si.nprim * s.sj.nprim * 5 + s.si.nprim * s.si.nctr + s.sj.nprim * s.sj.nctr
    + (s.si.nprim + s.sj.nprim) * 2 + nf * 3
  max (nc * X.nComp + s.leng X + lenj + leni + len0 + pdata_size) (nc * X.nComp + nf * 8 * 2)

/-- the arrays of CINT1e_loop in the cache, src/cint1e.c:58-59, 76, 81, 94 -/
structure Arrays1e where
  logMaxc : Ptr
  pdata : Ptr
  idx : Ptr
  tbl : Ptr
  g : Ptr

def arrays1e (fpd buf c : Nat) : Arrays1e :=
  let m1 := mallocD fpd buf c (s.si.nprim + s.sj.nprim)
  let m2 := mallocD fpd buf m1.2 (5 * (s.si.nprim * s.sj.nprim))
  let m3 := mallocI fpd buf m2.2 ((s.env X).nf * 3)
  let m4 := mallocI fpd buf m3.2 s.tblLen
  let m5 := mallocD fpd buf m4.2 (s.len X)
  { logMaxc := m1.1, pdata := m2.1, idx := m3.1, tbl := m4.1, g := m5.1 }

variable [Field α] [LinearOrder α] (K : Consts α) (L : MathLib α)

/-- arguments of CINTset_pairdata, src/cint1e.c:62-65 -/
def Call.pairArgs : PairArgs α :=
  { si := s.si, sj := s.sj, li := (s.env X).li_ceil, lj := (s.env X).lj_ceil
    rr := rr2 s.si.r s.sj.r, cutoff := setijCutoff s.envCut, omega := s.omega }

/-- `envs` inside the primitive loops: exponents, centres, and `rij` from the pair data
(src/cint1e.c:127, 136-141) -/
def Call.g1 (ip jp : Nat) : G1 α :=
  { ai := s.si.a ip, aj := s.sj.a jp, ri := s.si.r, rj := s.sj.r
    rij := fun c => pairVal L (s.pairArgs X) ip jp c }

/-- The loops of CINT1e_loop.  The pair data are read from `pdata` in the C code; here the numbers
stored there by `setPairdata` are used directly. -/
def Call.nest (A : Arrays1e) : Nest2 α :=
  { iPrim := s.si.nprim, jPrim := s.sj.nprim, iCtr := s.si.nctr, jCtr := s.sj.nctr
    ci := s.si.c, cj := s.sj.c
    common := X.common * commonFacSp s.si.l * commonFacSp s.sj.l
    skip := fun ip jp => decide (pairVal L (s.pairArgs X) ip jp 4 > setijCutoff s.envCut)
    eij := fun ip jp => pairVal L (s.pairArgs X) ip jp 3
    g0 := fun _ _ _ => pure true
    gout := fun ip jp fac gout em => makeGout (X.gout (s.env X) (s.g1 X L ip jp) A.idx A.g) A.g gout fac
      (X.g0s K (s.env X) (s.g1 X L ip jp)) em
    len0 := (s.env X).nf * X.nComp }

/-- CINTOpt_log_max_pgto_coeff as it fills its output array, src/optimizer.c:246-259 -/
def fillLogMaxC (p : Ptr) (t : PShell α) : Prog α Unit :=
  forN t.nprim fun ip => st (p + ip) (logMaxC L t ip)

/-- CINT1e_loop, src/cint1e.c:37-160.  `fl` is the local array `empty[4]`, `loc` the
local arrays of CINTg1e_index_xyz, `c` the incoming `cache`. -/
def loop1eRun (fpd : Nat) (gctr : Ptr) (buf c : Nat) (fl loc : Ptr) : Prog α Bool := do
  let A := arrays1e X s fpd buf c
  fillLogMaxC L A.logMaxc s.si
  fillLogMaxC L (A.logMaxc + s.si.nprim) s.sj
  let empty ← setPairdata L A.pdata (s.pairArgs X)
  if empty then pure false else do
    g1eIndex A.idx loc (s.env X)
    loop1e (s.nest X K L A) gctr A.g fl A.tbl (s.env X).nf X.nComp (s.leng X) false

/-- CINT1e_drv, src/cint1e.c:188-237, with `out` not NULL.  `trans` transforms a block using the
remaining cache; `nfo` is the number of output functions of the shells (`nfi`, or `2l+1`).  When the
caller passes no cache the driver allocates one of size `cacheSize1e`. -/
def drv1e (fpd : Nat) (trans : (buf c : Nat) → Ptr → Prog α Ptr) (nfo : Nat → Nat) (out : Ptr)
    (dims : Option Ptr) (buf c : Nat) (fl loc counts : Ptr) : Prog α Bool := do
  let nf := (s.env X).nf
  let nc := nf * s.si.nctr * s.sj.nctr
  let m := mallocD fpd buf c (nc * X.nComp)
  let hasValue ← loop1eRun X s K L fpd m.1 buf m.2 fl loc
  let S : Shape := { ic := s.si.nctr, jc := s.sj.nctr, di := nfo 0, dj := nfo 1, nf := nf }
  outStage 2 hasValue X.nComp nc (c2s1e S (trans buf m.2)) out m.1 dims counts
    (fun t => if t = 0 then nfo 0 * s.si.nctr else if t = 1 then nfo 1 * s.sj.nctr else 1)
  pure hasValue

/-- int1e_ovlp_cart, src/cint1e.c:370-378 -/
def ovlpInt : Int1e α where
  ng := { rys := 1 }
  gbits := 0
  nComp := 1
  common := 1
  gout := fun e _ idx g gout em => gout1e e.nf idx g gout em
  g0s := fun K e d => [g1eOvlp K e d]

end
end Verif.Model
