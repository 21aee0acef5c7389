import Verif.Model.Int2e
import Verif.Model.Nests

/-!
Two-electron two-centre integrals from the call to the filled output array, without an optimizer: CINT2c2e_drv,
CINT2c2e_loop_nopt and the scratch memory they carve out of `cache` (layout: Model/Drv1e.lean).
-/
namespace Verif.Model
open Verif Prog

variable {α : Type}

/-- The input data of a call: the two shells, `env[PTR_EXPCUTOFF]` and `env[PTR_RANGE_OMEGA]`. -/
structure Call2c (α : Type) where
  si : PShell α
  sk : PShell α
  envCut : α
  omega : α

section
variable [Field α]

/-- CINTg0_2e_2d4d_unrolled and CINTsrg0_2e_2d4d_unrolled as in `g0Unrolled` (Model/G2e.lean), with `envs->rirj` and
`envs->rkrl` as set in src/g2c2e.c:83-88 -/
def g0Unrolled2c (cases : List (Nat × List (Nat × UExpr))) (e : EnvG) (d : G2 α) (bc : Rys2eT α) (g : Ptr) : Prog α Unit :=
  let type_ijkl := (e.li_ceil <<< 6) ||| (e.lj_ceil <<< 4) ||| (e.lk_ceil <<< 2) ||| e.ll_ceil
  match cases.lookup type_ijkl with
  | some l => runAssigns bc d.ri d.rk g l
  | none => pure ()

/-- `envs->f_g0_2d4d` as selected by CINTinit_int2c2e_EnvVars, src/g2c2e.c:92-99: no horizontal recursion -/
def g0_2d2c (e : EnvG) (d : G2 α) (bc : Rys2eT α) (g : Ptr) : Prog α Unit :=
  if e.rys_order ≤ 2 then
    if e.rys_order ≠ e.nrys_roots then g0Unrolled2c Unrolled.srUnrolled e d bc g
    else g0Unrolled2c Unrolled.unrolled e d bc g
  else g0_2e_2d e bc g
end

section
variable (X : Int2e α) (s : Call2c α)

section
variable [Zero α] [LT α] [DecidableLT α]

/-- The envs.  `X.nComp` is `ncomp_tensor`; the other two component numbers are 1 (the loops use `ncomp_tensor` alone,
src/cint2c2e.c:75). -/
def Call2c.env : EnvG := initInt2c2e s.si.l s.sk.l X.ng (decide (s.omega < 0))
/-- `leng`, src/cint2c2e.c:84 -/
def Call2c.leng : Nat := (s.env X).g_size * 3 * (2^X.gbits + 1)
/-- `len`, src/cint2c2e.c:85-88 -/
def Call2c.len : Nat := s.leng X + (s.env X).nf * (s.si.nctr * s.sk.nctr) * X.nComp
  + (s.env X).nf * s.si.nctr * X.nComp + (s.env X).nf * X.nComp
/-- size of the sparsity tables, src/cint2c2e.c:103 -/
def Call2c.tblLen : Nat := s.si.nprim + s.sk.nprim + s.si.nprim * s.si.nctr + s.sk.nprim * s.sk.nctr

/-- int1e_cache_size, src/cint1e.c:163-183, for the two-centre envs; exact, in C in `FINT` -/
def cacheSize2c2e : Nat :=
  let nf := (s.env X).nf
  let nc := nf * s.si.nctr * s.sk.nctr
  let lenj := nf * nc * X.nComp
  let leni := nf * s.si.nctr * X.nComp
  let len0 := nf * X.nComp
  let pdata_size := s.si.nprim * s.sk.nprim * 5 + s.si.nprim * s.si.nctr + s.sk.nprim * s.sk.nctr
    + (s.si.nprim + s.sk.nprim) * 2 + nf * 3
  max (nc * X.nComp + s.leng X + lenj + leni + len0 + pdata_size) (nc * X.nComp + nf * 8 * 2)

/-- the arrays of CINT2c2e_loop_nopt in the cache -/
structure Arrays2c where
  g : Ptr
  idx : Ptr
  tbl : Ptr

/-- MALLOC_INSTACK of the arrays of CINT2c2e_loop_nopt, src/cint2c2e.c:90, 98, 103 -/
def arrays2c2e (fpd buf c : Nat) : Arrays2c :=
  let m1 := mallocD fpd buf c (s.len X)
  let m2 := mallocI fpd buf m1.2 ((s.env X).nf * 3)
  let m3 := mallocI fpd buf m2.2 s.tblLen
  { g := m1.1, idx := m2.1, tbl := m3.1 }
end

variable [Field α] [LinearOrder α] (R : Rys2 α) (K : Consts α)

/-- `envs->expcutoff`, src/g2c2e.c:46-50 -/
def cutoff2c2e (envCut : α) : α := if envCut = 0 then 60 else if (40 : α) > envCut then 40 else envCut

/-- `envs` inside the primitive loops: exponents (src/cint2c2e.c:114-115, 122-123), centres, `rij` and `rkl`
(src/g2c2e.c:74-81).  `rx_in_rijrx` and `rx_in_rklrx` are the centres of the two shells (src/g2c2e.c:89-90): in terms of
`rxij`, `rxkl` (Model/G2e.lean) both centres of a pair are the centre of its shell. -/
def Call2c.g2 (ip kp : Nat) : G2 α :=
  { ai := s.si.a ip, aj := 0, ak := s.sk.a kp, al := 0
    ri := s.si.r, rj := s.si.r, rk := s.sk.r, rl := s.sk.r
    rij := s.si.r, rkl := s.sk.r, omega := s.omega }

/-- The loops of CINT2c2e_loop_nopt.  `common_factor`: src/g2c2e.c:44-45. -/
def Call2c.pair (A : Arrays2c) : Nest2 α :=
  { iPrim := s.si.nprim, jPrim := s.sk.nprim, iCtr := s.si.nctr, jCtr := s.sk.nctr
    ci := s.si.c, cj := s.sk.c
    common := X.common * (K.pi*K.pi*K.pi * 2 / K.sqrtpi * commonFacSp s.si.l * commonFacSp s.sk.l)
    skip := fun _ _ => false
    eij := fun _ _ => 1
    g0 := fun ip kp fac => g0_2e R K (s.env X) (s.g2 ip kp) (cutoff2c2e s.envCut) A.g fac g0_2d2c
    gout := fun ip kp _ gout em => X.gout (s.env X) (s.g2 ip kp) A.idx A.g gout em
    len0 := (s.env X).nf * X.nComp }

/-- CINT2c2e_loop_nopt, src/cint2c2e.c:58-146.  `empty` is the driver's variable, `fl` the local array `_empty[3]`, `loc` the
local arrays of CINTg1e_index_xyz, `c` the incoming `cache`. -/
def loop2c2eRun (fpd : Nat) (gctr empty : Ptr) (buf c : Nat) (fl loc : Ptr) : Prog α Bool := do
  let A := arrays2c2e X s fpd buf c
  g1eIndex A.idx loc (s.env X)
  loop2c2e (s.pair X R K A) ⟨gctr, empty, A.g, fl⟩ A.tbl (s.env X).nf X.nComp (s.leng X)

/-- CINT2c2e_drv, src/cint2c2e.c:238-292, with `out` not NULL; `loop` gets `gctr` and the rest of the cache.  `trans`
transforms a block using the remaining cache; `nfo` is the number of output functions of the shells (`nfi`, or `2l+1`; 1 for
the absent ones).  When the caller passes no cache the driver allocates one of size `cacheSize2c2e`. -/
def drv2c2eBy (X : Int2e α) (s : Call2c α) (loop : Ptr → Nat → Prog α Bool) (fpd : Nat)
    (trans : (buf c : Nat) → Ptr → Prog α Ptr) (nfo : Nat → Nat) (out : Ptr)
    (dims : Option Ptr) (buf c : Nat) (empty counts : Ptr) : Prog α Bool := do
  let nf := (s.env X).nf
  let nc := nf * s.si.nctr * s.sk.nctr
  let m := mallocD fpd buf c (nc * X.nComp)
  stI empty 1
  let _ ← loop m.1 m.2
  let e ← ldI empty
  let S : Shape := { ic := s.si.nctr, jc := s.sk.nctr, di := nfo 0, dj := nfo 1, nf := nf }
  outStage 2 (decide (e = 0)) X.nComp nc (c2s1e S (trans buf m.2)) out m.1 dims counts
    (fun t => if t = 0 then nfo 0 * s.si.nctr else if t = 1 then nfo 1 * s.sk.nctr else 1)
  pure (decide (e = 0))

/-- CINT2c2e_drv without an optimizer, src/cint2c2e.c:261-263 -/
def drv2c2e (fpd : Nat) (trans : (buf c : Nat) → Ptr → Prog α Ptr) (nfo : Nat → Nat) (out : Ptr)
    (dims : Option Ptr) (buf c : Nat) (empty fl loc counts : Ptr) : Prog α Bool :=
  drv2c2eBy X s (fun gctr c' => loop2c2eRun X s R K fpd gctr empty buf c' fl loc) fpd trans nfo out dims buf c empty counts

end
end Verif.Model
