import Verif.Model.Sparse
import Mathlib.Algebra.Field.Defs
import Mathlib.Order.Defs.LinearOrder

/-
Pair data and its screening, src/optimizer.c.

A `PairData` (include/cint.h.in:140-144) is five consecutive double cells: rij[0..2], eij,
cceij.  Input numbers (`env`) are pure functions.  The mathematical library is a parameter.
-/
namespace Verif.Model
open Verif Prog

/-- the C library functions used; `log` is `approx_log` (src/optimizer.h:76-78) -/
structure MathLib (α : Type) where
  log : α → α
  exp : α → α
  sqrt : α → α

/-- A shell as far as pair data are concerned: exponents, coefficients, centre. -/
structure PShell (α : Type) where
  nprim : Nat
  nctr : Nat
  l : Nat
  /-- `env + bas(PTR_EXP,i)` -/
  a : Nat → α
  /-- `env + bas(PTR_COEFF,i)` -/
  c : Nat → α
  /-- `env + atm(PTR_COORD,bas(ATOM_OF,i))` -/
  r : Nat → α

variable {α : Type} [Field α] [LinearOrder α]

/-- `MAX(maxc, fabs(c))`, loop of src/optimizer.c:251-256 -/
def maxAbsC (c : Nat → α) (nprim ip : Nat) : Nat → α
  | 0 => 0
  | i+1 =>
    let m := maxAbsC c nprim ip i
    let x := c (i*nprim+ip)
    let f := if x < 0 then -x else x
    if m > f then m else f

/-- CINTOpt_log_max_pgto_coeff, src/optimizer.c:246-259; the array `log_maxc` as a function of
the primitive -/
def logMaxC (L : MathLib α) (s : PShell α) (ip : Nat) : α := L.log (maxAbsC s.c s.nprim ip s.nctr)

/-- arguments of CINTset_pairdata other than the output -/
structure PairArgs (α : Type) where
  si : PShell α
  sj : PShell α
  li : Nat
  lj : Nat
  rr : α
  cutoff : α
  /-- `env[PTR_RANGE_OMEGA]` -/
  omega : α

/-- `log_rr_ij`, src/optimizer.c:301-315 -/
def logRR (L : MathLib α) (p : PairArgs α) : α :=
  let aij := p.si.a (p.si.nprim-1) + p.sj.a (p.sj.nprim-1)
  let lr := 17/10 - 15/10 * L.log aij
  let lij := p.li + p.lj
  if lij > 0 then
    let dist := L.sqrt p.rr
    if p.omega < 0 then
      let omega2 := p.omega * p.omega
      let theta := omega2 / (omega2 + aij)
      lr + (lij : α) * L.log (dist + theta*8 + 1)
    else lr + (lij : α) * L.log (dist + 1)
  else lr

/-- `cceij` of a primitive pair, src/optimizer.c:321-323 -/
def pairCC (L : MathLib α) (p : PairArgs α) (ip jp : Nat) : α :=
  let aij := 1/(p.si.a ip + p.sj.a jp)
  let eij := p.rr * p.si.a ip * p.sj.a jp * aij
  eij - logRR L p - logMaxC L p.si ip - logMaxC L p.sj jp

/-- CINTset_pairdata, src/optimizer.c:287-343.  Result: `empty`. -/
def setPairdata (L : MathLib α) (pd : Ptr) (p : PairArgs α) : Prog α Bool := do
  let s ← forS p.sj.nprim ((0, true) : Nat × Bool) fun jp s =>
    forS p.si.nprim s fun ip s => do
      let aij := 1/(p.si.a ip + p.sj.a jp)
      let eij := p.rr * p.si.a ip * p.sj.a jp * aij
      let cceij := eij - logRR L p - logMaxC L p.si ip - logMaxC L p.sj jp
      let pdata := pd + 5 * s.1
      st (pdata + 4) cceij
      if cceij < p.cutoff then do
        let wj := p.sj.a jp * aij
        st (pdata + 0) (p.si.r 0 + wj * (p.sj.r 0 - p.si.r 0))
        st (pdata + 1) (p.si.r 1 + wj * (p.sj.r 1 - p.si.r 1))
        st (pdata + 2) (p.si.r 2 + wj * (p.sj.r 2 - p.si.r 2))
        st (pdata + 3) (L.exp (-eij))
        pure (s.1 + 1, false)
      else do
        st (pdata + 0) (10^18)
        st (pdata + 1) (10^18)
        st (pdata + 2) (10^18)
        st (pdata + 3) 0
        pure (s.1 + 1, s.2)
  pure s.2

/-- what CINTset_pairdata stores: member `k` of the entry of primitives `ip`, `jp` (src/optimizer.c:321-337).  That `setPairdata` stores these numbers is proved
(`setPairdata_wp`). -/
def pairVal (L : MathLib α) (p : PairArgs α) (ip jp k : Nat) : α :=
  let aij := 1/(p.si.a ip + p.sj.a jp)
  if k = 4 then pairCC L p ip jp
  else if pairCC L p ip jp < p.cutoff then
    if k = 3 then L.exp (-(p.rr * p.si.a ip * p.sj.a jp * aij))
    else p.si.r k + p.sj.a jp * aij * (p.sj.r k - p.si.r k)
  else if k = 3 then 0 else 10^18

/-- square distance, src/optimizer.c:395-397 (and SQUARE, src/misc.h:14) -/
def rr2 (ri rj : Nat → α) : α :=
  (ri 0 - rj 0)*(ri 0 - rj 0) + (ri 1 - rj 1)*(ri 1 - rj 1) + (ri 2 - rj 2)*(ri 2 - rj 2)

/-- the arguments CINTOpt_setij passes for shells i, j (src/optimizer.c:388-400) -/
def setijArgs (B : Nat → PShell α) (inc : Nat) (cutoff omega : α) (i j : Nat) : PairArgs α :=
  { si := B i, sj := B j, li := (B i).l + inc, lj := (B j).l, rr := rr2 (B i).r (B j).r
    cutoff, omega }

/-- `expcutoff` of CINTOpt_setij, src/optimizer.c:351-355; EXPCUTOFF = 60, MIN_EXPCUTOFF = 40
(src/g1e.h) -/
def setijCutoff (envCut : α) : α := if envCut = 0 then 60 else if (40 : α) > envCut then 40 else envCut

/-- `ijkl_inc`, src/optimizer.c:374-379 -/
def ijklInc (iinc jinc kinc linc : Nat) : Nat :=
  if iinc + jinc > kinc + linc then iinc + jinc else kinc + linc

/-- the transposing copy, src/optimizer.c:413-417 -/
def setijTranspose (pool : Ptr) (iprim jprim pdata0 pdata : Nat) : Prog α Nat :=
  forS iprim pdata fun (ip pdata : Nat) =>
    forS jprim pdata fun (jp pdata : Nat) => do
      forN 5 fun k => cpy (pool + (5*pdata + k)) (pool + (5*(pdata0 + (jp*iprim+ip)) + k))
      pure (pdata + 1)

/-- body of the double loop of CINTOpt_setij, src/optimizer.c:392-422.  The pointer table
`opt->pairdata` is an integer array at `tbl`: an entry is the offset (in PairData units) into
the pool, or -1 for NOVALUE.  `pdata` is the cursor (an offset as well); result: new cursor. -/
def setijPair (L : MathLib α) (B : Nat → PShell α) (nbas inc : Nat) (cutoff omega : α)
    (tbl pool : Ptr) (i j pdata : Nat) : Prog α Nat := do
  let iprim := (B i).nprim
  let jprim := (B j).nprim
  let empty ← setPairdata L (pool + 5*pdata) (setijArgs B inc cutoff omega i j)
  if i = 0 ∧ j = 0 then do
    stI tbl (pdata : Int)
    pure (pdata + iprim*jprim)
  else if empty = false then do
    stI (tbl + (i*nbas+j)) (pdata : Int)
    if i ≠ j then do
      stI (tbl + (j*nbas+i)) ((pdata + iprim*jprim : Nat) : Int)
      setijTranspose pool iprim jprim pdata (pdata + iprim*jprim)
    else pure (pdata + iprim*jprim)
  else do
    stI (tbl + (i*nbas+j)) (-1)
    stI (tbl + (j*nbas+i)) (-1)
    pure pdata

/-- CINTOpt_setij, src/optimizer.c:372-424, after the allocations. -/
def setijLoop (L : MathLib α) (B : Nat → PShell α) (nbas inc : Nat) (cutoff omega : α)
    (tbl pool : Ptr) : Prog α Unit := do
  stI tbl 0                                           -- opt->pairdata[0] = pdata (l.372)
  let _ ← forS nbas (0 : Nat) fun (i pdata : Nat) =>
    forS (i+1) pdata fun (j pdata : Nat) => setijPair L B nbas inc cutoff omega tbl pool i j pdata
  pure ()

/-- `tot_prim` -/
def totPrim (B : Nat → PShell α) : Nat → Nat
  | 0 => 0
  | n+1 => totPrim B n + (B n).nprim

/-- CINTOpt_setij with its early return (src/optimizer.c:362-368); result: is there a table? -/
def setij (L : MathLib α) (B : Nat → PShell α) (nbas inc : Nat) (cutoff omega : α)
    (tbl pool : Ptr) : Prog α Bool :=
  if totPrim B nbas = 0 ∨ totPrim B nbas > 2048 then pure false else do
    setijLoop L B nbas inc cutoff omega tbl pool
    pure true

end Verif.Model
