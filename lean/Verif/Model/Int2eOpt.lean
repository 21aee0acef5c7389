import Verif.Model.Int2e

/-!
Two-electron four-centre integrals with an optimizer: the constructor CINTall_2e_optimizer, and CINT2e_drv with the loop
functions of the dispatch table CINTf_2e_loop.

The members of CINTOpt that are arrays of pointers are integer arrays: an entry is the offset into the pool the
pointer points to, and -1 stands for NULL or NOVALUE.
-/
namespace Verif.Model
open Verif Prog

variable {α : Type}

/-- The members of CINTOpt used by the loops, include/cint.h.in:145-155. -/
structure Opt2 where
  nbas : Nat
  /-- `pairdata` (table, pool), or NULL -/
  pair : Option (Ptr × Ptr)
  /-- `non0ctr` and the array its entries point into -/
  ctab : Ptr
  cpool : Ptr
  /-- `sortedidx` -/
  stab : Ptr
  spool : Ptr
  /-- `index_xyz_array` -/
  ixa : Ptr
  ixbuf : Ptr

/-- the arrays allocated by the constructor -/
structure OptPtrs where
  ptab : Ptr
  ppool : Ptr
  ctab : Ptr
  cpool : Ptr
  stab : Ptr
  spool : Ptr
  ixa : Ptr
  ixbuf : Ptr

/-- a record with `n` numbers starting at `p`: `f k` is `p[k]` -/
def readBlk [Zero α] (p : Ptr) : Nat → Prog α (Nat → α)
  | 0 => pure fun _ => 0
  | n+1 => do
    let f ← readBlk p n
    let x ← ld (p + n)
    pure fun k => if k = n then x else f k

/-- the pair data of the two pairs of shells, five numbers for each pair of primitives -/
structure PairTabs (α : Type) where
  ij : Nat → α
  kl : Nat → α

section
variable [Field α] [LinearOrder α] (X : Int2e α) (s : Call2 α) (R : Rys2 α) (K : Consts α) (L : MathLib α)

/-- arguments of CINTset_pairdata for the pair k, l, src/cint2e.c:320-323 -/
def Call2.pairArgsKL : PairArgs α :=
  { si := s.sk, sj := s.sl, li := (s.env X).lk_ceil, lj := (s.env X).ll_ceil
    rr := rr2 s.sk.r s.sl.r, cutoff := cutoff2e s.envCut, omega := s.omega }

/-- the part of COMMON_ENVS_AND_DECLARE concerned with pair data, src/cint2e.c:280-284, :305-327; `none`: `return 0`.  The
entries are read here once; in C they are read in the primitive loops, which do not write there. -/
def optPairs (O : Opt2) (i j k l : Nat) (pd : Ptr) : Prog α (Option (PairTabs α)) :=
  match O.pair with
  | some (tbl, pool) => do
    let a ← ldI (tbl + (i*O.nbas + j))
    if a = -1 then pure none else do
    let b ← ldI (tbl + (k*O.nbas + l))
    if b = -1 then pure none else do
    let x ← readBlk (pool + 5*a.toNat) (5*(s.si.nprim*s.sj.nprim))
    let y ← readBlk (pool + 5*b.toNat) (5*(s.sk.nprim*s.sl.nprim))
    pure (some ⟨x, y⟩)
  | none => do
    let e1 ← setPairdata L pd (s.pairArgs X)
    if e1 then pure none else do
    let e2 ← setPairdata L (pd + 5*(s.si.nprim*s.sj.nprim)) (s.pairArgsKL X)
    if e2 then pure none else do
    let x ← readBlk pd (5*(s.si.nprim*s.sj.nprim))
    let y ← readBlk (pd + 5*(s.si.nprim*s.sj.nprim)) (5*(s.sk.nprim*s.sl.nprim))
    pure (some ⟨x, y⟩)

/-- position in `index_xyz_array`, src/cint2e.c:348-351 -/
def ixPos (li lj lk ll : Nat) : Nat := li*16*16*16 + lj*16*16 + lk*16 + ll

/-- `idx`, src/cint2e.c:348-355; result: the table and the rest of the cache -/
def optIdx (O : Opt2) (fpd buf c : Nat) (loc : Ptr) : Prog α (Ptr × Nat) := do
  let v ← ldI (O.ixa + ixPos s.si.l s.sj.l s.sk.l s.sl.l)
  if v = -1 then do
    let m := mallocI fpd buf c ((s.env X).nf * 3)
    g2eIndex m.1 loc (s.env X)
    pure (m.1, m.2)
  else pure (O.ixbuf + v.toNat, c)

/-- `envs` inside the primitive loops; `rij`, `rkl` are those of the pair data -/
def Call2.g2P (P : PairTabs α) (ip jp kp lp : Nat) : G2 α :=
  { ai := s.si.a ip, aj := s.sj.a jp, ak := s.sk.a kp, al := s.sl.a lp
    ri := s.si.r, rj := s.sj.r, rk := s.sk.r, rl := s.sl.r
    rij := fun c => P.ij (5*(jp*s.si.nprim+ip)+c)
    rkl := fun c => P.kl (5*(lp*s.sk.nprim+kp)+c)
    omega := s.omega }

/-- The primitive loops, src/cint2e.c:389-763.  `eklcutoff` is `envs->expcutoff`: the adjustment of `expcutoff` by
ADJUST_CUTOFF comes after `eklcutoff = expcutoff` (src/cint2e.c:346) and is not used. -/
def Call2.quartetP (P : PairTabs α) (idx g : Ptr) : Quartet α :=
  let ij (ip jp c : Nat) := P.ij (5*(jp*s.si.nprim+ip)+c)
  let kl (kp lp c : Nat) := P.kl (5*(lp*s.sk.nprim+kp)+c)
  let eklcutoff := cutoff2e s.envCut
  { iPrim := s.si.nprim, jPrim := s.sj.nprim, kPrim := s.sk.nprim, lPrim := s.sl.nprim
    iCtr := s.si.nctr, jCtr := s.sj.nctr, kCtr := s.sk.nctr, lCtr := s.sl.nctr
    ci := s.si.c, cj := s.sj.c, ck := s.sk.c, cl := s.sl.c
    common := X.common * (K.pi*K.pi*K.pi * 2 / K.sqrtpi * commonFacSp s.si.l * commonFacSp s.sj.l *
      commonFacSp s.sk.l * commonFacSp s.sl.l)
    skipKL := fun kp lp => decide (kl kp lp 4 > eklcutoff)
    skipIJ := fun ip jp kp lp => decide (ij ip jp 4 > eklcutoff - kl kp lp 4)
    eij := fun ip jp => ij ip jp 3
    ekl := fun kp lp => kl kp lp 3
    g0 := fun ip jp kp lp fac => g0_2e R K (s.env X) (s.g2P P ip jp kp lp)
      (eklcutoff - kl kp lp 4 - ij ip jp 4) g fac
    gout := fun ip jp kp lp _ gout em => X.gout (s.env X) (s.g2P P ip jp kp lp) idx g gout em
    nf := (s.env X).nf, nComp := X.nComp, leng := s.leng X }

/-- the primitive loops with the sparsity tables of the optimizer, src/cint2e.c:338-345 and the loop selected by
the numbers of contractions -/
def optLoops (O : Opt2) (i j k l : Nat) (P : PairTabs α) (fpd : Nat) (gctr empty : Ptr) (buf : Nat) (fl : Ptr)
    (ix : Ptr × Nat) : Prog α Bool := do
  let ci ← ldI (O.ctab + i)
  let cj ← ldI (O.ctab + j)
  let ck ← ldI (O.ctab + k)
  let cl ← ldI (O.ctab + l)
  let si ← ldI (O.stab + i)
  let sj ← ldI (O.stab + j)
  let sk ← ldI (O.stab + k)
  let sl ← ldI (O.stab + l)
  let g : Ptr := ⟨buf, alignUp fpd ix.2 / fpd⟩
  loop2eDispatch (s.quartetP X R K P ix.1 g)
    ⟨gctr, empty, g, fl, O.cpool + ci.toNat, O.cpool + cj.toNat, O.cpool + ck.toNat, O.cpool + cl.toNat,
      O.spool + si.toNat, O.spool + sj.toNat, O.spool + sk.toNat, O.spool + sl.toNat⟩

/-- CINT2e_loop and its specialisations from the entry on, src/cint2e.c:272-355, 389-782.  `i`, `j`, `k`, `l` are
the numbers of the shells. -/
def loop2eOpt (O : Opt2) (i j k l : Nat) (fpd : Nat) (gctr empty : Ptr) (buf c : Nat) (fl loc : Ptr) : Prog α Bool := do
  let m := mallocD fpd buf c (5*(s.si.nprim*s.sj.nprim + s.sk.nprim*s.sl.nprim))
  let P ← optPairs X s L O i j k l m.1
  match P with
  | none => pure false
  | some P => do
    let ix ← optIdx X s O fpd buf (if O.pair.isSome then c else m.2) loc
    optLoops X s R K O i j k l P fpd gctr empty buf fl ix

/-- CINT2e_drv, src/cint2e.c:794-878, with `out` and `opt` not NULL -/
def drv2eOpt (O : Opt2) (i j k l : Nat) (fpd : Nat) (trans : (buf c : Nat) → Ptr → Prog α Ptr) (nfo : Nat → Nat)
    (out : Ptr) (dims : Option Ptr) (buf c : Nat) (empty fl loc counts : Ptr) : Prog α Bool := do
  let nf := (s.env X).nf
  let nc := nf * s.si.nctr * s.sj.nctr * s.sk.nctr * s.sl.nctr
  let m := mallocD fpd buf c (nc * X.nComp)
  stI empty 1
  let _ ← loop2eOpt X s R K L O i j k l fpd m.1 empty buf m.2 fl loc
  let e ← ldI empty
  let S : Shape := { ic := s.si.nctr, jc := s.sj.nctr, kc := s.sk.nctr, lc := s.sl.nctr
                     di := nfo 0, dj := nfo 1, dk := nfo 2, dl := nfo 3, nf := nf }
  outStage 4 (decide (e = 0)) X.nComp nc (c2s2e1 S (trans buf m.2)) out m.1 dims counts
    (fun t => nfo t * four s.si.nctr s.sj.nctr s.sk.nctr s.sl.nctr t)
  pure (decide (e = 0))

/-- a call for shells of a basis -/
def basisCall (B : Nat → PShell α) (envCut omega : α) (i j k l : Nat) : Call2 α :=
  { si := B i, sj := B j, sk := B k, sl := B l, envCut, omega }

/-! ### Construction -/

/-- CINTOpt_set_non0coeff, src/optimizer.c:460-491, after the allocations -/
def setNon0coeff (B : Nat → PShell α) (nbas : Nat) (ctab cpool stab spool : Ptr) : Prog α Unit :=
  if totPrim B nbas = 0 then pure () else do
    stI (ctab + 0) 0
    stI (stab + 0) 0
    let _ ← forS nbas ((0, 0) : Nat × Nat) fun i p => do
      stI (ctab + i) (p.1 : Int)
      stI (stab + i) (p.2 : Int)
      non0coeffByshell (spool + p.2) (cpool + p.1) (B i).c (B i).nprim (B i).nctr
      pure (p.1 + (B i).nprim, p.2 + (B i).nprim * (B i).nctr)
    pure ()

/-- `max_l` of _make_fakebas, src/optimizer.c:80-86 -/
def maxAng (B : Nat → PShell α) : Nat → Nat
  | 0 => 0
  | n+1 => max (maxAng B n) (B n).l

/-- gen_idx for four shells, src/optimizer.c:118-172, and the initialisation in _allocate_index_xyz (:108-112).  The
shells of `fakebas` have angular momenta 0, 1, ..., on which alone the table depends. -/
def genIdx4 (maxl allow : Nat) (ng : Inc) (sr : Bool) (ixa ixbuf loc : Ptr) : Prog α Unit := do
  let la := min maxl allow
  stI (ixa + 0) 0
  forN ((maxl+1)*16*16*16 - 1) fun m => stI (ixa + (m+1)) (-1)
  let _ ← forS (la+1) (0 : Nat) fun i c => forS (la+1) c fun j c => forS (la+1) c fun k c => forS (la+1) c fun l c => do
    stI (ixa + ixPos i j k l) (c : Int)
    g2eIndex (ixbuf + c) loc (initInt2e i j k l ng sr)
    pure (c + (initInt2e i j k l ng sr).nf * 3)
  pure ()

/-- CINTall_2e_optimizer, src/optimizer.c:182-192.  The logarithms of the coefficients (`log_max_coeff`) are not stored in the
model: the functions that use them take them from the basis. -/
def optimizer2e (B : Nat → PShell α) (nbas : Nat) (envCut omega : α) (P : OptPtrs) (loc : Ptr) : Prog α Opt2 := do
  let has ← setij L B nbas (ijklInc X.ng.i X.ng.j X.ng.k X.ng.l) (setijCutoff envCut) omega P.ptab P.ppool
  setNon0coeff B nbas P.ctab P.cpool P.stab P.spool
  genIdx4 (maxAng B nbas) 6 X.ng (decide (omega < 0)) P.ixa P.ixbuf loc
  pure { nbas := nbas, pair := if has then some (P.ptab, P.ppool) else none, ctab := P.ctab, cpool := P.cpool
         stab := P.stab, spool := P.spool, ixa := P.ixa, ixbuf := P.ixbuf }

end
end Verif.Model
