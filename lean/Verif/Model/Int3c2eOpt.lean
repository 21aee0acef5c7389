import Verif.Model.Int3c2e
import Verif.Model.Int2eOpt
import Verif.Model.OptIdx

/-!
Two-electron three-centre integrals with an optimizer: the constructor CINTall_3c2e_optimizer, and CINT3c2e_drv with the loop
functions of the dispatch table CINTf_3c2e_loop.
-/
namespace Verif.Model
open Verif Prog

variable {α : Type} [Field α] [LinearOrder α] (X : Int2e α)

section
variable (s : Call3 α) (R : Rys2 α) (K : Consts α) (L : MathLib α)

/-- the part of COMMON_ENVS_AND_DECLARE concerned with pair data, src/cint3c2e.c:219-222, :239-252; `none`: `return 0`.  The
entries are read here once; in C they are read in the primitive loops, which do not write there. -/
def optPair (O : Opt2) (i j : Nat) (pd : Ptr) : Prog α (Option (Nat → α)) :=
  match O.pair with
  | some (tbl, pool) => do
    let a ← ldI (tbl + (i*O.nbas + j))
    if a = -1 then pure none else do
    let x ← readBlk (pool + 5*a.toNat) (5*(s.si.nprim*s.sj.nprim))
    pure (some x)
  | none => do
    let e ← setPairdata L pd (s.pairArgs X)
    if e then pure none else do
    let x ← readBlk pd (5*(s.si.nprim*s.sj.nprim))
    pure (some x)

/-- `idx`, src/cint3c2e.c:273-278; result: the table and the rest of the cache -/
def optIdx3 (O : Opt2) (fpd buf c : Nat) (loc : Ptr) : Prog α (Ptr × Nat) := do
  let v ← ldI (O.ixa + ixPos3 s.si.l s.sj.l s.sk.l)
  if v = -1 then do
    let m := mallocI fpd buf c ((s.env X).nf * 3)
    g2eIndex m.1 loc (s.env X)
    pure (m.1, m.2)
  else pure (O.ixbuf + v.toNat, c)

/-- `envs` inside the primitive loops, as `Call3.g3`, with `rij` from the pair data read -/
def Call3.g3P (rij : Nat → α) (ip jp kp : Nat) : G2 α :=
  { ai := s.si.a ip, aj := s.sj.a jp, ak := s.sk.a kp, al := 0
    ri := s.si.r, rj := s.sj.r, rk := s.sk.r, rl := s.sk.r
    rij := rij
    rkl := s.sk.r
    omega := s.omega }

/-- The primitive loops, src/cint3c2e.c:322-541; ADJUST_CUTOFF (:280-299) is `Call3.cutoff`. -/
def Call3.tripleP (P : Nat → α) (idx g : Ptr) : Nest3 α :=
  let ij (ip jp c : Nat) := P (5*(jp*s.si.nprim+ip)+c)
  { iPrim := s.si.nprim, jPrim := s.sj.nprim, kPrim := s.sk.nprim
    iCtr := s.si.nctr, jCtr := s.sj.nctr, kCtr := s.sk.nctr
    ci := s.si.c, cj := s.sj.c, ck := s.sk.c
    common := X.common * (K.pi*K.pi*K.pi * 2 / K.sqrtpi * commonFacSp s.si.l * commonFacSp s.sj.l * commonFacSp s.sk.l)
    skip := fun ip jp _ => decide (ij ip jp 4 > s.cutoff X L)
    eij := fun ip jp _ => ij ip jp 3
    g0 := fun ip jp kp fac => g0_2e R K (s.env X) { s.g3P (ij ip jp) ip jp kp with rk := fun _ => 0 }
      (s.cutoff X L - ij ip jp 4) g fac
    gout := fun ip jp kp _ gout em => X.gout (s.env X) (s.g3P (ij ip jp) ip jp kp) idx g gout em
    nf := (s.env X).nf, nComp := X.nComp, leng := s.leng X }

/-- the primitive loops; `tk` is the table of the third shell, the other two are those of the optimizer
(src/cint3c2e.c:262-265) -/
def optLoops3 (O : Opt2) (i j : Nat) (P : Nat → α) (tk : Tbl) (fpd : Nat) (gctr empty : Ptr) (buf : Nat) (fl : Ptr)
    (ix : Ptr × Nat) : Prog α Bool := do
  let ci ← ldI (O.ctab + i)
  let cj ← ldI (O.ctab + j)
  let si ← ldI (O.stab + i)
  let sj ← ldI (O.stab + j)
  let g : Ptr := ⟨buf, alignUp fpd ix.2 / fpd⟩
  loop3cDispatch (s.tripleP X R K L P ix.1 g) ⟨gctr, empty, g, fl⟩ ⟨O.cpool + ci.toNat, O.spool + si.toNat⟩
    ⟨O.cpool + cj.toNat, O.spool + sj.toNat⟩ tk

/-- CINT3c2e_loop and its specialisations from the entry on, src/cint3c2e.c:208-541.  `i`, `j` are the numbers of the first
two shells. -/
def loop3c2eOpt (O : Opt2) (i j : Nat) (fpd : Nat) (gctr empty : Ptr) (buf c : Nat) (fl loc : Ptr) : Prog α Bool := do
  let m := mallocD fpd buf c (5*(s.si.nprim*s.sj.nprim))
  let P ← optPair X s L O i j m.1
  match P with
  | none => pure false
  | some P => do
    let m1 := mallocI fpd buf (if O.pair.isSome then c else m.2) (s.sk.nprim + s.sk.nprim*s.sk.nctr)
    let tk : Tbl := ⟨m1.1, m1.1 + s.sk.nprim⟩
    non0coeffByshell tk.idx tk.ctr s.sk.c s.sk.nprim s.sk.nctr
    let ix ← optIdx3 X s O fpd buf m1.2 loc
    optLoops3 X s R K L O i j P tk fpd gctr empty buf fl ix

/-- CINT3c2e_drv with an optimizer, src/cint3c2e.c:585-588 -/
def drv3c2eOpt (O : Opt2) (i j : Nat) (fpd : Nat) (trans : (buf c : Nat) → Ptr → Prog α Ptr) (nfo : Nat → Nat) (out : Ptr)
    (dims : Option Ptr) (buf c : Nat) (empty fl loc counts : Ptr) : Prog α Bool :=
  drv3c2eBy X s (fun gctr c' => loop3c2eOpt X s R K L O i j fpd gctr empty buf c' fl loc) fpd trans nfo out dims buf c empty
    counts
end

/-- a call for shells of a basis -/
def basisCall3 (B : Nat → PShell α) (envCut omega : α) (i j k : Nat) : Call3 α :=
  { si := B i, sj := B j, sk := B k, envCut, omega }

/-- CINTall_3c2e_optimizer, src/optimizer.c:193-203.  The logarithms of the coefficients are not stored
(Model/Int2eOpt.lean). -/
def optimizer3c2e (L : MathLib α) (B : Nat → PShell α) (nbas : Nat) (envCut omega : α) (P : OptPtrs) (loc : Ptr) :
    Prog α Opt2 := do
  let has ← setij L B nbas (ijklInc X.ng.i X.ng.j X.ng.k X.ng.l) (setijCutoff envCut) omega P.ptab P.ppool
  setNon0coeff B nbas P.ctab P.cpool P.stab P.spool
  genIdx3 (maxAng B nbas) 12 (fun i j k => (initInt3c2e i j k X.ng (decide (omega < 0))).nf)
    (fun i j k p => g2eIndex p loc (initInt3c2e i j k X.ng (decide (omega < 0)))) P.ixa P.ixbuf
  pure { nbas := nbas, pair := if has then some (P.ptab, P.ppool) else none, ctab := P.ctab, cpool := P.cpool
         stab := P.stab, spool := P.spool, ixa := P.ixa, ixbuf := P.ixbuf }

end Verif.Model
