import Verif.Model.Level

/-
The two- and three-level loop nests: one-electron (src/cint1e.c), two-centre two-electron
(src/cint2c2e.c), grids (src/cint1e_grids.c), three-centre two-electron (src/cint3c2e.c) and
three-centre one-electron (src/cint3c1e.c) integrals.

As in Model/Loop2e.lean, numbers that the loops only read are pure functions and the
evaluation of one primitive is a parameter.
-/
namespace Verif.Model
open Verif Prog

variable {α : Type}

/-- What a two-level nest reads.  `j` is the outer shell (called `k` in cint2c2e.c). -/
structure Nest2 (α : Type) where
  iPrim : Nat
  jPrim : Nat
  iCtr : Nat
  jCtr : Nat
  ci : Nat → α
  cj : Nat → α
  /-- `common_factor` (src/cint1e.c:121-122, src/cint2c2e.c:118, src/cint1e_grids.c:147) -/
  common : α
  /-- `pdata_ij->cceij > expcutoff` (src/cint1e.c:133, src/cint1e_grids.c:153); never in
  cint2c2e.c -/
  skip : Nat → Nat → Bool
  /-- `pdata_ij->eij` (1 in cint2c2e.c, where the factor is absent) -/
  eij : Nat → Nat → α
  g0 : Nat → Nat → α → Prog α Bool
  gout : Nat → Nat → α → Ptr → Int → Prog α Unit
  /-- numbers per primitive block: `nf*n_comp` (times `bgrids` in cint1e_grids.c) -/
  len0 : Nat

/-- Read-only sparsity tables of a shell. -/
structure Tbl where
  ctr : Ptr
  idx : Ptr

namespace Nest2
variable (P : Nest2 α)
def leni : Nat := P.len0 * P.iCtr
def lenj : Nat := P.leni * P.jCtr

/-- The loops src/cint1e.c:125-153, src/cint2c2e.c:114-140, src/cint1e_grids.c:143-182. -/
def nest [Add α] [Mul α] (ti tj : Tbl) (facI : α → Nat → Nat → α)
    (jempty iempty gempty gctrj gctri gout : Ptr) : Prog α Unit :=
  forN P.jPrim fun jp =>
    levelBody P.jCtr P.jPrim jempty iempty gctrj gctri P.cj P.leni tj.ctr tj.idx jp
      (fun fac1j => forN P.iPrim fun ip =>
        if P.skip ip jp then pure () else
        primBody P.iCtr P.iPrim iempty gempty gctri gout P.ci P.len0 ti.ctr ti.idx ip
          (facI fac1j ip jp) (P.g0 ip jp) (P.gout ip jp))
      P.common

/-- prefactor, src/cint1e.c:142-146, src/cint1e_grids.c:164-168 -/
def facE [Mul α] (fac1j : α) (ip jp : Nat) : α :=
  if P.iCtr = 1 then fac1j * P.ci ip * P.eij ip jp else fac1j * P.eij ip jp

/-- prefactor, src/cint2c2e.c:127-131 -/
def facP [Mul α] (fac1k : α) (ip _kp : Nat) : α :=
  if P.iCtr = 1 then fac1k * P.ci ip else fac1k
end Nest2

/-- What a three-level nest reads. -/
structure Nest3 (α : Type) where
  iPrim : Nat
  jPrim : Nat
  kPrim : Nat
  iCtr : Nat
  jCtr : Nat
  kCtr : Nat
  ci : Nat → α
  cj : Nat → α
  ck : Nat → α
  /-- `envs->common_factor` (times `fac` in CINT3c1e_nuc_loop_nopt) -/
  common : α
  /-- `pdata_ij->cceij > expcutoff` (src/cint3c2e.c:171) or `eijk > EXPCUTOFF`
  (src/cint3c1e.c:166) -/
  skip : Nat → Nat → Nat → Bool
  /-- `pdata_ij->eij` or `exp(-eijk)` -/
  eij : Nat → Nat → Nat → α
  g0 : Nat → Nat → Nat → α → Prog α Bool
  gout : Nat → Nat → Nat → α → Ptr → Int → Prog α Unit
  nf : Nat
  nComp : Nat
  leng : Nat

namespace Nest3
variable (P : Nest3 α)
def nc : Nat := P.iCtr * P.jCtr * P.kCtr
/-- src/cint3c2e.c:143-146 -/
def len0 : Nat := P.nf * P.nComp
def leni : Nat := P.nf * P.iCtr * P.nComp
def lenj : Nat := P.nf * P.iCtr * P.jCtr * P.nComp
def lenk : Nat := P.nf * P.nc * P.nComp

/-- The loops src/cint3c2e.c:156-201 and 474-514, src/cint3c1e.c:146-191.  In cint3c1e.c the
division `dijk = fac1i / (aijk * sqrt(aijk))` belongs to the primitive evaluator. -/
def nest [Add α] [Mul α] (ti tj tk : Tbl) (facI : α → Nat → Nat → Nat → α)
    (kempty jempty iempty gempty gctrk gctrj gctri gout : Ptr) : Prog α Unit :=
  forN P.kPrim fun kp =>
    levelBody P.kCtr P.kPrim kempty jempty gctrk gctrj P.ck P.lenj tk.ctr tk.idx kp
      (fun fac1k => forN P.jPrim fun jp =>
        levelBody P.jCtr P.jPrim jempty iempty gctrj gctri P.cj P.leni tj.ctr tj.idx jp
          (fun fac1j => forN P.iPrim fun ip =>
            if P.skip ip jp kp then pure () else
            primBody P.iCtr P.iPrim iempty gempty gctri gout P.ci P.len0 ti.ctr ti.idx ip
              (facI fac1j ip jp kp) (P.g0 ip jp kp) (P.gout ip jp kp))
          fac1k)
      P.common

/-- prefactor, src/cint3c2e.c:178-182, src/cint3c1e.c:170-174 -/
def facE [Mul α] (fac1j : α) (ip jp kp : Nat) : α :=
  if P.iCtr = 1 then fac1j * P.ci ip * P.eij ip jp kp else fac1j * P.eij ip jp kp
end Nest3

/-- Where a two- or three-centre loop finds its memory.  `fl` is the local flag array. -/
structure MemN where
  gctr : Ptr
  empty : Ptr
  g : Ptr
  fl : Ptr

/-! ### three centres -/

/-- CINT3c2e_loop (src/cint3c2e.c:448-519) and, after building its tables,
CINT3c2e_loop_nopt (l.92-206), CINT3c1e_loop_nopt (src/cint3c1e.c:78-196) and
CINT3c1e_nuc_loop_nopt (l.226-373).  `_empty[4]`: i, j, k, g. -/
def loop3c [Add α] [Mul α] (P : Nest3 α) (M : MemN) (ti tj tk : Tbl) : Prog α Bool := do
  initFlags 4 M.fl
  let g1 := M.g + P.leng
  let (gctrk, kempty, g1) := aliasAddr P.nComp M.gctr M.empty (M.fl + 2) g1 P.lenk
  let (gctrj, jempty, g1) := aliasAddr P.kCtr gctrk kempty (M.fl + 1) g1 P.lenj
  let (gctri, iempty, g1) := aliasAddr P.jCtr gctrj jempty M.fl g1 P.leni
  let (gout, gempty, _) := aliasAddr P.iCtr gctri iempty (M.fl + 3) g1 P.len0
  P.nest ti tj tk P.facE kempty jempty iempty gempty gctrk gctrj gctri gout
  let ke ← ldI kempty
  if 1 < P.nComp ∧ ke = 0 then transposeMacro M.empty M.gctr gctrk (P.nf * P.nc) P.nComp
  else pure ()
  let e ← ldI M.empty
  pure (e = 0)

/-- src/cint3c2e.c:126-131, src/cint3c1e.c:92-97: tables in one block -/
def tbl3 (P : Nest3 α) (base : Ptr) : Tbl × Tbl × Tbl :=
  let non0ctrj := base + P.iPrim
  let non0ctrk := non0ctrj + P.jPrim
  let non0idxi := non0ctrk + P.kPrim
  let non0idxj := non0idxi + P.iPrim*P.iCtr
  let non0idxk := non0idxj + P.jPrim*P.jCtr
  (⟨base, non0idxi⟩, ⟨non0ctrj, non0idxj⟩, ⟨non0ctrk, non0idxk⟩)

def Nest3.tblSize (P : Nest3 α) : Nat :=
  P.iPrim+P.jPrim+P.kPrim+P.iPrim*P.iCtr+P.jPrim*P.jCtr+P.kPrim*P.kCtr

/-- src/cint3c2e.c:132-134, src/cint3c1e.c:98-100 -/
def tables3 [Zero α] [DecidableEq α] (P : Nest3 α) (ti tj tk : Tbl) : Prog α Unit := do
  non0coeffByshell ti.idx ti.ctr P.ci P.iPrim P.iCtr
  non0coeffByshell tj.idx tj.ctr P.cj P.jPrim P.jCtr
  non0coeffByshell tk.idx tk.ctr P.ck P.kPrim P.kCtr

/-- CINT3c2e_loop_nopt, src/cint3c2e.c:56-206 (`emptyPair`: l.88-92) and CINT3c1e_loop_nopt,
src/cint3c1e.c:60-196 (no screening of the pair) -/
def loop3cNopt [Zero α] [DecidableEq α] [Add α] [Mul α] (P : Nest3 α) (M : MemN) (base : Ptr)
    (emptyPair : Bool) : Prog α Bool :=
  if emptyPair then pure false else do
    let t := tbl3 P base
    tables3 P t.1 t.2.1 t.2.2
    loop3c P M t.1 t.2.1 t.2.2

/-- CINT3c2e_loop: the tables of i and j come from the optimizer, that of k is built on the fly
(src/cint3c2e.c:258-260); `emptyPair` stands for l.215-218 and 235-249 -/
def loop3cOpt [Zero α] [DecidableEq α] [Add α] [Mul α] (P : Nest3 α) (ti tj tk : Tbl)
    (emptyPair : Bool) (loop : Tbl → Tbl → Tbl → Prog α Bool) : Prog α Bool :=
  if emptyPair then pure false else do
    non0coeffByshell tk.idx tk.ctr P.ck P.kPrim P.kCtr
    loop ti tj tk

/-- CINT3c2e_111_loop, src/cint3c2e.c:322-368 -/
def loop3c_111 [Add α] [Mul α] (P : Nest3 α) (M : MemN) : Prog α Bool := do
  initFlags 4 M.fl
  let gout := if P.nComp = 1 then M.gctr else M.g + P.leng
  let gempty := if P.nComp = 1 then M.empty else M.fl + 3
  forN P.kPrim fun kp =>
    let fac1k := P.common * P.ck kp
    forN P.jPrim fun jp =>
      let fac1j := fac1k * P.cj jp
      forN P.iPrim fun ip =>
        if P.skip ip jp kp then pure () else do
        let fac1i := fac1j * P.ci ip * P.eij ip jp kp
        let r ← P.g0 ip jp kp fac1i
        if r then do
          let e ← ldI gempty
          P.gout ip jp kp fac1i gout e
          stI gempty 0
        else pure ()
  let ge ← ldI gempty
  if 1 < P.nComp ∧ ge = 0 then transposeMacro M.empty M.gctr gout (P.nf * 1) P.nComp
  else pure ()
  let e ← ldI M.empty
  pure (e = 0)

/-- CINT3c2e_n11_loop, src/cint3c2e.c:371-411 -/
def loop3c_n11 [Add α] [Mul α] (P : Nest3 α) (M : MemN) (ti : Tbl) : Prog α Bool := do
  initFlags 4 M.fl
  let g1 := M.g + P.leng
  let (gctri, iempty, g1) := aliasAddr P.nComp M.gctr M.empty M.fl g1 P.leni
  let gout := g1
  forN P.kPrim fun kp =>
    let fac1k := P.common * P.ck kp
    forN P.jPrim fun jp =>
      let fac1j := fac1k * P.cj jp
      forN P.iPrim fun ip =>
        if P.skip ip jp kp then pure () else do
        let fac1i := fac1j * P.eij ip jp kp
        let r ← P.g0 ip jp kp fac1i
        if r then do
          P.gout ip jp kp fac1i gout 1
          prim2ctr P.iCtr P.iPrim iempty gctri gout P.ci ip P.len0 ti.ctr ti.idx
        else pure ()
  let ie ← ldI iempty
  if 1 < P.nComp ∧ ie = 0 then transposeMacro M.empty M.gctr gctri (P.nf * P.iCtr) P.nComp
  else pure ()
  let e ← ldI M.empty
  pure (e = 0)

/-- CINT3c2e_1n1_loop, src/cint3c2e.c:414-460 -/
def loop3c_1n1 [Add α] [Mul α] (P : Nest3 α) (M : MemN) (tj : Tbl) : Prog α Bool := do
  initFlags 4 M.fl
  let g1 := M.g + P.leng
  let (gctrj, jempty, g1) :=
    aliasAddr P.nComp M.gctr M.empty (M.fl + 1) g1 (P.nf * P.jCtr * P.nComp)
  let gout := g1
  let iempty := M.fl
  forN P.kPrim fun kp =>
    let fac1k := P.common * P.ck kp
    forN P.jPrim fun jp => do
      let fac1j := fac1k
      stI iempty 1
      forN P.iPrim fun ip =>
        if P.skip ip jp kp then pure () else do
        let fac1i := fac1j * P.ci ip * P.eij ip jp kp
        let r ← P.g0 ip jp kp fac1i
        if r then do
          let e ← ldI iempty
          P.gout ip jp kp fac1i gout e
          stI iempty 0
        else pure ()
      let ie ← ldI iempty
      if ie = 0 then
        prim2ctr P.jCtr P.jPrim jempty gctrj gout P.cj jp P.len0 tj.ctr tj.idx
      else pure ()
  let je ← ldI jempty
  if 1 < P.nComp ∧ je = 0 then transposeMacro M.empty M.gctr gctrj (P.nf * P.jCtr) P.nComp
  else pure ()
  let e ← ldI M.empty
  pure (e = 0)

/-- dispatch table, src/cint3c2e.c:521-530 with 573-574 -/
def loop3cDispatch [Add α] [Mul α] (P : Nest3 α) (M : MemN) (ti tj tk : Tbl) : Prog α Bool :=
  let bit (b : Bool) : Nat := if b then 1 else 0
  let n := (bit (P.iCtr = 1) <<< 2) + (bit (P.jCtr = 1) <<< 1) + bit (P.kCtr = 1)
  match n with
  | 3 => loop3c_n11 P M ti
  | 5 => loop3c_1n1 P M tj
  | 7 => loop3c_111 P M
  | _ => loop3c P M ti tj tk

/-! ### two centres -/

/-- CINT2c2e_loop and CINT2c2e_loop_nopt (src/cint2c2e.c:58-146, 148-223).  The tables are only
built for contracted shells (l.106-111). `_empty[3]`: i, k, g. -/
def loop2c2e [Zero α] [DecidableEq α] [Add α] [Mul α] (P : Nest2 α) (M : MemN) (base : Ptr)
    (nf nComp leng : Nat) : Prog α Bool := do
  let non0ctrk := base + P.iPrim
  let non0idxi := non0ctrk + P.jPrim
  let non0idxk := non0idxi + P.iPrim*P.iCtr
  if 1 < P.iCtr then non0coeffByshell non0idxi base P.ci P.iPrim P.iCtr else pure ()
  if 1 < P.jCtr then non0coeffByshell non0idxk non0ctrk P.cj P.jPrim P.jCtr else pure ()
  initFlags 3 M.fl
  let g1 := M.g + leng
  let (gctrk, kempty, g1) :=
    aliasAddr nComp M.gctr M.empty (M.fl + 1) g1 (nf * (P.iCtr * P.jCtr) * nComp)
  let (gctri, iempty, g1) := aliasAddr P.jCtr gctrk kempty M.fl g1 (nf * P.iCtr * nComp)
  let (gout, gempty, _) := aliasAddr P.iCtr gctri iempty (M.fl + 2) g1 (nf * nComp)
  P.nest ⟨base, non0idxi⟩ ⟨non0ctrk, non0idxk⟩ P.facP kempty iempty gempty gctrk gctri gout
  let ke ← ldI kempty
  if 1 < nComp ∧ ke = 0 then
    transposeMacro M.empty M.gctr gctrk (nf * (P.iCtr * P.jCtr)) nComp
  else pure ()
  let e ← ldI M.empty
  pure (e = 0)

/-- CINT1e_loop, src/cint1e.c:37-160.  `emptyPair`: l.61-65.  `fl` is the local array
`empty[4]` = {g, i, j, unused}; there is no flag of the caller. -/
def loop1e [Zero α] [DecidableEq α] [Add α] [Mul α] (P : Nest2 α) (gctr g fl base : Ptr)
    (nf nComp leng : Nat) (emptyPair : Bool) : Prog α Bool :=
  if emptyPair then pure false else do
    initFlags 4 fl
    let non0ctrj := base + P.iPrim
    let non0idxi := non0ctrj + P.jPrim
    let non0idxj := non0idxi + P.iPrim*P.iCtr
    non0coeffByshell non0idxi base P.ci P.iPrim P.iCtr
    non0coeffByshell non0idxj non0ctrj P.cj P.jPrim P.jCtr
    let g1 := g + leng
    let jempty := fl + 2
    let lenj := nf * (P.iCtr * P.jCtr) * nComp
    let gctrj := if nComp = 1 then gctr else g1
    let g1 := if nComp = 1 then g1 else g1 + lenj
    let (gctri, iempty, g1) := aliasAddr P.jCtr gctrj jempty (fl + 1) g1 (nf * P.iCtr * nComp)
    let (gout, gempty, _) := aliasAddr P.iCtr gctri iempty fl g1 (nf * nComp)
    P.nest ⟨base, non0idxi⟩ ⟨non0ctrj, non0idxj⟩ P.facE jempty iempty gempty gctrj gctri gout
    let je ← ldI jempty
    if 1 < nComp ∧ je = 0 then dmatTranspose gctr gctrj (nf * (P.iCtr * P.jCtr)) nComp
    else pure ()
    let je ← ldI jempty
    pure (je = 0)

end Verif.Model
