import Verif.Model.Level

/-
The primitive loops of two-electron four-centre integrals, src/cint2e.c.

The per-quartet numbers that the loops only read (coefficients, pair data, screening
decisions) are pure functions; the evaluation of one primitive quartet
(`(*envs->f_g0_2e)`, `(*envs->f_gout)`) is a parameter.  Stores into `envs->ai[0]`,
`envs->al[0]`, `envs->rij`... only feed those two callbacks and are subsumed by passing the
primitive indices.
-/
namespace Verif.Model
open Verif Prog

variable {α : Type}

/-- What the loops read (src/cint2e.c:60-86, 276-335). -/
structure Quartet (α : Type) where
  iPrim : Nat
  jPrim : Nat
  kPrim : Nat
  lPrim : Nat
  iCtr : Nat
  jCtr : Nat
  kCtr : Nat
  lCtr : Nat
  /-- `ci[k]` etc. -/
  ci : Nat → α
  cj : Nat → α
  ck : Nat → α
  cl : Nat → α
  /-- `envs->common_factor` -/
  common : α
  /-- `ccekl > expcutoff` (nopt, l.203) / `pdata_kl->cceij > eklcutoff` (l.704); args kp lp -/
  skipKL : Nat → Nat → Bool
  /-- `pdata_ij->cceij > eijcutoff` (l.231 / 726); args ip jp kp lp -/
  skipIJ : Nat → Nat → Nat → Nat → Bool
  /-- `pdata_ij->eij`; args ip jp -/
  eij : Nat → Nat → α
  /-- `exp(-ekl)` (l.211) / `pdata_kl->eij`; args kp lp -/
  ekl : Nat → Nat → α
  /-- `(*envs->f_g0_2e)(g, rij, rkl, cutoff, envs)`; args ip jp kp lp and `envs->fac[0]` -/
  g0 : Nat → Nat → Nat → Nat → α → Prog α Bool
  /-- `(*envs->f_gout)(gout, g, idx, envs, empty)` -/
  gout : Nat → Nat → Nat → Nat → α → Ptr → Int → Prog α Unit
  nf : Nat
  nComp : Nat
  /-- `leng`, l.172 -/
  leng : Nat

/-- Where things live. `fl` is the local array `_empty[5]`. -/
structure Mem2e where
  gctr : Ptr
  empty : Ptr
  g : Ptr
  fl : Ptr
  non0ctri : Ptr
  non0ctrj : Ptr
  non0ctrk : Ptr
  non0ctrl : Ptr
  non0idxi : Ptr
  non0idxj : Ptr
  non0idxk : Ptr
  non0idxl : Ptr

namespace Quartet
variable (Q : Quartet α)
/-- src/cint2e.c:170 -/
def nc : Nat := Q.iCtr * Q.jCtr * Q.kCtr * Q.lCtr
/-- l.173 -/
def lenl : Nat := Q.nf * Q.nc * Q.nComp
/-- l.174 -/
def lenk : Nat := Q.nf * Q.iCtr * Q.jCtr * Q.kCtr * Q.nComp
/-- l.175 -/
def lenj : Nat := Q.nf * Q.iCtr * Q.jCtr * Q.nComp
/-- l.176 -/
def leni : Nat := Q.nf * Q.iCtr * Q.nComp
/-- l.177 -/
def len0 : Nat := Q.nf * Q.nComp
end Quartet

/-- prefactor of a primitive quartet in CINT2e_loop_nopt, l.236-241 -/
def fac1iNopt [Mul α] (Q : Quartet α) (fac1j : α) (ip jp kp lp : Nat) : α :=
  let expijkl := Q.eij ip jp * Q.ekl kp lp
  if Q.iCtr = 1 then fac1j * Q.ci ip * expijkl else fac1j * expijkl

/-- prefactor in CINT2e_loop, l.734-738 -/
def fac1iOpt [Mul α] (Q : Quartet α) (fac1j : α) (ip jp kp lp : Nat) : α :=
  if Q.iCtr = 1 then fac1j * Q.ci ip * Q.eij ip jp * Q.ekl kp lp
  else fac1j * Q.eij ip jp * Q.ekl kp lp

/-- The loop nest of CINT2e_loop_nopt (src/cint2e.c:114-118, 179-265) and of CINT2e_loop
(l.680-763), which differ in the grouping of the prefactor, `facI`. -/
def loop2eCore [Add α] [Mul α] (Q : Quartet α) (M : Mem2e)
    (facI : Quartet α → α → Nat → Nat → Nat → Nat → α) : Prog α Bool := do
  initFlags 5 M.fl
  let g1 := M.g + Q.leng
  let (gctrl, lempty, g1) := aliasAddr Q.nComp M.gctr M.empty (M.fl + 3) g1 Q.lenl
  let (gctrk, kempty, g1) := aliasAddr Q.lCtr gctrl lempty (M.fl + 2) g1 Q.lenk
  let (gctrj, jempty, g1) := aliasAddr Q.kCtr gctrk kempty (M.fl + 1) g1 Q.lenj
  let (gctri, iempty, g1) := aliasAddr Q.jCtr gctrj jempty M.fl g1 Q.leni
  let (gout, gempty, _) := aliasAddr Q.iCtr gctri iempty (M.fl + 4) g1 Q.len0
  forN Q.lPrim fun lp =>
    levelBody Q.lCtr Q.lPrim lempty kempty gctrl gctrk Q.cl Q.lenk M.non0ctrl M.non0idxl lp
      (fun fac1l => forN Q.kPrim fun kp =>
        if Q.skipKL kp lp then pure () else
        levelBody Q.kCtr Q.kPrim kempty jempty gctrk gctrj Q.ck Q.lenj M.non0ctrk M.non0idxk kp
          (fun fac1k => forN Q.jPrim fun jp =>
            levelBody Q.jCtr Q.jPrim jempty iempty gctrj gctri Q.cj Q.leni M.non0ctrj M.non0idxj jp
              (fun fac1j => forN Q.iPrim fun ip =>
                if Q.skipIJ ip jp kp lp then pure () else
                primBody Q.iCtr Q.iPrim iempty gempty gctri gout Q.ci Q.len0 M.non0ctri M.non0idxi
                  ip (facI Q fac1j ip jp kp lp) (Q.g0 ip jp kp lp) (Q.gout ip jp kp lp))
              fac1k)
          fac1l)
      Q.common
  let le ← ldI lempty
  if 1 < Q.nComp ∧ le = 0 then
    transposeMacro M.empty M.gctr gctrl (Q.nf * Q.nc) Q.nComp
  else pure ()
  let e ← ldI M.empty
  pure (e = 0)

/-- CINT2e_loop (src/cint2e.c:659-763) after its preamble. -/
def loop2e [Add α] [Mul α] (Q : Quartet α) (M : Mem2e) : Prog α Bool :=
  loop2eCore Q M fac1iOpt

/-- src/cint2e.c:155-164: the sparsity tables of CINT2e_loop_nopt are consecutive pieces of
one block -/
def Mem2e.withTables (M : Mem2e) (Q : Quartet α) (non0ctri : Ptr) : Mem2e :=
  let non0ctrj := non0ctri + Q.iPrim
  let non0ctrk := non0ctrj + Q.jPrim
  let non0ctrl := non0ctrk + Q.kPrim
  let non0idxi := non0ctrl + Q.lPrim
  let non0idxj := non0idxi + Q.iPrim*Q.iCtr
  let non0idxk := non0idxj + Q.jPrim*Q.jCtr
  let non0idxl := non0idxk + Q.kPrim*Q.kCtr
  { M with non0ctri, non0ctrj, non0ctrk, non0ctrl, non0idxi, non0idxj, non0idxk, non0idxl }

/-- size of that block (l.155) -/
def Quartet.tblSize (Q : Quartet α) : Nat :=
  Q.iPrim+Q.jPrim+Q.kPrim+Q.lPrim+Q.iPrim*Q.iCtr+Q.jPrim*Q.jCtr+Q.kPrim*Q.kCtr+Q.lPrim*Q.lCtr

/-- CINT2e_loop_nopt (src/cint2e.c:57-266).  `emptyPair` is the result of CINTset_pairdata
(l.99-103); the four CINTOpt_non0coeff_byshell calls are l.165-168, `tbl` is the block
allocated at l.155.  CINTg2e_index_xyz (l.149) is modelled in Model/Index.lean; the
callbacks find its result in memory. -/
def loop2eNopt [Zero α] [DecidableEq α] [Add α] [Mul α] (Q : Quartet α) (M0 : Mem2e) (tbl : Ptr)
    (emptyPair : Bool) : Prog α Bool :=
  if emptyPair then pure false else do
    let M := M0.withTables Q tbl
    non0coeffByshell M.non0idxi M.non0ctri Q.ci Q.iPrim Q.iCtr
    non0coeffByshell M.non0idxj M.non0ctrj Q.cj Q.jPrim Q.jCtr
    non0coeffByshell M.non0idxk M.non0ctrk Q.ck Q.kPrim Q.kCtr
    non0coeffByshell M.non0idxl M.non0ctrl Q.cl Q.lPrim Q.lCtr
    loop2eCore Q M fac1iNopt

/-- CINT2e_1111_loop, src/cint2e.c:381-430 -/
def loop2e_1111 [Add α] [Mul α] (Q : Quartet α) (M : Mem2e) : Prog α Bool := do
  initFlags 5 M.fl
  let gout := if Q.nComp = 1 then M.gctr else M.g + Q.leng
  let gempty := if Q.nComp = 1 then M.empty else M.fl + 4
  forN Q.lPrim fun lp =>
    let fac1l := Q.common * Q.cl lp
    forN Q.kPrim fun kp =>
      if Q.skipKL kp lp then pure () else
      let fac1k := fac1l * Q.ck kp
      forN Q.jPrim fun jp =>
        let fac1j := fac1k * Q.cj jp
        forN Q.iPrim fun ip =>
          if Q.skipIJ ip jp kp lp then pure () else do
          let fac1i := fac1j * Q.ci ip * Q.eij ip jp * Q.ekl kp lp
          let r ← Q.g0 ip jp kp lp fac1i
          if r then do
            let e ← ldI gempty
            Q.gout ip jp kp lp fac1i gout e
            stI gempty 0
          else pure ()
  let ge ← ldI gempty
  if 1 < Q.nComp ∧ ge = 0 then
    transposeMacro M.empty M.gctr gout (Q.nf * 1) Q.nComp
  else pure ()
  let e ← ldI M.empty
  pure (e = 0)

/-- CINT2e_n111_loop, src/cint2e.c:433-488 -/
def loop2e_n111 [Add α] [Mul α] (Q : Quartet α) (M : Mem2e) : Prog α Bool := do
  initFlags 5 M.fl
  let g1 := M.g + Q.leng
  let (gctri, iempty, g1) := aliasAddr Q.nComp M.gctr M.empty M.fl g1 Q.leni
  let gout := g1
  forN Q.lPrim fun lp =>
    let fac1l := Q.common * Q.cl lp
    forN Q.kPrim fun kp =>
      if Q.skipKL kp lp then pure () else
      let fac1k := fac1l * Q.ck kp
      forN Q.jPrim fun jp =>
        let fac1j := fac1k * Q.cj jp
        forN Q.iPrim fun ip =>
          if Q.skipIJ ip jp kp lp then pure () else do
          let fac1i := fac1j * Q.eij ip jp * Q.ekl kp lp
          let r ← Q.g0 ip jp kp lp fac1i
          if r then do
            Q.gout ip jp kp lp fac1i gout 1
            prim2ctr Q.iCtr Q.iPrim iempty gctri gout Q.ci ip Q.len0 M.non0ctri M.non0idxi
          else pure ()
  let ie ← ldI iempty
  if 1 < Q.nComp ∧ ie = 0 then
    transposeMacro M.empty M.gctr gctri (Q.nf * Q.iCtr) Q.nComp
  else pure ()
  let e ← ldI M.empty
  pure (e = 0)

/-- CINT2e_1n11_loop, src/cint2e.c:491-547 -/
def loop2e_1n11 [Add α] [Mul α] (Q : Quartet α) (M : Mem2e) : Prog α Bool := do
  initFlags 5 M.fl
  let g1 := M.g + Q.leng
  let (gctrj, jempty, g1) :=
    aliasAddr Q.nComp M.gctr M.empty (M.fl + 1) g1 (Q.nf * Q.jCtr * Q.nComp)
  let gout := g1
  let iempty := M.fl
  forN Q.lPrim fun lp =>
    let fac1l := Q.common * Q.cl lp
    forN Q.kPrim fun kp =>
      if Q.skipKL kp lp then pure () else
      let fac1k := fac1l * Q.ck kp
      forN Q.jPrim fun jp => do
        let fac1j := fac1k
        stI iempty 1
        forN Q.iPrim fun ip =>
          if Q.skipIJ ip jp kp lp then pure () else do
          let fac1i := fac1j * Q.ci ip * Q.eij ip jp * Q.ekl kp lp
          let r ← Q.g0 ip jp kp lp fac1i
          if r then do
            let e ← ldI iempty
            Q.gout ip jp kp lp fac1i gout e
            stI iempty 0
          else pure ()
        let ie ← ldI iempty
        if ie = 0 then
          prim2ctr Q.jCtr Q.jPrim jempty gctrj gout Q.cj jp Q.len0 M.non0ctrj M.non0idxj
        else pure ()
  let je ← ldI jempty
  if 1 < Q.nComp ∧ je = 0 then
    transposeMacro M.empty M.gctr gctrj (Q.nf * Q.jCtr) Q.nComp
  else pure ()
  let e ← ldI M.empty
  pure (e = 0)

/-- CINT2e_11n1_loop, src/cint2e.c:550-604 -/
def loop2e_11n1 [Add α] [Mul α] (Q : Quartet α) (M : Mem2e) : Prog α Bool := do
  initFlags 5 M.fl
  let g1 := M.g + Q.leng
  let (gctrk, kempty, g1) :=
    aliasAddr Q.nComp M.gctr M.empty (M.fl + 2) g1 (Q.nf * Q.kCtr * Q.nComp)
  let gout := g1
  let jempty := M.fl + 1
  forN Q.lPrim fun lp =>
    let fac1l := Q.common * Q.cl lp
    forN Q.kPrim fun kp =>
      if Q.skipKL kp lp then pure () else do
      let fac1k := fac1l
      stI jempty 1
      forN Q.jPrim fun jp =>
        let fac1j := fac1k * Q.cj jp
        forN Q.iPrim fun ip =>
          if Q.skipIJ ip jp kp lp then pure () else do
          let fac1i := fac1j * Q.ci ip * Q.eij ip jp * Q.ekl kp lp
          let r ← Q.g0 ip jp kp lp fac1i
          if r then do
            let e ← ldI jempty
            Q.gout ip jp kp lp fac1i gout e
            stI jempty 0
          else pure ()
      let je ← ldI jempty
      if je = 0 then
        prim2ctr Q.kCtr Q.kPrim kempty gctrk gout Q.ck kp Q.len0 M.non0ctrk M.non0idxk
      else pure ()
  let ke ← ldI kempty
  if 1 < Q.nComp ∧ ke = 0 then
    transposeMacro M.empty M.gctr gctrk (Q.nf * Q.kCtr) Q.nComp
  else pure ()
  let e ← ldI M.empty
  pure (e = 0)

/-- CINT2e_111n_loop, src/cint2e.c:607-656 -/
def loop2e_111n [Add α] [Mul α] (Q : Quartet α) (M : Mem2e) : Prog α Bool := do
  initFlags 5 M.fl
  let g1 := M.g + Q.leng
  let (gctrl, lempty, g1) :=
    aliasAddr Q.nComp M.gctr M.empty (M.fl + 3) g1 (Q.nf * Q.lCtr * Q.nComp)
  let gout := g1
  let kempty := M.fl + 2
  forN Q.lPrim fun lp => do
    let fac1l := Q.common
    stI kempty 1
    forN Q.kPrim fun kp =>
      if Q.skipKL kp lp then pure () else
      let fac1k := fac1l * Q.ck kp
      forN Q.jPrim fun jp =>
        let fac1j := fac1k * Q.cj jp
        forN Q.iPrim fun ip =>
          if Q.skipIJ ip jp kp lp then pure () else do
          let fac1i := fac1j * Q.ci ip * Q.eij ip jp * Q.ekl kp lp
          let r ← Q.g0 ip jp kp lp fac1i
          if r then do
            let e ← ldI kempty
            Q.gout ip jp kp lp fac1i gout e
            stI kempty 0
          else pure ()
    let ke ← ldI kempty
    if ke = 0 then
      prim2ctr Q.lCtr Q.lPrim lempty gctrl gout Q.cl lp Q.len0 M.non0ctrl M.non0idxl
    else pure ()
  let le ← ldI lempty
  if 1 < Q.nComp ∧ le = 0 then
    transposeMacro M.empty M.gctr gctrl (Q.nf * Q.lCtr) Q.nComp
  else pure ()
  let e ← ldI M.empty
  pure (e = 0)

/-- dispatch, src/cint2e.c:765-782 with 838-843: the entry of CINTf_2e_loop selected by
`n = ((x_ctr[0]==1) << 3) + ((x_ctr[1]==1) << 2) + ((x_ctr[2]==1) << 1) + (x_ctr[3]==1)` -/
def loop2eDispatch [Add α] [Mul α] (Q : Quartet α) (M : Mem2e) : Prog α Bool :=
  let bit (b : Bool) : Nat := if b then 1 else 0
  let n := (bit (Q.iCtr = 1) <<< 3) + (bit (Q.jCtr = 1) <<< 2) + (bit (Q.kCtr = 1) <<< 1)
    + bit (Q.lCtr = 1)
  match n with
  | 7 => loop2e_n111 Q M
  | 11 => loop2e_1n11 Q M
  | 13 => loop2e_11n1 Q M
  | 14 => loop2e_111n Q M
  | 15 => loop2e_1111 Q M
  | _ => loop2e Q M

end Verif.Model
