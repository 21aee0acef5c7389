import Verif.Lemmas.DrvSpSsc
import Verif.Props.SpinorOper3
import Verif.Props.SpinorOpt

/-!
C20, C17, C16, C18, C11 — three-centre integrals between spinors with Cartesian functions in the third shell
(int3c2e_spinor_ssc, int3c2e_spsp1_spinor_ssc).
-/
namespace Verif.Props
open Verif Verif.Model Verif.Prog Verif.Lemmas Verif.Spec MeasureTheory

section
variable {α : Type} [Field α] [LinearOrder α]

/-- Where and with what memory a three-centre integral with spinor output is called; `nT` tensor components, `ki`, `kj` the kappa of the
first two shells; the third shell has Cartesian functions.  The tables of the spinor transformation are stored at `tab`.  The cache has at least the queried size. -/
structure SscSpMem (X : Int2e α) (s : Call3 α) (nT : Nat) (ki kj : Int) where
  fpd : Nat
  buf : Nat
  size : Nat
  empty : Ptr
  fl : Ptr
  loc : Ptr
  counts : Ptr
  out : Ptr
  dims : Option Ptr
  nd : Nat → Nat
  h : Heap α
  tab : JTab
  hs : Sizes 3 (Call3.nspC s ki kj) (Call3.nctrs s) nd
  M : CallMem3 h fpd buf size empty fl loc counts
  hsize : cacheSize3c2eSp X s ≤ size
  O : OutArgZ2 3 h nd (fun t => Call3.nspC s ki kj t * Call3.nctrs s t) nT out dims buf empty fl loc counts
  T : TabArg h tab buf out

section
variable {X : Int2e α} {s : Call3 α} {nT : Nat} {ki kj : Int}

/-- elements of the block -/
def SscSpMem.In (A : SscSpMem X s nT ki kj) (m : Nat) : Prop :=
  InBlock A.nd (fun t => Call3.nspC s ki kj t * Call3.nctrs s t) nT m

/-- the output array holds the complex number `z` for component `n`, function `i` of contraction `ic` of the first shell and so on -/
def SscSpMem.Elem (A : SscSpMem X s nT ki kj) (h' : Heap α) (n ic i jc j kc k : Nat) (z : Cx α) : Prop :=
  HoldsC h' A.out (outAt A.nd n (ic*lenSpinorC2S ki s.si.l+i) (jc*lenSpinorC2S kj s.sj.l+j) (kc*ncart s.sk.l+k) 0) z

/-- the call with output function `kd` and no optimizer returns `has` and ends with memory `h'` -/
def SscEnds (A : SscSpMem X s nT ki kj) (kd : SpKind) (R : Rys2 α) (K : Consts α) (L : MathLib α) (has : Bool) (h' : Heap α) : Prop :=
  run (drv3c2eSscSp X s (fun gctr c => loop3c2eRun X s R K L A.fpd gctr A.empty A.buf c A.fl A.loc) (SpKind.comps kd) nT kd
    A.tab ki kj A.fpd A.out A.dims A.buf 0 A.empty A.counts) A.h = some (has, h')

/-- the heights of the shells for which the tables exist -/
structure LOKssc (s : Call3 α) : Prop where
  i : s.si.l < 13
  j : s.sj.l < 13
  k : s.sk.l ≤ 15

theorem LOKssc.all (H : LOKssc s) : ∀ t, t < 4 → Call3.ls s t ≤ 15 := by
  intro t ht
  match t, ht with
  | 0, _ => exact le_trans (le_of_lt H.i) (by omega)
  | 1, _ => exact le_trans (le_of_lt H.j) (by omega)
  | 2, _ => exact H.k
  | 3, _ => exact Nat.zero_le _

def ssc_run {kd : SpKind} {R : Rys2 α} {K : Consts α} {L : MathLib α} {keep : Nat → Nat → Nat → Bool}
    {w : Nat → Nat → Nat → Nat → α} (B : SscSpMem X s nT ki kj) (hn : X.nComp = SpKind.comps kd * nT)
    (hK : EvalOK3 R K L X s keep w) (hnT : 1 ≤ nT) (hl : LOKssc s) :=
  run_of_wp (drv3c2eSscSp_wp (kd := kd) (loop := fun gctr c => loop3c2eRun X s R K L B.fpd gctr B.empty B.buf c B.fl B.loc) B.M B.hsize
    (drv3c2e_nopt B.M (le_trans cacheSize3c2e_le_sp B.hsize) B.hs.nctr_pos hK (comps_pos1 hn hnT) hl.all)
    B.hs B.O B.T hn hl.i hl.j)

/-- **C20**, **C17**, spinor output (int3c2e_spinor_ssc, int3c2e_spsp1_spinor_ssc): for every integral whose integrand evaluates
correctly, the spinor integrals are the Cartesian integrals transformed with the tables of the first two shells; the third index stays
Cartesian, and every element is where `dims` says. -/
theorem C20_spinor {kd : SpKind} {R : Rys2 α} {K : Consts α} {L : MathLib α} {keep : Nat → Nat → Nat → Bool}
    {w : Nat → Nat → Nat → Nat → α} (A : CartMem3 X s) (B : SscSpMem X s nT ki kj) (hn : X.nComp = SpKind.comps kd * nT)
    (hK : EvalOK3 R K L X s keep w) (hnT : 1 ≤ nT) (hl : LOKssc s) :
    ∃ ra ha rb hb, CartEnds3 A R K L ra ha ∧ SscEnds B kd R K L rb hb ∧
      ∃ x : Nat → Nat → Nat → Nat → Nat → Nat → Nat → α,
        (∀ n ic jc kc a b c, n < X.nComp → ic < s.si.nctr → jc < s.sj.nctr → kc < s.sk.nctr →
          a < ncart s.si.l → b < ncart s.sj.l → c < ncart s.sk.l →
          A.elem ha n ic a jc b kc c = .val (x n ic a jc b kc c)) ∧
        (∀ n ic jc kc i j k, n < nT → ic < s.si.nctr → jc < s.sj.nctr → kc < s.sk.nctr →
          i < lenSpinorC2S ki s.si.l → j < lenSpinorC2S kj s.sj.l → k < ncart s.sk.l →
          B.Elem hb n ic i jc j kc k (spinor2 kd.si kd.ph ki kj s.si.l s.sj.l (fun t a b =>
            Cx.ofR (x (n * SpKind.comps kd + t) ic a jc b kc k)) i j)) := by
  obtain ⟨ra, ha, r1, v1, _⟩ := drv3c2e_cart A.M A.hsize A.hs A.O hK (comps_pos1 hn hnT) hl.all
  obtain ⟨rb, hb, r2, v2, _⟩ := ssc_run B hn hK hnT hl
  refine ⟨ra, ha, rb, hb, r1, r2, fun n ic a jc b kc c =>
    loopVal3 R K L X s keep w n ic jc kc (pos4c (ncar (Call3.ls s)) a b c 0), ?_, ?_⟩
  · intro n ic jc kc a b c a1 a2 a3 a4 a6 a7 a8
    exact v1 n ic jc kc a b c a1 a2 a3 a4 a6 a7 a8
  · intro n ic jc kc i j k a1 a2 a3 a4 a6 a7 a8
    have h := v2 n ic jc kc i j k a1 a2 a3 a4 a6 a7 a8
    have e : ∀ a b c, pos4c (ncar (Call3.ls s)) a b c 0 = (b*ncart s.sk.l+c)*ncart s.si.l+a := by
      intro a b c
      show a + ncart s.si.l * (c + ncart s.sk.l * (0 + ncart 0 * b)) = _
      rw [ncart_zero]
      ring
    simp only [e]
    exact h

/-- **C16**, three-centre integrals with spinor output and Cartesian third index: with a cache of (at least) the queried size the call completes without
undefined behaviour, whatever the cache and the output array contain. -/
theorem C16_3c2e_ssc_spinor {kd : SpKind} {R : Rys2 α} {K : Consts α} {L : MathLib α} {keep : Nat → Nat → Nat → Bool}
    {w : Nat → Nat → Nat → Nat → α} (B : SscSpMem X s nT ki kj) (hn : X.nComp = SpKind.comps kd * nT)
    (hK : EvalOK3 R K L X s keep w) (hnT : 1 ≤ nT) (hl : LOKssc s) : ∃ has h', SscEnds B kd R K L has h' := by
  obtain ⟨rb, hb, r2, _⟩ := ssc_run B hn hK hnT hl
  exact ⟨rb, hb, r2⟩

/-- **C18**, the same: when 0 is returned the block is zero; in any case every element of the block is
overwritten, no double outside the block and the cache changes, and the new contents do not depend on the contents of memory. -/
theorem C18_ssc_spinor {kd : SpKind} {R : Rys2 α} {K : Consts α} {L : MathLib α} {keep : Nat → Nat → Nat → Bool}
    {w : Nat → Nat → Nat → Nat → α} (B : SscSpMem X s nT ki kj) (hn : X.nComp = SpKind.comps kd * nT)
    (hK : EvalOK3 R K L X s keep w) (hnT : 1 ≤ nT) (hl : LOKssc s) :
    ∃ v : Nat → α, ∀ B' : SscSpMem X s nT ki kj, B'.nd = B.nd →
      ∃ has h', SscEnds B' kd R K L has h' ∧
        (∀ m, B.In (m/2) → h'.D (B'.out + m) = .val (v m)) ∧
        (has = false → ∀ m, B.In (m/2) → v m = 0) ∧
        (∀ q, q.buf ≠ B'.buf → (∀ m, B.In (m/2) → q ≠ B'.out + m) → h'.D q = B'.h.D q) := by
  obtain ⟨r0, h0, _, v0, _⟩ := ssc_run B hn hK hnT hl
  refine ⟨fun m => match h0.D (B.out + m) with | .val x => x | _ => 0, fun B' hn' => ?_⟩
  obtain ⟨r1, h1, e1, v1, z1, f1, _⟩ := ssc_run B' hn hK hnT hl
  rw [hn'] at v1 z1 f1
  have hv : ∀ m, B.In (m/2) → h1.D (B'.out + m) = .val (match h0.D (B.out + m) with | .val x => x | _ => 0) := by
    intro m hm
    obtain ⟨n, ic, jc, kc, lc, i, j, k, x, a1, a2, a3, a4, a5, a6, a7, a8, a9, e⟩ := inBlock_digits B.hs.nf_pos hm
    have hx : lc * Call3.nspC s ki kj 3 + x = 0 := by
      have t0 : lc < 1 := a5
      have t1 : x < 1 := a9
      rw [show lc = 0 by omega, show x = 0 by omega, Nat.zero_mul]
    rw [hx] at e
    have b1 := v1 n ic jc kc i j k a1 a2 a3 a4 a6 a7 a8
    have b0 := v0 n ic jc kc i j k a1 a2 a3 a4 a6 a7 a8
    have e' : m/2 = outAt B.nd n (ic * lenSpinorC2S ki s.si.l + i) (jc * lenSpinorC2S kj s.sj.l + j)
      (kc * lenCart s.sk.l + k) 0 := e
    unfold HoldsC at b0 b1
    rw [← e'] at b0 b1
    rcases Nat.mod_two_eq_zero_or_one m with h2 | h2
    · rw [show m = 2*(m/2) by omega, b0.1, b1.1]
    · rw [show m = 2*(m/2)+1 by omega, b0.2, b1.2]
  refine ⟨r1, h1, e1, hv, fun hf m hm => ?_, f1.1⟩
  exact Cell.val.inj ((hv m hm).symm.trans (z1 hf m hm))
end

/-! ### With an optimizer -/
section
variable {X : Int2e α} {nT : Nat} {ki kj : Int} {L : MathLib α} {Bas : Nat → PShell α} {nbas : Nat} {envCut omega : α}
  {i j k : Nat}

/-- The call may use the optimizer: its arrays are intact, and the cache, the output array and local variables are elsewhere. -/
structure SscCallsWith {s : Call3 α} (Q : Optim3 X L Bas nbas envCut omega) (A : SscSpMem X s nT ki kj) : Prop where
  intact : Q.Intact A.h
  cache : Apart Q.P A.buf
  out : Apart Q.P A.out.buf
  empty : Apart Q.P A.empty.buf
  fl : Apart Q.P A.fl.buf
  loc : Apart Q.P A.loc.buf
  counts : Apart Q.P A.counts.buf
  flloc : A.fl.buf ≠ A.loc.buf

/-- the call with output function `kd` and the optimizer returns `has` and ends with memory `h'` -/
def SscEndsO (Q : Optim3 X L Bas nbas envCut omega) (A : SscSpMem X (basisCall3 Bas envCut omega i j k) nT ki kj) (kd : SpKind)
    (R : Rys2 α) (K : Consts α) (has : Bool) (h' : Heap α) : Prop :=
  run (drv3c2eSscSp X (basisCall3 Bas envCut omega i j k) (fun gctr c => loop3c2eOpt X (basisCall3 Bas envCut omega i j k) R K L Q.O i j
      A.fpd gctr A.empty A.buf c A.fl A.loc) (SpKind.comps kd) nT kd
    A.tab ki kj A.fpd A.out A.dims A.buf 0 A.empty A.counts) A.h = some (has, h')

def ssc_runO {kd : SpKind} {R : Rys2 α} {K : Consts α} {keep : Nat → Nat → Nat → Bool}
    {w : Nat → Nat → Nat → Nat → α} (Q : Optim3 X L Bas nbas envCut omega)
    (B : SscSpMem X (basisCall3 Bas envCut omega i j k) nT ki kj) (W : SscCallsWith Q B) (H : InBasis3 Bas nbas i j k)
    (hn : X.nComp = SpKind.comps kd * nT)
    (hK : EvalOK3V R K L X (basisCall3 Bas envCut omega i j k) (vIJ3 L X Bas nbas envCut omega i j k) keep w) (hnT : 1 ≤ nT)
    (hl : LOKssc (basisCall3 Bas envCut omega i j k)) :=
  run_of_wp (drv3c2eSscSp_wp (kd := kd) (loop := fun gctr c => loop3c2eOpt X (basisCall3 Bas envCut omega i j k) R K L Q.O i j
      B.fpd gctr B.empty B.buf c B.fl B.loc) B.M B.hsize
    (drv3c2e_opt B.M (le_trans cacheSize3c2e_le_sp B.hsize)
      ⟨optSep3_of H.some_prim H.tall W.cache, optSep3_of H.some_prim H.tall W.empty, optSep3_of H.some_prim H.tall W.fl,
        optSep3_of H.some_prim H.tall W.loc, W.flloc⟩
      (optOK3_at (Optim3.intact_ok H.some_prim H.tall W.intact) H.hi H.hj H.hk).1
      (optOK3_at (Optim3.intact_ok H.some_prim H.tall W.intact) H.hi H.hj H.hk).2 B.hs.nctr_pos hK (comps_pos1 hn hnT)
      (H.ls envCut omega)) B.hs B.O B.T hn hl.i hl.j)

theorem intactSsc {s : Call3 α} {Q : Optim3 X L Bas nbas envCut omega} {A : SscSpMem X s nT ki kj} (W : SscCallsWith Q A) {h' : Heap α}
    {nd cnt : Nat → Nat} {n : Nat} (F : FrameZ A.h h' nd cnt n A.buf A.out A.empty A.fl A.loc A.counts) : Q.Intact h' := by
  intro q hq
  have ne : ∀ {b : Nat}, Apart Q.P b → q.buf ≠ b := fun hb e => hq (e ▸ hb)
  refine ⟨(F.1 q (ne W.cache) (fun m _ e => ne W.out (by rw [e]; rfl))).trans (W.intact q hq).1, ?_⟩
  exact (F.2 q (ne W.cache) (ne W.empty) (ne W.fl) (ne W.loc) (ne W.counts)).trans (W.intact q hq).2

/-- **C16**, three-centre integrals with an optimizer and spinor output: a cache of the queried size suffices, and the optimizer is left
as it was. -/
theorem C16_3c2e_ssc_opt_spinor {kd : SpKind} {R : Rys2 α} {K : Consts α} (Q : Optim3 X L Bas nbas envCut omega)
    (B : SscSpMem X (basisCall3 Bas envCut omega i j k) nT ki kj) (W : SscCallsWith Q B) (H : InBasis3 Bas nbas i j k)
    (hn : X.nComp = SpKind.comps kd * nT) (hK : EvalAll3 R K L X (basisCall3 Bas envCut omega i j k)) (hnT : 1 ≤ nT)
    (hl : LOKssc (basisCall3 Bas envCut omega i j k)) :
    ∃ has h', SscEndsO Q B kd R K has h' ∧ Q.Intact h' := by
  obtain ⟨keep, w, hK⟩ := hK (vIJ3 L X Bas nbas envCut omega i j k)
  obtain ⟨has, h', hr, _, _, F, _⟩ := ssc_runO (kd := kd) Q B W H hn hK hnT hl
  exact ⟨has, h', hr, intactSsc W F⟩

/-- **C20**, three-centre integrals with an optimizer: the spinor integrals are the Cartesian integrals computed with the same optimizer,
transformed with the tables of the first two shells. -/
theorem C20_spinor_opt {kd : SpKind} {R : Rys2 α} {K : Consts α} (Q : Optim3 X L Bas nbas envCut omega)
    (A : CartMem3 X (basisCall3 Bas envCut omega i j k)) (WA : CallsWith3 Q A)
    (B : SscSpMem X (basisCall3 Bas envCut omega i j k) nT ki kj) (WB : SscCallsWith Q B) (H : InBasis3 Bas nbas i j k)
    (hn : X.nComp = SpKind.comps kd * nT) (hK : EvalAll3 R K L X (basisCall3 Bas envCut omega i j k)) (hnT : 1 ≤ nT)
    (hl : LOKssc (basisCall3 Bas envCut omega i j k)) :
    ∃ ra ha rb hb, CartEnds3O Q A R K ra ha ∧ SscEndsO Q B kd R K rb hb ∧ Q.Intact hb ∧
      ∃ x : Nat → Nat → Nat → Nat → Nat → Nat → Nat → α,
        (∀ n ic jc kc a b c, n < X.nComp → ic < (Bas i).nctr → jc < (Bas j).nctr → kc < (Bas k).nctr →
          a < ncart (Bas i).l → b < ncart (Bas j).l → c < ncart (Bas k).l →
          A.elem ha n ic a jc b kc c = .val (x n ic a jc b kc c)) ∧
        (∀ n ic jc kc p q r, n < nT → ic < (Bas i).nctr → jc < (Bas j).nctr → kc < (Bas k).nctr →
          p < lenSpinorC2S ki (Bas i).l → q < lenSpinorC2S kj (Bas j).l → r < ncart (Bas k).l →
          B.Elem hb n ic p jc q kc r (spinor2 kd.si kd.ph ki kj (Bas i).l (Bas j).l (fun t a b =>
            Cx.ofR (x (n * SpKind.comps kd + t) ic a jc b kc r)) p q)) := by
  obtain ⟨keep, w, hK⟩ := hK (vIJ3 L X Bas nbas envCut omega i j k)
  obtain ⟨ra, ha, r1, v1, _⟩ := opt3_cart Q A WA H (comps_pos1 hn hnT) hK
  obtain ⟨rb, hb, r2, v2, _, F, _⟩ := ssc_runO (kd := kd) Q B WB H hn hK hnT hl
  refine ⟨ra, ha, rb, hb, r1, r2, intactSsc WB F, fun n ic a jc b kc c =>
    expected3 (tripleV R K L X (basisCall3 Bas envCut omega i j k) (vIJ3 L X Bas nbas envCut omega i j k)) keep w n ic jc kc
      (pos4c (ncar (Call3.ls (basisCall3 Bas envCut omega i j k))) a b c 0), ?_, ?_⟩
  · intro n ic jc kc a b c a1 a2 a3 a4 a6 a7 a8
    exact v1 n ic jc kc a b c a1 a2 a3 a4 a6 a7 a8
  · intro n ic jc kc p q r a1 a2 a3 a4 a6 a7 a8
    have h := v2 n ic jc kc p q r a1 a2 a3 a4 a6 a7 a8
    have e : ∀ a b c, pos4c (ncar (Call3.ls (basisCall3 Bas envCut omega i j k))) a b c 0 =
        (b*ncart (Bas k).l+c)*ncart (Bas i).l+a := by
      intro a b c
      show a + ncart (Bas i).l * (c + ncart (Bas k).l * (0 + ncart 0 * b)) = _
      rw [ncart_zero]
      ring
    simp only [e]
    exact h

/-- **C11**, three-centre integrals with spinor output: with and without the optimizer the same numbers are stored and, with the exception
of `C11_three_centre_cart`, the same value is returned. -/
theorem C11_ssc_spinor {kd : SpKind} {R : Rys2 α} {K : Consts α} {keep : Nat → Nat → Nat → Bool}
    {w : Nat → Nat → Nat → Nat → α} (Q : Optim3 X L Bas nbas envCut omega)
    (A A' : SscSpMem X (basisCall3 Bas envCut omega i j k) nT ki kj) (W : SscCallsWith Q A') (H : InBasis3 Bas nbas i j k)
    (hn : X.nComp = SpKind.comps kd * nT) (hnT : 1 ≤ nT) (hb : BraInc X) (hs : SumNonzero Bas i j)
    (hK : EvalOK3V R K L X (basisCall3 Bas envCut omega i j k) (pairVal L ((basisCall3 Bas envCut omega i j k).pairArgs X)) keep w)
    (hl : LOKssc (basisCall3 Bas envCut omega i j k)) :
    ∃ ra ha rb hb, SscEnds A kd R K L ra ha ∧ SscEndsO Q A' kd R K rb hb ∧
      (¬ (i = 0 ∧ j = 0 ∧ PairEmpty L ((basisCall3 Bas envCut omega i j k).pairArgs X)) → ra = rb) ∧
      ∀ n ic jc kc p q r, n < nT → ic < (Bas i).nctr → jc < (Bas j).nctr → kc < (Bas k).nctr →
        p < lenSpinorC2S ki (Bas i).l → q < lenSpinorC2S kj (Bas j).l → r < ncart (Bas k).l →
        ∃ z, A.Elem ha n ic p jc q kc r z ∧ A'.Elem hb n ic p jc q kc r z := by
  obtain ⟨ra, ha, e1, v1, _, _, r1⟩ := ssc_run (kd := kd) A hn hK.nopt hnT hl
  obtain ⟨rb, h2, e2, v2, _, _, r2⟩ := ssc_runO (kd := kd) Q A' W H hn (evalOK3_table hb hs hK) hnT hl
  refine ⟨ra, ha, rb, h2, e1, e2, ret3_table hb hs r1 r2, fun n ic jc kc p q r a1 a2 a3 a4 a5 a6 a7 =>
    ⟨_, v1 n ic jc kc p q r a1 a2 a3 a4 a5 a6 a7, ?_⟩⟩
  have h := v2 n ic jc kc p q r a1 a2 a3 a4 a5 a6 a7
  have e : expected3 (tripleV R K L X (basisCall3 Bas envCut omega i j k) (vIJ3 L X Bas nbas envCut omega i j k)) keep w =
      loopVal3 R K L X (basisCall3 Bas envCut omega i j k) keep w := by
    funext n ic jc kc m
    exact expected3_table hb hs _ _ _ _ _
  rw [e] at h
  exact h


/-- **C18**, three-centre calls with an optimizer and spinor output: when 0 is returned the block is zero; in any case every element of
the block is overwritten, no double outside the block and the cache changes, and the new contents do not depend on the contents of memory. -/
theorem C18_ssc_opt_spinor {kd : SpKind} {R : Rys2 α} {K : Consts α} (Q : Optim3 X L Bas nbas envCut omega)
    (B : SscSpMem X (basisCall3 Bas envCut omega i j k) nT ki kj) (W : SscCallsWith Q B) (H : InBasis3 Bas nbas i j k)
    (hn : X.nComp = SpKind.comps kd * nT) (hK : EvalAll3 R K L X (basisCall3 Bas envCut omega i j k)) (hnT : 1 ≤ nT)
    (hl : LOKssc (basisCall3 Bas envCut omega i j k)) :
    ∃ v : Nat → α, ∀ B' : SscSpMem X (basisCall3 Bas envCut omega i j k) nT ki kj, SscCallsWith Q B' → B'.nd = B.nd →
      ∃ has h', SscEndsO Q B' kd R K has h' ∧
        (∀ m, B.In (m/2) → h'.D (B'.out + m) = .val (v m)) ∧
        (has = false → ∀ m, B.In (m/2) → v m = 0) ∧
        (∀ q, q.buf ≠ B'.buf → (∀ m, B.In (m/2) → q ≠ B'.out + m) → h'.D q = B'.h.D q) := by
  obtain ⟨keep, w, hK⟩ := hK (vIJ3 L X Bas nbas envCut omega i j k)
  obtain ⟨r0, h0, _, v0, _⟩ := ssc_runO (kd := kd) Q B W H hn hK hnT hl
  refine ⟨fun m => match h0.D (B.out + m) with | .val x => x | _ => 0, fun B' W' hn' => ?_⟩
  obtain ⟨r1, h1, e1, v1, z1, f1, _⟩ := ssc_runO (kd := kd) Q B' W' H hn hK hnT hl
  rw [hn'] at v1 z1 f1
  have hv : ∀ m, B.In (m/2) → h1.D (B'.out + m) = .val (match h0.D (B.out + m) with | .val x => x | _ => 0) := by
    intro m hm
    obtain ⟨n, ic, jc, kc, lc, ia, ja, ka, x, a1, a2, a3, a4, a5, a6, a7, a8, a9, e⟩ := inBlock_digits B.hs.nf_pos hm
    have hx : lc * Call3.nspC (basisCall3 Bas envCut omega i j k) ki kj 3 + x = 0 := by
      have t0 : lc < 1 := a5
      have t1 : x < 1 := a9
      rw [show lc = 0 by omega, show x = 0 by omega, Nat.zero_mul]
    rw [hx] at e
    have b1 := v1 n ic jc kc ia ja ka a1 a2 a3 a4 a6 a7 a8
    have b0 := v0 n ic jc kc ia ja ka a1 a2 a3 a4 a6 a7 a8
    have e' : m/2 = outAt B.nd n (ic * lenSpinorC2S ki (basisCall3 Bas envCut omega i j k).si.l + ia) (jc * lenSpinorC2S kj (basisCall3 Bas envCut omega i j k).sj.l + ja)
      (kc * (lenCart (basisCall3 Bas envCut omega i j k).sk.l) + ka) 0 := e
    unfold HoldsC at b0 b1
    rw [← e'] at b0 b1
    rcases Nat.mod_two_eq_zero_or_one m with h2 | h2
    · rw [show m = 2*(m/2) by omega, b0.1, b1.1]
    · rw [show m = 2*(m/2)+1 by omega, b0.2, b1.2]
  refine ⟨r1, h1, e1, hv, fun hf m hm => ?_, f1.1⟩
  exact Cell.val.inj ((hv m hm).symm.trans (z1 hf m hm))
end


end

/-! ### Values -/

/-- **C20** int3c2e_spinor_ssc, no primitive screened: exactly the repulsion between the charge distribution of the two-component functions
of the first two shells and the Cartesian function of the third, which carries the normalization factor of the library. -/
theorem C20_spinor_eri {L : MathLib ℝ} {s : Call3 ℝ} {R : Rys2 ℝ} {ki kj : Int} (B : SscSpMem eriInt s 1 ki kj)
    (hL : L.exp = Real.exp) (hkept : AllKept3 L s) (hp : PosExp3 s) (hR : RootsOK3 R s) (hl : LOKssc s) :
    ∃ has h', SscEnds B ⟨false, false⟩ R realK L has h' ∧
      ∀ ic jc kc i j k, ic < s.si.nctr → jc < s.sj.nctr → kc < s.sk.nctr →
        i < lenSpinorC2S ki s.si.l → j < lenSpinorC2S kj s.sj.l → k < ncart s.sk.l →
        ∃ z : Cx ℝ, B.Elem h' 0 ic i jc j kc k z ∧
          z.toC = repulsionC (interaction s.omega) (fun r => ∑ σ : Bool, star (jgto s.si ki ic i σ r) * jgto s.sj kj jc j σ r)
            (fun r => (spNorm s.sk.l * cfun s.sk kc k r : ℝ)) := by
  let A := blankMem3 eriInt s B.hs.nctr_pos
  obtain ⟨ra, ha, rb, hb, eA, eB, x, vA, vB⟩ := C20_spinor (kd := ⟨false, false⟩) A B rfl
    (eri_eval3 (L := L) hp hR) (le_refl 1) hl
  obtain ⟨rc, hc, eC, vC⟩ := C45_three_centre_exact (R := R) A hL hkept hp hR hl.all
  have hAC : ha = hc := by
    have e : some (ra, ha) = some (rc, hc) := eA.symm.trans eC
    simp only [Option.some.injEq, Prod.mk.injEq] at e
    exact e.2
  refine ⟨rb, hb, eB, fun ic jc kc i j k a2 a3 a4 a6 a7 a8 => ⟨_, vB 0 ic jc kc i j k Nat.zero_lt_one a2 a3 a4 a6 a7 a8, ?_⟩⟩
  have e1 : density s.si s.sj ki kj ic jc i j = _ := funext fun r => density_eq s.si s.sj ki kj ic jc i j r
  have e2 : (fun r => ((spNorm s.sk.l * cfun s.sk kc k r : ℝ) : ℂ)) =
      fun r => ∑ a ∈ {k}, ((spNorm s.sk.l : ℝ) : ℂ) * (cfun s.sk kc a r : ℂ) := by
    funext r
    rw [Finset.sum_singleton]
    push_cast
    rfl
  show _ = repulsionC (interaction s.omega) (density s.si s.sj ki kj ic jc i j) _
  rw [e1, e2, repulsionC_sum _ _ _ _ (fun a _ b _ => (repulsion_cfun3 hp s.omega ic jc kc a.1 a.2 b).1), toC_sf]
  refine Finset.sum_congr rfl fun p hp' => ?_
  rw [Finset.mem_product, Finset.mem_range, Finset.mem_range] at hp'
  rw [toC_ofR, Finset.sum_singleton]
  have c1 := vA 0 ic jc kc p.1 p.2 k Nat.zero_lt_one a2 a3 a4 hp'.1 hp'.2 a8
  have c2 := vC ic jc kc p.1 p.2 k a2 a3 a4 hp'.1 hp'.2 a8
  rw [← hAC] at c2
  have c3 := Cell.val.inj (c1.symm.trans c2)
  show _ * ((x 0 ic p.1 jc p.2 kc k : ℝ) : ℂ) = _
  rw [c3]
  unfold dcoef
  push_cast
  ring

/-- **C20**, integrals with operators (int3c2e_spsp1_spinor_ssc), nothing screened: the integrals over two-component functions of the
first two shells and a Cartesian function of the third of the operators in the definition. -/
theorem C20_spinor_operators {w : Auto.SpWrap} {G : Gen2e} {D : Def2e} (hS : w ∈ Auto.spinor3c) (hG : (w.name, G) ∈ Auto3c2e.all3c)
    (hD : (w.name, D) ∈ defs3c) {L : MathLib ℝ} {s : Call3 ℝ} {R : Rys2 ℝ} {O : Nat → ℝ} {ki kj : Int}
    (B : SscSpMem ((w.gen G).int O) s w.nT ki kj) (hL : L.exp = Real.exp) (hkept : AllKept3X L ((w.gen G).int O) s)
    (hp : PosExp3 s) (hR : Rys2OK R (s.env ((w.gen G).int O)).nrys_roots) (hl : LOKssc s) :
    ∃ has h', SscEnds B w.k1 R realK L has h' ∧ w.nT = D.ops.length ∧
      ∀ n ic jc kc i j k (hn : n < D.ops.length), ic < s.si.nctr → jc < s.sj.nctr → kc < s.sk.nctr →
        i < lenSpinorC2S ki s.si.l → j < lenSpinorC2S kj s.sj.l → k < ncart s.sk.l →
        ∃ z : Cx ℝ, B.Elem h' n ic i jc j kc k z ∧
          z.toC = ((D.num : ℂ) / (D.den : ℂ)) *
            ∑ a ∈ Finset.range (ncart s.si.l), ∑ b ∈ Finset.range (ncart s.sj.l), ∑ σ : Bool, ∑ τ : Bool,
              star ((spNorm s.si.l : ℂ) * (cjCoef ki s.si.l i σ a).toC) * ((spNorm s.sj.l : ℂ) * (cjCoef kj s.sj.l j τ b).toC) *
              (spNorm s.sk.l : ℂ) *
              Op2.val3 (interaction s.omega) (fun c => O c) (centre s.si) (centre s.sj) (centre s.sk)
                (cfun s.si ic a) (cfun s.sj jc b) (cfun s.sk kc k) (matrix2 D.ops[n] σ τ false false) := by
  obtain ⟨hw, s2, i2, hsn⟩ := wrap3_of hS hD
  obtain ⟨k1, k2, k3, k4, k5, k6, k7, k8, k9, k10, k11⟩ := wrapOK_unfold hw
  obtain ⟨hmt, hl0⟩ := matches3_of hG hD
  obtain ⟨ws, hOK, hnum, hden, hnc, _⟩ := matches2_unfold hmt
  have hgen : w.gen G = G := by
    unfold Auto.SpWrap.gen
    rw [k9, hsn, ← hnum, k10, ← hden]
  generalize w.gen G = G' at B hkept hR hgen ⊢
  subst hgen
  let A := blankMem3 (G'.int O) s B.hs.nctr_pos
  have hlen : (G'.int O).nComp = D.out.length := hnc
  have hn0 : (G'.int O).nComp = SpKind.comps w.k1 * w.nT := by
    rw [hlen, out2_length, k7, s2]; unfold SpKind.comps; rw [k1]; simp
  obtain ⟨ra, ha, rb, hb, eA, eB, x, vA, vB⟩ := C20_spinor (kd := w.k1) A B hn0
    (gen3_eval hOK hl0 (L := L) (O := O) hp hR) (by omega) hl
  obtain ⟨rc, hc, eC, vC⟩ := C52_three_centre_exact hG hD (R := R) A hL hkept hp hR hl.all
  have hAC : ha = hc := by
    have e : some (ra, ha) = some (rc, hc) := eA.symm.trans eC
    simp only [Option.some.injEq, Prod.mk.injEq] at e
    exact e.2
  refine ⟨rb, hb, eB, k7, fun n ic jc kc i j k hn a2 a3 a4 a6 a7 a8 =>
    ⟨_, vB n ic jc kc i j k (by omega) a2 a3 a4 a6 a7 a8, ?_⟩⟩
  have hn' : n < D.comps.length := by unfold Def2e.ops at hn; rwa [List.length_map] at hn
  unfold SpKind.comps
  rw [k1, k2]
  have pick : ∀ f : Nat → ℝ, f k = ∑ c ∈ Finset.range (ncart s.sk.l), (if c = k then 1 else 0) * f c := by
    intro f
    simp only [ite_mul, one_mul, zero_mul]
    rw [Finset.sum_ite_eq' (Finset.range (ncart s.sk.l)) k f, if_pos (Finset.mem_range.2 a8)]
  have e0 : (fun (t a b : Nat) => Cx.ofR (x (n * (if D.spin1 = true then 4 else 1) + t) ic a jc b kc k)) = fun t a b =>
      Cx.ofR (∑ c ∈ Finset.range (ncart s.sk.l), (if c = k then 1 else 0) *
        (fun m a b c => x m ic a jc b kc c) (n * (if D.spin1 = true then 4 else 1) + t) a b c) := by
    funext t a b
    exact congrArg Cx.ofR (pick fun c => x (n * (if D.spin1 = true then 4 else 1) + t) ic a jc b kc c)
  rw [e0]
  rw [one_spin D s2 i2 (interaction s.omega) (fun c => O c) (centre s.si) (centre s.sj) (centre s.sk) (cfun s.si ic) (cfun s.sj jc)
    (cfun s.sk kc) ki kj s.si.l s.sj.l s.sk.l (fun c => if c = k then 1 else 0) n hn' (fun m a b c => x m ic a jc b kc c)
    (((D.num : ℂ) / (D.den : ℂ)) * ((spNorm s.si.l * spNorm s.sj.l * spNorm s.sk.l : ℝ) : ℂ))
    (fun m a b c hm' b1 b2 b3 => by
      have c1 := vA m ic jc kc a b c (by rw [hlen]; exact hm') a2 a3 a4 b1 b2 b3
      obtain ⟨v, c2, c3⟩ := vC m ic jc kc a b c hm' a2 a3 a4 b1 b2 b3
      rw [← hAC] at c2
      rw [Cell.val.inj (c1.symm.trans c2)]
      exact c3) i j]
  rw [mul_assoc]
  refine congrArg₂ (· * ·) rfl ?_
  simp only [Finset.mul_sum]
  refine Finset.sum_congr rfl fun a _ => Finset.sum_congr rfl fun b _ => ?_
  rw [Finset.sum_eq_single k]
  · refine Finset.sum_congr rfl fun σ _ => Finset.sum_congr rfl fun τ _ => ?_
    rw [if_pos rfl]
    simp only [star_mul, Complex.star_def, Complex.conj_ofReal]
    push_cast
    ring
  · intro c _ hck
    refine Finset.sum_eq_zero fun σ _ => Finset.sum_eq_zero fun τ _ => ?_
    rw [if_neg hck]
    simp
  · intro h
    exact absurd (Finset.mem_range.2 a8) h

/-! ### The hypotheses can be met -/
namespace SscSpinorDemo
open OvlpDemo SphDemo EriDemo Eri3Demo SpinorDemo SpinorEriDemo SpinorEri3Demo Oper3Demo OptDemo Opt3Demo SpinorOptDemo

theorem lssc (o : ℝ) : LOKssc (call3 o) := ⟨by show 1 < 13; omega, by show 2 < 13; omega, by show 3 ≤ 15; omega⟩

/-- memory for any integral over p with both j, d with j = 5/2 and Cartesian f functions -/
noncomputable def sscSpMem (X : Int2e ℝ) (o : ℝ) (nT : Nat) : SscSpMem X (call3 o) nT 0 (-3) where
  fpd := 1
  buf := 0
  size := cacheSize3c2eSp X (call3 o)
  empty := ⟨4, 0⟩
  fl := ⟨1, 0⟩
  loc := ⟨2, 0⟩
  counts := ⟨3, 0⟩
  out := ⟨5, 7⟩
  dims := none
  nd := fun t => Call3.nspC (call3 o) 0 (-3) t * Call3.nctrs (call3 o) t
  h := memJS
  tab := ⟨⟨9, 0⟩, ⟨10, 0⟩⟩
  hs := ⟨Or.inr (Or.inl rfl), by show ∀ t, t < 4 → 0 < four (lenSpinorC2S 0 1) (lenSpinorC2S (-3) 2) (lenCart 3) 1 t; decide,
    fun t ht => ctr_pos3 o t ht, fun t a b => by
      obtain rfl : t = 3 := by omega
      exact ⟨rfl, rfl, rfl⟩, fun t _ => le_refl _⟩
  M := ⟨by omega, fun k _ => memJS_ne _ (by show 0 ≠ 11; omega), fun k _ => by simp [memJS], by simp [memJS],
    fun k _ => by simp [memJS], fun k _ => by simp [memJS], fun k _ => by simp [memJS],
    by decide, by decide, by decide, by decide, by decide⟩
  hsize := le_refl _
  O := { h_dims := fun t _ => rfl
         h_dims2 := fun d hd => nomatch hd
         h_dbuf := fun d hd => nomatch hd
         h_out := fun m _ => memJS_ne _ (by show 5 ≠ 11; omega)
         h_obuf := by decide }
  T := ⟨tabJS, by decide, by decide, by decide, by decide⟩

/-- the short-range integral of the second contraction of the fourth p function, the last d function and the tenth Cartesian f
function -/
example : ∃ R has h', SscEnds (sscSpMem eriInt (-1/2) 1) ⟨false, false⟩ R realK lib has h' ∧
    ∃ z : Cx ℝ, (sscSpMem eriInt (-1/2) 1).Elem h' 0 1 3 0 5 1 9 z ∧
      z.toC = repulsionC (interaction (-1/2))
        (fun r => ∑ σ : Bool, star (jgto (call3 (-1/2)).si 0 1 3 σ r) * jgto (call3 (-1/2)).sj (-3) 0 5 σ r)
        (fun r => (spNorm 3 * cfun (call3 (-1/2)).sk 1 9 r : ℝ)) := by
  obtain ⟨R, hR⟩ := exists_rys2
  obtain ⟨has, h', h1, h2⟩ := C20_spinor_eri (L := lib) (R := R) (sscSpMem eriInt (-1/2) 1) rfl (allKept3 _) (posExp3 _) (hR _) (lssc _)
  exact ⟨R, has, h', h1, h2 1 0 1 3 5 9 (by show 1 < 2; omega) (by show 0 < 2; omega) (by show 1 < 2; omega)
    (by show 3 < lenSpinorC2S 0 1; decide) (by show 5 < lenSpinorC2S (-3) 2; decide) (by show 9 < ncart 3; decide)⟩

/-- int3c2e_spsp1_spinor_ssc -/
def wrapS : Auto.SpWrap := { name := "int3c2e_spsp1", k1 := ⟨true, false⟩, e1 := 4, e2 := 1, nT := 1 }

example : ∃ R has h', SscEnds (sscSpMem ((wrapS.gen Auto3c2e.int3c2e_spsp1).int fun _ => 0) (-1/2) 1) ⟨true, false⟩ R realK lib has h' ∧
    ∃ z : Cx ℝ, (sscSpMem ((wrapS.gen Auto3c2e.int3c2e_spsp1).int fun _ => 0) (-1/2) 1).Elem h' 0 1 3 0 5 1 9 z := by
  obtain ⟨R, hR⟩ := exists_rys2
  obtain ⟨has, h', h1, hlen, h2⟩ := C20_spinor_operators (w := wrapS) (G := Auto3c2e.int3c2e_spsp1) (D := EriDefs.spsp1)
    (by unfold Auto.spinor3c wrapS; simp) (by unfold Auto3c2e.all3c wrapS; simp) (by unfold defs3c wrapS; simp) (L := lib) (R := R)
    (sscSpMem ((wrapS.gen Auto3c2e.int3c2e_spsp1).int fun _ => 0) (-1/2) 1) rfl (allKept3X _ _ _) (posExp3 _) (hR _) (lssc _)
  obtain ⟨z, hz, _⟩ := h2 0 1 0 1 3 5 9 (by rw [← hlen]; decide) (by show 1 < 2; omega) (by show 0 < 2; omega) (by show 1 < 2; omega)
    (by show 3 < lenSpinorC2S 0 1; decide) (by show 5 < lenSpinorC2S (-3) 2; decide) (by show 9 < ncart 3; decide)
  exact ⟨R, has, h', h1, z, hz⟩

/-- the same with an optimizer's arrays in memory -/
noncomputable def sscO (o : ℝ) (h1 : Heap ℝ) : SscSpMem eriInt (basisCall3 basis3 0 o 0 1 2) 1 0 (-3) where
  fpd := 1
  buf := 0
  size := cacheSize3c2eSp eriInt (call3 o)
  empty := ⟨4, 0⟩
  fl := ⟨1, 0⟩
  loc := ⟨2, 0⟩
  counts := ⟨3, 0⟩
  out := ⟨5, 7⟩
  dims := none
  nd := fun t => Call3.nspC (call3 o) 0 (-3) t * Call3.nctrs (call3 o) t
  h := besideS h1
  tab := ⟨⟨9, 0⟩, ⟨10, 0⟩⟩
  hs := (sscSpMem eriInt o 1).hs
  M := ⟨by omega, fun k _ => besideS_D (by show 0 < 20; omega), fun k _ => besideS_I (by show 0 < 20; omega),
    besideS_I (by show 4 < 20; omega), fun k _ => besideS_I (by show 1 < 20; omega),
    fun k _ => besideS_I (by show 2 < 20; omega), fun k _ => besideS_I (by show 3 < 20; omega),
    by decide, by decide, by decide, by decide, by decide⟩
  hsize := le_refl _
  O := { h_dims := fun t _ => rfl
         h_dims2 := fun d hd => nomatch hd
         h_dbuf := fun d hd => nomatch hd
         h_out := fun m _ => besideS_D (by show 5 < 20; omega)
         h_obuf := by decide }
  T := ⟨tabBS h1, by decide, by decide, by decide, by decide⟩

theorem callsSsc {o : ℝ} (Q : Optim3 eriInt lib basis3 3 0 o) (hP : Q.P = ptrs) : SscCallsWith Q (sscO o Q.h1) := by
  have a : ∀ b, b < 20 → Apart Q.P b := fun b hb => by rw [hP]; exact apart_lt hb
  refine ⟨?_, a 0 (by omega), a 5 (by omega), a 4 (by omega), a 1 (by omega), a 2 (by omega), a 3 (by omega),
    fun e => absurd (show 1 = 2 from e) (by omega)⟩
  intro q hq
  have : ¬ q.buf < 20 := fun h => hq (by rw [hP]; exact apart_lt h)
  exact ⟨if_neg this, if_neg this⟩

/-- long-range integrals with and without the optimizer -/
example : ∃ (Q : Optim3 eriInt lib basis3 3 0 (1/3)) (A A' : SscSpMem eriInt (basisCall3 basis3 0 (1/3) 0 1 2) 1 0 (-3)),
    SscCallsWith Q A' ∧ ∃ R res ha hb, SscEnds A ⟨false, false⟩ R realK lib res ha ∧ SscEndsO Q A' ⟨false, false⟩ R realK res hb := by
  obtain ⟨Q, hP⟩ := opt3 (1/3)
  obtain ⟨R, hR⟩ := exists_rys2
  obtain ⟨ra, ha, rb, hb, e1, e2, e3, _⟩ := C11_ssc_spinor (i := 0) (j := 1) (k := 2) (kd := ⟨false, false⟩) (R := R) (K := realK) Q
    (sscSpMem eriInt (1/3) 1) (sscO (1/3) Q.h1) (callsSsc Q hP) basis3_in rfl (le_refl 1) (le_refl _)
    (fun ip jp a b => ((posExp3 (1/3)).ij ip jp a b).ne') (eri_eval3V (L := lib) (s := call3 (1/3)) (posExp3 _) (hR _) _) (lssc (1/3))
  obtain rfl := e3 (fun x => absurd x.2.1 (by omega))
  exact ⟨Q, _, _, callsSsc Q hP, R, ra, ha, hb, e1, e2⟩

/-- the Cartesian integrals with the same optimizer -/
example : ∃ (Q : Optim3 eriInt lib basis3 3 0 (-1/2)) (R : Rys2 ℝ) (ra : Bool) (ha : Heap ℝ) (rb : Bool) (hb : Heap ℝ),
    CartEnds3O Q (cart3O Q (basisCall3 basis3 0 (-1/2) 0 1 2) (ctr_pos3 (-1/2))) R realK ra ha ∧
    SscEndsO Q (sscO (-1/2) Q.h1) ⟨false, false⟩ R realK rb hb ∧ Q.Intact hb := by
  obtain ⟨Q, hP⟩ := opt3 (-1/2)
  obtain ⟨R, hR⟩ := exists_rys2
  obtain ⟨ra, ha, rb, hb, e1, e2, e3, _⟩ := C20_spinor_opt (kd := ⟨false, false⟩) (R := R) (K := realK) Q
    (cart3O Q (basisCall3 basis3 0 (-1/2) 0 1 2) (ctr_pos3 (-1/2))) (calls3Cart Q hP _ _) (sscO (-1/2) Q.h1) (callsSsc Q hP) basis3_in rfl
    (fun V => ⟨_, _, eri_eval3V (posExp3 (-1/2)) (hR _) V⟩) (le_refl 1) (lssc (-1/2))
  exact ⟨Q, R, ra, ha, rb, hb, e1, e2, e3⟩

end SscSpinorDemo

end Verif.Props
