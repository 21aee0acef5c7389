import Verif.Lemmas.DrvSp4
import Verif.Spec.SpinEri
import Verif.Props.Spinor
import Verif.Props.EriExact
import Verif.Props.Opt2eDemo

/-!
C49 — four-centre integrals between spinors: the Cartesian integrals transformed by the tables, integrals over two-component functions.
C15, C18 for spinor output of four-centre integrals.
-/
namespace Verif.Props
open Verif Verif.Model Verif.Prog Verif.Lemmas Verif.Spec MeasureTheory

section
variable {α : Type} [Field α] [LinearOrder α]

/-- Where and with what memory a four-centre integral with spinor output is called; `nT` tensor components, `e2` components in the spin
space of the second electron, `kap t` the kappa of the shells, `tab` where the transformation tables are stored.  The cache
has at least the queried size. -/
structure SpMem4 (X : Int2e α) (s : Call2 α) (nT e2 : Nat) (kap : Nat → Int) where
  fpd : Nat
  buf : Nat
  size : Nat
  empty : Ptr
  fl : Ptr
  loc : Ptr
  counts : Ptr
  out : Ptr
  dims : Option Ptr
  nd : Nat → Nat
  h : Heap α
  tab : JTab
  hs : Sizes 4 (Call2.nsp s kap) (Call2.nctrs s) nd
  M : CallMem2 h fpd buf size empty fl loc counts
  hsize : cacheSize2eSp X s e2 (kap 0) (kap 1) ≤ size
  O : OutArgZ2 4 h nd (fun t => Call2.nsp s kap t * Call2.nctrs s t) nT out dims buf empty fl loc counts
  T : TabArg h tab buf out

variable {X : Int2e α} {s : Call2 α} {nT e2 : Nat} {kap : Nat → Int}

/-- elements of the block -/
def SpMem4.In (A : SpMem4 X s nT e2 kap) (m : Nat) : Prop :=
  InBlock A.nd (fun t => Call2.nsp s kap t * Call2.nctrs s t) nT m

/-- the output array holds the complex number `z` for component `n`, function `i` of contraction `ic` of the first shell and so on -/
def SpMem4.Elem (A : SpMem4 X s nT e2 kap) (h' : Heap α) (n ic i jc j kc k lc l : Nat) (z : Cx α) : Prop :=
  HoldsC h' A.out (outAt A.nd n (ic*lenSpinorC2S (kap 0) s.si.l+i) (jc*lenSpinorC2S (kap 1) s.sj.l+j)
    (kc*lenSpinorC2S (kap 2) s.sk.l+k) (lc*lenSpinorC2S (kap 3) s.sl.l+l)) z

/-- the call with output functions `k1` and `k2` and no optimizer returns `has` and ends with memory `h'` -/
def SpEnds4 (A : SpMem4 X s nT e2 kap) (k1 k2 : SpKind) (R : Rys2 α) (K : Consts α) (L : MathLib α) (has : Bool) (h' : Heap α) : Prop :=
  run (drv2eSp X s (fun gctr c => loop2eRun X s R K L A.fpd gctr A.empty A.buf c A.fl A.loc) (if k1.si then 4 else 1) e2 nT k1 k2
    A.tab kap A.fpd A.out A.dims A.buf 0 A.empty A.counts) A.h = some (has, h')

/-- number of components in spin space of the operator of one electron -/
abbrev SpKind.comps (k : SpKind) : Nat := if k.si then 4 else 1

theorem one_le_comps (k : SpKind) : 1 ≤ SpKind.comps k := by unfold SpKind.comps; split <;> omega

theorem comps_pos {k1 k2 : SpKind} (hn : X.nComp = SpKind.comps k1 * SpKind.comps k2 * nT) (hnT : 1 ≤ nT) : 1 ≤ X.nComp := by
  rw [hn]; exact Nat.mul_pos (Nat.mul_pos (one_le_comps k1) (one_le_comps k2)) hnT

def sp4_run {k1 k2 : SpKind} {R : Rys2 α} {K : Consts α} {L : MathLib α} {keep : Nat → Nat → Nat → Nat → Bool}
    {w : Nat → Nat → Nat → Nat → Nat → α} (B : SpMem4 X s nT (SpKind.comps k2) kap)
    (hn : X.nComp = SpKind.comps k1 * SpKind.comps k2 * nT) (hK : EvalOK2 R K L X s keep w) (hnT : 1 ≤ nT)
    (hl : ∀ t, t < 4 → Call2.ls s t < 13) :=
  run_of_wp (drv2eSp_wp (k1 := k1) (k2 := k2) (loop := fun gctr c => loop2eRun X s R K L B.fpd gctr B.empty B.buf c B.fl B.loc)
    B.M B.hsize (loop2e_postG B.M (le_trans cacheSize2e_le_sp B.hsize) B.hs.nctr_pos hK (comps_pos hn hnT)
      (fun t ht => le_trans (le_of_lt (hl t ht)) (by omega))) (fun _ h => h.2) B.hs B.O B.T hn hl)

/-- **C49**, four-centre integrals: for every integral whose integrand evaluates correctly, the spinor integrals are the Cartesian
integrals (for each electron, of the scalar or of the four components of an operator with spin) transformed with the tables of the
four shells. -/
theorem C49_two_electron {k1 k2 : SpKind} {R : Rys2 α} {K : Consts α} {L : MathLib α} {keep : Nat → Nat → Nat → Nat → Bool}
    {w : Nat → Nat → Nat → Nat → Nat → α} (A : CartMem4 X s) (B : SpMem4 X s nT (SpKind.comps k2) kap)
    (hn : X.nComp = SpKind.comps k1 * SpKind.comps k2 * nT) (hK : EvalOK2 R K L X s keep w) (hnT : 1 ≤ nT)
    (hl : ∀ t, t < 4 → Call2.ls s t < 13) :
    ∃ ra ha rb hb, CartEnds4 A R K L ra ha ∧ SpEnds4 B k1 k2 R K L rb hb ∧
      ∃ x : Nat → Nat → Nat → Nat → Nat → Nat → Nat → Nat → Nat → α,
        (∀ n ic jc kc lc a b c d, n < X.nComp → ic < s.si.nctr → jc < s.sj.nctr → kc < s.sk.nctr → lc < s.sl.nctr →
          a < ncart s.si.l → b < ncart s.sj.l → c < ncart s.sk.l → d < ncart s.sl.l →
          A.elem ha n ic a jc b kc c lc d = .val (x n ic a jc b kc c lc d)) ∧
        (∀ n ic jc kc lc i j k l, n < nT → ic < s.si.nctr → jc < s.sj.nctr → kc < s.sk.nctr → lc < s.sl.nctr →
          i < lenSpinorC2S (kap 0) s.si.l → j < lenSpinorC2S (kap 1) s.sj.l → k < lenSpinorC2S (kap 2) s.sk.l →
          l < lenSpinorC2S (kap 3) s.sl.l →
          B.Elem hb n ic i jc j kc k lc l
            (spinor2 k2.si k2.ph (kap 2) (kap 3) s.sk.l s.sl.l (fun c2 c d =>
              spinor2 k1.si k1.ph (kap 0) (kap 1) s.si.l s.sj.l (fun c1 a b =>
                Cx.ofR (x ((n * SpKind.comps k2 + c2) * SpKind.comps k1 + c1) ic a jc b kc c lc d)) i j) k l)) := by
  have hnc : 1 ≤ X.nComp := by
    rw [hn]; exact Nat.mul_pos (Nat.mul_pos (one_le_comps k1) (one_le_comps k2)) hnT
  obtain ⟨ra, ha, r1, v1, _⟩ := drv2e_cart A.M A.hsize A.hs A.O hK hnc (fun t ht => le_trans (le_of_lt (hl t ht)) (by omega))
  obtain ⟨rb, hb, r2, v2, _⟩ := sp4_run (k1 := k1) B hn hK hnT hl
  refine ⟨ra, ha, rb, hb, r1, r2, fun n ic a jc b kc c lc d =>
    loopVal2 R K L X s keep w n ic jc kc lc (pos4c (ncar (Call2.ls s)) a b c d), ?_, ?_⟩
  · intro n ic jc kc lc a b c d a1 a2 a3 a4 a5 a6 a7 a8 a9
    exact v1 n ic jc kc lc a b c d a1 a2 a3 a4 a5 a6 a7 a8 a9
  · intro n ic jc kc lc i j k l a1 a2 a3 a4 a5 a6 a7 a8 a9
    have h := v2 n ic jc kc lc i j k l a1 a2 a3 a4 a5 a6 a7 a8 a9
    have e : ∀ a b c d, pos4c (ncar (Call2.ls s)) a b c d = ((b*ncart s.sl.l+d)*ncart s.sk.l+c)*ncart s.si.l+a := by
      intro a b c d
      show a + ncart s.si.l * (c + ncart s.sk.l * (d + ncart s.sl.l * b)) = _
      ring
    simp only [e]
    exact h

/-- **C15**, spinor output: with a cache of (at least) the queried size the call completes without undefined behaviour, whatever the
cache and the output array contain. -/
theorem C15_spinor {k1 k2 : SpKind} {R : Rys2 α} {K : Consts α} {L : MathLib α} {keep : Nat → Nat → Nat → Nat → Bool}
    {w : Nat → Nat → Nat → Nat → Nat → α} (B : SpMem4 X s nT (SpKind.comps k2) kap)
    (hn : X.nComp = SpKind.comps k1 * SpKind.comps k2 * nT) (hK : EvalOK2 R K L X s keep w) (hnT : 1 ≤ nT)
    (hl : ∀ t, t < 4 → Call2.ls s t < 13) : ∃ has h', SpEnds4 B k1 k2 R K L has h' := by
  obtain ⟨rb, hb, r2, _⟩ := sp4_run (k1 := k1) B hn hK hnT hl
  exact ⟨rb, hb, r2⟩

/-- **C18**, four-centre calls with spinor output: when 0 is returned the block is zero; in any case every element of the block is
overwritten, no double outside the block and the cache changes, and the new contents do not depend on the contents of memory. -/
theorem C18_four_centre_spinor {k1 k2 : SpKind} {R : Rys2 α} {K : Consts α} {L : MathLib α} {keep : Nat → Nat → Nat → Nat → Bool}
    {w : Nat → Nat → Nat → Nat → Nat → α} (B : SpMem4 X s nT (SpKind.comps k2) kap)
    (hn : X.nComp = SpKind.comps k1 * SpKind.comps k2 * nT) (hK : EvalOK2 R K L X s keep w) (hnT : 1 ≤ nT)
    (hl : ∀ t, t < 4 → Call2.ls s t < 13) :
    ∃ v : Nat → α, ∀ B' : SpMem4 X s nT (SpKind.comps k2) kap, B'.nd = B.nd →
      ∃ has h', SpEnds4 B' k1 k2 R K L has h' ∧
        (∀ m, B.In (m/2) → h'.D (B'.out + m) = .val (v m)) ∧
        (has = false → ∀ m, B.In (m/2) → v m = 0) ∧
        (∀ q, q.buf ≠ B'.buf → (∀ m, B.In (m/2) → q ≠ B'.out + m) → h'.D q = B'.h.D q) := by
  obtain ⟨r0, h0, _, v0, _⟩ := sp4_run (k1 := k1) B hn hK hnT hl
  refine ⟨fun m => match h0.D (B.out + m) with | .val x => x | _ => 0, fun B' hn' => ?_⟩
  obtain ⟨r1, h1, e1, v1, z1, f1, _⟩ := sp4_run (k1 := k1) B' hn hK hnT hl
  rw [hn'] at v1 z1 f1
  have hv : ∀ m, B.In (m/2) → h1.D (B'.out + m) = .val (match h0.D (B.out + m) with | .val x => x | _ => 0) := by
    intro m hm
    obtain ⟨n, ic, jc, kc, lc, i, j, k, x, a1, a2, a3, a4, a5, a6, a7, a8, a9, e⟩ := inBlock_digits B.hs.nf_pos hm
    have b1 := v1 n ic jc kc lc i j k x a1 a2 a3 a4 a5 a6 a7 a8 a9
    have b0 := v0 n ic jc kc lc i j k x a1 a2 a3 a4 a5 a6 a7 a8 a9
    have e' : m/2 = outAt B.nd n (ic * lenSpinorC2S (kap 0) s.si.l + i) (jc * lenSpinorC2S (kap 1) s.sj.l + j)
      (kc * lenSpinorC2S (kap 2) s.sk.l + k) (lc * lenSpinorC2S (kap 3) s.sl.l + x) := e
    unfold HoldsC at b0 b1
    rw [← e'] at b0 b1
    rcases Nat.mod_two_eq_zero_or_one m with h2 | h2
    · rw [show m = 2*(m/2) by omega, b0.1, b1.1]
    · rw [show m = 2*(m/2)+1 by omega, b0.2, b1.2]
  refine ⟨r1, h1, e1, hv, fun hf m hm => ?_, f1.1⟩
  exact Cell.val.inj ((hv m hm).symm.trans (z1 hf m hm))

/-! ### With an optimizer -/
variable {L : MathLib α} {Bas : Nat → PShell α} {nbas : Nat} {envCut omega : α} {i j k l : Nat}

/-- The call may use the optimizer: its arrays are intact, and the cache, the output array and local variables are elsewhere. -/
structure SpCallsWith (Q : Optim X L Bas nbas envCut omega) (A : SpMem4 X s nT e2 kap) : Prop where
  intact : Q.Intact A.h
  cache : Apart Q.P A.buf
  out : Apart Q.P A.out.buf
  empty : Apart Q.P A.empty.buf
  fl : Apart Q.P A.fl.buf
  loc : Apart Q.P A.loc.buf
  counts : Apart Q.P A.counts.buf
  flloc : A.fl.buf ≠ A.loc.buf

/-- the call with output functions `k1` and `k2` and the optimizer returns `has` and ends with memory `h'` -/
def SpEndsO (Q : Optim X L Bas nbas envCut omega) (A : SpMem4 X (basisCall Bas envCut omega i j k l) nT e2 kap) (k1 k2 : SpKind)
    (R : Rys2 α) (K : Consts α) (has : Bool) (h' : Heap α) : Prop :=
  run (drv2eSp X (basisCall Bas envCut omega i j k l) (fun gctr c => loop2eOpt X (basisCall Bas envCut omega i j k l) R K L Q.O i j k l
      A.fpd gctr A.empty A.buf c A.fl A.loc) (if k1.si then 4 else 1) e2 nT k1 k2
    A.tab kap A.fpd A.out A.dims A.buf 0 A.empty A.counts) A.h = some (has, h')

theorem spCallsWith_arg {Q : Optim X L Bas nbas envCut omega} {B : SpMem4 X s nT e2 kap} (W : SpCallsWith Q B)
    (H : InBasis Bas nbas i j k l) : OptArg Q.O B.buf B.empty B.fl B.loc :=
  ⟨optSep_of H.some_prim H.tall W.cache, optSep_of H.some_prim H.tall W.empty,
    optSep_of H.some_prim H.tall W.fl, optSep_of H.some_prim H.tall W.loc, W.flloc⟩

def sp4_runO {k1 k2 : SpKind} {R : Rys2 α} {K : Consts α} {keep : Nat → Nat → Nat → Nat → Bool}
    {w : Nat → Nat → Nat → Nat → Nat → α} (Q : Optim X L Bas nbas envCut omega)
    (B : SpMem4 X (basisCall Bas envCut omega i j k l) nT (SpKind.comps k2) kap) (W : SpCallsWith Q B) (H : InBasis Bas nbas i j k l)
    (hn : X.nComp = SpKind.comps k1 * SpKind.comps k2 * nT)
    (hK : EvalOKP R K X (basisCall Bas envCut omega i j k l) (vIJ L X Bas nbas envCut omega i j k l)
      (vKL L X Bas nbas envCut omega i j k l) keep w) (hnT : 1 ≤ nT)
    (hl : ∀ t, t < 4 → Call2.ls (basisCall Bas envCut omega i j k l) t < 13) :=
  run_of_wp (drv2eSp_wp (k1 := k1) (k2 := k2) (loop := fun gctr c => loop2eOpt X (basisCall Bas envCut omega i j k l) R K L Q.O i j k l
      B.fpd gctr B.empty B.buf c B.fl B.loc) B.M B.hsize
    (loop2eOpt_postG B.M (le_trans cacheSize2e_le_sp B.hsize) (spCallsWith_arg W H)
      (optOK_at (Optim.intact_ok H.some_prim H.tall W.intact) H.hi H.hj H.hk H.hl).1
      (optOK_at (Optim.intact_ok H.some_prim H.tall W.intact) H.hi H.hj H.hk H.hl).2 B.hs.nctr_pos hK (comps_pos hn hnT)
      (H.ls envCut omega)) (fun _ h => h.2) B.hs B.O B.T hn hl)

theorem intact_of_frameZ {Q : Optim X L Bas nbas envCut omega} {A : SpMem4 X s nT e2 kap} (W : SpCallsWith Q A) {h' : Heap α}
    {nd cnt : Nat → Nat} {n : Nat} (F : FrameZ A.h h' nd cnt n A.buf A.out A.empty A.fl A.loc A.counts) : Q.Intact h' := by
  intro q hq
  have ne : ∀ {b : Nat}, Apart Q.P b → q.buf ≠ b := fun hb e => hq (e ▸ hb)
  refine ⟨(F.1 q (ne W.cache) (fun m _ e => ne W.out (by rw [e]; rfl))).trans (W.intact q hq).1, ?_⟩
  exact (F.2 q (ne W.cache) (ne W.empty) (ne W.fl) (ne W.loc) (ne W.counts)).trans (W.intact q hq).2

/-- **C15** with an optimizer, spinor output: a cache of the queried size suffices, and the optimizer is left as it was. -/
theorem C15_opt_spinor {k1 k2 : SpKind} {R : Rys2 α} {K : Consts α} (Q : Optim X L Bas nbas envCut omega)
    (B : SpMem4 X (basisCall Bas envCut omega i j k l) nT (SpKind.comps k2) kap) (W : SpCallsWith Q B) (H : InBasis Bas nbas i j k l)
    (hn : X.nComp = SpKind.comps k1 * SpKind.comps k2 * nT) (hK : EvalAll R K X (basisCall Bas envCut omega i j k l)) (hnT : 1 ≤ nT)
    (hl : ∀ t, t < 4 → Call2.ls (basisCall Bas envCut omega i j k l) t < 13) :
    ∃ has h', SpEndsO Q B k1 k2 R K has h' ∧ Q.Intact h' := by
  obtain ⟨keep, w, hK⟩ := hK (vIJ L X Bas nbas envCut omega i j k l) (vKL L X Bas nbas envCut omega i j k l)
  obtain ⟨has, h', hr, _, _, F, _⟩ := sp4_runO (k1 := k1) Q B W H hn hK hnT hl
  exact ⟨has, h', hr, intact_of_frameZ W F⟩

/-- **C49** with an optimizer: the spinor integrals are the Cartesian integrals computed with the same optimizer, transformed with
the tables of the four shells. -/
theorem C49_two_electron_opt {k1 k2 : SpKind} {R : Rys2 α} {K : Consts α} (Q : Optim X L Bas nbas envCut omega)
    (A : CartMem4 X (basisCall Bas envCut omega i j k l)) (WA : CallsWith Q A)
    (B : SpMem4 X (basisCall Bas envCut omega i j k l) nT (SpKind.comps k2) kap) (WB : SpCallsWith Q B) (H : InBasis Bas nbas i j k l)
    (hn : X.nComp = SpKind.comps k1 * SpKind.comps k2 * nT) (hK : EvalAll R K X (basisCall Bas envCut omega i j k l)) (hnT : 1 ≤ nT)
    (hl : ∀ t, t < 4 → Call2.ls (basisCall Bas envCut omega i j k l) t < 13) :
    ∃ ra ha rb hb, CartEndsO Q A R K ra ha ∧ SpEndsO Q B k1 k2 R K rb hb ∧ Q.Intact hb ∧
      ∃ x : Nat → Nat → Nat → Nat → Nat → Nat → Nat → Nat → Nat → α,
        (∀ n ic jc kc lc a b c d, n < X.nComp → ic < (Bas i).nctr → jc < (Bas j).nctr → kc < (Bas k).nctr → lc < (Bas l).nctr →
          a < ncart (Bas i).l → b < ncart (Bas j).l → c < ncart (Bas k).l → d < ncart (Bas l).l →
          A.elem ha n ic a jc b kc c lc d = .val (x n ic a jc b kc c lc d)) ∧
        (∀ n ic jc kc lc a b c d, n < nT → ic < (Bas i).nctr → jc < (Bas j).nctr → kc < (Bas k).nctr → lc < (Bas l).nctr →
          a < lenSpinorC2S (kap 0) (Bas i).l → b < lenSpinorC2S (kap 1) (Bas j).l → c < lenSpinorC2S (kap 2) (Bas k).l →
          d < lenSpinorC2S (kap 3) (Bas l).l →
          B.Elem hb n ic a jc b kc c lc d
            (spinor2 k2.si k2.ph (kap 2) (kap 3) (Bas k).l (Bas l).l (fun c2 r s =>
              spinor2 k1.si k1.ph (kap 0) (kap 1) (Bas i).l (Bas j).l (fun c1 p q =>
                Cx.ofR (x ((n * SpKind.comps k2 + c2) * SpKind.comps k1 + c1) ic p jc q kc r lc s)) a b) c d)) := by
  have hnc : 1 ≤ X.nComp := by
    rw [hn]; exact Nat.mul_pos (Nat.mul_pos (one_le_comps k1) (one_le_comps k2)) hnT
  obtain ⟨keep, w, hK⟩ := hK (vIJ L X Bas nbas envCut omega i j k l) (vKL L X Bas nbas envCut omega i j k l)
  obtain ⟨ra, ha, r1, v1, _⟩ := opt_cart Q A WA H hnc hK
  obtain ⟨rb, hb, r2, v2, _, F, _⟩ := sp4_runO (k1 := k1) Q B WB H hn hK hnT hl
  refine ⟨ra, ha, rb, hb, r1, r2, intact_of_frameZ WB F, fun n ic a jc b kc c lc d =>
    expected (quartetV R K X (basisCall Bas envCut omega i j k l) (vIJ L X Bas nbas envCut omega i j k l)
      (vKL L X Bas nbas envCut omega i j k l)) keep w n ic jc kc lc
      (pos4c (ncar (Call2.ls (basisCall Bas envCut omega i j k l))) a b c d), ?_, ?_⟩
  · intro n ic jc kc lc a b c d a1 a2 a3 a4 a5 a6 a7 a8 a9
    exact v1 n ic jc kc lc a b c d a1 a2 a3 a4 a5 a6 a7 a8 a9
  · intro n ic jc kc lc a b c d a1 a2 a3 a4 a5 a6 a7 a8 a9
    have h := v2 n ic jc kc lc a b c d a1 a2 a3 a4 a5 a6 a7 a8 a9
    have e : ∀ p q r s, pos4c (ncar (Call2.ls (basisCall Bas envCut omega i j k l))) p q r s =
        ((q*ncart (Bas l).l+s)*ncart (Bas k).l+r)*ncart (Bas i).l+p := by
      intro p q r s
      show p + ncart (Bas i).l * (r + ncart (Bas k).l * (s + ncart (Bas l).l * q)) = _
      ring
    simp only [e]
    exact h
end

/-! ### Values -/

theorem repulsionC_sum {ι κ : Type} (S : Finset ι) (T : Finset κ) {V : (Fin 3 → ℝ) → (Fin 3 → ℝ) → ℝ} (x : ι → ℂ) (y : κ → ℂ)
    {f : ι → (Fin 3 → ℝ) → ℝ} {g : κ → (Fin 3 → ℝ) → ℝ}
    (h : ∀ a ∈ S, ∀ b ∈ T, Integrable fun z : (Fin 3 → ℝ) × (Fin 3 → ℝ) => f a z.1 * V z.1 z.2 * g b z.2) :
    repulsionC V (fun r => ∑ a ∈ S, x a * (f a r : ℂ)) (fun r => ∑ b ∈ T, y b * (g b r : ℂ)) =
      ∑ a ∈ S, ∑ b ∈ T, x a * y b * (repulsion V (f a) (g b) : ℂ) := by
  have e : ∀ z : (Fin 3 → ℝ) × (Fin 3 → ℝ), (∑ a ∈ S, x a * (f a z.1 : ℂ)) * (V z.1 z.2 : ℂ) * (∑ b ∈ T, y b * (g b z.2 : ℂ)) =
      ∑ a ∈ S, ∑ b ∈ T, x a * y b * ((f a z.1 * V z.1 z.2 * g b z.2 : ℝ) : ℂ) := by
    intro z
    rw [Finset.sum_mul, Finset.sum_mul_sum]
    refine Finset.sum_congr rfl fun a _ => Finset.sum_congr rfl fun b _ => ?_
    push_cast
    ring
  have hi : ∀ a ∈ S, ∀ b ∈ T, Integrable fun z : (Fin 3 → ℝ) × (Fin 3 → ℝ) => x a * y b * ((f a z.1 * V z.1 z.2 * g b z.2 : ℝ) : ℂ) :=
    fun a ha b hb => (h a ha b hb).ofReal.const_mul _
  unfold repulsionC
  simp only [e]
  rw [integral_finset_sum _ (fun a ha => integrable_finset_sum _ fun b hb => hi a ha b hb)]
  refine Finset.sum_congr rfl fun a ha => ?_
  rw [integral_finset_sum _ (fun b hb => hi a ha b hb)]
  refine Finset.sum_congr rfl fun b hb => ?_
  rw [integral_const_mul, integral_complex_ofReal]
  rfl

/-- the charge distribution of two functions of spinor bases: the product summed over spin -/
noncomputable def density (t u : PShell ℝ) (kt ku : Int) (ic jc i j : Nat) : (Fin 3 → ℝ) → ℂ := fun r =>
  ∑ σ : Bool, star (jgto t kt ic i σ r) * jgto u ku jc j σ r

/-- coefficients of `density` in products of Cartesian functions -/
noncomputable def dcoef (t u : PShell ℝ) (kt ku : Int) (i j : Nat) (p : Nat × Nat) : ℂ :=
  (∑ σ : Bool, star (cjCoef kt t.l i σ p.1 : Cx ℝ).toC * (cjCoef ku u.l j σ p.2 : Cx ℝ).toC) * ((spNorm t.l * spNorm u.l : ℝ) : ℂ)

theorem density_eq (t u : PShell ℝ) (kt ku : Int) (ic jc i j : Nat) (r : Fin 3 → ℝ) : density t u kt ku ic jc i j r =
    ∑ p ∈ Finset.range (ncart t.l) ×ˢ Finset.range (ncart u.l), dcoef t u kt ku i j p * ((cfun t ic p.1 r * cfun u jc p.2 r : ℝ) : ℂ) := by
  unfold density jgto dcoef cfun
  simp only [star_sum, Finset.sum_mul_sum]
  rw [Finset.sum_product, Finset.sum_comm]
  refine Finset.sum_congr rfl fun a _ => ?_
  rw [Finset.sum_comm]
  refine Finset.sum_congr rfl fun b _ => ?_
  rw [Finset.sum_mul, Finset.sum_mul]
  refine Finset.sum_congr rfl fun s _ => ?_
  simp only [star_mul, Complex.star_def, Complex.conj_ofReal]
  push_cast
  ring

theorem toC_sf (k1 k2 : Int) (l1 l2 : Nat) (x : Nat → Nat → Nat → Cx ℝ) (i j : Nat) :
    (spinor2 false false k1 k2 l1 l2 x i j).toC = ∑ p ∈ Finset.range (ncart l1) ×ˢ Finset.range (ncart l2),
      (∑ σ : Bool, star (cjCoef k1 l1 i σ p.1 : Cx ℝ).toC * (cjCoef k2 l2 j σ p.2 : Cx ℝ).toC) * (x 0 p.1 p.2).toC := by
  rw [toC_spinor2, Finset.sum_product]
  refine Finset.sum_congr rfl fun a _ => Finset.sum_congr rfl fun b _ => ?_
  unfold spinMat scalar2
  simp only [Fintype.sum_bool, Bool.false_eq_true, if_false, toC_zero, one_mul, mul_zero, zero_mul, add_zero, zero_add]
  ring

theorem repulsion_density {s : Call2 ℝ} (hp : PosExp s) (omega : ℝ) (kap : Nat → Int) (ic jc kc lc i j k l : Nat) :
    repulsionC (interaction omega) (density s.si s.sj (kap 0) (kap 1) ic jc i j) (density s.sk s.sl (kap 2) (kap 3) kc lc k l) =
      ∑ p ∈ Finset.range (ncart s.si.l) ×ˢ Finset.range (ncart s.sj.l), ∑ q ∈ Finset.range (ncart s.sk.l) ×ˢ Finset.range (ncart s.sl.l),
        dcoef s.si s.sj (kap 0) (kap 1) i j p * dcoef s.sk s.sl (kap 2) (kap 3) k l q * (repulsion (interaction omega)
            (fun r => cfun s.si ic p.1 r * cfun s.sj jc p.2 r) (fun r => cfun s.sk kc q.1 r * cfun s.sl lc q.2 r) : ℂ) := by
  have e1 : density s.si s.sj (kap 0) (kap 1) ic jc i j = _ := funext fun r => density_eq s.si s.sj (kap 0) (kap 1) ic jc i j r
  have e2 : density s.sk s.sl (kap 2) (kap 3) kc lc k l = _ := funext fun r => density_eq s.sk s.sl (kap 2) (kap 3) kc lc k l r
  rw [e1, e2]
  exact repulsionC_sum _ _ _ _ (fun a _ b _ => (repulsion_cfun hp omega ic jc kc lc a.1 a.2 b.1 b.2).1)

/-- **C49** int2e_spinor, no primitive screened: exactly the electron repulsion integrals between two-component functions, for the full,
long-range and short-range interaction. -/
theorem C49_eri {L : MathLib ℝ} {s : Call2 ℝ} {R : Rys2 ℝ} {kap : Nat → Int} (B : SpMem4 eriInt s 1 1 kap) (hL : L.exp = Real.exp)
    (hkept : AllKept L s) (hp : PosExp s) (hR : RootsOK R s) (h13 : ∀ t, t < 4 → Call2.ls s t < 13) :
    ∃ has h', SpEnds4 B ⟨false, false⟩ ⟨false, false⟩ R realK L has h' ∧
      ∀ ic jc kc lc i j k l, ic < s.si.nctr → jc < s.sj.nctr → kc < s.sk.nctr → lc < s.sl.nctr →
        i < lenSpinorC2S (kap 0) s.si.l → j < lenSpinorC2S (kap 1) s.sj.l → k < lenSpinorC2S (kap 2) s.sk.l →
        l < lenSpinorC2S (kap 3) s.sl.l →
        ∃ z : Cx ℝ, B.Elem h' 0 ic i jc j kc k lc l z ∧
          z.toC = repulsionC (interaction s.omega) (fun r => ∑ σ : Bool, star (jgto s.si (kap 0) ic i σ r) * jgto s.sj (kap 1) jc j σ r)
            (fun r => ∑ σ : Bool, star (jgto s.sk (kap 2) kc k σ r) * jgto s.sl (kap 3) lc l σ r) := by
  have h15 : LOK s := fun t ht => le_trans (le_of_lt (h13 t ht)) (by omega)
  let A := blankMem4 eriInt s B.hs.nctr_pos
  obtain ⟨ra, ha, rb, hb, eA, eB, x, vA, vB⟩ := C49_two_electron (k1 := ⟨false, false⟩) (k2 := ⟨false, false⟩) A B rfl
    (eri_eval (L := L) hp hR) (le_refl 1) h13
  obtain ⟨rc, hc, eC, vC⟩ := C44_eri_exact (R := R) A hL hkept hp hR h15
  have hAC : ha = hc := by
    have e : some (ra, ha) = some (rc, hc) := eA.symm.trans eC
    simp only [Option.some.injEq, Prod.mk.injEq] at e
    exact e.2
  refine ⟨rb, hb, eB, fun ic jc kc lc i j k l a2 a3 a4 a5 a6 a7 a8 a9 =>
    ⟨_, vB 0 ic jc kc lc i j k l Nat.zero_lt_one a2 a3 a4 a5 a6 a7 a8 a9, ?_⟩⟩
  refine Eq.trans ?_ (repulsion_density hp s.omega kap ic jc kc lc i j k l).symm
  rw [toC_sf, Finset.sum_comm]
  refine Finset.sum_congr rfl fun q hq => ?_
  rw [toC_sf, Finset.mul_sum]
  refine Finset.sum_congr rfl fun p hp' => ?_
  rw [Finset.mem_product, Finset.mem_range, Finset.mem_range] at hq hp'
  have c1 := vA 0 ic jc kc lc p.1 p.2 q.1 q.2 Nat.zero_lt_one a2 a3 a4 a5 hp'.1 hp'.2 hq.1 hq.2
  have c2 := vC ic jc kc lc p.1 p.2 q.1 q.2 a2 a3 a4 a5 hp'.1 hp'.2 hq.1 hq.2
  rw [← hAC] at c2
  have c3 := Cell.val.inj (c1.symm.trans c2)
  rw [toC_ofR]
  show _ * (_ * ((x 0 ic p.1 jc p.2 kc q.1 lc q.2 : ℝ) : ℂ)) = _
  rw [c3]
  unfold dcoef
  push_cast
  ring

theorem spinor2_scalar {ph : Bool} {ki kj : Int} {li lj : Nat} {x y : Nat → Nat → Nat → Cx ℝ} {i j : Nat}
    (H : ∀ a b, a < ncart li → b < ncart lj → x 0 a b = y 0 a b) :
    spinor2 false ph ki kj li lj x i j = spinor2 false ph ki kj li lj y i j := by
  unfold spinor2 spinMat
  congr 1
  refine Finset.sum_congr rfl fun a ha => Finset.sum_congr rfl fun b hb => ?_
  simp only [Bool.false_eq_true, if_false, H a b (Finset.mem_range.1 ha) (Finset.mem_range.1 hb)]

/-- **C11**, spinor output, full and long-range interaction: the block computed with an optimizer equals the one computed without, and
the same value is returned, under the conditions of `C11_cart_partial`. -/
theorem C11_spinor_partial {L : MathLib ℝ} {Bas : Nat → PShell ℝ} {nbas : Nat} {envCut omega : ℝ} {i j k l : Nat} {R : Rys2 ℝ}
    {kap : Nat → Int} {m : Nat → Nat → ℝ} (Q : Optim eriInt L Bas nbas envCut omega)
    (A A' : SpMem4 eriInt (basisCall Bas envCut omega i j k l) 1 1 kap) (W : SpCallsWith Q A') (H : InBasis Bas nbas i j k l)
    (hL : L.exp = Real.exp) (hm : ∀ t, t < nbas → MaxCoeff (Bas t) (m t)) (hp : PosBasis Bas nbas)
    (hR : RootsOK R (basisCall Bas envCut omega i j k l)) (ho : 0 ≤ omega) (G : NoGap L Bas nbas envCut omega m i j k l)
    (h13 : ∀ t, t < 4 → Call2.ls (basisCall Bas envCut omega i j k l) t < 13) :
    ∃ ra ha rb hb, SpEnds4 A ⟨false, false⟩ ⟨false, false⟩ R realK L ra ha ∧ SpEndsO Q A' ⟨false, false⟩ ⟨false, false⟩ R realK rb hb ∧
      Q.Intact hb ∧
      (∀ ic jc kc lc a b c d, ic < (Bas i).nctr → jc < (Bas j).nctr → kc < (Bas k).nctr → lc < (Bas l).nctr →
        a < lenSpinorC2S (kap 0) (Bas i).l → b < lenSpinorC2S (kap 1) (Bas j).l → c < lenSpinorC2S (kap 2) (Bas k).l →
        d < lenSpinorC2S (kap 3) (Bas l).l →
        ∃ z, A.Elem ha 0 ic a jc b kc c lc d z ∧ A'.Elem hb 0 ic a jc b kc c lc d z) ∧
      (ra = rb ∨ (i = 0 ∧ j = 0 ∧ ∀ ip jp, ip < (Bas i).nprim → jp < (Bas j).nprim →
        cutoff2e envCut < est L (Bas i) (Bas j) (m i) (m j) (rr2 (Bas i).r (Bas j).r) omega ((Bas i).l + (Bas j).l) ip jp)) := by
  obtain ⟨ra, ha, r1, v1, _, _, q1⟩ := sp4_run (k1 := ⟨false, false⟩) (k2 := ⟨false, false⟩) A rfl (eri_eval (L := L) (hp.posExp H) hR)
    (le_refl 1) h13
  obtain ⟨rb, hb, r2, v2, _, F, q2⟩ := sp4_runO (k1 := ⟨false, false⟩) (k2 := ⟨false, false⟩) Q A' W H rfl (eri_evalP (hp.posExp H) hR)
    (le_refl 1) h13
  refine ⟨ra, ha, rb, hb, r1, r2, intact_of_frameZ W F, ?_, same_ret hL H hm hp ho G q1.1 q2.1⟩
  intro ic jc kc lc a b c d a2 a3 a4 a5 a6 a7 a8 a9
  refine ⟨_, v1 0 ic jc kc lc a b c d Nat.zero_lt_one a2 a3 a4 a5 a6 a7 a8 a9, ?_⟩
  have h2 := v2 0 ic jc kc lc a b c d Nat.zero_lt_one a2 a3 a4 a5 a6 a7 a8 a9
  refine Eq.mp (congrArg (fun z => A'.Elem hb 0 ic a jc b kc c lc d z) ?_) h2
  unfold spin4
  refine spinor2_scalar fun r s hr hs => spinor2_scalar fun p q hp' hq => ?_
  congr 1
  have e : ((q*ncart (Bas l).l+s)*ncart (Bas k).l+r)*ncart (Bas i).l+p =
      pos4c (ncar (Call2.ls (basisCall Bas envCut omega i j k l))) p q r s := by
    show _ = p + ncart (Bas i).l * (r + ncart (Bas k).l * (s + ncart (Bas l).l * q))
    ring
  have := same_val (R := R) hL H hm hp (sameKept_of ho G) (ic := ic) (jc := jc) (kc := kc) (lc := lc) hp' hq hr hs
  rw [← e] at this
  exact this

/-! ### The hypotheses can be met -/
namespace SpinorEriDemo
open OvlpDemo SphDemo EriDemo SpinorDemo

theorem ls_lt (o : ℝ) : ∀ t, t < 4 → Call2.ls (call4 o) t < 13 := by
  show ∀ t, t < 4 → four 1 2 0 1 t < 13
  decide

/-- p with both j, d with j = 5/2, s, and p with j = 1/2 -/
def kaps : Nat → Int := fun t => if t = 0 then 0 else if t = 1 then -3 else if t = 2 then -1 else 1

noncomputable def spMemH (o : ℝ) (h : Heap ℝ) (hD : ∀ q : Ptr, q.buf < 20 → h.D q ≠ .oob) (hI : ∀ q : Ptr, q.buf < 20 → h.I q ≠ .oob)
    (hT : HoldsJ h ⟨9, 0⟩ ⟨10, 0⟩) : SpMem4 eriInt (call4 o) 1 1 kaps where
  fpd := 1
  buf := 0
  size := cacheSize2eSp eriInt (call4 o) 1 0 (-3)
  empty := ⟨4, 0⟩
  fl := ⟨1, 0⟩
  loc := ⟨2, 0⟩
  counts := ⟨3, 0⟩
  out := ⟨5, 7⟩
  dims := none
  nd := fun t => Call2.nsp (call4 o) kaps t * Call2.nctrs (call4 o) t
  h := h
  tab := ⟨⟨9, 0⟩, ⟨10, 0⟩⟩
  hs := ⟨Or.inr (Or.inr rfl), by show ∀ t, t < 4 → 0 < four (lenSpinorC2S 0 1) (lenSpinorC2S (-3) 2) (lenSpinorC2S (-1) 0) (lenSpinorC2S 1 1) t; decide,
    fun t ht => EriDemo.ctr_pos o t ht, fun t a b => absurd a (by omega), fun t _ => le_refl _⟩
  M := ⟨by omega, fun k _ => hD _ (by show 0 < 20; omega), fun k _ => hI _ (by show 0 < 20; omega),
    hI _ (by show 4 < 20; omega), fun k _ => hI _ (by show 1 < 20; omega),
    fun k _ => hI _ (by show 2 < 20; omega), fun k _ => hI _ (by show 3 < 20; omega),
    by decide, by decide, by decide, by decide, by decide⟩
  hsize := le_refl _
  O := { h_dims := fun t _ => rfl
         h_dims2 := fun d hd => nomatch hd
         h_dbuf := fun d hd => nomatch hd
         h_out := fun m _ => hD _ (by show 5 < 20; omega)
         h_obuf := by decide }
  T := ⟨hT, by decide, by decide, by decide, by decide⟩

theorem memJ_ne (q : Ptr) : memJ.D q ≠ .oob := by
  unfold memJ
  dsimp only
  split
  · simp
  · split <;> simp

noncomputable def spMem4 (o : ℝ) : SpMem4 eriInt (call4 o) 1 1 kaps := spMemH o memJ (fun q _ => memJ_ne q) (fun q _ => by simp [memJ]) tabJ

/-- the short-range integral of the second contraction of the fourth p function, the last d function, the second s function and the
first p function with j = 1/2 -/
example : ∃ R has h', SpEnds4 (spMem4 (-1/2)) ⟨false, false⟩ ⟨false, false⟩ R realK lib has h' ∧
    ∃ z : Cx ℝ, (spMem4 (-1/2)).Elem h' 0 1 3 0 5 1 1 0 0 z ∧
      z.toC = repulsionC (interaction (-1/2))
        (fun r => ∑ σ : Bool, star (jgto (call4 (-1/2)).si 0 1 3 σ r) * jgto (call4 (-1/2)).sj (-3) 0 5 σ r)
        (fun r => ∑ σ : Bool, star (jgto (call4 (-1/2)).sk (-1) 1 1 σ r) * jgto (call4 (-1/2)).sl 1 0 0 σ r) := by
  obtain ⟨R, hR⟩ := exists_rys2
  obtain ⟨has, h', h1, h2⟩ := C49_eri (L := lib) (R := R) (spMem4 (-1/2)) rfl (allKept _) (posExp _) (hR _) (ls_lt _)
  exact ⟨R, has, h', h1, h2 1 0 1 0 3 5 1 0 (by show 1 < 2; omega) (by show 0 < 2; omega) (by show 1 < 2; omega)
    (by show 0 < 2; omega) (by show 3 < lenSpinorC2S 0 1; decide) (by show 5 < lenSpinorC2S (-3) 2; decide)
    (by show 1 < lenSpinorC2S (-1) 0; decide) (by show 0 < lenSpinorC2S 1 1; decide)⟩

open OptDemo

/-- memory with the optimizer's arrays as the constructor left them and the tables of the spinor transformation -/
noncomputable def besideJ {o : ℝ} (Q : Optim eriInt lib basis 4 0 o) : Heap ℝ where
  D q := if q.buf < 20 then memJ.D q else Q.h1.D q
  I q := if q.buf < 20 then .undef else Q.h1.I q

theorem tabBeside {o : ℝ} (Q : Optim eriInt lib basis 4 0 o) : HoldsJ (besideJ Q) ⟨9, 0⟩ ⟨10, 0⟩ := by
  intro l hl r hr x hx
  obtain ⟨h1, h2⟩ := tabJ l hl r hr x hx
  have e : ∀ q : Ptr, q.buf < 20 → (besideJ Q).D q = memJ.D q := fun q hq => if_pos hq
  exact ⟨(e _ (by show 9 < 20; omega)).trans h1, (e _ (by show 10 < 20; omega)).trans h2⟩

noncomputable def spO {o : ℝ} (Q : Optim eriInt lib basis 4 0 o) : SpMem4 eriInt (basisCall basis 0 o 0 1 2 3) 1 1 kaps :=
  spMemH o (besideJ Q) (fun q hq => by rw [show (besideJ Q).D q = memJ.D q from if_pos hq]; exact memJ_ne q)
    (fun q hq => by rw [show (besideJ Q).I q = .undef from if_pos hq]; simp) (tabBeside Q)

theorem callsSp {o : ℝ} (Q : Optim eriInt lib basis 4 0 o) (hP : Q.P = ptrs) : SpCallsWith Q (spO Q) := by
  have a : ∀ b, b < 20 → Apart Q.P b := fun b hb => by rw [hP]; exact apart_lt hb
  refine ⟨?_, a 0 (by omega), a 5 (by omega), a 4 (by omega), a 1 (by omega), a 2 (by omega), a 3 (by omega),
    fun e => absurd (show 1 = 2 from e) (by omega)⟩
  intro q hq
  have : ¬ q.buf < 20 := fun h => hq (by rw [hP]; exact apart_lt h)
  exact ⟨if_neg this, if_neg this⟩

/-- long-range integrals of the four shells, with and without the optimizer -/
example : ∃ (Q : Optim eriInt lib basis 4 0 (1/3)) (A A' : SpMem4 eriInt (basisCall basis 0 (1/3) 0 1 2 3) 1 1 kaps),
    SpCallsWith Q A' ∧ ∃ R ra ha rb hb, SpEnds4 A ⟨false, false⟩ ⟨false, false⟩ R realK lib ra ha ∧
      SpEndsO Q A' ⟨false, false⟩ ⟨false, false⟩ R realK rb hb ∧ Q.Intact hb := by
  obtain ⟨Q, hP⟩ := basis_opt (1/3)
  obtain ⟨R, hR⟩ := exists_rys2
  obtain ⟨ra, ha, rb, hb, e1, e2, e3, _⟩ := C11_spinor_partial (R := R) (i := 0) (j := 1) (k := 2) (l := 3) (kap := kaps) Q (spMem4 (1/3)) (spO Q) (callsSp Q hP) basis_in rfl basis_max
    basis_pos (hR _) (by norm_num) (basis_gap (by norm_num)) (ls_lt (1/3))
  exact ⟨Q, _, _, callsSp Q hP, R, ra, ha, rb, hb, e1, e2, e3⟩

/-- the Cartesian integrals with the same optimizer -/
example : ∃ (Q : Optim eriInt lib basis 4 0 (-1/2)) (R : Rys2 ℝ) (ra : Bool) (ha : Heap ℝ) (rb : Bool) (hb : Heap ℝ),
    CartEndsO Q (cartO Q (basisCall basis 0 (-1/2) 0 1 2 3) (EriDemo.ctr_pos (-1/2))) R realK ra ha ∧
    SpEndsO Q (spO Q) ⟨false, false⟩ ⟨false, false⟩ R realK rb hb ∧ Q.Intact hb := by
  obtain ⟨Q, hP⟩ := basis_opt (-1/2)
  obtain ⟨R, hR⟩ := exists_rys2
  obtain ⟨ra, ha, rb, hb, e1, e2, e3, _⟩ := C49_two_electron_opt (k1 := ⟨false, false⟩) (k2 := ⟨false, false⟩) (R := R) (K := realK) Q
    (cartO Q (basisCall basis 0 (-1/2) 0 1 2 3) (EriDemo.ctr_pos (-1/2))) (callsCart Q hP _ _) (spO Q) (callsSp Q hP) basis_in rfl
    (eri_evalAll (basis_pos.posExp basis_in) (hR _)) (le_refl 1) (ls_lt (-1/2))
  exact ⟨Q, R, ra, ha, rb, hb, e1, e2, e3⟩

end SpinorEriDemo

end Verif.Props
