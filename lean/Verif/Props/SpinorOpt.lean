import Verif.Props.SpinorEri3
import Verif.Props.Opt3c
import Verif.Props.Opt2c

/-!
Spinor output of four-, three- and two-centre integrals with an optimizer.
C11 — the same numbers as without optimizer.
C14, C16 — the queried cache size suffices.
C18 — result and overwriting.
C49 — the Cartesian integrals transformed by the tables.
-/
namespace Verif.Props
open Verif Verif.Model Verif.Prog Verif.Lemmas Verif.Spec

section
variable {α : Type} [Field α] [LinearOrder α]

section
variable {X : Int2e α} {nT : Nat} {kap : Nat → Int} {L : MathLib α} {Bas : Nat → PShell α} {nbas : Nat} {envCut omega : α}
  {i j k l : Nat}

/-- **C18**, four-centre calls with an optimizer and spinor output: when 0 is returned the block is zero; in any case every element of the
block is overwritten, no double outside the block and the cache changes, and the new contents do not depend on the contents of memory. -/
theorem C18_opt_spinor {k1 k2 : SpKind} {R : Rys2 α} {K : Consts α} (Q : Optim X L Bas nbas envCut omega)
    (B : SpMem4 X (basisCall Bas envCut omega i j k l) nT (SpKind.comps k2) kap) (W : SpCallsWith Q B) (H : InBasis Bas nbas i j k l)
    (hn : X.nComp = SpKind.comps k1 * SpKind.comps k2 * nT) (hK : EvalAll R K X (basisCall Bas envCut omega i j k l)) (hnT : 1 ≤ nT)
    (hl : ∀ t, t < 4 → Call2.ls (basisCall Bas envCut omega i j k l) t < 13) :
    ∃ v : Nat → α, ∀ B' : SpMem4 X (basisCall Bas envCut omega i j k l) nT (SpKind.comps k2) kap, SpCallsWith Q B' → B'.nd = B.nd →
      ∃ has h', SpEndsO Q B' k1 k2 R K has h' ∧
        (∀ m, B.In (m/2) → h'.D (B'.out + m) = .val (v m)) ∧
        (has = false → ∀ m, B.In (m/2) → v m = 0) ∧
        (∀ q, q.buf ≠ B'.buf → (∀ m, B.In (m/2) → q ≠ B'.out + m) → h'.D q = B'.h.D q) := by
  obtain ⟨keep, w, hK⟩ := hK (vIJ L X Bas nbas envCut omega i j k l) (vKL L X Bas nbas envCut omega i j k l)
  obtain ⟨r0, h0, _, v0, _⟩ := sp4_runO (k1 := k1) Q B W H hn hK hnT hl
  refine ⟨fun m => match h0.D (B.out + m) with | .val x => x | _ => 0, fun B' W' hn' => ?_⟩
  obtain ⟨r1, h1, e1, v1, z1, f1, _⟩ := sp4_runO (k1 := k1) Q B' W' H hn hK hnT hl
  rw [hn'] at v1 z1 f1
  have hv : ∀ m, B.In (m/2) → h1.D (B'.out + m) = .val (match h0.D (B.out + m) with | .val x => x | _ => 0) := by
    intro m hm
    obtain ⟨n, ic, jc, kc, lc, ia, ja, ka, x, a1, a2, a3, a4, a5, a6, a7, a8, a9, e⟩ := inBlock_digits B.hs.nf_pos hm
    have b1 := v1 n ic jc kc lc ia ja ka x a1 a2 a3 a4 a5 a6 a7 a8 a9
    have b0 := v0 n ic jc kc lc ia ja ka x a1 a2 a3 a4 a5 a6 a7 a8 a9
    have e' : m/2 = outAt B.nd n (ic * lenSpinorC2S (kap 0) (basisCall Bas envCut omega i j k l).si.l + ia) (jc * lenSpinorC2S (kap 1) (basisCall Bas envCut omega i j k l).sj.l + ja)
      (kc * lenSpinorC2S (kap 2) (basisCall Bas envCut omega i j k l).sk.l + ka) (lc * lenSpinorC2S (kap 3) (basisCall Bas envCut omega i j k l).sl.l + x) := e
    unfold HoldsC at b0 b1
    rw [← e'] at b0 b1
    rcases Nat.mod_two_eq_zero_or_one m with h2 | h2
    · rw [show m = 2*(m/2) by omega, b0.1, b1.1]
    · rw [show m = 2*(m/2)+1 by omega, b0.2, b1.2]
  refine ⟨r1, h1, e1, hv, fun hf m hm => ?_, f1.1⟩
  exact Cell.val.inj ((hv m hm).symm.trans (z1 hf m hm))
end


/-! ### Three centres -/
section
variable {X : Int2e α} {nT : Nat} {ki kj : Int} {L : MathLib α} {Bas : Nat → PShell α} {nbas : Nat} {envCut omega : α}
  {i j k : Nat}

/-- The call may use the optimizer: its arrays are intact, and the cache, the output array and local variables are elsewhere. -/
structure SpCallsWith3 {s : Call3 α} (Q : Optim3 X L Bas nbas envCut omega) (A : SpMem3 X s nT ki kj) : Prop where
  intact : Q.Intact A.h
  cache : Apart Q.P A.buf
  out : Apart Q.P A.out.buf
  empty : Apart Q.P A.empty.buf
  fl : Apart Q.P A.fl.buf
  loc : Apart Q.P A.loc.buf
  counts : Apart Q.P A.counts.buf
  flloc : A.fl.buf ≠ A.loc.buf

/-- the call with output function `kd` and the optimizer returns `has` and ends with memory `h'` -/
def SpEnds3O (Q : Optim3 X L Bas nbas envCut omega) (A : SpMem3 X (basisCall3 Bas envCut omega i j k) nT ki kj) (kd : SpKind)
    (R : Rys2 α) (K : Consts α) (has : Bool) (h' : Heap α) : Prop :=
  run (drv3c2eSp X (basisCall3 Bas envCut omega i j k) (fun gctr c => loop3c2eOpt X (basisCall3 Bas envCut omega i j k) R K L Q.O i j
      A.fpd gctr A.empty A.buf c A.fl A.loc) (SpKind.comps kd) nT kd
    A.sph A.tab ki kj A.fpd A.out A.dims A.buf 0 A.empty A.counts) A.h = some (has, h')

def sp3_runO {kd : SpKind} {R : Rys2 α} {K : Consts α} {keep : Nat → Nat → Nat → Bool}
    {w : Nat → Nat → Nat → Nat → α} (Q : Optim3 X L Bas nbas envCut omega)
    (B : SpMem3 X (basisCall3 Bas envCut omega i j k) nT ki kj) (W : SpCallsWith3 Q B) (H : InBasis3 Bas nbas i j k)
    (hn : X.nComp = SpKind.comps kd * nT)
    (hK : EvalOK3V R K L X (basisCall3 Bas envCut omega i j k) (vIJ3 L X Bas nbas envCut omega i j k) keep w) (hnT : 1 ≤ nT)
    (hl : LOKsp3 (basisCall3 Bas envCut omega i j k)) :=
  run_of_wp (drv3c2eSp_wp (kd := kd) (loop := fun gctr c => loop3c2eOpt X (basisCall3 Bas envCut omega i j k) R K L Q.O i j
      B.fpd gctr B.empty B.buf c B.fl B.loc) B.M B.hsize
    (drv3c2e_opt B.M (le_trans cacheSize3c2e_le_sp B.hsize)
      ⟨optSep3_of H.some_prim H.tall W.cache, optSep3_of H.some_prim H.tall W.empty, optSep3_of H.some_prim H.tall W.fl,
        optSep3_of H.some_prim H.tall W.loc, W.flloc⟩
      (optOK3_at (Optim3.intact_ok H.some_prim H.tall W.intact) H.hi H.hj H.hk).1
      (optOK3_at (Optim3.intact_ok H.some_prim H.tall W.intact) H.hi H.hj H.hk).2 B.hs.nctr_pos hK (comps_pos1 hn hnT)
      (H.ls envCut omega)) B.hs B.O B.T hn hl.i hl.j hl.k)

theorem intact3_of_frameZ {s : Call3 α} {Q : Optim3 X L Bas nbas envCut omega} {A : SpMem3 X s nT ki kj} (W : SpCallsWith3 Q A) {h' : Heap α}
    {nd cnt : Nat → Nat} {n : Nat} (F : FrameZ A.h h' nd cnt n A.buf A.out A.empty A.fl A.loc A.counts) : Q.Intact h' := by
  intro q hq
  have ne : ∀ {b : Nat}, Apart Q.P b → q.buf ≠ b := fun hb e => hq (e ▸ hb)
  refine ⟨(F.1 q (ne W.cache) (fun m _ e => ne W.out (by rw [e]; rfl))).trans (W.intact q hq).1, ?_⟩
  exact (F.2 q (ne W.cache) (ne W.empty) (ne W.fl) (ne W.loc) (ne W.counts)).trans (W.intact q hq).2

/-- **C16**, three-centre integrals with an optimizer and spinor output: a cache of the queried size suffices, and the optimizer is left
as it was. -/
theorem C16_3c2e_opt_spinor {kd : SpKind} {R : Rys2 α} {K : Consts α} (Q : Optim3 X L Bas nbas envCut omega)
    (B : SpMem3 X (basisCall3 Bas envCut omega i j k) nT ki kj) (W : SpCallsWith3 Q B) (H : InBasis3 Bas nbas i j k)
    (hn : X.nComp = SpKind.comps kd * nT) (hK : EvalAll3 R K L X (basisCall3 Bas envCut omega i j k)) (hnT : 1 ≤ nT)
    (hl : LOKsp3 (basisCall3 Bas envCut omega i j k)) :
    ∃ has h', SpEnds3O Q B kd R K has h' ∧ Q.Intact h' := by
  obtain ⟨keep, w, hK⟩ := hK (vIJ3 L X Bas nbas envCut omega i j k)
  obtain ⟨has, h', hr, _, _, F, _⟩ := sp3_runO (kd := kd) Q B W H hn hK hnT hl
  exact ⟨has, h', hr, intact3_of_frameZ W F⟩

/-- **C49**, three-centre integrals with an optimizer: the spinor integrals are the Cartesian integrals computed with the same optimizer,
transformed with the tables of the first two shells and the table of the spherical functions of the third. -/
theorem C49_three_centre_opt {kd : SpKind} {R : Rys2 α} {K : Consts α} (Q : Optim3 X L Bas nbas envCut omega)
    (A : CartMem3 X (basisCall3 Bas envCut omega i j k)) (WA : CallsWith3 Q A)
    (B : SpMem3 X (basisCall3 Bas envCut omega i j k) nT ki kj) (WB : SpCallsWith3 Q B) (H : InBasis3 Bas nbas i j k)
    (hn : X.nComp = SpKind.comps kd * nT) (hK : EvalAll3 R K L X (basisCall3 Bas envCut omega i j k)) (hnT : 1 ≤ nT)
    (hl : LOKsp3 (basisCall3 Bas envCut omega i j k)) :
    ∃ ra ha rb hb, CartEnds3O Q A R K ra ha ∧ SpEnds3O Q B kd R K rb hb ∧ Q.Intact hb ∧
      ∃ x : Nat → Nat → Nat → Nat → Nat → Nat → Nat → α,
        (∀ n ic jc kc a b c, n < X.nComp → ic < (Bas i).nctr → jc < (Bas j).nctr → kc < (Bas k).nctr →
          a < ncart (Bas i).l → b < ncart (Bas j).l → c < ncart (Bas k).l →
          A.elem ha n ic a jc b kc c = .val (x n ic a jc b kc c)) ∧
        (∀ n ic jc kc p q r, n < nT → ic < (Bas i).nctr → jc < (Bas j).nctr → kc < (Bas k).nctr →
          p < lenSpinorC2S ki (Bas i).l → q < lenSpinorC2S kj (Bas j).l → r < (Bas k).l*2+1 →
          B.Elem hb n ic p jc q kc r (spinor2 kd.si kd.ph ki kj (Bas i).l (Bas j).l (fun t a b =>
            Cx.ofR (∑ c ∈ Finset.range (ncart (Bas k).l), c2sCoef (Bas k).l r c * x (n * SpKind.comps kd + t) ic a jc b kc c)) p q)) := by
  obtain ⟨keep, w, hK⟩ := hK (vIJ3 L X Bas nbas envCut omega i j k)
  obtain ⟨ra, ha, r1, v1, _⟩ := opt3_cart Q A WA H (comps_pos1 hn hnT) hK
  obtain ⟨rb, hb, r2, v2, _, F, _⟩ := sp3_runO (kd := kd) Q B WB H hn hK hnT hl
  refine ⟨ra, ha, rb, hb, r1, r2, intact3_of_frameZ WB F, fun n ic a jc b kc c =>
    expected3 (tripleV R K L X (basisCall3 Bas envCut omega i j k) (vIJ3 L X Bas nbas envCut omega i j k)) keep w n ic jc kc
      (pos4c (ncar (Call3.ls (basisCall3 Bas envCut omega i j k))) a b c 0), ?_, ?_⟩
  · intro n ic jc kc a b c a1 a2 a3 a4 a6 a7 a8
    exact v1 n ic jc kc a b c a1 a2 a3 a4 a6 a7 a8
  · intro n ic jc kc p q r a1 a2 a3 a4 a6 a7 a8
    have h := v2 n ic jc kc p q r a1 a2 a3 a4 a6 a7 a8
    have e : ∀ a b c, pos4c (ncar (Call3.ls (basisCall3 Bas envCut omega i j k))) a b c 0 =
        (b*ncart (Bas k).l+c)*ncart (Bas i).l+a := by
      intro a b c
      show a + ncart (Bas i).l * (c + ncart (Bas k).l * (0 + ncart 0 * b)) = _
      rw [ncart_zero]
      ring
    simp only [e]
    exact h

/-- **C11**, three-centre integrals with spinor output: with and without the optimizer the same numbers are stored and, with the exception
of `C11_three_centre_cart`, the same value is returned. -/
theorem C11_three_centre_spinor {kd : SpKind} {R : Rys2 α} {K : Consts α} {keep : Nat → Nat → Nat → Bool}
    {w : Nat → Nat → Nat → Nat → α} (Q : Optim3 X L Bas nbas envCut omega)
    (A A' : SpMem3 X (basisCall3 Bas envCut omega i j k) nT ki kj) (W : SpCallsWith3 Q A') (H : InBasis3 Bas nbas i j k)
    (hn : X.nComp = SpKind.comps kd * nT) (hnT : 1 ≤ nT) (hb : BraInc X) (hs : SumNonzero Bas i j)
    (hK : EvalOK3V R K L X (basisCall3 Bas envCut omega i j k) (pairVal L ((basisCall3 Bas envCut omega i j k).pairArgs X)) keep w)
    (hl : LOKsp3 (basisCall3 Bas envCut omega i j k)) :
    ∃ ra ha rb hb, SpEnds3 A kd R K L ra ha ∧ SpEnds3O Q A' kd R K rb hb ∧
      (¬ (i = 0 ∧ j = 0 ∧ PairEmpty L ((basisCall3 Bas envCut omega i j k).pairArgs X)) → ra = rb) ∧
      ∀ n ic jc kc p q r, n < nT → ic < (Bas i).nctr → jc < (Bas j).nctr → kc < (Bas k).nctr →
        p < lenSpinorC2S ki (Bas i).l → q < lenSpinorC2S kj (Bas j).l → r < (Bas k).l*2+1 →
        ∃ z, A.Elem ha n ic p jc q kc r z ∧ A'.Elem hb n ic p jc q kc r z := by
  obtain ⟨ra, ha, e1, v1, _, _, r1⟩ := sp3_run (kd := kd) A hn hK.nopt hnT hl
  obtain ⟨rb, h2, e2, v2, _, _, r2⟩ := sp3_runO (kd := kd) Q A' W H hn (evalOK3_table hb hs hK) hnT hl
  refine ⟨ra, ha, rb, h2, e1, e2, ret3_table hb hs r1 r2, fun n ic jc kc p q r a1 a2 a3 a4 a5 a6 a7 =>
    ⟨_, v1 n ic jc kc p q r a1 a2 a3 a4 a5 a6 a7, ?_⟩⟩
  have h := v2 n ic jc kc p q r a1 a2 a3 a4 a5 a6 a7
  have e : expected3 (tripleV R K L X (basisCall3 Bas envCut omega i j k) (vIJ3 L X Bas nbas envCut omega i j k)) keep w =
      loopVal3 R K L X (basisCall3 Bas envCut omega i j k) keep w := by
    funext n ic jc kc m
    exact expected3_table hb hs _ _ _ _ _
  rw [e] at h
  exact h


/-- **C18**, three-centre calls with an optimizer and spinor output: when 0 is returned the block is zero; in any case every element of
the block is overwritten, no double outside the block and the cache changes, and the new contents do not depend on the contents of memory. -/
theorem C18_three_centre_opt_spinor {kd : SpKind} {R : Rys2 α} {K : Consts α} (Q : Optim3 X L Bas nbas envCut omega)
    (B : SpMem3 X (basisCall3 Bas envCut omega i j k) nT ki kj) (W : SpCallsWith3 Q B) (H : InBasis3 Bas nbas i j k)
    (hn : X.nComp = SpKind.comps kd * nT) (hK : EvalAll3 R K L X (basisCall3 Bas envCut omega i j k)) (hnT : 1 ≤ nT)
    (hl : LOKsp3 (basisCall3 Bas envCut omega i j k)) :
    ∃ v : Nat → α, ∀ B' : SpMem3 X (basisCall3 Bas envCut omega i j k) nT ki kj, SpCallsWith3 Q B' → B'.nd = B.nd →
      ∃ has h', SpEnds3O Q B' kd R K has h' ∧
        (∀ m, B.In (m/2) → h'.D (B'.out + m) = .val (v m)) ∧
        (has = false → ∀ m, B.In (m/2) → v m = 0) ∧
        (∀ q, q.buf ≠ B'.buf → (∀ m, B.In (m/2) → q ≠ B'.out + m) → h'.D q = B'.h.D q) := by
  obtain ⟨keep, w, hK⟩ := hK (vIJ3 L X Bas nbas envCut omega i j k)
  obtain ⟨r0, h0, _, v0, _⟩ := sp3_runO (kd := kd) Q B W H hn hK hnT hl
  refine ⟨fun m => match h0.D (B.out + m) with | .val x => x | _ => 0, fun B' W' hn' => ?_⟩
  obtain ⟨r1, h1, e1, v1, z1, f1, _⟩ := sp3_runO (kd := kd) Q B' W' H hn hK hnT hl
  rw [hn'] at v1 z1 f1
  have hv : ∀ m, B.In (m/2) → h1.D (B'.out + m) = .val (match h0.D (B.out + m) with | .val x => x | _ => 0) := by
    intro m hm
    obtain ⟨n, ic, jc, kc, lc, ia, ja, ka, x, a1, a2, a3, a4, a5, a6, a7, a8, a9, e⟩ := inBlock_digits B.hs.nf_pos hm
    have hx : lc * Call3.nsp (basisCall3 Bas envCut omega i j k) ki kj 3 + x = 0 := by
      have t0 : lc < 1 := a5
      have t1 : x < 1 := a9
      rw [show lc = 0 by omega, show x = 0 by omega, Nat.zero_mul]
    rw [hx] at e
    have b1 := v1 n ic jc kc ia ja ka a1 a2 a3 a4 a6 a7 a8
    have b0 := v0 n ic jc kc ia ja ka a1 a2 a3 a4 a6 a7 a8
    have e' : m/2 = outAt B.nd n (ic * lenSpinorC2S ki (basisCall3 Bas envCut omega i j k).si.l + ia) (jc * lenSpinorC2S kj (basisCall3 Bas envCut omega i j k).sj.l + ja)
      (kc * ((basisCall3 Bas envCut omega i j k).sk.l*2+1) + ka) 0 := e
    unfold HoldsC at b0 b1
    rw [← e'] at b0 b1
    rcases Nat.mod_two_eq_zero_or_one m with h2 | h2
    · rw [show m = 2*(m/2) by omega, b0.1, b1.1]
    · rw [show m = 2*(m/2)+1 by omega, b0.2, b1.2]
  refine ⟨r1, h1, e1, hv, fun hf m hm => ?_, f1.1⟩
  exact Cell.val.inj ((hv m hm).symm.trans (z1 hf m hm))
end


/-! ### Two centres -/
section
variable {X : Int2e α} {ki kk : Int} {Bas : Nat → PShell α} {nbas : Nat} {envCut omega : α} {i k : Nat}

/-- The call may use the optimizer: its arrays are intact, and the cache and local variables are elsewhere. -/
structure SpCallsWith2c {s : Call2c α} (Q : Optim2c X Bas nbas omega) (A : SpMem2c X s ki kk) : Prop where
  intact : Q.Intact A.h
  cache : Apart2c Q.P A.buf
  empty : Apart2c Q.P A.empty.buf
  fl : Apart2c Q.P A.fl.buf
  loc : Apart2c Q.P A.loc.buf
  counts : Apart2c Q.P A.counts.buf

/-- the call with the optimizer returns `has` and ends with memory `h'`; `ph` tells whether the output function multiplies with i -/
def SpEnds2cO (Q : Optim2c X Bas nbas omega) (A : SpMem2c X (basisCall2c Bas envCut omega i k) ki kk) (ph : Bool)
    (R : Rys2 α) (K : Consts α) (has : Bool) (h' : Heap α) : Prop :=
  run (drv2c2eSp X (basisCall2c Bas envCut omega i k) (fun gctr c => loop2c2eOpt X (basisCall2c Bas envCut omega i k) R K Q.O
      A.fpd gctr A.empty A.buf c A.fl) ⟨false, ph⟩
    A.tab ki kk A.fpd A.out A.dims A.buf 0 A.empty A.counts) A.h = some (has, h')

theorem sp2c_loopO {R : Rys2 α} {K : Consts α} {keep : Nat → Nat → Bool} {w : Nat → Nat → Nat → α}
    {Q : Optim2c X Bas nbas omega} {A : SpMem2c X (basisCall2c Bas envCut omega i k) ki kk} (W : SpCallsWith2c Q A)
    (H : InBasis2c Bas nbas i k) (hnc : 1 ≤ X.nComp) (hK : EvalOK2c R K X (basisCall2c Bas envCut omega i k) keep w) :
    wp (loop2c2eOpt X (basisCall2c Bas envCut omega i k) R K Q.O A.fpd ⟨A.buf, 0⟩ A.empty A.buf
      (A.fpd * (((basisCall2c Bas envCut omega i k).env X).nf * ((Bas i).nctr * (Bas k).nctr) * X.nComp)) A.fl)
      (Post2c K X (basisCall2c Bas envCut omega i k) keep w A.buf 0 A.empty A.fl A.loc (A.h.setI A.empty 1)) (A.h.setI A.empty 1) := by
  obtain ⟨hO, hix⟩ := optim2c_ok Q H.some_prim H.tall
  have eb : Q.O.ixbuf = Q.P.ixbuf := by rw [hO]
  have ea : Q.O.ixa = Q.P.ixa := by rw [hO]
  have nb : ∀ {b}, Apart2c Q.P b → b ≠ Q.O.ixbuf.buf ∧ b ≠ Q.O.ixa.buf := by
    intro b hb
    rw [eb, ea]
    unfold Apart2c at hb
    simp only [List.mem_cons, List.not_mem_nil, or_false, not_or] at hb
    exact ⟨hb.2.2.2.2.2, hb.2.2.2.2.1⟩
  refine drv2c2e_opt A.M A.hsize ?_ (nb W.cache).1 (nb W.empty).1 (nb W.fl).1 (nb W.empty).2 A.hs.nctr_pos hK hnc
  refine (hix i k H.hi H.hk).agree (W := fun q => Apart2c Q.P q.buf) (fun q hq => W.intact q hq) ?_
  intro q hq
  exact ⟨(nb hq).2, (nb hq).1⟩

def sp2c_runO {ph : Bool} {R : Rys2 α} {K : Consts α} {keep : Nat → Nat → Bool}
    {w : Nat → Nat → Nat → α} (Q : Optim2c X Bas nbas omega) (B : SpMem2c X (basisCall2c Bas envCut omega i k) ki kk)
    (W : SpCallsWith2c Q B) (H : InBasis2c Bas nbas i k) (hK : EvalOK2c R K X (basisCall2c Bas envCut omega i k) keep w) (hnc : 1 ≤ X.nComp)
    (hl : ∀ t, t < 4 → Call2c.ls (basisCall2c Bas envCut omega i k) t < 13) :=
  run_of_wp (drv2c2eSp_wp (kd := ⟨false, ph⟩) (loop := fun gctr c => loop2c2eOpt X (basisCall2c Bas envCut omega i k) R K Q.O
      B.fpd gctr B.empty B.buf c B.fl) B.M B.hsize (sp2c_loopO W H hnc hK) B.hs B.O B.T rfl (hl 0 (by omega)) (hl 1 (by omega)))

theorem intact2c_of_frameZ {s : Call2c α} {Q : Optim2c X Bas nbas omega} {A : SpMem2c X s ki kk} (W : SpCallsWith2c Q A) {h' : Heap α}
    {nd cnt : Nat → Nat} {n : Nat} (F : FrameZ A.h h' nd cnt n A.buf A.out A.empty A.fl A.loc A.counts) : Q.Intact h' := by
  intro q hq
  have ne : ∀ {b : Nat}, Apart2c Q.P b → q.buf ≠ b := fun hb e => hq (e ▸ hb)
  exact (F.2 q (ne W.cache) (ne W.empty) (ne W.fl) (ne W.loc) (ne W.counts)).trans (W.intact q hq)

/-- **C14**, two-centre integrals with an optimizer and spinor output: a cache of the queried size suffices, and the optimizer is left
as it was. -/
theorem C14_two_centre_opt_spinor {ph : Bool} {R : Rys2 α} {K : Consts α} {keep : Nat → Nat → Bool}
    {w : Nat → Nat → Nat → α} (Q : Optim2c X Bas nbas omega) (B : SpMem2c X (basisCall2c Bas envCut omega i k) ki kk)
    (W : SpCallsWith2c Q B) (H : InBasis2c Bas nbas i k) (hK : EvalOK2c R K X (basisCall2c Bas envCut omega i k) keep w) (hnc : 1 ≤ X.nComp)
    (hl : ∀ t, t < 4 → Call2c.ls (basisCall2c Bas envCut omega i k) t < 13) : ∃ has h', SpEnds2cO Q B ph R K has h' ∧ Q.Intact h' := by
  obtain ⟨rb, hb, r2, _, _, F, _⟩ := sp2c_runO (ph := ph) Q B W H hK hnc hl
  exact ⟨rb, hb, r2, intact2c_of_frameZ W F⟩

/-- **C11**, two-centre integrals with spinor output: with and without the optimizer the same value is returned and the same numbers
are stored, for every integral whose integrand evaluates correctly. -/
theorem C11_two_centre_spinor {ph : Bool} {R : Rys2 α} {K : Consts α} {keep : Nat → Nat → Bool}
    {w : Nat → Nat → Nat → α} (Q : Optim2c X Bas nbas omega) (A A' : SpMem2c X (basisCall2c Bas envCut omega i k) ki kk)
    (W : SpCallsWith2c Q A') (H : InBasis2c Bas nbas i k) (hK : EvalOK2c R K X (basisCall2c Bas envCut omega i k) keep w) (hnc : 1 ≤ X.nComp)
    (hl : ∀ t, t < 4 → Call2c.ls (basisCall2c Bas envCut omega i k) t < 13) :
    ∃ res ha hb, SpEnds2c A ph R K res ha ∧ SpEnds2cO Q A' ph R K res hb ∧
      ∀ n ic kc p r, n < X.nComp → ic < (Bas i).nctr → kc < (Bas k).nctr → p < lenSpinorC2S ki (Bas i).l → r < lenSpinorC2S kk (Bas k).l →
        ∃ z, A.Elem ha n ic p kc r z ∧ A'.Elem hb n ic p kc r z := by
  obtain ⟨ra, ha, e1, v1, _, _, r1⟩ := sp2c_run (ph := ph) A hK hnc hl
  obtain ⟨rb, hb, e2, v2, _, _, r2⟩ := sp2c_runO (ph := ph) Q A' W H hK hnc hl
  obtain rfl : ra = rb := Bool.eq_iff_iff.2 (r1.trans r2.symm)
  exact ⟨ra, ha, hb, e1, e2, fun n ic kc a c a1 a2 a3 a4 a5 => ⟨_, v1 n ic kc a c a1 a2 a3 a4 a5, v2 n ic kc a c a1 a2 a3 a4 a5⟩⟩


/-- **C18**, two-centre calls with an optimizer and spinor output: when 0 is returned the block is zero; in any case every element of the
block is overwritten, no double outside the block and the cache changes, and the new contents do not depend on the contents of memory. -/
theorem C18_two_centre_opt_spinor {ph : Bool} {R : Rys2 α} {K : Consts α} {keep : Nat → Nat → Bool}
    {w : Nat → Nat → Nat → α} (Q : Optim2c X Bas nbas omega) (B : SpMem2c X (basisCall2c Bas envCut omega i k) ki kk)
    (W : SpCallsWith2c Q B) (H : InBasis2c Bas nbas i k) (hK : EvalOK2c R K X (basisCall2c Bas envCut omega i k) keep w) (hnc : 1 ≤ X.nComp)
    (hl : ∀ t, t < 4 → Call2c.ls (basisCall2c Bas envCut omega i k) t < 13) :
    ∃ v : Nat → α, ∀ B' : SpMem2c X (basisCall2c Bas envCut omega i k) ki kk, SpCallsWith2c Q B' → B'.nd = B.nd →
      ∃ has h', SpEnds2cO Q B' ph R K has h' ∧
        (∀ m, B.In (m/2) → h'.D (B'.out + m) = .val (v m)) ∧
        (has = false → ∀ m, B.In (m/2) → v m = 0) ∧
        (∀ q, q.buf ≠ B'.buf → (∀ m, B.In (m/2) → q ≠ B'.out + m) → h'.D q = B'.h.D q) := by
  obtain ⟨r0, h0, _, v0, _⟩ := sp2c_runO (ph := ph) Q B W H hK hnc hl
  refine ⟨fun m => match h0.D (B.out + m) with | .val x => x | _ => 0, fun B' W' hn' => ?_⟩
  obtain ⟨r1, h1, e1, v1, z1, f1, _⟩ := sp2c_runO (ph := ph) Q B' W' H hK hnc hl
  rw [hn'] at v1 z1 f1
  have hv : ∀ m, B.In (m/2) → h1.D (B'.out + m) = .val (match h0.D (B.out + m) with | .val x => x | _ => 0) := by
    intro m hm
    obtain ⟨n, ic, jc, kc, lc, ia, ja, ka, x, a1, a2, a3, a4, a5, a6, a7, a8, a9, e⟩ := inBlock_digits B.hs.nf_pos hm
    have hk : kc * four (lenSpinorC2S ki (basisCall2c Bas envCut omega i k).si.l) (lenSpinorC2S kk (basisCall2c Bas envCut omega i k).sk.l) 1 1 2 + ka = 0 := by
      have t0 : kc < 1 := a4
      have t1 : ka < 1 := a8
      rw [show kc = 0 by omega, show ka = 0 by omega, Nat.zero_mul]
    have hx : lc * four (lenSpinorC2S ki (basisCall2c Bas envCut omega i k).si.l) (lenSpinorC2S kk (basisCall2c Bas envCut omega i k).sk.l) 1 1 3 + x = 0 := by
      have t0 : lc < 1 := a5
      have t1 : x < 1 := a9
      rw [show lc = 0 by omega, show x = 0 by omega, Nat.zero_mul]
    rw [hk, hx] at e
    have b1 := v1 n ic jc ia ja a1 a2 a3 a6 a7
    have b0 := v0 n ic jc ia ja a1 a2 a3 a6 a7
    have e' : m/2 = outAt B.nd n (ic * lenSpinorC2S ki (basisCall2c Bas envCut omega i k).si.l + ia) (jc * lenSpinorC2S kk (basisCall2c Bas envCut omega i k).sk.l + ja) 0 0 := e
    unfold HoldsC at b0 b1
    rw [← e'] at b0 b1
    rcases Nat.mod_two_eq_zero_or_one m with h2 | h2
    · rw [show m = 2*(m/2) by omega, b0.1, b1.1]
    · rw [show m = 2*(m/2)+1 by omega, b0.2, b1.2]
  refine ⟨r1, h1, e1, hv, fun hf m hm => ?_, f1.1⟩
  exact Cell.val.inj ((hv m hm).symm.trans (z1 hf m hm))


/-- **C18**, two-centre calls with an optimizer and Cartesian output: when 0 is returned the block is zero; in any case every element of the
block is overwritten, no double outside the block and the cache changes, and the new contents do not depend on the contents of memory. -/
theorem C18_two_centre_opt_cart {R : Rys2 α} {K : Consts α} {keep : Nat → Nat → Bool} {w : Nat → Nat → Nat → α}
    (Q : Optim2c X Bas nbas omega) (A : CartMem2c X (basisCall2c Bas envCut omega i k)) (W : CallsWith2c Q A)
    (H : InBasis2c Bas nbas i k) (hnc : 1 ≤ X.nComp) (hK : EvalOK2c R K X (basisCall2c Bas envCut omega i k) keep w) :
    ∃ v : Nat → α, ∀ A' : CartMem2c X (basisCall2c Bas envCut omega i k), CallsWith2c Q A' → A'.nd = A.nd →
      ∃ has h', CartEnds2cO Q A' R K has h' ∧
        (∀ m, InBlock A.nd (fun t => ncar (Call2c.ls (basisCall2c Bas envCut omega i k)) t * Call2c.nctrs (basisCall2c Bas envCut omega i k) t) X.nComp m → h'.D (A'.out + m) = .val (v m)) ∧
        (has = false → ∀ m, InBlock A.nd (fun t => ncar (Call2c.ls (basisCall2c Bas envCut omega i k)) t * Call2c.nctrs (basisCall2c Bas envCut omega i k) t) X.nComp m → v m = 0) ∧
        (∀ q, q.buf ≠ A'.buf → (∀ m, InBlock A.nd (fun t => ncar (Call2c.ls (basisCall2c Bas envCut omega i k)) t * Call2c.nctrs (basisCall2c Bas envCut omega i k) t) X.nComp m →
          q ≠ A'.out + m) → h'.D q = A'.h.D q) := by
  obtain ⟨r0, h0, _, v0, _⟩ := drv2c2eBy_cart (loop := fun g c => loop2c2eOpt X (basisCall2c Bas envCut omega i k) R K Q.O A.fpd g A.empty A.buf c A.fl)
    A.M (opt2c_loop W H hnc hK) A.hs A.O A.hd2
  refine ⟨fun m => match h0.D (A.out + m) with | .val x => x | _ => 0, fun B W2 hn => ?_⟩
  obtain ⟨r1, h1, e1, v1, z1, f1, _⟩ := drv2c2eBy_cart (loop := fun g c => loop2c2eOpt X (basisCall2c Bas envCut omega i k) R K Q.O B.fpd g B.empty B.buf c B.fl)
    B.M (opt2c_loop W2 H hnc hK) B.hs B.O B.hd2
  rw [hn] at v1 z1 f1
  have hv : ∀ m, InBlock A.nd (fun t => ncar (Call2c.ls (basisCall2c Bas envCut omega i k)) t * Call2c.nctrs (basisCall2c Bas envCut omega i k) t) X.nComp m →
      h1.D (B.out + m) = .val (match h0.D (A.out + m) with | .val x => x | _ => 0) := by
    intro m hm
    obtain ⟨n, ic, jc, kc, lc, ia, ja, ka, x, a1, a2, a3, a4, a5, a6, a7, a8, a9, rfl⟩ := inBlock_digits A.hs.nf_pos hm
    obtain ⟨t1, t2, _⟩ := A.hs.trivial 3 (by omega) (by omega)
    obtain ⟨t3, t4, _⟩ := A.hs.trivial 2 (by omega) (by omega)
    rw [t2] at a5
    rw [t1] at a9
    rw [t4] at a4
    rw [t3] at a8
    obtain rfl : lc = 0 := by omega
    obtain rfl : x = 0 := by omega
    obtain rfl : kc = 0 := by omega
    obtain rfl : ka = 0 := by omega
    rw [Nat.zero_mul, Nat.zero_mul]
    have b0 := v0 n ic jc ia ja a1 a2 a3 a6 a7
    have b1 := v1 n ic jc ia ja a1 a2 a3 a6 a7
    refine b1.trans ?_
    have e : h0.D (A.out + outAt A.nd n (ic * ncar (Call2c.ls (basisCall2c Bas envCut omega i k)) 0 + ia) (jc * ncar (Call2c.ls (basisCall2c Bas envCut omega i k)) 1 + ja)
      (0 + 0) (0 + 0)) = _ := b0
    rw [e]
  refine ⟨r1, h1, e1, hv, fun hf m hm => ?_, f1.1⟩
  exact Cell.val.inj ((hv m hm).symm.trans (z1 hf m hm))


/-- **C18**, two-centre calls with an optimizer and spherical output: when 0 is returned the block is zero; in any case every element of the
block is overwritten, no double outside the block and the cache changes, and the new contents do not depend on the contents of memory. -/
theorem C18_two_centre_opt_sph {R : Rys2 α} {K : Consts α} {keep : Nat → Nat → Bool} {w : Nat → Nat → Nat → α}
    (Q : Optim2c X Bas nbas omega) (A : SphMem2c X (basisCall2c Bas envCut omega i k)) (W : CallsWith2c Q A.toMem2c)
    (H : InBasis2c Bas nbas i k) (hnc : 1 ≤ X.nComp) (hK : EvalOK2c R K X (basisCall2c Bas envCut omega i k) keep w) :
    ∃ v : Nat → α, ∀ A' : SphMem2c X (basisCall2c Bas envCut omega i k), CallsWith2c Q A'.toMem2c → A'.nd = A.nd →
      ∃ has h', SphEnds2cO Q A' R K has h' ∧
        (∀ m, InBlock A.nd (fun t => nsph (Call2c.ls (basisCall2c Bas envCut omega i k)) t * Call2c.nctrs (basisCall2c Bas envCut omega i k) t) X.nComp m → h'.D (A'.out + m) = .val (v m)) ∧
        (has = false → ∀ m, InBlock A.nd (fun t => nsph (Call2c.ls (basisCall2c Bas envCut omega i k)) t * Call2c.nctrs (basisCall2c Bas envCut omega i k) t) X.nComp m → v m = 0) ∧
        (∀ q, q.buf ≠ A'.buf → (∀ m, InBlock A.nd (fun t => nsph (Call2c.ls (basisCall2c Bas envCut omega i k)) t * Call2c.nctrs (basisCall2c Bas envCut omega i k) t) X.nComp m →
          q ≠ A'.out + m) → h'.D q = A'.h.D q) := by
  obtain ⟨r0, h0, _, v0, _⟩ := drv2c2eBy_sph (loop := fun g c => loop2c2eOpt X (basisCall2c Bas envCut omega i k) R K Q.O A.fpd g A.empty A.buf c A.fl)
    A.M (opt2c_loop W H hnc hK) A.hsize A.hs A.O A.hd2 A.hT A.htb A.hto (H.ls envCut omega)
  refine ⟨fun m => match h0.D (A.out + m) with | .val x => x | _ => 0, fun B W2 hn => ?_⟩
  obtain ⟨r1, h1, e1, v1, z1, f1, _⟩ := drv2c2eBy_sph (loop := fun g c => loop2c2eOpt X (basisCall2c Bas envCut omega i k) R K Q.O B.fpd g B.empty B.buf c B.fl)
    B.M (opt2c_loop W2 H hnc hK) B.hsize B.hs B.O B.hd2 B.hT B.htb B.hto (H.ls envCut omega)
  rw [hn] at v1 z1 f1
  have hv : ∀ m, InBlock A.nd (fun t => nsph (Call2c.ls (basisCall2c Bas envCut omega i k)) t * Call2c.nctrs (basisCall2c Bas envCut omega i k) t) X.nComp m →
      h1.D (B.out + m) = .val (match h0.D (A.out + m) with | .val x => x | _ => 0) := by
    intro m hm
    obtain ⟨n, ic, jc, kc, lc, ia, ja, ka, x, a1, a2, a3, a4, a5, a6, a7, a8, a9, rfl⟩ := inBlock_digits A.hs.nf_pos hm
    obtain ⟨t1, t2, _⟩ := A.hs.trivial 3 (by omega) (by omega)
    obtain ⟨t3, t4, _⟩ := A.hs.trivial 2 (by omega) (by omega)
    rw [t2] at a5
    rw [t1] at a9
    rw [t4] at a4
    rw [t3] at a8
    obtain rfl : lc = 0 := by omega
    obtain rfl : x = 0 := by omega
    obtain rfl : kc = 0 := by omega
    obtain rfl : ka = 0 := by omega
    rw [Nat.zero_mul, Nat.zero_mul]
    have b0 := v0 n ic jc ia ja a1 a2 a3 a6 a7
    have b1 := v1 n ic jc ia ja a1 a2 a3 a6 a7
    refine b1.trans ?_
    have e : h0.D (A.out + outAt A.nd n (ic * nsph (Call2c.ls (basisCall2c Bas envCut omega i k)) 0 + ia) (jc * nsph (Call2c.ls (basisCall2c Bas envCut omega i k)) 1 + ja)
      (0 + 0) (0 + 0)) = _ := b0
    rw [e]
  refine ⟨r1, h1, e1, hv, fun hf m hm => ?_, f1.1⟩
  exact Cell.val.inj ((hv m hm).symm.trans (z1 hf m hm))

end
end

/-! ### The hypotheses can be met -/
namespace SpinorOptDemo
open OvlpDemo SphDemo EriDemo Eri3Demo SpinorDemo SpinorEriDemo SpinorEri3Demo OptDemo Opt3Demo Opt2cDemo

/-- memory with an optimizer's arrays as the constructor left them and the tables of the transformations -/
noncomputable def besideS (h1 : Heap ℝ) : Heap ℝ where
  D q := if q.buf < 20 then memJS.D q else h1.D q
  I q := if q.buf < 20 then .undef else h1.I q

theorem memJS_nn (q : Ptr) : memJS.D q ≠ .oob := by
  by_cases h : q.buf = 11
  · unfold memJS
    dsimp only
    rw [if_pos h]
    exact memR_ne
  · exact memJS_ne q h

theorem besideS_D {h1 : Heap ℝ} {q : Ptr} (h : q.buf < 20) : (besideS h1).D q ≠ .oob := by
  rw [show (besideS h1).D q = memJS.D q from if_pos h]; exact memJS_nn q
theorem besideS_I {h1 : Heap ℝ} {q : Ptr} (h : q.buf < 20) : (besideS h1).I q ≠ .oob := by
  rw [show (besideS h1).I q = .undef from if_pos h]; simp
theorem besideS_eq {h1 : Heap ℝ} {q : Ptr} (h : q.buf < 20) : (besideS h1).D q = memJS.D q := if_pos h

theorem tabBS (h1 : Heap ℝ) : HoldsJ (besideS h1) ⟨9, 0⟩ ⟨10, 0⟩ := by
  intro l hl r hr x hx
  obtain ⟨a, b⟩ := tabJS l hl r hr x hx
  exact ⟨(besideS_eq (by show 9 < 20; omega)).trans a, (besideS_eq (by show 10 < 20; omega)).trans b⟩

theorem tabBR (h1 : Heap ℝ) : HoldsTab (besideS h1) ⟨11, 0⟩ := fun l hl x hx =>
  (besideS_eq (by show 11 < 20; omega)).trans (tabS l hl x hx)

/-- p with both j, d with j = 5/2 and real f functions -/
noncomputable def spO3 (o : ℝ) (h1 : Heap ℝ) : SpMem3 eriInt (basisCall3 basis3 0 o 0 1 2) 1 0 (-3) where
  fpd := 1
  buf := 0
  size := cacheSize3c2eSp eriInt (call3 o)
  empty := ⟨4, 0⟩
  fl := ⟨1, 0⟩
  loc := ⟨2, 0⟩
  counts := ⟨3, 0⟩
  out := ⟨5, 7⟩
  dims := none
  nd := fun t => Call3.nsp (call3 o) 0 (-3) t * Call3.nctrs (call3 o) t
  h := besideS h1
  tab := ⟨⟨9, 0⟩, ⟨10, 0⟩⟩
  sph := ⟨11, 0⟩
  hs := (spMem3 o).hs
  M := ⟨by omega, fun k _ => besideS_D (by show 0 < 20; omega), fun k _ => besideS_I (by show 0 < 20; omega),
    besideS_I (by show 4 < 20; omega), fun k _ => besideS_I (by show 1 < 20; omega),
    fun k _ => besideS_I (by show 2 < 20; omega), fun k _ => besideS_I (by show 3 < 20; omega),
    by decide, by decide, by decide, by decide, by decide⟩
  hsize := le_refl _
  O := { h_dims := fun t _ => rfl
         h_dims2 := fun d hd => nomatch hd
         h_dbuf := fun d hd => nomatch hd
         h_out := fun m _ => besideS_D (by show 5 < 20; omega)
         h_obuf := by decide }
  T := ⟨⟨tabBS h1, by decide, by decide, by decide, by decide⟩, tabBR h1, by decide, by decide⟩

theorem callsSp3 {o : ℝ} (Q : Optim3 eriInt lib basis3 3 0 o) (hP : Q.P = ptrs) : SpCallsWith3 Q (spO3 o Q.h1) := by
  have a : ∀ b, b < 20 → Apart Q.P b := fun b hb => by rw [hP]; exact apart_lt hb
  refine ⟨?_, a 0 (by omega), a 5 (by omega), a 4 (by omega), a 1 (by omega), a 2 (by omega), a 3 (by omega),
    fun e => absurd (show 1 = 2 from e) (by omega)⟩
  intro q hq
  have : ¬ q.buf < 20 := fun h => hq (by rw [hP]; exact apart_lt h)
  exact ⟨if_neg this, if_neg this⟩

/-- long-range three-centre integrals with and without the optimizer; the pair (0, 1) is none of the exceptions -/
example : ∃ (Q : Optim3 eriInt lib basis3 3 0 (1/3)) (A A' : SpMem3 eriInt (basisCall3 basis3 0 (1/3) 0 1 2) 1 0 (-3)),
    SpCallsWith3 Q A' ∧ ∃ R res ha hb, SpEnds3 A ⟨false, false⟩ R realK lib res ha ∧ SpEnds3O Q A' ⟨false, false⟩ R realK res hb := by
  obtain ⟨Q, hP⟩ := opt3 (1/3)
  obtain ⟨R, hR⟩ := exists_rys2
  obtain ⟨ra, ha, rb, hb, e1, e2, e3, _⟩ := C11_three_centre_spinor (i := 0) (j := 1) (k := 2) (kd := ⟨false, false⟩) (R := R) (K := realK) Q
    (SpinorEri3Demo.spMem3 (1/3)) (spO3 (1/3) Q.h1) (callsSp3 Q hP) basis3_in rfl (le_refl 1) (le_refl _)
    (fun ip jp a b => ((posExp3 (1/3)).ij ip jp a b).ne') (eri_eval3V (L := lib) (s := call3 (1/3)) (posExp3 _) (hR _) _) (ls3 (1/3))
  obtain rfl := e3 (fun x => absurd x.2.1 (by omega))
  exact ⟨Q, _, _, callsSp3 Q hP, R, ra, ha, hb, e1, e2⟩

/-- the Cartesian integrals with the same optimizer -/
example : ∃ (Q : Optim3 eriInt lib basis3 3 0 (-1/2)) (R : Rys2 ℝ) (ra : Bool) (ha : Heap ℝ) (rb : Bool) (hb : Heap ℝ),
    CartEnds3O Q (cart3O Q (basisCall3 basis3 0 (-1/2) 0 1 2) (ctr_pos3 (-1/2))) R realK ra ha ∧
    SpEnds3O Q (spO3 (-1/2) Q.h1) ⟨false, false⟩ R realK rb hb ∧ Q.Intact hb := by
  obtain ⟨Q, hP⟩ := opt3 (-1/2)
  obtain ⟨R, hR⟩ := exists_rys2
  obtain ⟨ra, ha, rb, hb, e1, e2, e3, _⟩ := C49_three_centre_opt (kd := ⟨false, false⟩) (R := R) (K := realK) Q
    (cart3O Q (basisCall3 basis3 0 (-1/2) 0 1 2) (ctr_pos3 (-1/2))) (calls3Cart Q hP _ _) (spO3 (-1/2) Q.h1) (callsSp3 Q hP) basis3_in rfl
    (fun V => ⟨_, _, eri_eval3V (posExp3 (-1/2)) (hR _) V⟩) (le_refl 1) (ls3 (-1/2))
  exact ⟨Q, R, ra, ha, rb, hb, e1, e2, e3⟩

/-- p with both j and f with j = 5/2 -/
noncomputable def spO2c (o : ℝ) (h1 : Heap ℝ) : SpMem2c eriInt (basisCall2c basis2c 0 o 0 1) 0 3 where
  fpd := 1
  buf := 0
  size := cacheSize2c2e eriInt (Eri2cDemo.call2c o)
  empty := ⟨4, 0⟩
  fl := ⟨1, 0⟩
  loc := ⟨2, 0⟩
  counts := ⟨3, 0⟩
  out := ⟨5, 7⟩
  dims := none
  nd := fun t => four (lenSpinorC2S 0 1) (lenSpinorC2S 3 3) 1 1 t * Call2c.nctrs (Eri2cDemo.call2c o) t
  h := besideS h1
  tab := ⟨⟨9, 0⟩, ⟨10, 0⟩⟩
  hs := (spMem2c o).hs
  M := ⟨by omega, fun k _ => besideS_D (by show 0 < 20; omega), fun k _ => besideS_I (by show 0 < 20; omega),
    besideS_I (by show 4 < 20; omega), fun k _ => besideS_I (by show 1 < 20; omega),
    fun k _ => besideS_I (by show 2 < 20; omega), fun k _ => besideS_I (by show 3 < 20; omega),
    by decide, by decide, by decide, by decide, by decide⟩
  hsize := le_refl _
  O := { h_dims := fun t _ => rfl
         h_dims2 := fun d hd => nomatch hd
         h_dbuf := fun d hd => nomatch hd
         h_out := fun m _ => besideS_D (by show 5 < 20; omega)
         h_obuf := by decide }
  T := ⟨tabBS h1, by decide, by decide, by decide, by decide⟩

theorem callsSp2c {o : ℝ} (Q : Optim2c eriInt basis2c 2 o) (hP : Q.P = ptrs) : SpCallsWith2c Q (spO2c o Q.h1) := by
  have a : ∀ b, b < 20 → Apart2c Q.P b := fun b hb => by rw [hP]; exact apart_lt2c hb
  refine ⟨?_, a 0 (by omega), a 4 (by omega), a 1 (by omega), a 2 (by omega), a 3 (by omega)⟩
  intro q hq
  exact if_neg (fun h => hq (by rw [hP]; exact apart_lt2c h))

/-- short-range two-centre integrals with and without the optimizer -/
example : ∃ (Q : Optim2c eriInt basis2c 2 (-1/2)) (A A' : SpMem2c eriInt (basisCall2c basis2c 0 (-1/2) 0 1) 0 3),
    SpCallsWith2c Q A' ∧ ∃ R res ha hb, SpEnds2c A false R realK res ha ∧ SpEnds2cO Q A' false R realK res hb ∧
      ∃ z, A.Elem ha 0 1 3 1 5 z ∧ A'.Elem hb 0 1 3 1 5 z := by
  obtain ⟨Q, hP⟩ := opt2c (-1/2)
  obtain ⟨R, hR⟩ := exists_rys2
  obtain ⟨res, ha, hb, e1, e2, e3⟩ := C11_two_centre_spinor (envCut := 0) (i := 0) (k := 1) (ph := false) (R := R) (K := realK) Q (spMem2c (-1/2)) (spO2c (-1/2) Q.h1)
    (callsSp2c Q hP) basis2c_in (eri_eval2c (s := Eri2cDemo.call2c (-1/2)) (Eri2cDemo.posExp2c _) (hR _)) (le_refl 1) (ls2c (-1/2))
  exact ⟨Q, _, _, callsSp2c Q hP, R, res, ha, hb, e1, e2, e3 0 1 1 3 5 Nat.zero_lt_one (by show 1 < 2; omega) (by show 1 < 2; omega)
    (by show 3 < lenSpinorC2S 0 1; decide) (by show 5 < lenSpinorC2S 3 3; decide)⟩

end SpinorOptDemo

end Verif.Props
