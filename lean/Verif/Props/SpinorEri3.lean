import Verif.Lemmas.DrvSp2
import Verif.Props.SpinorEri
import Verif.Props.Eri2c

/-!
C49 — three- and two-centre integrals between spinors: the Cartesian integrals transformed by the tables, integrals over
two-component functions.
C14, C16, C18 for spinor output of three- and two-centre integrals.
-/
namespace Verif.Props
open Verif Verif.Model Verif.Prog Verif.Lemmas Verif.Spec MeasureTheory

section
variable {α : Type} [Field α] [LinearOrder α]

/-- Where and with what memory a three-centre integral with spinor output is called; `nT` tensor components, `ki`, `kj` the kappa of the
first two shells; the third shell has real spherical functions.  The tables of the spinor transformation are stored at `tab`, that
of the spherical transformation at `sph`.  The cache has at least the queried size. -/
structure SpMem3 (X : Int2e α) (s : Call3 α) (nT : Nat) (ki kj : Int) where
  fpd : Nat
  buf : Nat
  size : Nat
  empty : Ptr
  fl : Ptr
  loc : Ptr
  counts : Ptr
  out : Ptr
  dims : Option Ptr
  nd : Nat → Nat
  h : Heap α
  tab : JTab
  sph : Ptr
  hs : Sizes 3 (Call3.nsp s ki kj) (Call3.nctrs s) nd
  M : CallMem3 h fpd buf size empty fl loc counts
  hsize : cacheSize3c2eSp X s ≤ size
  O : OutArgZ2 3 h nd (fun t => Call3.nsp s ki kj t * Call3.nctrs s t) nT out dims buf empty fl loc counts
  T : TabArg3 h tab sph buf out

section
variable {X : Int2e α} {s : Call3 α} {nT : Nat} {ki kj : Int}

/-- elements of the block -/
def SpMem3.In (A : SpMem3 X s nT ki kj) (m : Nat) : Prop :=
  InBlock A.nd (fun t => Call3.nsp s ki kj t * Call3.nctrs s t) nT m

/-- the output array holds the complex number `z` for component `n`, function `i` of contraction `ic` of the first shell and so on -/
def SpMem3.Elem (A : SpMem3 X s nT ki kj) (h' : Heap α) (n ic i jc j kc k : Nat) (z : Cx α) : Prop :=
  HoldsC h' A.out (outAt A.nd n (ic*lenSpinorC2S ki s.si.l+i) (jc*lenSpinorC2S kj s.sj.l+j) (kc*(s.sk.l*2+1)+k) 0) z

/-- the call with output function `kd` and no optimizer returns `has` and ends with memory `h'` -/
def SpEnds3 (A : SpMem3 X s nT ki kj) (kd : SpKind) (R : Rys2 α) (K : Consts α) (L : MathLib α) (has : Bool) (h' : Heap α) : Prop :=
  run (drv3c2eSp X s (fun gctr c => loop3c2eRun X s R K L A.fpd gctr A.empty A.buf c A.fl A.loc) (SpKind.comps kd) nT kd
    A.sph A.tab ki kj A.fpd A.out A.dims A.buf 0 A.empty A.counts) A.h = some (has, h')

theorem cacheSize3c2e_le_sp : cacheSize3c2e X s ≤ cacheSize3c2eSp X s := by
  unfold cacheSize3c2e cacheSize3c2eSp
  dsimp only
  refine max_le_max (le_refl _) ?_
  omega

theorem comps_pos1 {kd : SpKind} {X : Int2e α} (hn : X.nComp = SpKind.comps kd * nT) (hnT : 1 ≤ nT) : 1 ≤ X.nComp := by
  rw [hn]; exact Nat.mul_pos (one_le_comps kd) hnT

/-- the heights of the shells for which the tables exist -/
structure LOKsp3 (s : Call3 α) : Prop where
  i : s.si.l < 13
  j : s.sj.l < 13
  k : s.sk.l < 16

theorem LOKsp3.all (H : LOKsp3 s) : ∀ t, t < 4 → Call3.ls s t ≤ 15 := by
  intro t ht
  match t, ht with
  | 0, _ => exact le_trans (le_of_lt H.i) (by omega)
  | 1, _ => exact le_trans (le_of_lt H.j) (by omega)
  | 2, _ => exact Nat.le_of_lt_succ H.k
  | 3, _ => exact Nat.zero_le _

def sp3_run {kd : SpKind} {R : Rys2 α} {K : Consts α} {L : MathLib α} {keep : Nat → Nat → Nat → Bool}
    {w : Nat → Nat → Nat → Nat → α} (B : SpMem3 X s nT ki kj) (hn : X.nComp = SpKind.comps kd * nT)
    (hK : EvalOK3 R K L X s keep w) (hnT : 1 ≤ nT) (hl : LOKsp3 s) :=
  run_of_wp (drv3c2eSp_wp (kd := kd) (loop := fun gctr c => loop3c2eRun X s R K L B.fpd gctr B.empty B.buf c B.fl B.loc) B.M B.hsize
    (drv3c2e_nopt B.M (le_trans cacheSize3c2e_le_sp B.hsize) B.hs.nctr_pos hK (comps_pos1 hn hnT) hl.all)
    B.hs B.O B.T hn hl.i hl.j hl.k)

/-- **C49**, three-centre integrals: for every integral whose integrand evaluates correctly, the spinor integrals are the Cartesian
integrals transformed with the tables of the first two shells and the table of the spherical functions of the third. -/
theorem C49_three_centre {kd : SpKind} {R : Rys2 α} {K : Consts α} {L : MathLib α} {keep : Nat → Nat → Nat → Bool}
    {w : Nat → Nat → Nat → Nat → α} (A : CartMem3 X s) (B : SpMem3 X s nT ki kj) (hn : X.nComp = SpKind.comps kd * nT)
    (hK : EvalOK3 R K L X s keep w) (hnT : 1 ≤ nT) (hl : LOKsp3 s) :
    ∃ ra ha rb hb, CartEnds3 A R K L ra ha ∧ SpEnds3 B kd R K L rb hb ∧
      ∃ x : Nat → Nat → Nat → Nat → Nat → Nat → Nat → α,
        (∀ n ic jc kc a b c, n < X.nComp → ic < s.si.nctr → jc < s.sj.nctr → kc < s.sk.nctr →
          a < ncart s.si.l → b < ncart s.sj.l → c < ncart s.sk.l →
          A.elem ha n ic a jc b kc c = .val (x n ic a jc b kc c)) ∧
        (∀ n ic jc kc i j k, n < nT → ic < s.si.nctr → jc < s.sj.nctr → kc < s.sk.nctr →
          i < lenSpinorC2S ki s.si.l → j < lenSpinorC2S kj s.sj.l → k < s.sk.l*2+1 →
          B.Elem hb n ic i jc j kc k (spinor2 kd.si kd.ph ki kj s.si.l s.sj.l (fun t a b =>
            Cx.ofR (∑ c ∈ Finset.range (ncart s.sk.l), c2sCoef s.sk.l k c * x (n * SpKind.comps kd + t) ic a jc b kc c)) i j)) := by
  obtain ⟨ra, ha, r1, v1, _⟩ := drv3c2e_cart A.M A.hsize A.hs A.O hK (comps_pos1 hn hnT) hl.all
  obtain ⟨rb, hb, r2, v2, _⟩ := sp3_run B hn hK hnT hl
  refine ⟨ra, ha, rb, hb, r1, r2, fun n ic a jc b kc c =>
    loopVal3 R K L X s keep w n ic jc kc (pos4c (ncar (Call3.ls s)) a b c 0), ?_, ?_⟩
  · intro n ic jc kc a b c a1 a2 a3 a4 a6 a7 a8
    exact v1 n ic jc kc a b c a1 a2 a3 a4 a6 a7 a8
  · intro n ic jc kc i j k a1 a2 a3 a4 a6 a7 a8
    have h := v2 n ic jc kc i j k a1 a2 a3 a4 a6 a7 a8
    have e : ∀ a b c, pos4c (ncar (Call3.ls s)) a b c 0 = (b*ncart s.sk.l+c)*ncart s.si.l+a := by
      intro a b c
      show a + ncart s.si.l * (c + ncart s.sk.l * (0 + ncart 0 * b)) = _
      rw [ncart_zero]
      ring
    simp only [e]
    exact h

/-- **C16**, three-centre integrals with spinor output: with a cache of (at least) the queried size the call completes without
undefined behaviour, whatever the cache and the output array contain. -/
theorem C16_3c2e_spinor {kd : SpKind} {R : Rys2 α} {K : Consts α} {L : MathLib α} {keep : Nat → Nat → Nat → Bool}
    {w : Nat → Nat → Nat → Nat → α} (B : SpMem3 X s nT ki kj) (hn : X.nComp = SpKind.comps kd * nT)
    (hK : EvalOK3 R K L X s keep w) (hnT : 1 ≤ nT) (hl : LOKsp3 s) : ∃ has h', SpEnds3 B kd R K L has h' := by
  obtain ⟨rb, hb, r2, _⟩ := sp3_run B hn hK hnT hl
  exact ⟨rb, hb, r2⟩

/-- **C18**, three-centre calls with spinor output: when 0 is returned the block is zero; in any case every element of the block is
overwritten, no double outside the block and the cache changes, and the new contents do not depend on the contents of memory. -/
theorem C18_three_centre_spinor {kd : SpKind} {R : Rys2 α} {K : Consts α} {L : MathLib α} {keep : Nat → Nat → Nat → Bool}
    {w : Nat → Nat → Nat → Nat → α} (B : SpMem3 X s nT ki kj) (hn : X.nComp = SpKind.comps kd * nT)
    (hK : EvalOK3 R K L X s keep w) (hnT : 1 ≤ nT) (hl : LOKsp3 s) :
    ∃ v : Nat → α, ∀ B' : SpMem3 X s nT ki kj, B'.nd = B.nd →
      ∃ has h', SpEnds3 B' kd R K L has h' ∧
        (∀ m, B.In (m/2) → h'.D (B'.out + m) = .val (v m)) ∧
        (has = false → ∀ m, B.In (m/2) → v m = 0) ∧
        (∀ q, q.buf ≠ B'.buf → (∀ m, B.In (m/2) → q ≠ B'.out + m) → h'.D q = B'.h.D q) := by
  obtain ⟨r0, h0, _, v0, _⟩ := sp3_run B hn hK hnT hl
  refine ⟨fun m => match h0.D (B.out + m) with | .val x => x | _ => 0, fun B' hn' => ?_⟩
  obtain ⟨r1, h1, e1, v1, z1, f1, _⟩ := sp3_run B' hn hK hnT hl
  rw [hn'] at v1 z1 f1
  have hv : ∀ m, B.In (m/2) → h1.D (B'.out + m) = .val (match h0.D (B.out + m) with | .val x => x | _ => 0) := by
    intro m hm
    obtain ⟨n, ic, jc, kc, lc, i, j, k, x, a1, a2, a3, a4, a5, a6, a7, a8, a9, e⟩ := inBlock_digits B.hs.nf_pos hm
    have hx : lc * Call3.nsp s ki kj 3 + x = 0 := by
      have t0 : lc < 1 := a5
      have t1 : x < 1 := a9
      rw [show lc = 0 by omega, show x = 0 by omega, Nat.zero_mul]
    rw [hx] at e
    have b1 := v1 n ic jc kc i j k a1 a2 a3 a4 a6 a7 a8
    have b0 := v0 n ic jc kc i j k a1 a2 a3 a4 a6 a7 a8
    have e' : m/2 = outAt B.nd n (ic * lenSpinorC2S ki s.si.l + i) (jc * lenSpinorC2S kj s.sj.l + j)
      (kc * (s.sk.l*2+1) + k) 0 := e
    unfold HoldsC at b0 b1
    rw [← e'] at b0 b1
    rcases Nat.mod_two_eq_zero_or_one m with h2 | h2
    · rw [show m = 2*(m/2) by omega, b0.1, b1.1]
    · rw [show m = 2*(m/2)+1 by omega, b0.2, b1.2]
  refine ⟨r1, h1, e1, hv, fun hf m hm => ?_, f1.1⟩
  exact Cell.val.inj ((hv m hm).symm.trans (z1 hf m hm))
end

/-- Where and with what memory a two-centre integral with spinor output is called; `ki`, `kk` the kappa of the shells, `tab` where the
transformation tables are stored.  The cache has at least the queried size. -/
structure SpMem2c (X : Int2e α) (s : Call2c α) (ki kk : Int) where
  fpd : Nat
  buf : Nat
  size : Nat
  empty : Ptr
  fl : Ptr
  loc : Ptr
  counts : Ptr
  out : Ptr
  dims : Option Ptr
  nd : Nat → Nat
  h : Heap α
  tab : JTab
  hs : Sizes 2 (four (lenSpinorC2S ki s.si.l) (lenSpinorC2S kk s.sk.l) 1 1) (Call2c.nctrs s) nd
  M : CallMem3 h fpd buf size empty fl loc counts
  hsize : cacheSize2c2e X s ≤ size
  O : OutArgZ2 2 h nd (fun t => four (lenSpinorC2S ki s.si.l) (lenSpinorC2S kk s.sk.l) 1 1 t * Call2c.nctrs s t) X.nComp out dims
    buf empty fl loc counts
  T : TabArg h tab buf out

section
variable {X : Int2e α} {s : Call2c α} {ki kk : Int}

/-- elements of the block -/
def SpMem2c.In (A : SpMem2c X s ki kk) (m : Nat) : Prop :=
  InBlock A.nd (fun t => four (lenSpinorC2S ki s.si.l) (lenSpinorC2S kk s.sk.l) 1 1 t * Call2c.nctrs s t) X.nComp m

/-- the output array holds the complex number `z` for component `n`, function `i` of contraction `ic` of the first shell and so on -/
def SpMem2c.Elem (A : SpMem2c X s ki kk) (h' : Heap α) (n ic i kc k : Nat) (z : Cx α) : Prop :=
  HoldsC h' A.out (outAt A.nd n (ic*lenSpinorC2S ki s.si.l+i) (kc*lenSpinorC2S kk s.sk.l+k) 0 0) z

/-- the call without optimizer returns `has` and ends with memory `h'`; `ph` tells whether the output function multiplies with i -/
def SpEnds2c (A : SpMem2c X s ki kk) (ph : Bool) (R : Rys2 α) (K : Consts α) (has : Bool) (h' : Heap α) : Prop :=
  run (drv2c2eSp X s (fun gctr c => loop2c2eRun X s R K A.fpd gctr A.empty A.buf c A.fl A.loc) ⟨false, ph⟩
    A.tab ki kk A.fpd A.out A.dims A.buf 0 A.empty A.counts) A.h = some (has, h')

def sp2c_run {ph : Bool} {R : Rys2 α} {K : Consts α} {keep : Nat → Nat → Bool}
    {w : Nat → Nat → Nat → α} (B : SpMem2c X s ki kk) (hK : EvalOK2c R K X s keep w) (hnc : 1 ≤ X.nComp)
    (hl : ∀ t, t < 4 → Call2c.ls s t < 13) :=
  run_of_wp (drv2c2eSp_wp (kd := ⟨false, ph⟩) (loop := fun gctr c => loop2c2eRun X s R K B.fpd gctr B.empty B.buf c B.fl B.loc)
    B.M B.hsize (drv2c2e_nopt B.M B.hsize B.hs.nctr_pos hK hnc (fun t ht => le_trans (le_of_lt (hl t ht)) (by omega)))
    B.hs B.O B.T rfl (hl 0 (by omega)) (hl 1 (by omega)))

/-- **C49**, two-centre integrals: for every integral whose integrand evaluates correctly, the spinor integrals are the Cartesian
integrals transformed with the tables of the two shells. -/
theorem C49_two_centre {ph : Bool} {R : Rys2 α} {K : Consts α} {keep : Nat → Nat → Bool}
    {w : Nat → Nat → Nat → α} (A : CartMem2c X s) (B : SpMem2c X s ki kk) (hK : EvalOK2c R K X s keep w) (hnc : 1 ≤ X.nComp)
    (hl : ∀ t, t < 4 → Call2c.ls s t < 13) :
    ∃ ra ha rb hb, CartEnds2c A R K ra ha ∧ SpEnds2c B ph R K rb hb ∧
      ∃ x : Nat → Nat → Nat → Nat → Nat → α,
        (∀ n ic kc a c, n < X.nComp → ic < s.si.nctr → kc < s.sk.nctr → a < ncart s.si.l → c < ncart s.sk.l →
          A.elem ha n ic a kc c = .val (x n ic a kc c)) ∧
        (∀ n ic kc i k, n < X.nComp → ic < s.si.nctr → kc < s.sk.nctr → i < lenSpinorC2S ki s.si.l → k < lenSpinorC2S kk s.sk.l →
          B.Elem hb n ic i kc k (spinor2 false ph ki kk s.si.l s.sk.l (fun t a c => Cx.ofR (x (n + t) ic a kc c)) i k)) := by
  have h15 : ∀ t, t < 4 → Call2c.ls s t ≤ 15 := fun t ht => le_trans (le_of_lt (hl t ht)) (by omega)
  obtain ⟨ra, ha, r1, v1, _⟩ := drv2c2e_cart A.M A.hsize A.hs A.O A.hd2 hK hnc h15
  obtain ⟨rb, hb, r2, v2, _⟩ := sp2c_run (ph := ph) B hK hnc hl
  refine ⟨ra, ha, rb, hb, r1, r2, fun n ic a kc c =>
    loopVal2c K X s keep w n ic kc (pos4c (ncar (Call2c.ls s)) a c 0 0), ?_, ?_⟩
  · intro n ic kc a c a1 a2 a3 a4 a6
    exact v1 n ic kc a c a1 a2 a3 a4 a6
  · intro n ic kc i k a1 a2 a3 a4 a6
    have h := v2 n ic kc i k a1 a2 a3 a4 a6
    have e : ∀ a c, pos4c (ncar (Call2c.ls s)) a c 0 0 = c*ncart s.si.l+a := by
      intro a c
      show a + ncart s.si.l * (0 + ncart 0 * (0 + ncart 0 * c)) = _
      rw [ncart_zero]
      ring
    simp only [e]
    exact h

/-- **C14**, two-centre integrals with spinor output: with a cache of (at least) the queried size the call completes without undefined
behaviour, whatever the cache and the output array contain. -/
theorem C14_two_centre_spinor {ph : Bool} {R : Rys2 α} {K : Consts α} {keep : Nat → Nat → Bool}
    {w : Nat → Nat → Nat → α} (B : SpMem2c X s ki kk) (hK : EvalOK2c R K X s keep w) (hnc : 1 ≤ X.nComp)
    (hl : ∀ t, t < 4 → Call2c.ls s t < 13) : ∃ has h', SpEnds2c B ph R K has h' := by
  obtain ⟨rb, hb, r2, _⟩ := sp2c_run (ph := ph) B hK hnc hl
  exact ⟨rb, hb, r2⟩

/-- **C18**, two-centre calls with spinor output: when 0 is returned the block is zero; in any case every element of the block is
overwritten, no double outside the block and the cache changes, and the new contents do not depend on the contents of memory. -/
theorem C18_two_centre_spinor {ph : Bool} {R : Rys2 α} {K : Consts α} {keep : Nat → Nat → Bool}
    {w : Nat → Nat → Nat → α} (B : SpMem2c X s ki kk) (hK : EvalOK2c R K X s keep w) (hnc : 1 ≤ X.nComp)
    (hl : ∀ t, t < 4 → Call2c.ls s t < 13) :
    ∃ v : Nat → α, ∀ B' : SpMem2c X s ki kk, B'.nd = B.nd →
      ∃ has h', SpEnds2c B' ph R K has h' ∧
        (∀ m, B.In (m/2) → h'.D (B'.out + m) = .val (v m)) ∧
        (has = false → ∀ m, B.In (m/2) → v m = 0) ∧
        (∀ q, q.buf ≠ B'.buf → (∀ m, B.In (m/2) → q ≠ B'.out + m) → h'.D q = B'.h.D q) := by
  obtain ⟨r0, h0, _, v0, _⟩ := sp2c_run (ph := ph) B hK hnc hl
  refine ⟨fun m => match h0.D (B.out + m) with | .val x => x | _ => 0, fun B' hn' => ?_⟩
  obtain ⟨r1, h1, e1, v1, z1, f1, _⟩ := sp2c_run (ph := ph) B' hK hnc hl
  rw [hn'] at v1 z1 f1
  have hv : ∀ m, B.In (m/2) → h1.D (B'.out + m) = .val (match h0.D (B.out + m) with | .val x => x | _ => 0) := by
    intro m hm
    obtain ⟨n, ic, jc, kc, lc, i, j, k, x, a1, a2, a3, a4, a5, a6, a7, a8, a9, e⟩ := inBlock_digits B.hs.nf_pos hm
    have hk : kc * four (lenSpinorC2S ki s.si.l) (lenSpinorC2S kk s.sk.l) 1 1 2 + k = 0 := by
      have t0 : kc < 1 := a4
      have t1 : k < 1 := a8
      rw [show kc = 0 by omega, show k = 0 by omega, Nat.zero_mul]
    have hx : lc * four (lenSpinorC2S ki s.si.l) (lenSpinorC2S kk s.sk.l) 1 1 3 + x = 0 := by
      have t0 : lc < 1 := a5
      have t1 : x < 1 := a9
      rw [show lc = 0 by omega, show x = 0 by omega, Nat.zero_mul]
    rw [hk, hx] at e
    have b1 := v1 n ic jc i j a1 a2 a3 a6 a7
    have b0 := v0 n ic jc i j a1 a2 a3 a6 a7
    have e' : m/2 = outAt B.nd n (ic * lenSpinorC2S ki s.si.l + i) (jc * lenSpinorC2S kk s.sk.l + j) 0 0 := e
    unfold HoldsC at b0 b1
    rw [← e'] at b0 b1
    rcases Nat.mod_two_eq_zero_or_one m with h2 | h2
    · rw [show m = 2*(m/2) by omega, b0.1, b1.1]
    · rw [show m = 2*(m/2)+1 by omega, b0.2, b1.2]
  refine ⟨r1, h1, e1, hv, fun hf m hm => ?_, f1.1⟩
  exact Cell.val.inj ((hv m hm).symm.trans (z1 hf m hm))
end
end

/-! ### Values -/

theorem ofReal_sgto (t : PShell ℝ) (ic i : Nat) (r : Fin 3 → ℝ) : (sgto t ic i r : ℂ) =
    ∑ a ∈ Finset.range (ncart t.l), ((spNorm t.l * c2sCoef t.l i a : ℝ) : ℂ) * (cfun t ic a r : ℂ) := by
  rw [sgto_eq]
  push_cast
  rfl

/-- **C49** int3c2e_spinor, no primitive screened: exactly the repulsion between the charge distribution of the two-component functions
of the first two shells and the real spherical function of the third. -/
theorem C49_three_centre_eri {L : MathLib ℝ} {s : Call3 ℝ} {R : Rys2 ℝ} {ki kj : Int} (B : SpMem3 eriInt s 1 ki kj)
    (hL : L.exp = Real.exp) (hkept : AllKept3 L s) (hp : PosExp3 s) (hR : RootsOK3 R s) (hl : LOKsp3 s) :
    ∃ has h', SpEnds3 B ⟨false, false⟩ R realK L has h' ∧
      ∀ ic jc kc i j k, ic < s.si.nctr → jc < s.sj.nctr → kc < s.sk.nctr →
        i < lenSpinorC2S ki s.si.l → j < lenSpinorC2S kj s.sj.l → k < s.sk.l*2+1 →
        ∃ z : Cx ℝ, B.Elem h' 0 ic i jc j kc k z ∧
          z.toC = repulsionC (interaction s.omega) (fun r => ∑ σ : Bool, star (jgto s.si ki ic i σ r) * jgto s.sj kj jc j σ r)
            (fun r => (sgto s.sk kc k r : ℂ)) := by
  let A := blankMem3 eriInt s B.hs.nctr_pos
  obtain ⟨ra, ha, rb, hb, eA, eB, x, vA, vB⟩ := C49_three_centre (kd := ⟨false, false⟩) A B rfl
    (eri_eval3 (L := L) hp hR) (le_refl 1) hl
  obtain ⟨rc, hc, eC, vC⟩ := C45_three_centre_exact (R := R) A hL hkept hp hR hl.all
  have hAC : ha = hc := by
    have e : some (ra, ha) = some (rc, hc) := eA.symm.trans eC
    simp only [Option.some.injEq, Prod.mk.injEq] at e
    exact e.2
  refine ⟨rb, hb, eB, fun ic jc kc i j k a2 a3 a4 a6 a7 a8 => ⟨_, vB 0 ic jc kc i j k Nat.zero_lt_one a2 a3 a4 a6 a7 a8, ?_⟩⟩
  have e1 : density s.si s.sj ki kj ic jc i j = _ := funext fun r => density_eq s.si s.sj ki kj ic jc i j r
  have e2 : (fun r => (sgto s.sk kc k r : ℂ)) = _ := funext fun r => ofReal_sgto s.sk kc k r
  show _ = repulsionC (interaction s.omega) (density s.si s.sj ki kj ic jc i j) (fun r => (sgto s.sk kc k r : ℂ))
  rw [e1, e2, repulsionC_sum _ _ _ _ (fun a _ b _ => (repulsion_cfun3 hp s.omega ic jc kc a.1 a.2 b).1), toC_sf]
  refine Finset.sum_congr rfl fun p hp' => ?_
  rw [Finset.mem_product, Finset.mem_range, Finset.mem_range] at hp'
  rw [toC_ofR]
  push_cast
  rw [Finset.mul_sum]
  refine Finset.sum_congr rfl fun c hc' => ?_
  rw [Finset.mem_range] at hc'
  have c1 := vA 0 ic jc kc p.1 p.2 c Nat.zero_lt_one a2 a3 a4 hp'.1 hp'.2 hc'
  have c2 := vC ic jc kc p.1 p.2 c a2 a3 a4 hp'.1 hp'.2 hc'
  rw [← hAC] at c2
  have c3 := Cell.val.inj (c1.symm.trans c2)
  show _ * (_ * ((x 0 ic p.1 jc p.2 kc c : ℝ) : ℂ)) = _
  rw [c3]
  unfold dcoef
  push_cast
  ring

/-- **C49** int2c2e_spinor, no primitive screened: for each spin the repulsion between the complex conjugate of the component of the first
function and that of the second, summed over spin. -/
theorem C49_two_centre_eri {s : Call2c ℝ} {R : Rys2 ℝ} {ki kk : Int} (B : SpMem2c eriInt s ki kk)
    (hkept : AllKept2c s) (hp : PosExp2c s) (hR : RootsOK2c R s) (h13 : ∀ t, t < 4 → Call2c.ls s t < 13) :
    ∃ has h', SpEnds2c B false R realK has h' ∧
      ∀ ic kc i k, ic < s.si.nctr → kc < s.sk.nctr → i < lenSpinorC2S ki s.si.l → k < lenSpinorC2S kk s.sk.l →
        ∃ z : Cx ℝ, B.Elem h' 0 ic i kc k z ∧
          z.toC = ∑ σ : Bool, repulsionC (interaction s.omega) (fun r => star (jgto s.si ki ic i σ r)) (jgto s.sk kk kc k σ) := by
  let A := blankMem2c eriInt s B.hs.nctr_pos
  have h15 : LOK2c s := fun t ht => le_trans (le_of_lt (h13 t ht)) (by omega)
  obtain ⟨ra, ha, rb, hb, eA, eB, x, vA, vB⟩ := C49_two_centre (ph := false) A B (eri_eval2c hp hR) (le_refl 1) h13
  obtain ⟨rc, hc, eC, vC⟩ := C46_two_centre_exact (R := R) A hkept hp hR h15
  have hAC : ha = hc := by
    have e : some (ra, ha) = some (rc, hc) := eA.symm.trans eC
    simp only [Option.some.injEq, Prod.mk.injEq] at e
    exact e.2
  refine ⟨rb, hb, eB, fun ic kc i k a2 a3 a4 a6 => ⟨_, vB 0 ic kc i k Nat.zero_lt_one a2 a3 a4 a6, ?_⟩⟩
  have e1 : ∀ σ, (fun r => star (jgto s.si ki ic i σ r)) = fun r => ∑ a ∈ Finset.range (ncart s.si.l),
      (star (cjCoef ki s.si.l i σ a : Cx ℝ).toC * (spNorm s.si.l : ℂ)) * (cfun s.si ic a r : ℂ) := by
    intro σ
    funext r
    unfold jgto cfun
    rw [star_sum]
    refine Finset.sum_congr rfl fun a _ => ?_
    simp only [star_mul, Complex.star_def, Complex.conj_ofReal]
    ring
  have e2 : ∀ σ, jgto s.sk kk kc k σ = fun r => ∑ a ∈ Finset.range (ncart s.sk.l),
      ((cjCoef kk s.sk.l k σ a : Cx ℝ).toC * (spNorm s.sk.l : ℂ)) * (cfun s.sk kc a r : ℂ) := by
    intro σ
    funext r
    unfold jgto cfun
    refine Finset.sum_congr rfl fun a _ => ?_
    ring
  have e3 : ∀ σ, repulsionC (interaction s.omega) (fun r => star (jgto s.si ki ic i σ r)) (jgto s.sk kk kc k σ) =
      ∑ a ∈ Finset.range (ncart s.si.l), ∑ b ∈ Finset.range (ncart s.sk.l),
        (star (cjCoef ki s.si.l i σ a : Cx ℝ).toC * (spNorm s.si.l : ℂ)) * ((cjCoef kk s.sk.l k σ b : Cx ℝ).toC * (spNorm s.sk.l : ℂ)) *
          (repulsion (interaction s.omega) (cfun s.si ic a) (cfun s.sk kc b) : ℂ) := fun σ => by
    rw [e1, e2]
    exact repulsionC_sum _ _ _ _ (fun a _ b _ => (repulsion_cfun2c hp s.omega ic kc a b).1)
  simp only [e3]
  rw [toC_sf, Finset.sum_product]
  refine Eq.symm ?_
  rw [Finset.sum_comm]
  refine Finset.sum_congr rfl fun a ha' => ?_
  rw [Finset.sum_comm]
  refine Finset.sum_congr rfl fun b hb' => ?_
  rw [Finset.mem_range] at ha' hb'
  have c1 := vA 0 ic kc a b Nat.zero_lt_one a2 a3 ha' hb'
  have c2 := vC ic kc a b a2 a3 ha' hb'
  rw [← hAC] at c2
  have c3 := Cell.val.inj (c1.symm.trans c2)
  rw [toC_ofR]
  show _ = _ * ((x 0 ic a kc b : ℝ) : ℂ)
  rw [c3, Finset.sum_mul]
  refine Finset.sum_congr rfl fun σ _ => ?_
  push_cast
  ring

namespace SpinorEri3Demo
open OvlpDemo SphDemo EriDemo Eri3Demo SpinorDemo SpinorEriDemo

/-- the tables of the spinor transformation in buffers 9 and 10, that of the spherical transformation in buffer 11 -/
noncomputable def memJS : Heap ℝ where
  D q := if q.buf = 11 then memR.D ⟨9, q.off⟩ else memJ.D q
  I _ := .undef

theorem memJS_ne (q : Ptr) (h : q.buf ≠ 11) : memJS.D q ≠ .oob := by
  unfold memJS
  dsimp only
  rw [if_neg h]
  exact memJ_ne q

theorem memJS_J (q : Ptr) (h : q.buf ≠ 11) : memJS.D q = memJ.D q := if_neg h

theorem memJS_R (o : Nat) : memJS.D ⟨11, o⟩ = memR.D ⟨9, o⟩ := by
  show (if (11:Nat) = 11 then memR.D ⟨9, o⟩ else memJ.D ⟨11, o⟩) = _
  rw [if_pos rfl]

theorem tabJS : HoldsJ memJS ⟨9, 0⟩ ⟨10, 0⟩ := by
  intro l hl r hr x hx
  obtain ⟨h1, h2⟩ := tabJ l hl r hr x hx
  constructor
  · rw [← h1]
    exact memJS_J _ (by show 9 ≠ 11; omega)
  · rw [← h2]
    exact memJS_J _ (by show 10 ≠ 11; omega)

theorem tabS : HoldsTab memJS ⟨11, 0⟩ := by
  intro l hl x hx
  rw [← tabR l hl x hx]
  exact memJS_R _

theorem ls3 (o : ℝ) : LOKsp3 (call3 o) := ⟨by show 1 < 13; omega, by show 2 < 13; omega, by show 3 < 16; omega⟩

/-- p with both j, d with j = 5/2 and real f functions -/
noncomputable def spMem3 (o : ℝ) : SpMem3 eriInt (call3 o) 1 0 (-3) where
  fpd := 1
  buf := 0
  size := cacheSize3c2eSp eriInt (call3 o)
  empty := ⟨4, 0⟩
  fl := ⟨1, 0⟩
  loc := ⟨2, 0⟩
  counts := ⟨3, 0⟩
  out := ⟨5, 7⟩
  dims := none
  nd := fun t => Call3.nsp (call3 o) 0 (-3) t * Call3.nctrs (call3 o) t
  h := memJS
  tab := ⟨⟨9, 0⟩, ⟨10, 0⟩⟩
  sph := ⟨11, 0⟩
  hs := ⟨Or.inr (Or.inl rfl), by show ∀ t, t < 4 → 0 < four (lenSpinorC2S 0 1) (lenSpinorC2S (-3) 2) 7 1 t; decide,
    fun t ht => ctr_pos3 o t ht, fun t a b => by
      obtain rfl : t = 3 := by omega
      exact ⟨rfl, rfl, rfl⟩, fun t _ => le_refl _⟩
  M := ⟨by omega, fun k _ => memJS_ne _ (by show 0 ≠ 11; omega), fun k _ => by simp [memJS], by simp [memJS],
    fun k _ => by simp [memJS], fun k _ => by simp [memJS], fun k _ => by simp [memJS],
    by decide, by decide, by decide, by decide, by decide⟩
  hsize := le_refl _
  O := { h_dims := fun t _ => rfl
         h_dims2 := fun d hd => nomatch hd
         h_dbuf := fun d hd => nomatch hd
         h_out := fun m _ => memJS_ne _ (by show 5 ≠ 11; omega)
         h_obuf := by decide }
  T := ⟨⟨tabJS, by decide, by decide, by decide, by decide⟩, tabS, by decide, by decide⟩

/-- the short-range integral of the second contraction of the fourth p function, the last d function and the fifth f function -/
example : ∃ R has h', SpEnds3 (spMem3 (-1/2)) ⟨false, false⟩ R realK lib has h' ∧
    ∃ z : Cx ℝ, (spMem3 (-1/2)).Elem h' 0 1 3 0 5 1 4 z ∧
      z.toC = repulsionC (interaction (-1/2))
        (fun r => ∑ σ : Bool, star (jgto (call3 (-1/2)).si 0 1 3 σ r) * jgto (call3 (-1/2)).sj (-3) 0 5 σ r)
        (fun r => (sgto (call3 (-1/2)).sk 1 4 r : ℂ)) := by
  obtain ⟨R, hR⟩ := exists_rys2
  obtain ⟨has, h', h1, h2⟩ := C49_three_centre_eri (L := lib) (R := R) (spMem3 (-1/2)) rfl (allKept3 _) (posExp3 _) (hR _) (ls3 _)
  exact ⟨R, has, h', h1, h2 1 0 1 3 5 4 (by show 1 < 2; omega) (by show 0 < 2; omega) (by show 1 < 2; omega)
    (by show 3 < lenSpinorC2S 0 1; decide) (by show 5 < lenSpinorC2S (-3) 2; decide) (by show 4 < 7; omega)⟩

theorem ls2c (o : ℝ) : ∀ t, t < 4 → Call2c.ls (Eri2cDemo.call2c o) t < 13 := by
  show ∀ t, t < 4 → four 1 3 0 0 t < 13
  decide

/-- p with both j and f with j = 5/2 -/
noncomputable def spMem2c (o : ℝ) : SpMem2c eriInt (Eri2cDemo.call2c o) 0 3 where
  fpd := 1
  buf := 0
  size := cacheSize2c2e eriInt (Eri2cDemo.call2c o)
  empty := ⟨4, 0⟩
  fl := ⟨1, 0⟩
  loc := ⟨2, 0⟩
  counts := ⟨3, 0⟩
  out := ⟨5, 7⟩
  dims := none
  nd := fun t => four (lenSpinorC2S 0 1) (lenSpinorC2S 3 3) 1 1 t * Call2c.nctrs (Eri2cDemo.call2c o) t
  h := memJS
  tab := ⟨⟨9, 0⟩, ⟨10, 0⟩⟩
  hs := ⟨Or.inl rfl, by show ∀ t, t < 4 → 0 < four (lenSpinorC2S 0 1) (lenSpinorC2S 3 3) 1 1 t; decide,
    fun t ht => Eri2cDemo.ctr_pos2c o t ht, fun t a b => by
      obtain rfl | rfl : t = 2 ∨ t = 3 := by omega
      · exact ⟨rfl, rfl, rfl⟩
      · exact ⟨rfl, rfl, rfl⟩, fun t _ => le_refl _⟩
  M := ⟨by omega, fun k _ => memJS_ne _ (by show 0 ≠ 11; omega), fun k _ => by simp [memJS], by simp [memJS],
    fun k _ => by simp [memJS], fun k _ => by simp [memJS], fun k _ => by simp [memJS],
    by decide, by decide, by decide, by decide, by decide⟩
  hsize := le_refl _
  O := { h_dims := fun t _ => rfl
         h_dims2 := fun d hd => nomatch hd
         h_dbuf := fun d hd => nomatch hd
         h_out := fun m _ => memJS_ne _ (by show 5 ≠ 11; omega)
         h_obuf := by decide }
  T := ⟨tabJS, by decide, by decide, by decide, by decide⟩

/-- the short-range integral of the second contraction of the fourth p function and the last f function -/
example : ∃ R has h', SpEnds2c (spMem2c (-1/2)) false R realK has h' ∧
    ∃ z : Cx ℝ, (spMem2c (-1/2)).Elem h' 0 1 3 1 5 z ∧
      z.toC = ∑ σ : Bool, repulsionC (interaction (-1/2)) (fun r => star (jgto (Eri2cDemo.call2c (-1/2)).si 0 1 3 σ r))
        (jgto (Eri2cDemo.call2c (-1/2)).sk 3 1 5 σ) := by
  obtain ⟨R, hR⟩ := exists_rys2
  obtain ⟨has, h', h1, h2⟩ := C49_two_centre_eri (R := R) (spMem2c (-1/2)) (Eri2cDemo.allKept2c _) (Eri2cDemo.posExp2c _) (hR _) (ls2c _)
  exact ⟨R, has, h', h1, h2 1 1 3 5 (by show 1 < 2; omega) (by show 1 < 2; omega)
    (by show 3 < lenSpinorC2S 0 1; decide) (by show 5 < lenSpinorC2S 3 3; decide)⟩

end SpinorEri3Demo

end Verif.Props
