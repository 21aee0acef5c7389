import Verif.Props.Breit

/-!
C61 — the values of the integrals of src/breit.c.
-/
namespace Verif.Props
open Verif Verif.Model Verif.Prog Verif.Lemmas Verif.Spec MeasureTheory Verif.Model.Breit

/-! ### The functions and the operators -/

/-- the operators: `σ₁ · σ₂ / r₁₂` and both parts of the gauge term, each with `σ · p` on one function of each electron -/
def breitDefs : List (String × Def2e × Def2e × Def2e) := [
  ("ssp1ssp2", EriDefs.ssp1ssp2, { EriDefs.ssp1ssp2 with inter := .gauge1 }, { EriDefs.ssp1ssp2 with inter := .gauge2 }),
  ("ssp1sps2", EriDefs.ssp1sps2, { EriDefs.ssp1sps2 with inter := .gauge1 }, { EriDefs.ssp1sps2 with inter := .gauge2 }),
  ("sps1ssp2", EriDefs.sps1ssp2, { EriDefs.sps1ssp2 with inter := .gauge1 }, { EriDefs.sps1ssp2 with inter := .gauge2 }),
  ("sps1sps2", EriDefs.sps1sps2, { EriDefs.sps1sps2 with inter := .gauge1 }, { EriDefs.sps1sps2 with inter := .gauge2 })]

/-- **C61** the functions called by int2e_breit_X_spinor are int2e_X_spinor, int2e_gauge_r1_X_spinor and int2e_gauge_r2_X_spinor -/
theorem C61_wrappers {x : String} {Gg G1 G2 : Gen2e} (hx : (x, Gg, G1, G2) ∈ kinds) :
    (wrap ("int2e_" ++ x) ∈ Auto.spinor2e ∧ ("int2e_" ++ x, Gg) ∈ Auto2e.all2e) ∧
    (wrap ("int2e_gauge_r1_" ++ x) ∈ Auto.spinor2e ∧ ("int2e_gauge_r1_" ++ x, G1) ∈ Auto2e.all2e) ∧
    (wrap ("int2e_gauge_r2_" ++ x) ∈ Auto.spinor2e ∧ ("int2e_gauge_r2_" ++ x, G2) ∈ Auto2e.all2e) := by
  simp only [kinds, List.mem_cons, List.not_mem_nil, or_false, Prod.mk.injEq] at hx
  rcases hx with ⟨rfl, rfl, rfl, rfl⟩ | ⟨rfl, rfl, rfl, rfl⟩ | ⟨rfl, rfl, rfl, rfl⟩ | ⟨rfl, rfl, rfl, rfl⟩ <;>
    exact ⟨⟨by unfold Auto.spinor2e wrap; simp, by unfold Auto2e.all2e; simp⟩, ⟨by unfold Auto.spinor2e wrap; simp, by unfold Auto2e.all2e; simp⟩,
      by unfold Auto.spinor2e wrap; simp, by unfold Auto2e.all2e; simp⟩

theorem breit_defs {x : String} {Dg D1 D2 : Def2e} (hx : (x, Dg, D1, D2) ∈ breitDefs) :
    ("int2e_" ++ x, Dg) ∈ defs2e ∧ ("int2e_gauge_r1_" ++ x, D1) ∈ defs2e ∧ ("int2e_gauge_r2_" ++ x, D2) ∈ defs2e := by
  simp only [breitDefs, List.mem_cons, List.not_mem_nil, or_false, Prod.mk.injEq] at hx
  rcases hx with ⟨rfl, rfl, rfl, rfl⟩ | ⟨rfl, rfl, rfl, rfl⟩ | ⟨rfl, rfl, rfl, rfl⟩ | ⟨rfl, rfl, rfl, rfl⟩ <;>
    refine ⟨?_, ?_, ?_⟩ <;> unfold defs2e <;>
    simp [EriDefs.gauge_r1_ssp1ssp2, EriDefs.gauge_r1_ssp1sps2, EriDefs.gauge_r1_sps1ssp2, EriDefs.gauge_r1_sps1sps2,
      EriDefs.gauge_r2_ssp1ssp2, EriDefs.gauge_r2_ssp1sps2, EriDefs.gauge_r2_sps1ssp2, EriDefs.gauge_r2_sps1sps2]

/-! ### The size of the cache -/

theorem dims_eq (a b : Nat) : dimA a b * dimB a b = (a + b + 1) * (min a b + 1) := by
  unfold dimA dimB
  split
  · rw [min_eq_right (by omega)]
  · rw [min_eq_left (by omega), mul_comm]

theorem dims_mono {a b a' b' : Nat} (h1 : a ≤ a') (h2 : b ≤ b') : dimA a b * dimB a b ≤ dimA a' b' * dimB a' b' := by
  rw [dims_eq, dims_eq]
  exact Nat.mul_le_mul (by omega) (by omega)

/-- the number of roots of a short-range integral is not monotone in the angular momenta (6 for order 3, 4 for order 4), but the factor for
the derivatives makes up for it -/
theorem roots_le (sr : Bool) {o o' : Nat} (h : o ≤ o') {c c' : Nat} (hc : 2 * c ≤ c') : srRoots sr o * c ≤ srRoots sr o' * c' := by
  have h1 : srRoots sr o ≤ 2 * o := by unfold srRoots; split <;> omega
  have h2 : o' ≤ srRoots sr o' := by unfold srRoots; split <;> omega
  calc srRoots sr o * c ≤ 2 * o * c := Nat.mul_le_mul_right _ h1
    _ = o * (2 * c) := by ring
    _ ≤ srRoots sr o' * c' := Nat.mul_le_mul (le_trans h h2) hc

theorem cache_le {α : Type} [Field α] [LinearOrder α] {X Y : Int2e α} (s : Call2 α) (e2 : Nat) (ki kj : Int) (hi : X.ng.i ≤ Y.ng.i)
    (hj : X.ng.j ≤ Y.ng.j) (hk : X.ng.k ≤ Y.ng.k) (hl : X.ng.l ≤ Y.ng.l) (hg : X.gbits + 2 ≤ Y.gbits) (hn : X.nComp = Y.nComp) :
    cacheSize2eSp X s e2 ki kj ≤ cacheSize2eSp Y s e2 ki kj := by
  have hc : 2 * (2^X.gbits + 1) ≤ 2^Y.gbits + 1 := by
    have h1 : 2^(X.gbits + 2) ≤ 2^Y.gbits := Nat.pow_le_pow_right (by omega) hg
    have h2 : 1 ≤ 2^X.gbits := Nat.one_le_two_pow
    rw [pow_add] at h1
    omega
  have hlen : s.leng X ≤ s.leng Y := by
    unfold Call2.leng Call2.env initInt2e
    dsimp only
    have hr := roots_le (decide (s.omega < 0)) (o := (s.si.l + X.ng.i + (s.sj.l + X.ng.j) + (s.sk.l + X.ng.k) + (s.sl.l + X.ng.l)) / 2 + 1)
      (o' := (s.si.l + Y.ng.i + (s.sj.l + Y.ng.j) + (s.sk.l + Y.ng.k) + (s.sl.l + Y.ng.l)) / 2 + 1) (by omega) hc
    have h1 := dims_mono (a := s.si.l + X.ng.i) (b := s.sj.l + X.ng.j) (a' := s.si.l + Y.ng.i) (b' := s.sj.l + Y.ng.j) (by omega) (by omega)
    have h2 := dims_mono (a := s.sk.l + X.ng.k) (b := s.sl.l + X.ng.l) (a' := s.sk.l + Y.ng.k) (b' := s.sl.l + Y.ng.l) (by omega) (by omega)
    have e : ∀ n a b c d m : Nat, n * a * c * d * b * 3 * m = (n * m) * (a * b) * (c * d) * 3 := by intros; ring
    rw [e, e]
    exact Nat.mul_le_mul_right _ (Nat.mul_le_mul (Nat.mul_le_mul hr h1) h2)
  have hnf : (s.env X).nf = (s.env Y).nf := rfl
  unfold cacheSize2eSp
  dsimp only
  rw [hn, hnf]
  exact max_le_max (by omega) (le_refl _)

/-- **C61** the size of the cache asked for, that of the gauge term alone, is enough for the Gaunt term -/
theorem C61_cache {x : String} {Gg G1 G2 : Gen2e} (hx : (x, Gg, G1, G2) ∈ kinds) (O : Nat → ℝ) (s : Call2 ℝ) (ki kj : Int) :
    cacheSize2eSp ((spGen Gg).int O) s 4 ki kj ≤ breitCacheSize ((spGen G1).int O) ((spGen G2).int O) s 4 ki kj := by
  refine le_trans ?_ (le_max_left _ _)
  have h : Gg.ng.i ≤ G1.ng.i ∧ Gg.ng.j ≤ G1.ng.j ∧ Gg.ng.k ≤ G1.ng.k ∧ Gg.ng.l ≤ G1.ng.l ∧ Gg.gbits + 2 ≤ G1.gbits ∧ Gg.nComp = G1.nComp := by
    simp only [kinds, List.mem_cons, List.not_mem_nil, or_false, Prod.mk.injEq] at hx
    rcases hx with ⟨rfl, rfl, rfl, rfl⟩ | ⟨rfl, rfl, rfl, rfl⟩ | ⟨rfl, rfl, rfl, rfl⟩ | ⟨rfl, rfl, rfl, rfl⟩ <;> decide
  exact cache_le s 4 ki kj h.1 h.2.1 h.2.2.1 h.2.2.2.1 h.2.2.2.2.1 h.2.2.2.2.2

/-! ### The values -/

/-- the integral of the operator `D` over two-component functions: component `i` of contraction `ic` of the first shell and so on; `σ`, `τ` are
the spins of the functions of the first electron, `σ'`, `τ'` of the second -/
noncomputable def spinInt2 (D : Def2e) (O : Nat → ℝ) (s : Call2 ℝ) (kap : Nat → Int) (ic jc kc lc i j k l : Nat) : ℂ :=
  ((D.spinNum : ℂ) / (D.den : ℂ)) *
    ∑ c ∈ Finset.range (ncart s.sk.l), ∑ d ∈ Finset.range (ncart s.sl.l), ∑ σ' : Bool, ∑ τ' : Bool,
    ∑ a ∈ Finset.range (ncart s.si.l), ∑ b ∈ Finset.range (ncart s.sj.l), ∑ σ : Bool, ∑ τ : Bool,
      star ((spNorm s.si.l : ℂ) * (cjCoef (kap 0) s.si.l i σ a).toC) * ((spNorm s.sj.l : ℂ) * (cjCoef (kap 1) s.sj.l j τ b).toC) *
      (star ((spNorm s.sk.l : ℂ) * (cjCoef (kap 2) s.sk.l k σ' c).toC) *
        ((spNorm s.sl.l : ℂ) * (cjCoef (kap 3) s.sl.l l τ' d).toC)) *
      Op2.val (interaction s.omega) (fun c => O c) (centre s.si) (centre s.sj) (centre s.sk) (centre s.sl)
        (cfun s.si ic a) (cfun s.sj jc b) (cfun s.sk kc c) (cfun s.sl lc d) (matrix2 (D.ops.getD 0 []) σ τ σ' τ')

/-- what one of the three functions stores -/
theorem breit_part {X1 X2 : Int2e ℝ} {s : Call2 ℝ} {kap : Nat → Int} (A : BreitMem X1 X2 s kap) {name : String} {G : Gen2e} {D : Def2e}
    (hS : wrap name ∈ Auto.spinor2e) (hG : (name, G) ∈ Auto2e.all2e) (hD : (name, D) ∈ defs2e) {L : MathLib ℝ} {R : Rys2 ℝ} {O : Nat → ℝ}
    (hX : cacheSize2eSp ((spGen G).int O) s 4 (kap 0) (kap 1) ≤ A.size) (hL : L.exp = Real.exp)
    (hkept : AllKeptX L ((spGen G).int O) s) (hp : PosExp s) (hR : Rys2OK R (s.env ((spGen G).int O)).nrys_roots)
    (hl : ∀ t, t < 4 → Call2.ls s t < 13) :
    ∃ v : Nat → ℝ, (∀ p, (p = A.buf1 ∨ p = A.tmp) → FillsArr (A.fn ((spGen G).int O) R realK L) A.Inv A.buf p (spNop s kap) v) ∧
      ∀ ic jc kc lc i j k l, ic < s.si.nctr → jc < s.sj.nctr → kc < s.sk.nctr → lc < s.sl.nctr →
        i < lenSpinorC2S (kap 0) s.si.l → j < lenSpinorC2S (kap 1) s.sj.l → k < lenSpinorC2S (kap 2) s.sk.l →
        l < lenSpinorC2S (kap 3) s.sl.l → ∀ m, m = outAt (spCnt s kap) 0 (ic*lenSpinorC2S (kap 0) s.si.l+i) (jc*lenSpinorC2S (kap 1) s.sj.l+j)
          (kc*lenSpinorC2S (kap 2) s.sk.l+k) (lc*lenSpinorC2S (kap 3) s.sl.l+l) → m < spNop s kap →
        (⟨v (2*m), v (2*m+1)⟩ : ℂ) = spinInt2 D O s kap ic jc kc lc i j k l := by
  have hw := wrap2_of hS (D := D) hD
  obtain ⟨k1, k2, k3, k4, k5, k6, k7, k8, k9, k10, k11⟩ := wrapOK_unfold hw
  have hm := matches2_refactor (matches2_of hG hD) (wrap name).num (wrap name).den k11
  obtain ⟨ws, hOK, _, _, hnc, _⟩ := matches2_unfold hm
  have hn : ((spGen G).int O).nComp = 16 := by
    have : ((spGen G).int O).nComp = D.out.length := hnc
    rw [this, out2_length, ← k7, ← k1, ← k3]
    rfl
  obtain ⟨v, F, has, h', e, hv⟩ := breit_fills A hX (R := R) (L := L) hn (gen2_eval hOK (L := L) (O := O) hp hR) hl
  refine ⟨v, F, fun ic jc kc lc i j k l a1 a2 a3 a4 a5 a6 a7 a8 m hm hlt => ?_⟩
  obtain ⟨has2, h2, e2, hlen, val⟩ := spinor2_of hw (matches2_of hG hD) (A.call hX (Or.inr rfl) (breit_start A)) hL hkept hp hR hl
  have hh : h' = h2 := by
    have x : some (has, h') = some (has2, h2) := e.symm.trans e2
    simp only [Option.some.injEq, Prod.mk.injEq] at x
    exact x.2
  subst hh
  obtain ⟨z, hz, hzv⟩ := val 0 ic jc kc lc i j k l (by omega) a1 a2 a3 a4 a5 a6 a7 a8
  unfold SpMem4.Elem HoldsC at hz
  have hz1 : h'.D (A.tmp + 2 * m) = .val z.re := by rw [hm]; exact hz.1
  have hz2 : h'.D (A.tmp + (2 * m + 1)) = .val z.im := by rw [hm]; exact hz.2
  have v1 := Cell.val.inj ((hv (2*m) (by omega)).symm.trans hz1)
  have v2 := Cell.val.inj ((hv (2*m+1) (by omega)).symm.trans hz2)
  rw [v1, v2]
  refine Eq.trans (b := z.toC) rfl (hzv.trans ?_)
  unfold spinInt2
  have : D.ops.getD 0 [] = D.ops[0] := by rw [List.getD_eq_getElem?_getD, List.getElem?_eq_getElem (by omega)]; rfl
  rw [this]

/-- **C61** int2e_breit_X_spinor, nothing screened: a call with a cache of the queried size returns, for each element of the output, half of the
sum of minus the Gaunt integral, minus the first and plus the second part of the gauge term.  It returns 0 only if all these are zero and
changes only the block of the output array, the cache and the array got from `malloc`. -/
theorem C61_breit {x : String} {Gg G1 G2 : Gen2e} {Dg D1 D2 : Def2e} (hx : (x, Gg, G1, G2) ∈ kinds) (hd : (x, Dg, D1, D2) ∈ breitDefs)
    {L : MathLib ℝ} {s : Call2 ℝ} {R : Rys2 ℝ} {O : Nat → ℝ} {kap : Nat → Int}
    (A : BreitMem ((spGen G1).int O) ((spGen G2).int O) s kap) (hL : L.exp = Real.exp)
    (hkept : ∀ G ∈ [Gg, G1, G2], AllKeptX L ((spGen G).int O) s) (hp : PosExp s)
    (hR : ∀ G ∈ [Gg, G1, G2], Rys2OK R (s.env ((spGen G).int O)).nrys_roots) (hl : ∀ t, t < 4 → Call2.ls s t < 13) :
    ∃ has h', BreitEnds A ((spGen Gg).int O) R realK L has h' ∧
      (∀ ic jc kc lc i j k l, ic < s.si.nctr → jc < s.sj.nctr → kc < s.sk.nctr → lc < s.sl.nctr →
        i < lenSpinorC2S (kap 0) s.si.l → j < lenSpinorC2S (kap 1) s.sj.l → k < lenSpinorC2S (kap 2) s.sk.l →
        l < lenSpinorC2S (kap 3) s.sl.l →
        ∃ z : Cx ℝ, A.Elem h' ic i jc j kc k lc l z ∧
          z.toC = (- spinInt2 Dg O s kap ic jc kc lc i j k l - spinInt2 D1 O s kap ic jc kc lc i j k l
            + spinInt2 D2 O s kap ic jc kc lc i j k l) / 2 ∧ (has = false → z = 0)) ∧
      ∀ q, q.buf ≠ A.buf → q.buf ≠ A.tmp.buf → (∀ m, InBlock A.nd (spCnt s kap) 1 (m/2) → q ≠ A.out + m) → h'.D q = A.h.D q := by
  obtain ⟨⟨wg, gg⟩, ⟨w1, g1⟩, w2, g2⟩ := C61_wrappers hx
  obtain ⟨dg, d1, d2⟩ := breit_defs hd
  obtain ⟨vg, Fg, Vg⟩ := breit_part A wg gg dg (R := R) (le_trans (C61_cache hx O s _ _) A.hsize) hL (hkept Gg (by simp)) hp (hR Gg (by simp)) hl
  obtain ⟨v1, F1, V1⟩ := breit_part A w1 g1 d1 (R := R) (le_trans (le_max_left _ _) A.hsize) hL (hkept G1 (by simp)) hp (hR G1 (by simp)) hl
  obtain ⟨v2, F2, V2⟩ := breit_part A w2 g2 d2 (R := R) (le_trans (le_max_right _ _) A.hsize) hL (hkept G2 (by simp)) hp (hR G2 (by simp)) hl
  obtain ⟨has, h', e, val, hz, fr⟩ := breitDrv_run A (Fg _ (Or.inl rfl)) (F1 _ (Or.inr rfl)) (F2 _ (Or.inr rfl))
  refine ⟨has, h', e, fun ic jc kc lc i j k l a1 a2 a3 a4 a5 a6 a7 a8 => ?_, fr⟩
  have lt : ∀ {a n i m : Nat}, a < n → i < m → a * m + i < m * n := by
    intro a n i m h1 h2
    calc a * m + i < (a + 1) * m := by rw [add_mul]; omega
      _ ≤ n * m := Nat.mul_le_mul_right _ h1
      _ = m * n := mul_comm _ _
  have b1 : ic*lenSpinorC2S (kap 0) s.si.l+i < spCnt s kap 0 := lt a1 a5
  have b2 : jc*lenSpinorC2S (kap 1) s.sj.l+j < spCnt s kap 1 := lt a2 a6
  have b3 : kc*lenSpinorC2S (kap 2) s.sk.l+k < spCnt s kap 2 := lt a3 a7
  have b4 : lc*lenSpinorC2S (kap 3) s.sl.l+l < spCnt s kap 3 := lt a4 a8
  have hm := block_lt (c := spCnt s kap) ⟨0, _, _, _, _, by omega, b1, b2, b3, b4, rfl⟩
  generalize hM : outAt (spCnt s kap) 0 (ic*lenSpinorC2S (kap 0) s.si.l+i) (jc*lenSpinorC2S (kap 1) s.sj.l+j)
          (kc*lenSpinorC2S (kap 2) s.sk.l+k) (lc*lenSpinorC2S (kap 3) s.sl.l+l) = m at hm
  replace hm : m < spNop s kap := hm
  have c1 := val _ _ _ _ 0 b1 b2 b3 b4 (by omega)
  have c2 := val _ _ _ _ 1 b1 b2 b3 b4 (by omega)
  rw [hM] at c1 c2
  refine ⟨⟨(-vg (2*m) - v1 (2*m) + v2 (2*m))/2, (-vg (2*m+1) - v1 (2*m+1) + v2 (2*m+1))/2⟩, ⟨c1, c2⟩, ?_, fun hf => ?_⟩
  · rw [← Vg ic jc kc lc i j k l a1 a2 a3 a4 a5 a6 a7 a8 m hM.symm hm, ← V1 ic jc kc lc i j k l a1 a2 a3 a4 a5 a6 a7 a8 m hM.symm hm,
      ← V2 ic jc kc lc i j k l a1 a2 a3 a4 a5 a6 a7 a8 m hM.symm hm]
    unfold Cx.toC
    apply Complex.ext <;> simp
  · have z1 := hz hf (2*m) (by omega)
    have z2 := hz hf (2*m+1) (by omega)
    rw [z1, z2]
    rfl

/-! ### The hypotheses can be met -/
namespace BreitDemo
open OvlpDemo SphDemo EriDemo SpinorDemo Oper2Demo SpinorEriDemo

/-- memory for a Breit integral over p with both j, d with j = 5/2, s, and p with j = 1/2 -/
noncomputable def breitMem (X1 X2 : Int2e ℝ) (o : ℝ) : BreitMem X1 X2 (call4 o) kaps where
  fpd := 1
  buf := 0
  size := breitCacheSize X1 X2 (call4 o) 4 0 (-3)
  empty := ⟨4, 0⟩
  fl := ⟨1, 0⟩
  loc := ⟨2, 0⟩
  counts := ⟨3, 0⟩
  out := ⟨5, 7⟩
  dims := none
  nd := fun t => Call2.nsp (call4 o) kaps t * Call2.nctrs (call4 o) t
  h := memJ
  tab := ⟨⟨9, 0⟩, ⟨10, 0⟩⟩
  tmp := ⟨6, 0⟩
  hs := ⟨Or.inr (Or.inr rfl), by show ∀ t, t < 4 → 0 < four (lenSpinorC2S 0 1) (lenSpinorC2S (-3) 2) (lenSpinorC2S (-1) 0) (lenSpinorC2S 1 1) t; decide,
    fun t ht => EriDemo.ctr_pos o t ht, fun t a b => absurd a (by omega), fun t _ => le_refl _⟩
  M := ⟨by omega, fun k _ => memJ_ne _, fun k _ => by simp [memJ], by simp [memJ], fun k _ => by simp [memJ],
    fun k _ => by simp [memJ], fun k _ => by simp [memJ], by decide, by decide, by decide, by decide, by decide⟩
  hsize := le_refl _
  O := { h_dims := fun t _ => rfl
         h_dims2 := fun d hd => nomatch hd
         h_dbuf := fun d hd => nomatch hd
         h_out := fun m _ => memJ_ne _
         h_obuf := by decide }
  T := ⟨tabJ, by decide, by decide, by decide, by decide⟩
  tmpw := fun m _ => memJ_ne _
  tmpb := by decide
  tmpo := by decide
  tmpR := by decide
  tmpI := by decide

attribute [local irreducible] breitDrv spinInt2 in
/-- the short-range integral of the second contraction of the fourth p function, the last d function, the second s function and the
first p function with j = 1/2 -/
example : ∃ R has h', BreitEnds (breitMem ((spGen Auto2e.int2e_gauge_r1_ssp1ssp2).int fun _ => 0) ((spGen Auto2e.int2e_gauge_r2_ssp1ssp2).int fun _ => 0) (-1/2))
      ((spGen Auto2e.int2e_ssp1ssp2).int fun _ => 0) R realK lib has h' ∧
    ∃ z : Cx ℝ, (breitMem ((spGen Auto2e.int2e_gauge_r1_ssp1ssp2).int fun _ => 0) ((spGen Auto2e.int2e_gauge_r2_ssp1ssp2).int fun _ => 0) (-1/2)).Elem
      h' 1 3 0 5 1 1 0 0 z := by
  obtain ⟨R, hR⟩ := exists_rys2
  obtain ⟨has, h', h1, h2, _⟩ := C61_breit (x := "ssp1ssp2") List.mem_cons_self List.mem_cons_self (L := lib) (R := R)
    (breitMem ((spGen Auto2e.int2e_gauge_r1_ssp1ssp2).int fun _ => 0) ((spGen Auto2e.int2e_gauge_r2_ssp1ssp2).int fun _ => 0) (-1/2))
    rfl (fun G _ => allKeptX _ _ _) (posExp _) (fun G _ => hR _) (ls_lt _)
  obtain ⟨z, hz, _⟩ := h2 1 0 1 0 3 5 1 0 (by show 1 < 2; omega) (by show 0 < 2; omega) (by show 1 < 2; omega)
    (by show 0 < 2; omega) (by show 3 < lenSpinorC2S 0 1; decide) (by show 5 < lenSpinorC2S (-3) 2; decide)
    (by show 1 < lenSpinorC2S (-1) 0; decide) (by show 0 < lenSpinorC2S 1 1; decide)
  exact ⟨R, has, h', h1, z, hz⟩

end BreitDemo

end Verif.Props
