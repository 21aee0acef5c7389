import Verif.Lemmas.Oper2Eval

/-! Four-centre integrals with operators, in the driver: screening and contraction. -/
namespace Verif.Props
open Verif Verif.Model Verif.Prog Verif.Lemmas Verif.Spec MeasureTheory Polynomial

/-! ### Evaluation -/

open Classical in
theorem gen2_eval {G : Gen2e} {ws : List (Nat → List (GOp × Fin 4))} (hG : Gen2e.OK G ws) {L : MathLib ℝ} {O : Nat → ℝ} {s : Call2 ℝ}
    {R : Rys2 ℝ} (hp : PosExp s) (hR : Rys2OK R (s.env (G.int O)).nrys_roots) :
    EvalOK2 R realK L (G.int O) s
      (fun ip jp kp lp => decide (G2.kept (s.g2 (G.int O) L ip jp kp lp)
        (s.eijcutoff (G.int O) L kp lp - pairVal L (s.pairArgs (G.int O)) ip jp 4)))
      (fun ip jp kp lp M => genW (s.g2 (G.int O) L ip jp kp lp)
        { a := ![s.si.a ip, s.sj.a jp, s.sk.a kp, s.sl.a lp], R := ![s.si.r, s.sj.r, s.sk.r, s.sl.r], O := O } ws
        (G.flat.comps.getD (M % G.nComp) []) (fun c => i4 (s.env (G.int O)) c (M / G.nComp))
        (fun c => j4 (s.env (G.int O)) c (M / G.nComp)) (fun c => k4 (s.env (G.int O)) c (M / G.nComp))
        (fun c => l4 (s.env (G.int O)) c (M / G.nComp))) := by
  intro ip jp kp lp g idx T hip hjp hkp hlp hT
  let e := s.env (G.int O)
  have hnf : e.nf = ncart s.sj.l * ncart s.sl.l * ncart s.sk.l * ncart s.si.l := by
    show lenCart s.si.l * lenCart s.sk.l * lenCart s.sl.l * lenCart s.sj.l = _
    simp only [lenCart_eq]; ring
  have dig : ∀ n, n < e.nf → n % ncart s.si.l < ncart s.si.l ∧ n / ncart s.si.l % ncart s.sk.l < ncart s.sk.l ∧
      n / ncart s.si.l / ncart s.sk.l % ncart s.sl.l < ncart s.sl.l ∧
      n / ncart s.si.l / ncart s.sk.l / ncart s.sl.l < ncart s.sj.l := by
    intro n hn
    rw [hnf] at hn
    refine ⟨Nat.mod_lt _ (ncart_pos _), Nat.mod_lt _ (ncart_pos _), Nat.mod_lt _ (ncart_pos _), ?_⟩
    rw [Nat.div_lt_iff_lt_mul (ncart_pos _), Nat.div_lt_iff_lt_mul (ncart_pos _), Nat.div_lt_iff_lt_mul (ncart_pos _)]
    exact hn
  have S := C07_slab_int2e s.si.l s.sj.l s.sk.l s.sl.l G.ng (decide (s.omega < 0))
  have es : ∀ (m : Fin 4 → Nat) r, slabM e m r = slab4 e (m 0) (m 1) (m 2) (m 3) r := by
    intro m r; unfold slabM slab4; ring
  have C : StepCtx true e ![e.li_ceil, e.lj_ceil, e.lk_ceil, e.ll_ceil] e.nrys_roots (2^G.gbits+1) (s.leng (G.int O)) := by
    refine ⟨⟨?_, ?_⟩, ?_, fun _ => rfl, fun h => Bool.noConfusion h, fun h => Bool.noConfusion h⟩
    · intro m r hm hr'
      rw [es]
      exact S.range _ _ _ _ _ (hm 0) (hm 1) (hm 2) (hm 3) hr'
    · intro m r m' r' hm hr1 hm' hr2 h
      rw [es, es] at h
      have := S.inj _ _ _ _ _ _ _ _ _ _ (hm 0) (hm 1) (hm 2) (hm 3) hr1 (hm' 0) (hm' 1) (hm' 2) (hm' 3) hr2 h
      refine ⟨?_, this.2.2.2.2⟩
      funext t
      fin_cases t
      · exact this.1
      · exact this.2.1
      · exact this.2.2.1
      · exact this.2.2.2.1
    · show (2^G.gbits+1) * (3 * e.g_size) ≤ e.g_size * 3 * (2^G.gbits + 1)
      exact le_of_eq (by ring)
  refine gen2_kernel (R := R) (e := e) (d := s.g2 (G.int O) L ip jp kp lp) (leng := s.leng (G.int O))
    (D := { a := ![s.si.a ip, s.sj.a jp, s.sk.a kp, s.sl.a lp], R := ![s.si.r, s.sj.r, s.sk.r, s.sl.r], O := O })
    (κ := fun m => m 2) (l := fun m => m 3)
    (p := fun n c => ![i4 e c n, j4 e c n, k4 e c n, l4 e c n]) (ad := adr4 e (i4 e) (j4 e) (k4 e) (l4 e))
    hG (shape4_int2e _ _ _ _ _ _) C (fun t => by fin_cases t <;> exact le_refl _) rfl (by
      show srRoots _ _ = _ ∨ srRoots _ _ = 2 * _
      unfold srRoots
      split
      · right
        exact Nat.mul_comm _ 2
      · left; rfl) hR (hp.ij ip jp hip hjp) (hp.kl kp lp hkp hlp) rfl rfl rfl
      (fun m hm => ⟨hm 0, hm 1, hm 2, hm 3, es m, fun c _ => rfl⟩)
      (fun n c _ _ => by rw [es]; rfl)
      (fun n c t hn hc => by
        obtain ⟨d1, d2, d3, d4⟩ := dig n hn
        fin_cases t
        · exact pw_le d1
        · exact pw_le d4
        · exact pw_le d2
        · exact pw_le d3)
      (fun n hn => by
        obtain ⟨d1, d2, d3, d4⟩ := dig n hn
        have e1 : ∑ c : Fin 3, i4 e c n = s.si.l := pw_sum d1
        have e2 : ∑ c : Fin 3, j4 e c n = s.sj.l := pw_sum d4
        have e3 : ∑ c : Fin 3, k4 e c n = s.sk.l := pw_sum d2
        have e4 : ∑ c : Fin 3, l4 e c n = s.sl.l := pw_sum d3
        show (∑ c : Fin 3, i4 e c n + ∑ c : Fin 3, j4 e c n) + (∑ c : Fin 3, k4 e c n + ∑ c : Fin 3, l4 e c n) + _ <
          2 * ((s.si.l + G.ng.i + (s.sj.l + G.ng.j) + (s.sk.l + G.ng.k) + (s.sl.l + G.ng.l))/2 + 1)
        rw [e1, e2, e3, e4]
        omega) hT

/-! ### Screening -/

/-- estimate for the primitive pair of the first electron; `li`, `lj` are the angular momenta increased by the operators -/
noncomputable def estIJX (L : MathLib ℝ) (s : Call2 ℝ) (ng : Inc) (mi mj : Nat → ℝ) (ip jp : Nat) : ℝ :=
  est L s.si s.sj mi mj (rr2 s.si.r s.sj.r) s.omega (s.si.l + ng.i + (s.sj.l + ng.j)) ip jp

/-- estimate for the primitive pair of the second electron -/
noncomputable def estKLX (L : MathLib ℝ) (s : Call2 ℝ) (X : Int2e ℝ) (mk ml : Nat → ℝ) (kp lp : Nat) : ℝ :=
  prodExponent (s.sk.a kp) (s.sl.a lp) (rr2 s.sk.r s.sl.r) - s.logRRkl X L - L.log (mk kp) - L.log (ml lp)

/-- The primitive quartet survives the screening of integral `X` (compare `Kept4`). -/
structure Kept4X (L : MathLib ℝ) (X : Int2e ℝ) (s : Call2 ℝ) (mi mj mk ml : Nat → ℝ) (ip jp kp lp : Nat) : Prop where
  pair : estIJX L s X.ng mi mj ip jp < cutoff2e s.envCut
  kl : estKLX L s X mk ml kp lp ≤ s.cutoff X L
  ij : estIJX L s X.ng mi mj ip jp ≤ s.cutoff X L - estKLX L s X mk ml kp lp
  sr : s.omega < 0 → srExp s ip jp kp lp ≤ 40 ∧
    srExp s ip jp kp lp ≤ s.cutoff X L - estKLX L s X mk ml kp lp - estIJX L s X.ng mi mj ip jp

section
variable {L : MathLib ℝ} {s : Call2 ℝ} {X : Int2e ℝ} {mi mj mk ml : Nat → ℝ} {ip jp kp lp : Nat}

theorem ccekl_eqX (hk : MaxCoeff s.sk mk) (hl : MaxCoeff s.sl ml) (hkp : kp < s.sk.nprim) (hlp : lp < s.sl.nprim) :
    s.ccekl X L kp lp = estKLX L s X mk ml kp lp := by
  unfold Call2.ccekl estKLX logMaxC Call2.expKL prodExponent
  rw [isMaxAbs_unique (maxAbsC_spec s.sk kp) (hk kp hkp), isMaxAbs_unique (maxAbsC_spec s.sl lp) (hl lp hlp)]
  ring

theorem pair2X (hL : L.exp = Real.exp) (hi : MaxCoeff s.si mi) (hj : MaxCoeff s.sj mj)
    (hip : ip < s.si.nprim) (hjp : jp < s.sj.nprim) (h0 : 0 < s.si.a ip + s.sj.a jp) :
    pairVal L (s.pairArgs X) ip jp 4 = estIJX L s X.ng mi mj ip jp ∧
    (estIJX L s X.ng mi mj ip jp < cutoff2e s.envCut →
      pairVal L (s.pairArgs X) ip jp 3 = Real.exp (-(s.si.a ip * s.sj.a jp/(s.si.a ip + s.sj.a jp)) *
        ∑ k, (centre s.si k - centre s.sj k)^2) ∧
      ∀ c, c < 3 → pairVal L (s.pairArgs X) ip jp c =
        (s.si.a ip * s.si.r c + s.sj.a jp * s.sj.r c)/(s.si.a ip + s.sj.a jp)) ∧
    (¬ estIJX L s X.ng mi mj ip jp < cutoff2e s.envCut → pairVal L (s.pairArgs X) ip jp 3 = 0) := by
  have hE : pairCC L (s.pairArgs X) ip jp = estIJX L s X.ng mi mj ip jp := pairCC_eq (p := s.pairArgs X) hi hj hip hjp
  have hcut : (s.pairArgs X).cutoff = cutoff2e s.envCut := rfl
  obtain ⟨h1, h2, _⟩ := pairVal_entry (L := L) (p := s.pairArgs X) hi hj hip hjp h0.ne'
  refine ⟨h1, fun hk => ?_, fun hk => ?_⟩
  · obtain ⟨h3, h4⟩ := h2 hk
    refine ⟨?_, fun c hc => h3 c hc⟩
    dsimp only at h4
    rw [h4, hL]
    congr 1
    unfold prodExponent centre
    show -(s.si.a ip * s.sj.a jp / (s.si.a ip + s.sj.a jp) * rr2 s.si.r s.sj.r) = _
    rw [Fin.sum_univ_three]
    unfold rr2
    simp only [Fin.val_zero, Fin.val_one, Fin.val_two]
    ring
  · have hk' : ¬ pairCC L (s.pairArgs X) ip jp < (s.pairArgs X).cutoff := by rw [hE, hcut]; exact hk
    unfold pairVal; simp [hk']

theorem kept_g2X (hL : L.exp = Real.exp) (hi : MaxCoeff s.si mi) (hj : MaxCoeff s.sj mj)
    (hip : ip < s.si.nprim) (hjp : jp < s.sj.nprim) (h0 : 0 < s.si.a ip + s.sj.a jp)
    (hv : estIJX L s X.ng mi mj ip jp < cutoff2e s.envCut) (c : ℝ) :
    G2.kept (s.g2 X L ip jp kp lp) c ↔ (s.omega < 0 → srExp s ip jp kp lp ≤ 40 ∧ srExp s ip jp kp lp ≤ c) := by
  have hc := ((pair2X hL hi hj hip hjp h0).2.1 hv).2
  have hx : G2.theta (s.g2 X L ip jp kp lp) * G2.x (s.g2 X L ip jp kp lp) = srExp s ip jp kp lp := by
    unfold G2.theta G2.x G2.a0 Call2.g2 srExp
    dsimp only
    rw [hc 0 (by omega), hc 1 (by omega), hc 2 (by omega), Fin.sum_univ_three]
    simp only [Fin.val_zero, Fin.val_one, Fin.val_two]
    ring
  unfold G2.kept
  rw [hx]
  show ¬ (s.omega < 0 ∧ _) ↔ _
  rw [not_and]
  refine imp_congr_right fun _ => ?_
  rw [not_or, not_lt, not_lt, and_comm]

/-! ### Contraction -/

theorem loopVal2_gen {R : Rys2 ℝ} {w : Nat → Nat → Nat → Nat → Nat → ℝ} {Z : Nat → Nat → Nat → Nat → ℝ}
    (hL : L.exp = Real.exp) (hi : MaxCoeff s.si mi) (hj : MaxCoeff s.sj mj) (hk : MaxCoeff s.sk mk) (hl : MaxCoeff s.sl ml)
    (hp : PosExp s) {comp ic jc kc lc N : Nat}
    (hZ : ∀ ip jp kp lp, ip < s.si.nprim → jp < s.sj.nprim → kp < s.sk.nprim → lp < s.sl.nprim →
      Kept4X L X s mi mj mk ml ip jp kp lp →
      (∀ c, c < 3 → pairVal L (s.pairArgs X) ip jp c = (s.si.a ip * s.si.r c + s.sj.a jp * s.sj.r c)/(s.si.a ip + s.sj.a jp)) →
      Real.exp (-(s.si.a ip * s.sj.a jp/(s.si.a ip + s.sj.a jp)) * ∑ k, (centre s.si k - centre s.sj k)^2) *
      Real.exp (-(s.sk.a kp * s.sl.a lp/(s.sk.a kp + s.sl.a lp)) * ∑ k, (centre s.sk k - centre s.sl k)^2) *
        (w ip jp kp lp (N * X.nComp + comp) * (2 / Real.sqrt Real.pi * Real.pi^3)) = Z ip jp kp lp) :
    loopVal2 R realK L X s
      (fun ip jp kp lp => open Classical in decide (G2.kept (s.g2 X L ip jp kp lp)
        (s.eijcutoff X L kp lp - pairVal L (s.pairArgs X) ip jp 4))) w comp ic jc kc lc N =
    X.common * (spNorm s.si.l * spNorm s.sj.l * spNorm s.sk.l * spNorm s.sl.l) *
      contract4 s.si.nprim s.sj.nprim s.sk.nprim s.sl.nprim s.si.c s.sj.c s.sk.c s.sl.c (fun ip jp kp lp =>
        open Classical in if Kept4X L X s mi mj mk ml ip jp kp lp then Z ip jp kp lp else 0) ic jc kc lc := by
  classical
  unfold loopVal2 expected
  have hcom : (s.quartet X R realK L ⟨⟨0,0⟩,⟨0,0⟩,⟨0,0⟩,⟨0,0⟩,⟨0,0⟩⟩).common =
      X.common * (spNorm s.si.l * spNorm s.sj.l * spNorm s.sk.l * spNorm s.sl.l) * (2 / Real.sqrt Real.pi * Real.pi^3) := by
    show X.common * (Real.pi * Real.pi * Real.pi * 2 / Real.sqrt Real.pi * commonFacSp s.si.l * commonFacSp s.sj.l *
      commonFacSp s.sk.l * commonFacSp s.sl.l) = _
    rw [spNorm_eq, spNorm_eq, spNorm_eq, spNorm_eq]
    ring
  rw [hcom, mul_assoc]
  congr 1
  unfold contract4
  rw [Finset.mul_sum]
  refine Finset.sum_congr rfl (fun lp hlp => ?_)
  rw [Finset.mul_sum]
  refine Finset.sum_congr rfl (fun kp hkp => ?_)
  rw [Finset.mul_sum]
  refine Finset.sum_congr rfl (fun jp hjp => ?_)
  rw [Finset.mul_sum]
  refine Finset.sum_congr rfl (fun ip hip => ?_)
  have hip : ip < s.si.nprim := Finset.mem_range.1 hip
  have hjp : jp < s.sj.nprim := Finset.mem_range.1 hjp
  have hkp : kp < s.sk.nprim := Finset.mem_range.1 hkp
  have hlp : lp < s.sl.nprim := Finset.mem_range.1 hlp
  rw [mul_comm (2 / Real.sqrt Real.pi * Real.pi^3), mul_assoc]
  show s.sl.c (s.sl.nprim*lc+lp) * s.sk.c (s.sk.nprim*kc+kp) * s.sj.c (s.sj.nprim*jc+jp) * s.si.c (s.si.nprim*ic+ip) * _ = _
  congr 1
  obtain ⟨p4, pv, pd⟩ := pair2X (X := X) hL hi hj hip hjp (hp.ij ip jp hip hjp)
  have ckl := ccekl_eqX (X := X) (L := L) hk hl hkp hlp
  show (if survives (s.quartet X R realK L _) _ ip jp kp lp then pairVal L (s.pairArgs X) ip jp 3 *
    L.exp (-s.expKL kp lp) * w ip jp kp lp (N * X.nComp + comp) else 0) * (2 / Real.sqrt Real.pi * Real.pi^3) = if Kept4X L X s mi mj mk ml ip jp kp lp then Z ip jp kp lp else 0
  have hsur : ∀ A, survives (s.quartet X R realK L A) (fun ip jp kp lp => decide (G2.kept (s.g2 X L ip jp kp lp)
        (s.eijcutoff X L kp lp - pairVal L (s.pairArgs X) ip jp 4))) ip jp kp lp = true ↔
      (estKLX L s X mk ml kp lp ≤ s.cutoff X L ∧ estIJX L s X.ng mi mj ip jp ≤ s.cutoff X L - estKLX L s X mk ml kp lp ∧
        G2.kept (s.g2 X L ip jp kp lp) (s.cutoff X L - estKLX L s X mk ml kp lp - estIJX L s X.ng mi mj ip jp)) := by
    intro A
    unfold survives
    show (!decide (s.ccekl X L kp lp > s.cutoff X L) &&
      (!decide (pairVal L (s.pairArgs X) ip jp 4 > s.eijcutoff X L kp lp) &&
        decide (G2.kept _ (s.eijcutoff X L kp lp - pairVal L (s.pairArgs X) ip jp 4)))) = true ↔ _
    unfold Call2.eijcutoff
    rw [p4, ckl]
    simp only [Bool.and_eq_true, Bool.not_eq_true', decide_eq_false_iff_not, decide_eq_true_eq, not_lt, gt_iff_lt]
  by_cases hv : estIJX L s X.ng mi mj ip jp < cutoff2e s.envCut
  · obtain ⟨pe, pc⟩ := pv hv
    have hiff : survives (s.quartet X R realK L ⟨⟨0,0⟩,⟨0,0⟩,⟨0,0⟩,⟨0,0⟩,⟨0,0⟩⟩)
        (fun ip jp kp lp => decide (G2.kept (s.g2 X L ip jp kp lp)
        (s.eijcutoff X L kp lp - pairVal L (s.pairArgs X) ip jp 4))) ip jp kp lp = true ↔ Kept4X L X s mi mj mk ml ip jp kp lp := by
      rw [hsur, kept_g2X hL hi hj hip hjp (hp.ij ip jp hip hjp) hv]
      exact ⟨fun ⟨a, b, c⟩ => ⟨hv, a, b, c⟩, fun ⟨_, a, b, c⟩ => ⟨a, b, c⟩⟩
    by_cases hkp' : Kept4X L X s mi mj mk ml ip jp kp lp
    · rw [if_pos (hiff.2 hkp'), if_pos hkp', ← hZ ip jp kp lp hip hjp hkp hlp hkp' pc]
      have ekl : L.exp (-s.expKL kp lp) = Real.exp (-(s.sk.a kp * s.sl.a lp/(s.sk.a kp + s.sl.a lp)) *
          ∑ k, (centre s.sk k - centre s.sl k)^2) := by
        rw [hL]
        congr 1
        unfold Call2.expKL centre rr2
        rw [Fin.sum_univ_three]
        simp only [Fin.val_zero, Fin.val_one, Fin.val_two]
        ring
      rw [pe, ekl, mul_assoc]
    · rw [if_neg (fun x => hkp' (hiff.1 x)), if_neg hkp', zero_mul]
  · rw [if_neg (fun x : Kept4X L X s mi mj mk ml ip jp kp lp => hv x.pair), pd hv]
    simp
end

/-- digits of the position of an element -/
theorem pos4_digits {s : Call2 ℝ} {X : Int2e ℝ} {i j k l : Nat} (h1 : i < ncart s.si.l) (h3 : k < ncart s.sk.l)
    (h4 : l < ncart s.sl.l) (c : Nat) :
    i4 (s.env X) c (pos4c (ncar (Call2.ls s)) i j k l) = pw s.si.l c i ∧
    j4 (s.env X) c (pos4c (ncar (Call2.ls s)) i j k l) = pw s.sj.l c j ∧
    k4 (s.env X) c (pos4c (ncar (Call2.ls s)) i j k l) = pw s.sk.l c k ∧
    l4 (s.env X) c (pos4c (ncar (Call2.ls s)) i j k l) = pw s.sl.l c l := by
  have hx : pos4c (ncar (Call2.ls s)) i j k l = ((j*ncart s.sl.l + l)*ncart s.sk.l + k)*ncart s.si.l + i := by
    unfold pos4c ncar
    show i + ncart s.si.l * (k + ncart s.sk.l * (l + ncart s.sl.l * j)) = _
    ring
  rw [hx]
  refine ⟨?_, ?_, ?_, ?_⟩
  · show pw s.si.l c (_ % ncart s.si.l) = _
    rw [(digit h1).2]
  · show pw s.sj.l c (_ / ncart s.si.l / ncart s.sk.l / ncart s.sl.l) = _
    rw [(digit h1).1, (digit h3).1, (digit h4).1]
  · show pw s.sk.l c (_ / ncart s.si.l % ncart s.sk.l) = _
    rw [(digit h1).1, (digit h3).2]
  · show pw s.sl.l c (_ / ncart s.si.l / ncart s.sk.l % ncart s.sl.l) = _
    rw [(digit h1).1, (digit h3).1, (digit h4).2]

end Verif.Props
