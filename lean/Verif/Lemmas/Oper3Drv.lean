import Verif.Lemmas.Oper2Drv
import Verif.Props.Eri3

/-! Three-centre integrals with operators, in the driver: evaluation, screening and contraction. -/
namespace Verif.Props
open Verif Verif.Model Verif.Prog Verif.Lemmas Verif.Spec MeasureTheory Polynomial

/-! ### Evaluation -/

open Classical in
theorem gen3_eval {G : Gen2e} {ws : List (Nat → List (GOp × Fin 4))} (hG : Gen2e.OK G ws) (h0 : G.ng.l = 0) {L : MathLib ℝ} {O : Nat → ℝ}
    {s : Call3 ℝ} {R : Rys2 ℝ} (hp : PosExp3 s) (hR : Rys2OK R (s.env (G.int O)).nrys_roots) :
    EvalOK3 R realK L (G.int O) s
      (fun ip jp kp => decide (G2.kept (s.g3r (G.int O) L ip jp kp) (s.cutoff (G.int O) L - pairVal L (s.pairArgs (G.int O)) ip jp 4)))
      (fun ip jp kp M => genW (s.g3r (G.int O) L ip jp kp)
        { a := ![s.si.a ip, s.sj.a jp, s.sk.a kp, 0], R := ![s.si.r, s.sj.r, s.sk.r, s.sk.r], O := O } ws
        (G.flat.comps.getD (M % G.nComp) []) (fun c => i4 (s.env (G.int O)) c (M / G.nComp))
        (fun c => j4 (s.env (G.int O)) c (M / G.nComp)) (fun c => k4 (s.env (G.int O)) c (M / G.nComp))
        (fun c => l4 (s.env (G.int O)) c (M / G.nComp))) := by
  intro ip jp kp g idx T hip hjp hkp hT
  let e := s.env (G.int O)
  have hnf : e.nf = ncart s.sj.l * ncart s.sk.l * ncart s.si.l := by
    show lenCart s.si.l * lenCart s.sk.l * lenCart s.sj.l = _
    simp only [lenCart_eq]; ring
  have dig : ∀ n, n < e.nf → n % ncart s.si.l < ncart s.si.l ∧ n / ncart s.si.l % ncart s.sk.l < ncart s.sk.l ∧
      n / ncart s.si.l / ncart s.sk.l % 1 < ncart 0 ∧
      n / ncart s.si.l / ncart s.sk.l / 1 < ncart s.sj.l := by
    intro n hn
    rw [hnf] at hn
    refine ⟨Nat.mod_lt _ (ncart_pos _), Nat.mod_lt _ (ncart_pos _), Nat.mod_lt _ Nat.one_pos, ?_⟩
    rw [Nat.div_one, Nat.div_lt_iff_lt_mul (ncart_pos _), Nat.div_lt_iff_lt_mul (ncart_pos _)]
    exact hn
  have S := C07_slab_int3c2e s.si.l s.sj.l s.sk.l G.ng (decide (s.omega < 0))
  have es : ∀ (m : Fin 4 → Nat) r, m 3 ≤ 0 → slabM e m r = slab3 e (m 0) (m 1) (m 2) r := by
    intro m r h; unfold slabM slab3; rw [Nat.le_zero.1 h]; ring
  have hskl : e.g_stride_l = e.g_stride_k := rfl
  have C0 : StepCtx true e ![e.li_ceil, e.lj_ceil, e.ll_ceil, 0] e.nrys_roots (2^G.gbits+1) (s.leng (G.int O)) := by
    refine ⟨⟨?_, ?_⟩, ?_, fun _ => rfl, fun h => Bool.noConfusion h, fun h => Bool.noConfusion h⟩
    · intro m r hm hr'
      rw [es m r (hm 3)]
      exact S.range _ _ _ _ (hm 0) (hm 1) (hm 2) hr'
    · intro m r m' r' hm hr1 hm' hr2 h
      rw [es m r (hm 3), es m' r' (hm' 3)] at h
      have := S.inj _ _ _ _ _ _ _ _ (hm 0) (hm 1) (hm 2) hr1 (hm' 0) (hm' 1) (hm' 2) hr2 h
      refine ⟨?_, this.2.2.2⟩
      funext t
      fin_cases t
      · exact this.1
      · exact this.2.1
      · exact this.2.2.1
      · exact (Nat.le_zero.1 (hm 3)).trans (Nat.le_zero.1 (hm' 3)).symm
    · show (2^G.gbits+1) * (3 * e.g_size) ≤ e.g_size * 3 * (2^G.gbits + 1)
      exact le_of_eq (by ring)
  have hl0 : ∀ n c, l4 e c n = 0 := fun n c =>
    Nat.le_zero.1 (pw_le (l := 0) (by rw [ncart_zero]; exact Nat.mod_lt _ Nat.one_pos))
  refine gen2_kernel (R := R) (e := e) (d := s.g3r (G.int O) L ip jp kp) (leng := s.leng (G.int O))
    (D := { a := ![s.si.a ip, s.sj.a jp, s.sk.a kp, 0], R := ![s.si.r, s.sj.r, s.sk.r, s.sk.r], O := O })
    (Lm := ![e.li_ceil, e.lj_ceil, e.ll_ceil, 0]) (κ := fun _ => 0) (l := fun m => m 2)
    (p := fun n c => ![i4 e c n, j4 e c n, k4 e c n, l4 e c n]) (ad := adr4 e (i4 e) (j4 e) (l4 e) (k4 e))
    hG (shape4_int3c2e _ _ _ _ _) C0 (fun t => by
      fin_cases t
      · exact le_refl _
      · exact le_refl _
      · exact le_refl _
      · show 0 + G.ng.l ≤ 0
        rw [h0]) (by
      show (s.si.l + G.ng.i + (s.sj.l + G.ng.j) + (s.sk.l + G.ng.k))/2 + 1 =
        (s.si.l + G.ng.i + (s.sj.l + G.ng.j) + 0 + (s.sk.l + G.ng.k))/2 + 1
      omega) (by
      show srRoots _ _ = _ ∨ srRoots _ _ = 2 * _
      unfold srRoots
      split
      · right
        exact Nat.mul_comm _ 2
      · left; rfl) hR (hp.ij ip jp hip hjp) (by
      show 0 < s.sk.a kp + 0
      rw [add_zero]
      exact hp.k kp hkp) rfl rfl rfl
      (fun m hm => ⟨hm 0, hm 1, le_refl _, hm 2, fun r => by
          rw [es m r (hm 3)]
          unfold slab3 slab4
          rw [hskl, Nat.mul_zero, Nat.add_zero],
        fun c _ => by
          have h3 : m 3 = 0 := Nat.le_zero.1 (hm 3)
          rw [h3]
          unfold pq
          rw [pow_zero, pow_zero, one_mul, mul_one]
          rfl⟩)
      (fun n c _ _ => by
        rw [es _ _ (le_of_eq (hl0 n c))]
        unfold adr4 slab4 slab3
        rw [hl0, hskl]
        show _ + (_ * i4 e c n + _ * j4 e c n + _ * 0 + _ * k4 e c n + 0) = _ + (_ * i4 e c n + _ * j4 e c n + _ * k4 e c n + 0)
        ring)
      (fun n c t hn hc => by
        obtain ⟨d1, d2, d3, d4⟩ := dig n hn
        fin_cases t
        · exact pw_le d1
        · exact pw_le d4
        · exact pw_le d2
        · exact pw_le d3)
      (fun n hn => by
        obtain ⟨d1, d2, d3, d4⟩ := dig n hn
        have e1 : ∑ c : Fin 3, i4 e c n = s.si.l := pw_sum d1
        have e2 : ∑ c : Fin 3, j4 e c n = s.sj.l := pw_sum d4
        have e3 : ∑ c : Fin 3, k4 e c n = s.sk.l := pw_sum d2
        have e4 : ∑ c : Fin 3, l4 e c n = 0 := pw_sum d3
        show (∑ c : Fin 3, i4 e c n + ∑ c : Fin 3, j4 e c n) + (∑ c : Fin 3, k4 e c n + ∑ c : Fin 3, l4 e c n) + _ <
          2 * ((s.si.l + G.ng.i + (s.sj.l + G.ng.j) + (s.sk.l + G.ng.k))/2 + 1)
        rw [e1, e2, e3, e4]
        omega) hT

/-! ### Screening -/

/-- estimate for the primitive pair of the first electron; the angular momenta are increased by the operators -/
noncomputable def estIJ3X (L : MathLib ℝ) (s : Call3 ℝ) (ng : Inc) (mi mj : Nat → ℝ) (ip jp : Nat) : ℝ :=
  est L s.si s.sj mi mj (rr2 s.si.r s.sj.r) s.omega (s.si.l + ng.i + (s.sj.l + ng.j)) ip jp

/-- The primitive triple survives the screening of integral `X` (compare `Kept3`). -/
structure Kept3X (L : MathLib ℝ) (X : Int2e ℝ) (s : Call3 ℝ) (mi mj : Nat → ℝ) (ip jp kp : Nat) : Prop where
  pair : estIJ3X L s X.ng mi mj ip jp < cutoff3c2e s.envCut
  ij : estIJ3X L s X.ng mi mj ip jp ≤ s.cutoff X L
  sr : s.omega < 0 → srExp3 s ip jp kp ≤ 40 ∧ srExp3 s ip jp kp ≤ s.cutoff X L - estIJ3X L s X.ng mi mj ip jp

section
variable {L : MathLib ℝ} {s : Call3 ℝ} {X : Int2e ℝ} {mi mj : Nat → ℝ} {ip jp kp : Nat}

theorem pair3X (hL : L.exp = Real.exp) (hi : MaxCoeff s.si mi) (hj : MaxCoeff s.sj mj)
    (hip : ip < s.si.nprim) (hjp : jp < s.sj.nprim) (h0 : 0 < s.si.a ip + s.sj.a jp) :
    pairVal L (s.pairArgs X) ip jp 4 = estIJ3X L s X.ng mi mj ip jp ∧
    (estIJ3X L s X.ng mi mj ip jp < cutoff3c2e s.envCut →
      pairVal L (s.pairArgs X) ip jp 3 = Real.exp (-(s.si.a ip * s.sj.a jp/(s.si.a ip + s.sj.a jp)) *
        ∑ k, (centre s.si k - centre s.sj k)^2) ∧
      ∀ c, c < 3 → pairVal L (s.pairArgs X) ip jp c =
        (s.si.a ip * s.si.r c + s.sj.a jp * s.sj.r c)/(s.si.a ip + s.sj.a jp)) ∧
    (¬ estIJ3X L s X.ng mi mj ip jp < cutoff3c2e s.envCut → pairVal L (s.pairArgs X) ip jp 3 = 0) := by
  have hE : pairCC L (s.pairArgs X) ip jp = estIJ3X L s X.ng mi mj ip jp := pairCC_eq (p := s.pairArgs X) hi hj hip hjp
  have hcut : (s.pairArgs X).cutoff = cutoff3c2e s.envCut := rfl
  obtain ⟨h1, h2, _⟩ := pairVal_entry (L := L) (p := s.pairArgs X) hi hj hip hjp h0.ne'
  refine ⟨h1, fun hk => ?_, fun hk => ?_⟩
  · obtain ⟨h3, h4⟩ := h2 hk
    refine ⟨?_, fun c hc => h3 c hc⟩
    dsimp only at h4
    rw [h4, hL]
    congr 1
    unfold prodExponent centre
    show -(s.si.a ip * s.sj.a jp / (s.si.a ip + s.sj.a jp) * rr2 s.si.r s.sj.r) = _
    rw [Fin.sum_univ_three]
    unfold rr2
    simp only [Fin.val_zero, Fin.val_one, Fin.val_two]
    ring
  · have hk' : ¬ pairCC L (s.pairArgs X) ip jp < (s.pairArgs X).cutoff := by rw [hE, hcut]; exact hk
    unfold pairVal; simp [hk']

theorem kept_g3X (hL : L.exp = Real.exp) (hi : MaxCoeff s.si mi) (hj : MaxCoeff s.sj mj)
    (hip : ip < s.si.nprim) (hjp : jp < s.sj.nprim) (h0 : 0 < s.si.a ip + s.sj.a jp)
    (hv : estIJ3X L s X.ng mi mj ip jp < cutoff3c2e s.envCut) (c : ℝ) :
    G2.kept (s.g3r X L ip jp kp) c ↔ (s.omega < 0 → srExp3 s ip jp kp ≤ 40 ∧ srExp3 s ip jp kp ≤ c) := by
  have hc := ((pair3X hL hi hj hip hjp h0).2.1 hv).2
  have hx : G2.theta (s.g3r X L ip jp kp) * G2.x (s.g3r X L ip jp kp) = srExp3 s ip jp kp := by
    unfold G2.theta G2.x G2.a0 Call3.g3r Call3.g3 srExp3 centre
    dsimp only
    rw [hc 0 (by omega), hc 1 (by omega), hc 2 (by omega), Fin.sum_univ_three]
    simp only [Fin.val_zero, Fin.val_one, Fin.val_two, add_zero]
    ring
  unfold G2.kept
  rw [hx]
  show ¬ (s.omega < 0 ∧ _) ↔ _
  rw [not_and]
  refine imp_congr_right fun _ => ?_
  rw [not_or, not_lt, not_lt, and_comm]

/-! ### Contraction -/

theorem loopVal3_gen {R : Rys2 ℝ} {w : Nat → Nat → Nat → Nat → ℝ} {Z : Nat → Nat → Nat → ℝ}
    (hL : L.exp = Real.exp) (hi : MaxCoeff s.si mi) (hj : MaxCoeff s.sj mj) (hp : PosExp3 s) {comp ic jc kc N : Nat}
    (hZ : ∀ ip jp kp, ip < s.si.nprim → jp < s.sj.nprim → kp < s.sk.nprim → Kept3X L X s mi mj ip jp kp →
      (∀ c, c < 3 → pairVal L (s.pairArgs X) ip jp c = (s.si.a ip * s.si.r c + s.sj.a jp * s.sj.r c)/(s.si.a ip + s.sj.a jp)) →
      Real.exp (-(s.si.a ip * s.sj.a jp/(s.si.a ip + s.sj.a jp)) * ∑ k, (centre s.si k - centre s.sj k)^2) *
        (w ip jp kp (N * X.nComp + comp) * (2 / Real.sqrt Real.pi * Real.pi^3)) = Z ip jp kp) :
    loopVal3 R realK L X s
      (fun ip jp kp => open Classical in decide (G2.kept (s.g3r X L ip jp kp)
        (s.cutoff X L - pairVal L (s.pairArgs X) ip jp 4))) w comp ic jc kc N =
    X.common * (spNorm s.si.l * spNorm s.sj.l * spNorm s.sk.l) *
      contract3 s.si.nprim s.sj.nprim s.sk.nprim s.si.c s.sj.c s.sk.c (fun ip jp kp =>
        open Classical in if Kept3X L X s mi mj ip jp kp then Z ip jp kp else 0) ic jc kc := by
  classical
  unfold loopVal3 expected3
  have hcom : (s.triple X R realK L ⟨⟨0,0⟩,⟨0,0⟩,⟨0,0⟩,⟨0,0⟩,⟨0,0⟩⟩).common =
      X.common * (spNorm s.si.l * spNorm s.sj.l * spNorm s.sk.l) * (2 / Real.sqrt Real.pi * Real.pi^3) := by
    show X.common * (Real.pi * Real.pi * Real.pi * 2 / Real.sqrt Real.pi * commonFacSp s.si.l * commonFacSp s.sj.l *
      commonFacSp s.sk.l) = _
    rw [spNorm_eq, spNorm_eq, spNorm_eq]
    ring
  rw [hcom, mul_assoc]
  congr 1
  unfold contract3
  rw [Finset.mul_sum]
  refine Finset.sum_congr rfl (fun kp hkp => ?_)
  rw [Finset.mul_sum]
  refine Finset.sum_congr rfl (fun jp hjp => ?_)
  rw [Finset.mul_sum]
  refine Finset.sum_congr rfl (fun ip hip => ?_)
  have hip : ip < s.si.nprim := Finset.mem_range.1 hip
  have hjp : jp < s.sj.nprim := Finset.mem_range.1 hjp
  have hkp : kp < s.sk.nprim := Finset.mem_range.1 hkp
  rw [mul_comm (2 / Real.sqrt Real.pi * Real.pi^3), mul_assoc]
  show s.sk.c (s.sk.nprim*kc+kp) * s.sj.c (s.sj.nprim*jc+jp) * s.si.c (s.si.nprim*ic+ip) * _ = _
  congr 1
  obtain ⟨p4, pv, pd⟩ := pair3X (X := X) hL hi hj hip hjp (hp.ij ip jp hip hjp)
  show (if (s.triple X R realK L ⟨⟨0,0⟩,⟨0,0⟩,⟨0,0⟩,⟨0,0⟩,⟨0,0⟩⟩).skip ip jp kp = false ∧
      decide (G2.kept (s.g3r X L ip jp kp) (s.cutoff X L - pairVal L (s.pairArgs X) ip jp 4)) = true then
    pairVal L (s.pairArgs X) ip jp 3 * w ip jp kp (N * X.nComp + comp) else 0) * (2 / Real.sqrt Real.pi * Real.pi^3) =
      if Kept3X L X s mi mj ip jp kp then Z ip jp kp else 0
  have hsur : ((s.triple X R realK L ⟨⟨0,0⟩,⟨0,0⟩,⟨0,0⟩,⟨0,0⟩,⟨0,0⟩⟩).skip ip jp kp = false ∧
      decide (G2.kept (s.g3r X L ip jp kp) (s.cutoff X L - pairVal L (s.pairArgs X) ip jp 4)) = true) ↔
      (estIJ3X L s X.ng mi mj ip jp ≤ s.cutoff X L ∧
        G2.kept (s.g3r X L ip jp kp) (s.cutoff X L - estIJ3X L s X.ng mi mj ip jp)) := by
    show (decide (pairVal L (s.pairArgs X) ip jp 4 > s.cutoff X L) = false ∧ _) ↔ _
    rw [p4]
    simp only [decide_eq_false_iff_not, decide_eq_true_eq, not_lt, gt_iff_lt]
  by_cases hv : estIJ3X L s X.ng mi mj ip jp < cutoff3c2e s.envCut
  · obtain ⟨pe, pc⟩ := pv hv
    rw [kept_g3X hL hi hj hip hjp (hp.ij ip jp hip hjp) hv (s.cutoff X L - estIJ3X L s X.ng mi mj ip jp)] at hsur
    by_cases hkp' : Kept3X L X s mi mj ip jp kp
    · rw [if_pos (hsur.2 ⟨hkp'.ij, hkp'.sr⟩), if_pos hkp', ← hZ ip jp kp hip hjp hkp hkp' pc, pe, mul_assoc]
    · rw [if_neg (fun x => hkp' ⟨hv, (hsur.1 x).1, (hsur.1 x).2⟩), if_neg hkp', zero_mul]
  · rw [if_neg (fun x : Kept3X L X s mi mj ip jp kp => hv x.pair), pd hv]
    simp
end

/-- digits of the position of an element -/
theorem pos3_digits {s : Call3 ℝ} {X : Int2e ℝ} {i j k : Nat} (h1 : i < ncart s.si.l) (h3 : k < ncart s.sk.l) (c : Nat) :
    i4 (s.env X) c (pos4c (ncar (Call3.ls s)) i j k 0) = pw s.si.l c i ∧
    j4 (s.env X) c (pos4c (ncar (Call3.ls s)) i j k 0) = pw s.sj.l c j ∧
    k4 (s.env X) c (pos4c (ncar (Call3.ls s)) i j k 0) = pw s.sk.l c k ∧
    l4 (s.env X) c (pos4c (ncar (Call3.ls s)) i j k 0) = 0 := by
  have hx : pos4c (ncar (Call3.ls s)) i j k 0 = (j*ncart s.sk.l + k)*ncart s.si.l + i := by
    unfold pos4c ncar
    show i + ncart s.si.l * (k + ncart s.sk.l * (0 + ncart 0 * j)) = _
    rw [ncart_zero]
    ring
  refine ⟨?_, ?_, ?_, ?_⟩
  · rw [hx]
    show pw s.si.l c (_ % ncart s.si.l) = _
    rw [(digit h1).2]
  · rw [hx]
    show pw s.sj.l c (_ / ncart s.si.l / ncart s.sk.l / 1) = _
    rw [(digit h1).1, (digit h3).1, Nat.div_one]
  · rw [hx]
    show pw s.sk.l c (_ / ncart s.si.l % ncart s.sk.l) = _
    rw [(digit h1).1, (digit h3).2]
  · refine Nat.le_zero.1 (pw_le (l := 0) ?_)
    rw [ncart_zero]
    exact Nat.mod_lt _ Nat.one_pos

end Verif.Props
