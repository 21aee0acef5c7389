import Verif.Lemmas.Oper2Drv
import Verif.Props.Eri2c

/-! Two-centre integrals with operators, in the driver: evaluation and contraction. -/
namespace Verif.Props
open Verif Verif.Model Verif.Prog Verif.Lemmas Verif.Spec MeasureTheory Polynomial

/-- the value the kernel gives for a pair of primitives -/
noncomputable def gen2cW (G : Gen2e) (ws : List (Nat → List (GOp × Fin 4))) (O : Nat → ℝ) (s : Call2c ℝ) (ip kp M : Nat) : ℝ :=
  genW (s.g2 ip kp) { a := ![s.si.a ip, 0, s.sk.a kp, 0], R := ![s.si.r, s.si.r, s.sk.r, s.sk.r], O := O } ws
    (G.flat.comps.getD (M % G.nComp) []) (fun c => pw s.si.l c (M / G.nComp % ncart s.si.l)) (fun _ => 0)
    (fun c => pw s.sk.l c (M / G.nComp / ncart s.si.l)) (fun _ => 0)

open Classical in
theorem gen2c_eval {G : Gen2e} {ws : List (Nat → List (GOp × Fin 4))} (hG : Gen2e.OK G ws) (hj : G.ng.j = 0) (hl : G.ng.l = 0)
    {O : Nat → ℝ} {s : Call2c ℝ} {R : Rys2 ℝ} (hp : PosExp2c s) (hR : Rys2OK R (s.env (G.int2c O)).nrys_roots) :
    EvalOK2c R realK (G.int2c O) s (fun ip kp => decide (G2.kept (s.g2 ip kp) (cutoff2c2e s.envCut))) (gen2cW G ws O s) := by
  intro ip kp g idx T hip hkp hT
  let e := s.env (G.int2c O)
  let f : EnvG := { e with j_l := 0 }
  have hnf : e.nf = ncart s.sk.l * ncart s.si.l := by
    show lenCart s.si.l * lenCart s.sk.l = _
    simp only [lenCart_eq]; ring
  have dig : ∀ n, n < e.nf → n % ncart s.si.l < ncart s.si.l ∧ n / ncart s.si.l < ncart s.sk.l := by
    intro n hn
    rw [hnf] at hn
    exact ⟨Nat.mod_lt _ (ncart_pos _), (Nat.div_lt_iff_lt_mul (ncart_pos _)).2 hn⟩
  have S := C07_slab_int2c2e s.si.l s.sk.l G.ng (decide (s.omega < 0))
  have es : ∀ (m : Fin 4 → Nat) r, m 1 ≤ 0 → m 3 ≤ 0 → slabM f m r = slab2 e (m 0) (m 2) r := by
    intro m r h1 h3
    unfold slabM slab2
    rw [Nat.le_zero.1 h1, Nat.le_zero.1 h3]
    show e.g_stride_i * m 0 + e.g_stride_j * 0 + e.g_stride_k * m 2 + e.g_stride_l * 0 + r = e.g_stride_i * m 0 + e.g_stride_k * m 2 + r
    ring
  have C0 : StepCtx true f ![e.li_ceil, 0, e.lk_ceil, 0] f.nrys_roots (2^G.gbits+1) (s.leng (G.int2c O)) := by
    refine ⟨⟨?_, ?_⟩, ?_, fun _ => rfl, fun h => Bool.noConfusion h, fun h => Bool.noConfusion h⟩
    · intro m r hm hr'
      rw [es m r (hm 1) (hm 3)]
      exact S.range _ _ _ (hm 0) (hm 2) hr'
    · intro m r m' r' hm hr1 hm' hr2 h
      rw [es m r (hm 1) (hm 3), es m' r' (hm' 1) (hm' 3)] at h
      have := S.inj _ _ _ _ _ _ (hm 0) (hm 2) hr1 (hm' 0) (hm' 2) hr2 h
      refine ⟨?_, this.2.2⟩
      funext t
      fin_cases t
      · exact this.1
      · exact (Nat.le_zero.1 (hm 1)).trans (Nat.le_zero.1 (hm' 1)).symm
      · exact this.2.1
      · exact (Nat.le_zero.1 (hm 3)).trans (Nat.le_zero.1 (hm' 3)).symm
    · show (2^G.gbits+1) * (3 * e.g_size) ≤ e.g_size * 3 * (2^G.gbits + 1)
      exact le_of_eq (by ring)
  have key := gen2_kernel' (R := R) (e := env4 e) (f := f) (d := s.g2 ip kp) (leng := s.leng (G.int2c O))
    (cutoff := cutoff2c2e s.envCut) (g := g) (idx := idx) (T := T)
    (D := { a := ![s.si.a ip, 0, s.sk.a kp, 0], R := ![s.si.r, s.si.r, s.sk.r, s.sk.r], O := O })
    (Lm := ![e.li_ceil, 0, e.lk_ceil, 0]) (κ := fun m => m 2) (l := fun _ => 0)
    (p := fun n c => ![pw s.si.l c (n % ncart s.si.l), 0, pw s.sk.l c (n / ncart s.si.l), 0]) (ad := adr2 e)
    hG (env4_shape _ _ _ _) rfl rfl rfl C0 (fun t => by
      fin_cases t
      · exact le_refl _
      · show 0 + G.ng.j ≤ 0
        rw [hj]
      · exact le_refl _
      · show 0 + G.ng.l ≤ 0
        rw [hl]) (by
      show (s.si.l + G.ng.i + (s.sk.l + G.ng.k))/2 + 1 =
        (s.si.l + G.ng.i + 0 + (s.sk.l + G.ng.k) + 0)/2 + 1
      omega) (by
      show srRoots _ _ = _ ∨ srRoots _ _ = 2 * _
      unfold srRoots
      split
      · right
        exact Nat.mul_comm _ 2
      · left; rfl) hR (by
      show 0 < s.si.a ip + 0
      rw [add_zero]
      exact hp.i ip hip) (by
      show 0 < s.sk.a kp + 0
      rw [add_zero]
      exact hp.k kp hkp) rfl rfl rfl
      (fun m hm => ⟨hm 0, hm 1, hm 2, le_refl _, fun r => by
          rw [es m r (hm 1) (hm 3)]
          have h1 : m 1 = 0 := Nat.le_zero.1 (hm 1)
          unfold slab2 slab4
          rw [h1]
          show e.g_stride_i * m 0 + e.g_stride_k * m 2 + r = e.g_stride_i * m 0 + e.g_size * 0 + e.g_stride_k * m 2 + e.g_size * 0 + r
          ring,
        fun c _ => by
          have h3 : m 3 = 0 := Nat.le_zero.1 (hm 3)
          rw [h3]
          rfl⟩)
      (fun n c _ _ => by
        rw [es _ _ (le_refl 0) (le_refl 0)]
        rfl)
      (fun n c t hn hc => by
        obtain ⟨d1, d2⟩ := dig n hn
        fin_cases t
        · exact pw_le d1
        · exact le_refl 0
        · exact pw_le d2
        · exact le_refl 0)
      (fun n hn => by
        obtain ⟨d1, d2⟩ := dig n hn
        have e1 : ∑ c : Fin 3, pw s.si.l c (n % ncart s.si.l) = s.si.l := pw_sum d1
        have e2 : ∑ c : Fin 3, pw s.sk.l c (n / ncart s.si.l) = s.sk.l := pw_sum d2
        show (∑ c : Fin 3, pw s.si.l c (n % ncart s.si.l) + ∑ c : Fin 3, 0) +
          (∑ c : Fin 3, pw s.sk.l c (n / ncart s.si.l) + ∑ c : Fin 3, 0) + _ <
          2 * ((s.si.l + G.ng.i + (s.sk.l + G.ng.k))/2 + 1)
        rw [e1, e2, Finset.sum_const_zero]
        omega) hT
  have hfun : (fun fac => g0_2e R realK (s.env (G.int2c O)) (s.g2 ip kp) (cutoff2c2e s.envCut) g fac g0_2d2c) =
      fun fac => g0_2e R realK (env4 (s.env (G.int2c O))) (s.g2 ip kp) (cutoff2c2e s.envCut) g fac := by
    funext fac
    exact g0_2c_eq R realK _ _ _ _ _ _ _ _
  rw [hfun]
  exact key

/-! ### Contraction -/

open Classical in
theorem loopVal2c_gen {X : Int2e ℝ} {s : Call2c ℝ} {w : Nat → Nat → Nat → ℝ} {Z : Nat → Nat → ℝ} {comp ic kc N : Nat}
    (hZ : ∀ ip kp, ip < s.si.nprim → kp < s.sk.nprim → w ip kp (N * X.nComp + comp) * (2 / Real.sqrt Real.pi * Real.pi^3) = Z ip kp) :
    loopVal2c realK X s (fun ip kp => decide (G2.kept (s.g2 ip kp) (cutoff2c2e s.envCut))) w comp ic kc N =
    X.common * (spNorm s.si.l * spNorm s.sk.l) *
      contract2 s.si.nprim s.sk.nprim s.si.c s.sk.c (fun ip kp => if Kept2c s ip kp then Z ip kp else 0) ic kc := by
  unfold loopVal2c
  have hcom : X.common * (realK.pi * realK.pi * realK.pi * 2 / realK.sqrtpi * commonFacSp s.si.l * commonFacSp s.sk.l) =
      X.common * (spNorm s.si.l * spNorm s.sk.l) * (2 / Real.sqrt Real.pi * Real.pi^3) := by
    show X.common * (Real.pi * Real.pi * Real.pi * 2 / Real.sqrt Real.pi * commonFacSp s.si.l * commonFacSp s.sk.l) = _
    rw [spNorm_eq, spNorm_eq]
    ring
  rw [hcom, mul_assoc]
  congr 1
  unfold contract2
  rw [Finset.mul_sum]
  refine Finset.sum_congr rfl (fun kp hkp => ?_)
  rw [Finset.mul_sum]
  refine Finset.sum_congr rfl (fun ip hip => ?_)
  have hip : ip < s.si.nprim := Finset.mem_range.1 hip
  have hkp : kp < s.sk.nprim := Finset.mem_range.1 hkp
  rw [mul_comm (2 / Real.sqrt Real.pi * Real.pi^3), mul_assoc]
  congr 1
  beta_reduce
  by_cases hk : Kept2c s ip kp
  · rw [if_pos (decide_eq_true ((kept2c_iff s ip kp).2 hk)), if_pos hk, hZ ip kp hip hkp]
  · rw [if_neg (fun x => hk ((kept2c_iff s ip kp).1 (of_decide_eq_true x))), if_neg hk, zero_mul]

/-- digits of the position of an element -/
theorem pos2c_digits {s : Call2c ℝ} {i k : Nat} (h1 : i < ncart s.si.l) :
    pos4c (ncar (Call2c.ls s)) i k 0 0 % ncart s.si.l = i ∧ pos4c (ncar (Call2c.ls s)) i k 0 0 / ncart s.si.l = k := by
  have hx : pos4c (ncar (Call2c.ls s)) i k 0 0 = k*ncart s.si.l + i := by
    unfold pos4c ncar
    show i + ncart s.si.l * (0 + ncart 0 * (0 + ncart 0 * k)) = _
    rw [ncart_zero]
    ring
  rw [hx]
  exact ⟨(digit h1).2, (digit h1).1⟩

end Verif.Props
