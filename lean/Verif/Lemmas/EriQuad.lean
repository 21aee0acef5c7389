import Verif.Lemmas.G2eRoot
import Verif.Spec.Rys2

/-! Summing the two-electron intermediates over the roots gives the integral over the interaction. -/
namespace Verif.Lemmas
open Verif Verif.Model Verif.Spec Verif.Prog Verif.Props MeasureTheory Polynomial

/-- what is required of the root finders: quadrature formulas of up to `n` points are exact -/
structure Rys2OK (R : Rys2 ℝ) (n : ℕ) : Prop where
  full : ∀ m, m ≤ n → ∀ x, 0 ≤ x → RysExact m x (R.u m x) (R.w m x)
  part : ∀ x l, 0 ≤ x → 0 ≤ l → l < 1 → RysExactSR n x l (R.sru n x l) (R.srw n x l)

theorem scaleRoot_den {θ u : ℝ} (h1 : θ < 1) (hu : 0 ≤ u) : 0 < u + 1 - u*θ := by nlinarith

theorem scaleRoot_nonneg {θ u : ℝ} (h0 : 0 ≤ θ) (h1 : θ < 1) (hu : 0 ≤ u) : 0 ≤ scaleRoot θ u :=
  div_nonneg (mul_nonneg hu h0) (scaleRoot_den h1 hu).le

theorem scaleRoot_rho {θ u : ℝ} (h1 : θ < 1) (hu : 0 ≤ u) : scaleRoot θ u/(1 + scaleRoot θ u) = θ * (u/(1+u)) := by
  have h2 := scaleRoot_den h1 hu
  have h3 : 0 < 1 + u := by linarith
  unfold scaleRoot
  dsimp only
  have : 1 + u*θ/(u+1-u*θ) = (1+u)/(u+1-u*θ) := by
    rw [eq_div_iff h2.ne', add_mul, div_mul_cancel₀ _ h2.ne']
    ring
  rw [this]
  field_simp

section
variable {d : G2 ℝ} (ha : 0 < d.ai+d.aj) (hb : 0 < d.ak+d.al)
include ha hb

theorem a0_pos : 0 < G2.a0 d := by
  unfold G2.a0
  positivity

theorem theta_nonneg : 0 ≤ G2.theta d := by
  have := a0_pos ha hb
  unfold G2.theta
  exact div_nonneg (mul_self_nonneg _) (add_nonneg (mul_self_nonneg _) this.le)

theorem theta_lt : G2.theta d < 1 := by
  have := a0_pos ha hb
  have h2 := mul_self_nonneg d.omega
  unfold G2.theta
  rw [div_lt_one (by linarith)]
  linarith

theorem x_nonneg : 0 ≤ G2.x d := by
  have := a0_pos ha hb
  unfold G2.x
  have h0 := mul_self_nonneg (d.rij 0 - d.rkl 0)
  have h1 := mul_self_nonneg (d.rij 1 - d.rkl 1)
  have h2 := mul_self_nonneg (d.rij 2 - d.rkl 2)
  positivity

variable {R : Rys2 ℝ} {e : EnvG} (hn : e.nrys_roots = e.rys_order ∨ e.nrys_roots = 2*e.rys_order) (hR : Rys2OK R e.nrys_roots)
include hn hR

theorem nodeU_nonneg (r : Nat) (hr : r < e.nrys_roots) : 0 ≤ nodeU R e d r := by
  have t0 := theta_nonneg ha hb
  have t1 := theta_lt ha hb
  have x0 := x_nonneg ha hb
  have s1 : Real.sqrt (G2.theta d) < 1 := by
    rw [← Real.sqrt_one]; exact Real.sqrt_lt_sqrt t0 t1
  unfold nodeU
  split
  · exact (hR.full _ le_rfl _ x0).nonneg r hr
  split
  · split
    · exact (hR.part _ _ x0 (Real.sqrt_nonneg _) s1).nonneg r hr
    · rename_i ho
      dsimp only
      split
      · rename_i hr'
        exact (hR.full _ (by omega) _ x0).nonneg r hr'
      · exact scaleRoot_nonneg t0 t1 ((hR.full _ (by omega) _ (mul_nonneg t0 x0)).nonneg _ (by omega))
  · exact scaleRoot_nonneg t0 t1 ((hR.full _ le_rfl _ (mul_nonneg x0 t0)).nonneg r hr)

/-- `τ ∫₀¹ F(τ²t²) exp(-xτ²t²) dt` -/
noncomputable def quadT (F : ℝ[X]) (x τ : ℝ) : ℝ := τ * ∫ t in (0:ℝ)..1, F.eval (τ^2*t^2) * Real.exp (-(x*(τ^2*t^2)))

omit ha hb hn hR in
theorem quadT_eq (F : ℝ[X]) (x τ : ℝ) : quadT F x τ = ∫ t in (0:ℝ)..τ, F.eval (t^2) * Real.exp (-x*t^2) := by
  have := intervalIntegral.mul_integral_comp_mul_left (a := 0) (b := 1) (c := τ) (f := fun t => F.eval (t^2) * Real.exp (-x*t^2))
  rw [mul_zero, mul_one] at this
  rw [← this]
  unfold quadT
  congr 1
  refine intervalIntegral.integral_congr fun t _ => ?_
  rw [mul_pow]
  congr 2
  ring

omit ha hb hn hR in
theorem scaled_sum {n : ℕ} {x θ : ℝ} {u w : ℕ → ℝ} (h0 : 0 ≤ θ) (h1 : θ < 1) (H : RysExact n (x*θ) u w) (F : ℝ[X]) (hF : F.natDegree < 2*n) :
    ∑ r ∈ Finset.range n, w r * Real.sqrt θ * F.eval (scaleRoot θ (u r)/(1+scaleRoot θ (u r))) = quadT F x (Real.sqrt θ) := by
  have hd : (F.comp (C θ * X)).natDegree < 2*n := by
    refine lt_of_le_of_lt (natDegree_comp_le.trans ?_) hF
    have h2 : (C θ * X : ℝ[X]).natDegree ≤ 1 := by
      refine (natDegree_C_mul_le _ _).trans ?_
      simp
    calc _ ≤ F.natDegree * 1 := Nat.mul_le_mul_left _ h2
      _ = _ := Nat.mul_one _
  have := H.sum_eq _ hd
  unfold quadT
  rw [Real.sq_sqrt h0]
  have e : ∀ t : ℝ, F.eval (θ*t^2) * Real.exp (-(x*(θ*t^2))) = (F.comp (C θ * X)).eval (t^2) * Real.exp (-(x*θ)*t^2) := by
    intro t
    simp only [eval_comp, eval_mul, eval_C, eval_X]
    congr 2
    ring
  simp_rw [e]
  rw [← this, Finset.mul_sum]
  refine Finset.sum_congr rfl fun r hr => ?_
  rw [scaleRoot_rho h1 (H.nonneg r (Finset.mem_range.1 hr))]
  simp only [eval_comp, eval_mul, eval_C, eval_X]
  ring

omit ha hb hn hR in
theorem full_sum {n : ℕ} {x : ℝ} {u w : ℕ → ℝ} (H : RysExact n x u w) (F : ℝ[X]) (hF : F.natDegree < 2*n) :
    ∑ r ∈ Finset.range n, w r * F.eval (u r/(1+u r)) = quadT F x 1 := by
  rw [H.sum_eq F hF, quadT_eq]

/-- the integral over the quadrature variable for the selected interaction -/
noncomputable def quadSel (d : G2 ℝ) (F : ℝ[X]) : ℝ :=
  if d.omega = 0 then quadT F (G2.x d) 1
  else if d.omega < 0 then quadT F (G2.x d) 1 - quadT F (G2.x d) (Real.sqrt (G2.theta d))
  else quadT F (G2.x d) (Real.sqrt (G2.theta d))

theorem node_sum (F : ℝ[X]) (hF : F.natDegree < 2*e.rys_order) :
    ∑ r ∈ Finset.range e.nrys_roots, nodeW R e d r * F.eval (nodeU R e d r/(1+nodeU R e d r)) = quadSel d F := by
  have t0 := theta_nonneg ha hb
  have t1 := theta_lt ha hb
  have x0 := x_nonneg ha hb
  have s1 : Real.sqrt (G2.theta d) < 1 := by
    rw [← Real.sqrt_one]; exact Real.sqrt_lt_sqrt t0 t1
  have hF' : F.natDegree < 2*e.nrys_roots := by omega
  unfold nodeU nodeW quadSel
  by_cases o0 : d.omega = 0
  · simp only [if_pos o0]
    exact full_sum (hR.full _ le_rfl _ x0) F hF'
  simp only [if_neg o0]
  by_cases o1 : d.omega < 0
  · simp only [if_pos o1]
    by_cases ho : e.rys_order = e.nrys_roots
    · simp only [if_pos ho]
      rw [(hR.part _ _ x0 (Real.sqrt_nonneg _) s1).sum_eq F hF', quadT_eq, quadT_eq]
      have hc : Continuous fun t : ℝ => F.eval (t^2) * Real.exp (-G2.x d*t^2) := by
        have : Continuous fun t : ℝ => F.eval (t^2) := F.continuous.comp (continuous_pow 2)
        fun_prop
      rw [eq_sub_iff_add_eq, add_comm]
      exact intervalIntegral.integral_add_adjacent_intervals (hc.intervalIntegrable _ _) (hc.intervalIntegrable _ _)
    · simp only [if_neg ho]
      have hn2 : e.nrys_roots = e.rys_order + e.rys_order := by omega
      rw [hn2, Finset.sum_range_add]
      rw [sub_eq_add_neg]
      congr 1
      · rw [← full_sum (hR.full e.rys_order (by omega) _ x0) F hF]
        refine Finset.sum_congr rfl fun r hr => ?_
        rw [Finset.mem_range] at hr
        simp only [if_pos hr]
      · have := hR.full e.rys_order (by omega) _ (mul_nonneg t0 x0)
        rw [mul_comm (G2.theta d)] at this
        rw [← scaled_sum t0 t1 this F hF, ← Finset.sum_neg_distrib]
        refine Finset.sum_congr rfl fun r hr => ?_
        simp only [if_neg (show ¬ e.rys_order + r < e.rys_order by omega), Nat.add_sub_cancel_left]
        rw [mul_comm (G2.theta d) (G2.x d)]
        ring
  · simp only [if_neg o1]
    exact scaled_sum t0 t1 (hR.full _ le_rfl _ (mul_nonneg x0 t0)) F hF'

omit hn hR in
theorem quadSel_eri (f g : Fin 3 → ℝ[X]) :
    2 / Real.sqrt Real.pi * Real.pi^3 * (G2.norm d * quadSel d (∏ k : Fin 3, red2 (d.ai+d.aj) (d.ak+d.al) (d.rij k) (d.rkl k) (f k) (g k))) =
      repulsion (interaction d.omega) (pg (d.ai+d.aj) (fun k => d.rij k) f) (pg (d.ak+d.al) (fun k => d.rkl k) g) := by
  have x1 : G2.x d = G2.a0 d * ∑ k : Fin 3, (d.rij k - d.rkl k)^2 := by
    unfold G2.x
    rw [Fin.sum_univ_three]
    simp only [Fin.val_zero, Fin.val_one, Fin.val_two]
    ring
  have hT : ∀ τ : ℝ, 2 / Real.sqrt Real.pi * Real.pi^3 * (G2.norm d * quadT (∏ k : Fin 3, red2 (d.ai+d.aj) (d.ak+d.al) (d.rij k) (d.rkl k) (f k) (g k)) (G2.x d) τ) =
      eriT (d.ai+d.aj) (d.ak+d.al) τ (fun k => d.rij k) (fun k => d.rkl k) f g := by
    intro τ
    unfold eriT quadT
    have hn : G2.norm d = Real.sqrt ((d.ai+d.aj)*(d.ak+d.al)/(d.ai+d.aj+(d.ak+d.al))) / Real.sqrt ((d.ai+d.aj)*(d.ak+d.al))^3 := by
      unfold G2.norm G2.a0
      have hab : 0 ≤ (d.ai+d.aj)*(d.ak+d.al) := by positivity
      rw [Real.sqrt_div (by positivity)]
      congr 1
      rw [← Real.sqrt_sq (pow_nonneg (Real.sqrt_nonneg ((d.ai+d.aj)*(d.ak+d.al))) 3)]
      congr 1
      rw [← pow_mul, show 3*2 = 2*3 by norm_num, pow_mul, Real.sq_sqrt hab]
      ring
    rw [hn]
    have e : ∀ t : ℝ, (∏ k : Fin 3, red2 (d.ai+d.aj) (d.ak+d.al) (d.rij k) (d.rkl k) (f k) (g k)).eval (τ^2*t^2) * Real.exp (-(G2.x d*(τ^2*t^2))) =
        Real.exp (-((d.ai+d.aj)*(d.ak+d.al)/(d.ai+d.aj+(d.ak+d.al))*(τ^2*t^2)) * ∑ k : Fin 3, (d.rij k - d.rkl k)^2) *
        ∏ k : Fin 3, (red2 (d.ai+d.aj) (d.ak+d.al) (d.rij k) (d.rkl k) (f k) (g k)).eval (τ^2*t^2) := by
      intro t
      rw [eval_prod, mul_comm, x1]
      congr 2
      unfold G2.a0
      ring
    simp_rw [e]
    rw [div_pow]
    ring
  have ht : G2.theta d = d.omega^2/((d.ai+d.aj)*(d.ak+d.al)/(d.ai+d.aj+(d.ak+d.al)) + d.omega^2) := by
    unfold G2.theta G2.a0
    rw [add_comm]
    ring_nf
  unfold quadSel interaction
  by_cases o0 : d.omega = 0
  · simp only [if_pos o0]
    rw [hT, (eri_coulomb ha hb _ _ f g).2]
  simp only [if_neg o0]
  by_cases o1 : d.omega < 0
  · simp only [if_pos o1]
    rw [mul_sub, mul_sub, hT, hT, (eri_coulombSR ha hb _ _ f g (ω := -d.omega) (by linarith)).2, neg_sq, ht]
  · simp only [if_neg o1]
    rw [hT, (eri_coulombLR ha hb _ _ f g (lt_of_le_of_ne (not_lt.1 o1) (Ne.symm o0))).2, ht]

/-- the sum over the roots of the products of the three intermediates is the integral -/
theorem eri_sum (f g : Fin 3 → ℝ[X]) (hd : ∑ k, ((f k).natDegree + (g k).natDegree) < 2*e.rys_order) :
    2 / Real.sqrt Real.pi * Real.pi^3 * (G2.norm d * ∑ r ∈ Finset.range e.nrys_roots, nodeW R e d r *
      ∏ k : Fin 3, rm2 (d.ai+d.aj) (d.ak+d.al) (G2.a0 d * |nodeU R e d r|) (d.rij k) (d.rkl k) (f k) (g k)) =
      repulsion (interaction d.omega) (pg (d.ai+d.aj) (fun k => d.rij k) f) (pg (d.ak+d.al) (fun k => d.rkl k) g) := by
  rw [← quadSel_eri ha hb f g, ← node_sum ha hb hn hR]
  · congr 2
    refine Finset.sum_congr rfl fun r hr => ?_
    have hu := nodeU_nonneg ha hb hn hR r (Finset.mem_range.1 hr)
    rw [eval_prod]
    congr 1
    refine Finset.prod_congr rfl fun k _ => ?_
    rw [abs_of_nonneg hu]
    exact rm2_red2 ha hb hu _ _ _ _
  · refine lt_of_le_of_lt (natDegree_prod_le _ _) (lt_of_le_of_lt (Finset.sum_le_sum fun k _ => red2_degree _ _ _ _ _ _) hd)
end

end Verif.Lemmas
