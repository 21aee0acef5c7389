import Verif.Spec.GridPot
import Verif.Lemmas.Nuc
import Verif.Lemmas.EriQuad

/-! Integrals of a pair of functions with the potential of a charge at a grid point. -/
namespace Verif.Lemmas
open Verif Verif.Model Verif.Spec Verif.Prog Verif.Props MeasureTheory Polynomial

theorem int_pg_quadT {p : ℝ} (hp : 0 < p) (ζ : ℝ) (P c : Fin 3 → ℝ) (q : Fin 3 → ℝ[X]) :
    ∫ r, pg p P q r * potential ζ c r = 2 * Real.pi / p *
      quadT (∏ k, red p (P k) (c k) (q k)) (p * ∑ k, (P k - c k)^2) (nucTau p ζ) := by
  rw [(int_pg_potential hp ζ P c q).2, mul_assoc]
  unfold quadT
  congr 2
  refine intervalIntegral.integral_congr fun t _ => ?_
  rw [eval_prod]
  simp only [eval_comp, eval_mul, eval_C, eval_X]
  congr 2
  ring

theorem theta_sum {n : ℕ} {x θ : ℝ} {u w : ℕ → ℝ} (h0 : 0 ≤ θ) (H : RysExact n (x*θ) u w) (F : ℝ[X])
    (hF : F.natDegree < 2*n) :
    ∑ r ∈ Finset.range n, w r * Real.sqrt θ * F.eval (u r/(u r + 1) * θ) = quadT F x (Real.sqrt θ) := by
  have hd : (F.comp (C θ * X)).natDegree < 2*n := by
    refine lt_of_le_of_lt (natDegree_comp_le.trans ?_) hF
    have h2 : (C θ * X : ℝ[X]).natDegree ≤ 1 := by
      refine (natDegree_C_mul_le _ _).trans ?_
      simp
    calc _ ≤ F.natDegree * 1 := Nat.mul_le_mul_left _ h2
      _ = _ := Nat.mul_one _
  have := H.sum_eq _ hd
  unfold quadT
  rw [Real.sq_sqrt h0]
  have e : ∀ t : ℝ, F.eval (θ*t^2) * Real.exp (-(x*(θ*t^2))) = (F.comp (C θ * X)).eval (t^2) * Real.exp (-(x*θ)*t^2) := by
    intro t
    simp only [eval_comp, eval_mul, eval_C, eval_X]
    congr 2
    ring
  simp_rw [e]
  rw [← this, Finset.mul_sum]
  refine Finset.sum_congr rfl fun r hr => ?_
  simp only [eval_comp, eval_mul, eval_C, eval_X]
  rw [show u r/(u r + 1) * θ = θ * (u r/(1 + u r)) by rw [add_comm, mul_comm]]
  ring

theorem theta_sumSR {n : ℕ} {x θ l : ℝ} {u w : ℕ → ℝ} (h0 : 0 < θ) (H : RysExactSR n (x*θ) l u w) (F : ℝ[X])
    (hF : F.natDegree < 2*n) :
    ∑ r ∈ Finset.range n, w r * Real.sqrt θ * F.eval (u r/(u r + 1) * θ) =
      quadT F x (Real.sqrt θ) - quadT F x (Real.sqrt θ * l) := by
  have hd : (F.comp (C θ * X)).natDegree < 2*n := by
    refine lt_of_le_of_lt (natDegree_comp_le.trans ?_) hF
    have h2 : (C θ * X : ℝ[X]).natDegree ≤ 1 := by
      refine (natDegree_C_mul_le _ _).trans ?_
      simp
    calc _ ≤ F.natDegree * 1 := Nat.mul_le_mul_left _ h2
      _ = _ := Nat.mul_one _
  have := H.sum_eq _ hd
  have hc : Continuous fun t : ℝ => F.eval (t^2) * Real.exp (-x*t^2) := by
    have : Continuous fun t : ℝ => F.eval (t^2) := F.continuous.comp (continuous_pow 2)
    fun_prop
  have hsplit : quadT F x (Real.sqrt θ) - quadT F x (Real.sqrt θ * l) =
      ∫ t in (Real.sqrt θ * l)..(Real.sqrt θ), F.eval (t^2) * Real.exp (-x*t^2) := by
    rw [quadT_eq, quadT_eq, sub_eq_iff_eq_add, add_comm]
    exact (intervalIntegral.integral_add_adjacent_intervals (hc.intervalIntegrable _ _) (hc.intervalIntegrable _ _)).symm
  have hsc := intervalIntegral.mul_integral_comp_mul_left (a := l) (b := 1) (c := Real.sqrt θ)
    (f := fun t => F.eval (t^2) * Real.exp (-x*t^2))
  rw [mul_one] at hsc
  rw [hsplit, ← hsc]
  have e : ∀ t : ℝ, F.eval ((Real.sqrt θ*t)^2) * Real.exp (-x*(Real.sqrt θ*t)^2) =
      (F.comp (C θ * X)).eval (t^2) * Real.exp (-(x*θ)*t^2) := by
    intro t
    simp only [eval_comp, eval_mul, eval_C, eval_X]
    rw [mul_pow, Real.sq_sqrt h0.le]
    congr 2
    ring
  simp_rw [e]
  rw [← this, Finset.mul_sum]
  refine Finset.sum_congr rfl fun r hr => ?_
  simp only [eval_comp, eval_mul, eval_C, eval_X]
  rw [show u r/(u r + 1) * θ = θ * (u r/(1 + u r)) by rw [add_comm, mul_comm]]
  ring

/-! ### The potential -/

/-- exponent of the Gaussian whose potential the long-range interaction with the charge is -/
noncomputable def effExp (omega ζ : ℝ) : ℝ := if ζ = 0 then omega^2 else ζ * omega^2/(ζ + omega^2)

theorem potential_symm (ζ : ℝ) (c r : Fin 3 → ℝ) : potential ζ c r = potential ζ r c := by
  have h : ∑ k, (r k - c k)^2 = ∑ k, (c k - r k)^2 := Finset.sum_congr rfl fun k _ => by ring
  by_cases hz : 0 < ζ
  · rw [gauss_potential hz, gauss_potential hz, h]
  · unfold potential coulomb
    rw [if_neg hz, if_neg hz, h]

theorem ae_ne (c : Fin 3 → ℝ) : ∀ᵐ r : Fin 3 → ℝ, r ≠ c := by
  rw [ae_iff]
  simp

/-- a Gaussian charge in the potential of a Gaussian charge -/
theorem gaussCharge_potential {ζ η : ℝ} (hζ : 0 < ζ) (hη : 0 < η) (c r : Fin 3 → ℝ) :
    Integrable (fun r' => gaussCharge ζ c r' * potential η r' r) ∧
    ∫ r', gaussCharge ζ c r' * potential η r' r = potential (ζ*η/(ζ+η)) c r := by
  have e : ∀ r', gaussCharge ζ c r' * potential η r' r = (ζ/Real.pi)^(3/2:ℝ) * (pg ζ c (fun _ => 1) r' * potential η r r') := by
    intro r'
    rw [potential_symm η r' r]
    unfold gaussCharge pg
    simp only [eval_one, one_mul]
    rw [← Real.exp_sum, Finset.mul_sum]
    ring
  obtain ⟨i, v⟩ := int_pg_potential hζ η c r (fun _ => 1)
  simp_rw [e]
  refine ⟨i.const_mul _, ?_⟩
  rw [integral_const_mul, v, gauss_potential (by positivity)]
  have h2 : ∀ t : ℝ, (∏ k : Fin 3, ((red ζ (c k) (r k) 1).comp (C (nucTau ζ η^2) * X)).eval (t^2)) *
        Real.exp (-(ζ * nucTau ζ η^2 * ∑ k, (c k - r k)^2)*t^2) =
      Real.exp (-(ζ*η/(ζ+η)*t^2) * ∑ k, (r k - c k)^2) := by
    intro t
    simp only [red_one, one_comp, eval_one, Finset.prod_const_one, one_mul]
    rw [show ∑ k, (c k - r k)^2 = ∑ k, (r k - c k)^2 from Finset.sum_congr rfl fun k _ => by ring]
    unfold nucTau
    rw [if_pos hη, Real.sq_sqrt (by positivity)]
    congr 1
    ring
  simp_rw [h2]
  rw [← mul_assoc, ← mul_assoc]
  congr 1
  have e1 : (ζ/Real.pi)^(3/2:ℝ) = Real.sqrt (ζ/Real.pi)^3 := by
    rw [Real.sqrt_eq_rpow, ← Real.rpow_natCast, ← Real.rpow_mul (by positivity)]
    norm_num
  unfold nucTau
  rw [e1, if_pos hη, mul_div_assoc ζ η, Real.sqrt_mul hζ.le, Real.sqrt_div hζ.le]
  have h1 : 0 < Real.sqrt ζ := Real.sqrt_pos.2 hζ
  have h2 : 0 < Real.sqrt Real.pi := Real.sqrt_pos.2 Real.pi_pos
  have h3 : Real.sqrt ζ ^ 2 = ζ := Real.sq_sqrt hζ.le
  have h4 : Real.sqrt Real.pi ^ 2 = Real.pi := Real.sq_sqrt Real.pi_pos.le
  generalize Real.sqrt (η/(ζ+η)) = q
  rw [show (2:ℝ) * Real.pi / ζ = 2 * Real.sqrt Real.pi^2 / Real.sqrt ζ^2 by rw [h3, h4]]
  field_simp

theorem gaussCharge_coulomb {ζ : ℝ} (hζ : 0 < ζ) (c r : Fin 3 → ℝ) :
    Integrable (fun r' => gaussCharge ζ c r' * coulomb r' r) := by
  have e : ∀ r', gaussCharge ζ c r' * coulomb r' r = (ζ/Real.pi)^(3/2:ℝ) * (pg ζ c (fun _ => 1) r' * potential 0 r r') := by
    intro r'
    have h : coulomb r' r = potential 0 r r' := by
      rw [potential_symm]
      unfold potential
      rw [if_neg (lt_irrefl _)]
    rw [h]
    unfold gaussCharge pg
    simp only [eval_one, one_mul]
    rw [← Real.exp_sum, Finset.mul_sum]
    ring
  simp_rw [e]
  exact (int_pg_potential hζ 0 c r (fun _ => 1)).1.const_mul _

/-- the potential at a grid point in terms of potentials of Gaussian charges -/
theorem gridPotential_eq {omega ζ : ℝ} (hζ : 0 ≤ ζ) {c r : Fin 3 → ℝ} (hr : r ≠ c) :
    gridPotential omega ζ c r = if omega = 0 then potential ζ c r
      else if omega < 0 then potential ζ c r - potential (effExp omega ζ) c r else potential (effExp omega ζ) c r := by
  have ho2 : omega ≠ 0 → 0 < omega^2 := fun h => by positivity
  unfold gridPotential interaction
  by_cases hz : 0 < ζ
  · rw [if_pos hz]
    have hne : ∀ᵐ r' : Fin 3 → ℝ, r' ≠ r := ae_ne r
    have heff : effExp omega ζ = ζ * omega^2/(ζ + omega^2) := if_neg hz.ne'
    by_cases o0 : omega = 0
    · simp only [if_pos o0]
      unfold potential
      rw [if_pos hz]
    simp only [if_neg o0]
    by_cases o1 : omega < 0
    · simp only [if_pos o1]
      have hae : (fun r' => gaussCharge ζ c r' * coulombSR (-omega) r' r) =ᵐ[volume]
          fun r' => gaussCharge ζ c r' * coulomb r' r - gaussCharge ζ c r' * potential (omega^2) r' r := by
        filter_upwards [hne] with r' h'
        rw [coulombSR_eq, coulombLR_eq (by linarith) (Ne.symm h'), neg_sq]
        ring
      rw [integral_congr_ae hae, integral_sub (gaussCharge_coulomb hz c r) (gaussCharge_potential hz (ho2 o0) c r).1,
        (gaussCharge_potential hz (ho2 o0) c r).2, heff]
      congr 1
      unfold potential
      rw [if_pos hz]
    · simp only [if_neg o1]
      have hae : (fun r' => gaussCharge ζ c r' * coulombLR omega r' r) =ᵐ[volume]
          fun r' => gaussCharge ζ c r' * potential (omega^2) r' r := by
        filter_upwards [hne] with r' h'
        rw [coulombLR_eq (lt_of_le_of_ne (not_lt.1 o1) (Ne.symm o0)) (Ne.symm h')]
      rw [integral_congr_ae hae, (gaussCharge_potential hz (ho2 o0) c r).2, heff]
  · have hz0 : ζ = 0 := le_antisymm (not_lt.1 hz) hζ
    rw [if_neg hz]
    have heff : effExp omega ζ = omega^2 := if_pos hz0
    have hp0 : potential ζ c r = coulomb c r := by
      unfold potential
      rw [if_neg hz]
    rw [heff, hp0]
    by_cases o0 : omega = 0
    · simp only [if_pos o0]
    simp only [if_neg o0]
    by_cases o1 : omega < 0
    · simp only [if_pos o1]
      rw [coulombSR_eq, coulombLR_eq (by linarith) hr, neg_sq]
    · simp only [if_neg o1]
      rw [coulombLR_eq (lt_of_le_of_ne (not_lt.1 o1) (Ne.symm o0)) hr]

/-- `∫ pg V` for the potential at a grid point -/
noncomputable def gridQuad (p omega ζ : ℝ) (F : ℝ[X]) (x : ℝ) : ℝ :=
  if omega = 0 then quadT F x (nucTau p ζ)
  else if omega < 0 then quadT F x (nucTau p ζ) - quadT F x (nucTau p (effExp omega ζ))
  else quadT F x (nucTau p (effExp omega ζ))

theorem int_pg_grid {p omega ζ : ℝ} (hp : 0 < p) (hζ : 0 ≤ ζ) (P c : Fin 3 → ℝ) (q : Fin 3 → ℝ[X]) :
    Integrable (fun r => pg p P q r * gridPotential omega ζ c r) ∧
    ∫ r, pg p P q r * gridPotential omega ζ c r = 2 * Real.pi / p *
      gridQuad p omega ζ (∏ k, red p (P k) (c k) (q k)) (p * ∑ k, (P k - c k)^2) := by
  have i1 := (int_pg_potential hp ζ P c q).1
  have i2 := (int_pg_potential hp (effExp omega ζ) P c q).1
  have v1 := int_pg_quadT hp ζ P c q
  have v2 := int_pg_quadT hp (effExp omega ζ) P c q
  unfold gridQuad
  by_cases o0 : omega = 0
  · have hae : (fun r => pg p P q r * gridPotential omega ζ c r) =ᵐ[volume] fun r => pg p P q r * potential ζ c r := by
      filter_upwards [ae_ne c] with r hr
      rw [gridPotential_eq hζ hr, if_pos o0]
    exact ⟨i1.congr hae.symm, by rw [integral_congr_ae hae, v1, if_pos o0]⟩
  by_cases o1 : omega < 0
  · have hae : (fun r => pg p P q r * gridPotential omega ζ c r) =ᵐ[volume] fun r =>
        pg p P q r * potential ζ c r - pg p P q r * potential (effExp omega ζ) c r := by
      filter_upwards [ae_ne c] with r hr
      rw [gridPotential_eq hζ hr, if_neg o0, if_pos o1]
      ring
    exact ⟨(i1.sub i2).congr hae.symm, by
      rw [integral_congr_ae hae, integral_sub i1 i2, v1, v2, if_neg o0, if_pos o1]; ring⟩
  · have hae : (fun r => pg p P q r * gridPotential omega ζ c r) =ᵐ[volume] fun r =>
        pg p P q r * potential (effExp omega ζ) c r := by
      filter_upwards [ae_ne c] with r hr
      rw [gridPotential_eq hζ hr, if_neg o0, if_neg o1]
    exact ⟨i2.congr hae.symm, by rw [integral_congr_ae hae, v2, if_neg o0, if_neg o1]⟩

end Verif.Lemmas
