import Verif.Spec.Eri
import Verif.Lemmas.Bivar
import Verif.Lemmas.Coulomb
import Mathlib.MeasureTheory.Constructions.Pi
import Mathlib.MeasureTheory.Integral.Pi

/-! Two-electron integrals over Gaussians as one-dimensional integrals. -/
namespace Verif.Lemmas
open Verif.Spec MeasureTheory Polynomial

/-- electron 1 times electron 2 times `e^(-V r₁₂²)` -/
noncomputable def pgg (a b V : ℝ) (P Q : Fin 3 → ℝ) (f g : Fin 3 → ℝ[X]) (z : (Fin 3 → ℝ) × (Fin 3 → ℝ)) : ℝ :=
  pg a P f z.1 * gV V z.1 z.2 * pg b Q g z.2

noncomputable def pgg1 (a b V : ℝ) (P Q : Fin 3 → ℝ) (f g : Fin 3 → ℝ[X]) (k : Fin 3) (z : ℝ × ℝ) : ℝ :=
  (f k).eval z.1 * (g k).eval z.2 * bw a b V (P k) (Q k) z

theorem pgg_prod (a b V : ℝ) (P Q : Fin 3 → ℝ) (f g : Fin 3 → ℝ[X]) (z : (Fin 3 → ℝ) × (Fin 3 → ℝ)) :
    pgg a b V P Q f g z = ∏ k, pgg1 a b V P Q f g k (z.1 k, z.2 k) := by
  unfold pgg pgg1 pg bw
  rw [gV_prod]
  rw [← Finset.prod_mul_distrib, ← Finset.prod_mul_distrib]
  refine Finset.prod_congr rfl fun k _ => ?_
  dsimp only
  rw [show (z.2 k - z.1 k)^2 = (z.1 k - z.2 k)^2 by ring]
  ring

theorem integrable_pgg {a b V : ℝ} (ha : 0 < a) (hb : 0 < b) (hV : 0 ≤ V) (P Q : Fin 3 → ℝ) (f g : Fin 3 → ℝ[X]) :
    Integrable (pgg a b V P Q f g) := by
  have h1 : Integrable (fun x : Fin 3 → ℝ × ℝ => ∏ k, pgg1 a b V P Q f g k (x k)) :=
    Integrable.fintype_prod (μ := fun _ => volume) (f := fun k z => pgg1 a b V P Q f g k z)
      (fun k => integrable_mom2 ha hb hV (P k) (Q k) (f k) (g k))
  rw [← (volume_measurePreserving_arrowProdEquivProdArrow ℝ ℝ (Fin 3)).integrable_comp_emb
    (MeasurableEquiv.measurableEmbedding _)]
  refine h1.congr (Filter.Eventually.of_forall fun x => ?_)
  show _ = pgg a b V P Q f g _
  rw [pgg_prod]
  rfl

theorem int_pgg (a b V : ℝ) (P Q : Fin 3 → ℝ) (f g : Fin 3 → ℝ[X]) :
    ∫ z, pgg a b V P Q f g z = ∏ k, mom2 a b V (P k) (Q k) (f k) (g k) := by
  rw [← (volume_measurePreserving_arrowProdEquivProdArrow ℝ ℝ (Fin 3)).integral_comp'
    (g := pgg a b V P Q f g)]
  have : ∀ x : Fin 3 → ℝ × ℝ, pgg a b V P Q f g ((MeasurableEquiv.arrowProdEquivProdArrow ℝ ℝ (Fin 3)) x) =
      ∏ k, pgg1 a b V P Q f g k (x k) := fun x => by rw [pgg_prod]; rfl
  simp_rw [this]
  rw [integral_fintype_prod_volume_eq_prod (fun k z => pgg1 a b V P Q f g k z)]
  rfl

section
variable {a b τ : ℝ} (ha : 0 < a) (hb : 0 < b) (h0 : 0 < τ) (h1 : τ ≤ 1) (P Q : Fin 3 → ℝ) (f g : Fin 3 → ℝ[X])
include ha hb h0 h1

theorem int_kern2 {t : ℝ} (ht : t ∈ Set.Ioo (0:ℝ) 1) :
    ∫ z, gk (a*b/(a+b)) τ t * pgg a b (gE (a*b/(a+b)) τ t) P Q f g z =
      Real.sqrt (a*b/(a+b)) * τ * (Real.pi/Real.sqrt (a*b))^3 *
        (Real.exp (-(a*b/(a+b)*(τ^2*t^2)) * ∑ k, (P k - Q k)^2) *
        ∏ k, (red2 a b (P k) (Q k) (f k) (g k)).eval (τ^2*t^2)) := by
  obtain ⟨hρ0, hρ1⟩ := rho_bounds h0 h1 ht
  rw [integral_const_mul, int_pgg]
  unfold gE
  have e : ∀ k, mom2 a b (a*b/(a+b)*(τ^2*t^2)/(1-τ^2*t^2)) (P k) (Q k) (f k) (g k) =
      Real.pi / Real.sqrt (a*b) * Real.sqrt (1-τ^2*t^2) * Real.exp (-(a*b/(a+b)*(τ^2*t^2))*(P k-Q k)^2) *
        (red2 a b (P k) (Q k) (f k) (g k)).eval (τ^2*t^2) := by
    intro k
    rw [mom2_red2 ha hb hρ0 hρ1, mom2_one_rho ha hb hρ0 hρ1]
  simp_rw [e]
  rw [Finset.prod_mul_distrib, Finset.prod_mul_distrib, Finset.prod_const, ← Real.exp_sum, ← Finset.mul_sum]
  simp only [Finset.card_univ, Fintype.card_fin]
  unfold gk
  have hs : 0 < Real.sqrt (1 - τ^2*t^2) := Real.sqrt_pos.2 (by linarith)
  generalize Real.exp _ = x1
  generalize (∏ k, (red2 a b (P k) (Q k) (f k) (g k)).eval (τ^2*t^2)) = x2
  generalize Real.sqrt (1-τ^2*t^2) = x3 at *
  field_simp

theorem integrable_kern2 :
    Integrable (fun y : ((Fin 3 → ℝ) × (Fin 3 → ℝ)) × ℝ =>
        gk (a*b/(a+b)) τ y.2 * pgg a b (gE (a*b/(a+b)) τ y.2) P Q f g y.1)
      (volume.prod (volume.restrict (Set.Ioo 0 1))) := by
  have hmeas : Measurable (fun y : ((Fin 3 → ℝ) × (Fin 3 → ℝ)) × ℝ =>
        gk (a*b/(a+b)) τ y.2 * pgg a b (gE (a*b/(a+b)) τ y.2) P Q f g y.1) := by
    have hpg : ∀ (p : ℝ) (R : Fin 3 → ℝ) (q : Fin 3 → ℝ[X]), Measurable (pg p R q) := by
      intro p R q
      unfold pg
      refine Finset.measurable_prod _ (fun k _ => Measurable.mul ?_ ?_)
      · exact (q k).continuous.measurable.comp (measurable_pi_apply k)
      · fun_prop
    unfold pgg
    refine Measurable.mul (by unfold gk; fun_prop) (Measurable.mul (Measurable.mul ?_ ?_) ?_)
    · exact (hpg a P f).comp (measurable_fst.comp measurable_fst)
    · unfold gV gE; fun_prop
    · exact (hpg b Q g).comp (measurable_snd.comp measurable_fst)
  have hm := hmeas.aestronglyMeasurable (μ := volume.prod (volume.restrict (Set.Ioo 0 1)))
  have hi : ∀ t ∈ Set.Ioo (0:ℝ) 1, ∀ f g : Fin 3 → ℝ[X],
      Integrable fun z => gk (a*b/(a+b)) τ t * pgg a b (gE (a*b/(a+b)) τ t) P Q f g z := by
    intro t ht f g
    obtain ⟨hρ0, hρ1⟩ := rho_bounds h0 h1 ht
    have hV : 0 ≤ gE (a*b/(a+b)) τ t := by
      unfold gE; exact div_nonneg (mul_nonneg (by positivity) hρ0) (by linarith)
    exact (integrable_pgg ha hb hV P Q f g).const_mul _
  rw [integrable_prod_iff' hm]
  constructor
  · rw [ae_restrict_iff' measurableSet_Ioo]
    exact Filter.Eventually.of_forall fun t ht => hi t ht f g
  · let G : ℝ → ℝ := fun t => Real.sqrt (a*b/(a+b)) * τ * (Real.pi/Real.sqrt (a*b))^3 *
        (Real.exp (-(a*b/(a+b)*(τ^2*t^2)) * ∑ k, (P k - Q k)^2) *
        ∏ k, (red2 a b (P k) (Q k) (1 + (f k)^2) (1 + (g k)^2)).eval (τ^2*t^2))
    have hG : Continuous G := by
      refine Continuous.mul continuous_const (Continuous.mul (by fun_prop) ?_)
      refine continuous_finset_prod _ (fun k _ => ?_)
      exact (red2 a b (P k) (Q k) (1 + (f k)^2) (1 + (g k)^2)).continuous.comp (by fun_prop)
    have hGi : Integrable G (volume.restrict (Set.Ioo 0 1)) :=
      (hG.integrableOn_Icc (a := 0) (b := 1)).mono_set Set.Ioo_subset_Icc_self
    refine hGi.mono' hm.norm.prod_swap.integral_prod_right' ?_
    rw [ae_restrict_iff' measurableSet_Ioo]
    refine Filter.Eventually.of_forall fun t ht => ?_
    rw [Real.norm_eq_abs, abs_of_nonneg (integral_nonneg fun r => norm_nonneg _)]
    refine le_trans ?_ (le_of_eq (int_kern2 ha hb h0 h1 P Q (fun k => 1 + (f k)^2) (fun k => 1 + (g k)^2) ht))
    refine integral_mono (hi t ht f g).norm (hi t ht _ _) (fun z => ?_)
    dsimp only
    rw [norm_mul, Real.norm_eq_abs (gk _ τ t), abs_of_nonneg (gk_nonneg h0)]
    refine mul_le_mul_of_nonneg_left ?_ (gk_nonneg h0)
    unfold pgg
    rw [norm_mul, norm_mul, Real.norm_eq_abs (gV _ _ _), abs_of_pos (show 0 < gV _ z.1 z.2 from Real.exp_pos _)]
    have n1 := pg_norm_le a P f z.1
    have n2 := pg_norm_le b Q g z.2
    have n3 : 0 ≤ gV (gE (a*b/(a+b)) τ t) z.1 z.2 := (Real.exp_pos _).le
    exact mul_le_mul (mul_le_mul_of_nonneg_right n1 n3) n2 (norm_nonneg _)
      (mul_nonneg ((norm_nonneg _).trans n1) n3)

/-- two Gaussian charge distributions interacting by `potT` -/
theorem int_pgg_potT :
    Integrable (fun z : (Fin 3 → ℝ) × (Fin 3 → ℝ) => pg a P f z.1 * potT (a*b/(a+b)) τ z.1 z.2 * pg b Q g z.2) ∧
    ∫ z : (Fin 3 → ℝ) × (Fin 3 → ℝ), pg a P f z.1 * potT (a*b/(a+b)) τ z.1 z.2 * pg b Q g z.2 =
      Real.sqrt (a*b/(a+b)) * τ * (Real.pi/Real.sqrt (a*b))^3 *
      ∫ t in (0:ℝ)..1, (Real.exp (-(a*b/(a+b)*(τ^2*t^2)) * ∑ k, (P k - Q k)^2) *
        ∏ k, (red2 a b (P k) (Q k) (f k) (g k)).eval (τ^2*t^2)) := by
  have hI := integrable_kern2 ha hb h0 h1 P Q f g
  have hr : ∀ z : (Fin 3 → ℝ) × (Fin 3 → ℝ), pg a P f z.1 * potT (a*b/(a+b)) τ z.1 z.2 * pg b Q g z.2 =
      ∫ t in Set.Ioo (0:ℝ) 1, gk (a*b/(a+b)) τ t * pgg a b (gE (a*b/(a+b)) τ t) P Q f g z := by
    intro z
    unfold potT pgg
    rw [← integral_const_mul, ← integral_mul_const]
    congr 1
    funext t
    ring
  constructor
  · simp_rw [hr]
    exact hI.integral_prod_left
  · simp_rw [hr]
    rw [integral_integral_swap hI]
    rw [intervalIntegral.integral_of_le zero_le_one, integral_Ioc_eq_integral_Ioo, ← integral_const_mul]
    refine setIntegral_congr_fun measurableSet_Ioo (fun t ht => ?_)
    exact int_kern2 ha hb h0 h1 P Q f g ht
end

/-! ### The interactions -/

theorem ae_ne_diag : ∀ᵐ z : (Fin 3 → ℝ) × (Fin 3 → ℝ), z.2 ≠ z.1 := by
  have hms : MeasurableSet {z : (Fin 3 → ℝ) × (Fin 3 → ℝ) | ¬ z.2 ≠ z.1} := by
    simp only [not_not]
    exact measurableSet_eq_fun measurable_snd measurable_fst
  rw [ae_iff, Measure.volume_eq_prod, Measure.measure_prod_null hms]
  refine Filter.Eventually.of_forall fun x => ?_
  show volume (Prod.mk x ⁻¹' _) = 0
  have : (Prod.mk x ⁻¹' {z : (Fin 3 → ℝ) × (Fin 3 → ℝ) | ¬ z.2 ≠ z.1}) = {x} := by
    ext y
    simp
  rw [this]
  simp

theorem coulomb_potT_ae {p : ℝ} (hp : 0 < p) :
    ∀ᵐ z : (Fin 3 → ℝ) × (Fin 3 → ℝ), coulomb z.1 z.2 = 2 / Real.sqrt Real.pi * potT p 1 z.1 z.2 := by
  filter_upwards [ae_ne_diag] with z hz
  exact (potT_point hp (sq_dist_pos hz)).symm

/-- the long-range interaction is the potential of a Gaussian charge -/
theorem coulombLR_eq {ω : ℝ} (hω : 0 < ω) {c r : Fin 3 → ℝ} (hr : r ≠ c) : coulombLR ω c r = potential (ω^2) c r := by
  rw [gauss_potential (by positivity), Real.sqrt_sq hω.le]
  have hd : 0 < dist3 c r := Real.sqrt_pos.2 (sq_dist_pos hr)
  have hd2 : dist3 c r^2 = ∑ k, (r k - c k)^2 := Real.sq_sqrt (sq_dist_pos hr).le
  unfold coulombLR erf
  have hs := intervalIntegral.integral_comp_mul_right (a := 0) (b := 1) (fun t => Real.exp (-t^2))
    (c := ω * dist3 c r) (by positivity)
  have e : ∀ t : ℝ, Real.exp (-(ω^2*t^2) * ∑ k, (r k - c k)^2) = Real.exp (-(t * (ω * dist3 c r))^2) := by
    intro t
    rw [← hd2]
    congr 1
    ring
  simp_rw [e]
  rw [hs]
  simp only [zero_mul, one_mul, smul_eq_mul]
  field_simp

theorem coulombLR_potT_ae {p ω : ℝ} (hp : 0 < p) (hω : 0 < ω) :
    ∀ᵐ z : (Fin 3 → ℝ) × (Fin 3 → ℝ), coulombLR ω z.1 z.2 =
      2 / Real.sqrt Real.pi * potT p (Real.sqrt (ω^2/(p+ω^2))) z.1 z.2 := by
  filter_upwards [ae_ne_diag] with z hz
  rw [coulombLR_eq hω hz, potT_gauss hp (by positivity)]

theorem coulombSR_eq (ω : ℝ) (c r : Fin 3 → ℝ) : coulombSR ω c r = coulomb c r - coulombLR ω c r := by
  unfold coulombSR coulomb coulombLR dist3
  ring

section
variable {a b : ℝ} (ha : 0 < a) (hb : 0 < b) (P Q : Fin 3 → ℝ) (f g : Fin 3 → ℝ[X])

/-- one-dimensional integral for the full interaction (`τ = 1`) and the long-range one -/
noncomputable def eriT (a b τ : ℝ) (P Q : Fin 3 → ℝ) (f g : Fin 3 → ℝ[X]) : ℝ :=
  2 / Real.sqrt Real.pi * (Real.sqrt (a*b/(a+b)) * τ * (Real.pi/Real.sqrt (a*b))^3 *
      ∫ t in (0:ℝ)..1, (Real.exp (-(a*b/(a+b)*(τ^2*t^2)) * ∑ k, (P k - Q k)^2) *
        ∏ k, (red2 a b (P k) (Q k) (f k) (g k)).eval (τ^2*t^2)))

include ha hb

theorem eri_of_potT {V : (Fin 3 → ℝ) → (Fin 3 → ℝ) → ℝ} {τ : ℝ} (h0 : 0 < τ) (h1 : τ ≤ 1)
    (hV : ∀ᵐ z : (Fin 3 → ℝ) × (Fin 3 → ℝ), V z.1 z.2 = 2 / Real.sqrt Real.pi * potT (a*b/(a+b)) τ z.1 z.2) :
    Integrable (fun z : (Fin 3 → ℝ) × (Fin 3 → ℝ) => pg a P f z.1 * V z.1 z.2 * pg b Q g z.2) ∧
    repulsion V (pg a P f) (pg b Q g) = eriT a b τ P Q f g := by
  obtain ⟨hi, he⟩ := int_pgg_potT ha hb h0 h1 P Q f g
  have hae : (fun z : (Fin 3 → ℝ) × (Fin 3 → ℝ) => 2 / Real.sqrt Real.pi *
      (pg a P f z.1 * potT (a*b/(a+b)) τ z.1 z.2 * pg b Q g z.2)) =ᵐ[volume]
      fun z => pg a P f z.1 * V z.1 z.2 * pg b Q g z.2 := by
    filter_upwards [hV] with z hz
    rw [hz]
    ring
  refine ⟨(hi.const_mul _).congr hae, ?_⟩
  unfold repulsion eriT
  rw [← integral_congr_ae hae, integral_const_mul, he]

theorem eri_coulomb :
    Integrable (fun z : (Fin 3 → ℝ) × (Fin 3 → ℝ) => pg a P f z.1 * coulomb z.1 z.2 * pg b Q g z.2) ∧
    repulsion coulomb (pg a P f) (pg b Q g) = eriT a b 1 P Q f g :=
  eri_of_potT ha hb P Q f g one_pos le_rfl (coulomb_potT_ae (by positivity))

theorem eri_coulombLR {ω : ℝ} (hω : 0 < ω) :
    Integrable (fun z : (Fin 3 → ℝ) × (Fin 3 → ℝ) => pg a P f z.1 * coulombLR ω z.1 z.2 * pg b Q g z.2) ∧
    repulsion (coulombLR ω) (pg a P f) (pg b Q g) = eriT a b (Real.sqrt (ω^2/(a*b/(a+b)+ω^2))) P Q f g := by
  have hp : 0 < a*b/(a+b) := by positivity
  refine eri_of_potT ha hb P Q f g (Real.sqrt_pos.2 (by positivity)) ?_ (coulombLR_potT_ae hp hω)
  rw [Real.sqrt_le_one]
  rw [div_le_one (by positivity)]
  linarith

theorem eri_coulombSR {ω : ℝ} (hω : 0 < ω) :
    Integrable (fun z : (Fin 3 → ℝ) × (Fin 3 → ℝ) => pg a P f z.1 * coulombSR ω z.1 z.2 * pg b Q g z.2) ∧
    repulsion (coulombSR ω) (pg a P f) (pg b Q g) =
      eriT a b 1 P Q f g - eriT a b (Real.sqrt (ω^2/(a*b/(a+b)+ω^2))) P Q f g := by
  obtain ⟨i1, e1⟩ := eri_coulomb ha hb P Q f g
  obtain ⟨i2, e2⟩ := eri_coulombLR ha hb P Q f g hω
  have e : ∀ z : (Fin 3 → ℝ) × (Fin 3 → ℝ), pg a P f z.1 * coulombSR ω z.1 z.2 * pg b Q g z.2 =
      pg a P f z.1 * coulomb z.1 z.2 * pg b Q g z.2 - pg a P f z.1 * coulombLR ω z.1 z.2 * pg b Q g z.2 := by
    intro z
    rw [coulombSR_eq]
    ring
  constructor
  · simp_rw [e]
    exact i1.sub i2
  · rw [← e1, ← e2]
    unfold repulsion
    simp_rw [e]
    exact integral_sub i1 i2
end

end Verif.Lemmas
