import Verif.Spec.F12
import Verif.Lemmas.Eri

/-! Slater-type interactions as integrals over Gaussians. -/
namespace Verif.Lemmas
open Verif.Spec MeasureTheory Polynomial

section
variable {a b : ℝ} (ha : 0 < a) (hb : 0 < b)
include ha hb

/-- the function of the Cauchy-Schlömilch substitution is a bijection of the half line to the line -/
theorem glasser_image : (fun s : ℝ => a*s - b/s) '' Set.Ioi 0 = Set.univ := by
  refine Set.eq_univ_of_forall fun v => ?_
  have h1 : 0 < v^2 + 4*a*b := by positivity
  have h2 : |v| < Real.sqrt (v^2 + 4*a*b) := by
    rw [← Real.sqrt_sq_eq_abs]
    exact Real.sqrt_lt_sqrt (sq_nonneg _) (by nlinarith [mul_pos ha hb])
  have h3 : -v < Real.sqrt (v^2 + 4*a*b) := lt_of_le_of_lt (neg_le_abs v) h2
  have h4 : Real.sqrt (v^2 + 4*a*b)^2 = v^2 + 4*a*b := Real.sq_sqrt h1.le
  have h5 : 0 < v + Real.sqrt (v^2 + 4*a*b) := by linarith
  refine ⟨(v + Real.sqrt (v^2 + 4*a*b))/(2*a), Set.mem_Ioi.2 (by positivity), ?_⟩
  dsimp only
  generalize Real.sqrt (v^2 + 4*a*b) = q at *
  field_simp
  nlinarith

theorem glasser_inj : Set.InjOn (fun s : ℝ => a*s - b/s) (Set.Ioi 0) := by
  intro s hs t ht h
  have hs : 0 < s := hs
  have ht : 0 < t := ht
  dsimp only at h
  have h1 : (s - t) * (a + b/(s*t)) = 0 := by
    have e1 : b/s - b/t = b*(t - s)/(s*t) := by field_simp
    have : a*(s-t) = b/s - b/t := by linarith
    rw [e1] at this
    field_simp at this ⊢
    linear_combination this
  rcases mul_eq_zero.1 h1 with h2 | h2
  · linarith
  · have : 0 < a + b/(s*t) := by positivity
    linarith

theorem glasser_deriv {s : ℝ} (hs : 0 < s) : HasDerivAt (fun s : ℝ => a*s - b/s) (a + b/s^2) s := by
  have h1 : HasDerivAt (fun s : ℝ => b/s) (-(b/s^2)) s := by
    have := (hasDerivAt_inv hs.ne').const_mul b
    refine this.congr_deriv ?_
    field_simp
  refine (((hasDerivAt_id s).const_mul a).sub h1).congr_deriv ?_
  simp

theorem glasser_sum : IntegrableOn (fun s : ℝ => (a + b/s^2) * Real.exp (-(a*s - b/s)^2)) (Set.Ioi 0) ∧
    ∫ s in Set.Ioi (0:ℝ), (a + b/s^2) * Real.exp (-(a*s - b/s)^2) = Real.sqrt Real.pi := by
  have hd : ∀ s ∈ Set.Ioi (0:ℝ), HasDerivWithinAt (fun s : ℝ => a*s - b/s) (a + b/s^2) (Set.Ioi 0) s :=
    fun s hs => (glasser_deriv ha hb hs).hasDerivWithinAt
  have habs : ∀ s ∈ Set.Ioi (0:ℝ), |a + b/s^2| • Real.exp (-(a*s - b/s)^2) = (a + b/s^2) * Real.exp (-(a*s - b/s)^2) := by
    intro s hs
    have hs : 0 < s := hs
    rw [abs_of_pos (by positivity), smul_eq_mul]
  constructor
  · have := (integrableOn_image_iff_integrableOn_abs_deriv_smul measurableSet_Ioi hd (glasser_inj ha hb) (fun v => Real.exp (-v^2))).1
    rw [glasser_image ha hb, integrableOn_univ] at this
    have h2 := this (by simpa using integrable_exp_neg_mul_sq (b := 1) one_pos)
    exact h2.congr_fun habs measurableSet_Ioi
  · have := integral_image_eq_integral_abs_deriv_smul measurableSet_Ioi hd (glasser_inj ha hb) (fun v => Real.exp (-v^2))
    rw [glasser_image ha hb, Measure.restrict_univ] at this
    rw [← setIntegral_congr_fun measurableSet_Ioi habs, ← this]
    have h3 := integral_gaussian 1
    simpa using h3

theorem glasser_parts : IntegrableOn (fun s : ℝ => Real.exp (-(a*s - b/s)^2)) (Set.Ioi 0) ∧
    IntegrableOn (fun s : ℝ => b/s^2 * Real.exp (-(a*s - b/s)^2)) (Set.Ioi 0) := by
  have hm : Measurable fun s : ℝ => Real.exp (-(a*s - b/s)^2) := by fun_prop
  have hm2 : Measurable fun s : ℝ => b/s^2 * Real.exp (-(a*s - b/s)^2) := by fun_prop
  have h0 := (glasser_sum ha hb).1
  constructor
  · refine ((h0.const_mul (1/a)).mono' hm.aestronglyMeasurable ?_)
    rw [ae_restrict_iff' measurableSet_Ioi]
    refine Filter.Eventually.of_forall fun s hs => ?_
    have hs : 0 < s := hs
    rw [Real.norm_eq_abs, abs_of_pos (Real.exp_pos _), ← mul_assoc]
    refine le_mul_of_one_le_left (Real.exp_pos _).le ?_
    have : 0 < b/s^2 := by positivity
    rw [one_div, ← div_eq_inv_mul, le_div_iff₀ ha]
    linarith
  · refine h0.mono' hm2.aestronglyMeasurable ?_
    rw [ae_restrict_iff' measurableSet_Ioi]
    refine Filter.Eventually.of_forall fun s hs => ?_
    have hs : 0 < s := hs
    have : 0 < b/s^2 := by positivity
    rw [Real.norm_eq_abs, abs_of_pos (mul_pos this (Real.exp_pos _))]
    exact mul_le_mul_of_nonneg_right (by linarith) (Real.exp_pos _).le

/-- the substitution `s → b/(a s)` -/
theorem glasser_flip : ∫ s in Set.Ioi (0:ℝ), b/s^2 * Real.exp (-(a*s - b/s)^2) =
    a * ∫ s in Set.Ioi (0:ℝ), Real.exp (-(a*s - b/s)^2) := by
  have hd : ∀ s ∈ Set.Ioi (0:ℝ), HasDerivWithinAt (fun s : ℝ => b/(a*s)) (-(b/(a*s^2))) (Set.Ioi 0) s := by
    intro s hs
    have hs : 0 < s := hs
    have := (hasDerivAt_inv hs.ne').const_mul (b/a)
    have h2 : HasDerivAt (fun s : ℝ => b/(a*s)) (b/a * -(s^2)⁻¹) s := by
      refine this.congr_of_eventuallyEq (Filter.Eventually.of_forall fun x => ?_)
      dsimp only
      rw [← div_div, div_eq_mul_inv (b/a)]
    refine (h2.congr_deriv ?_).hasDerivWithinAt
    field_simp
  have hinj : Set.InjOn (fun s : ℝ => b/(a*s)) (Set.Ioi 0) := by
    intro s hs t ht h
    have hs : 0 < s := hs
    have ht : 0 < t := ht
    dsimp only at h
    rw [div_eq_div_iff (by positivity) (by positivity)] at h
    have : b*a*(t - s) = 0 := by linear_combination h
    have h2 : b*a ≠ 0 := by positivity
    rcases mul_eq_zero.1 this with h3 | h3
    · exact absurd h3 h2
    · linarith
  have himg : (fun s : ℝ => b/(a*s)) '' Set.Ioi 0 = Set.Ioi 0 := by
    ext v
    constructor
    · rintro ⟨s, hs, rfl⟩
      have hs : 0 < s := hs
      show 0 < b/(a*s)
      positivity
    · intro hv
      have hv : 0 < v := hv
      refine ⟨b/(a*v), Set.mem_Ioi.2 (by positivity), ?_⟩
      dsimp only
      field_simp
  have := integral_image_eq_integral_abs_deriv_smul measurableSet_Ioi hd hinj (fun s => Real.exp (-(a*s - b/s)^2))
  rw [himg] at this
  rw [this, ← integral_const_mul]
  refine setIntegral_congr_fun measurableSet_Ioi fun s hs => ?_
  have hs : 0 < s := hs
  rw [abs_neg, abs_of_pos (by positivity), smul_eq_mul]
  have e1 : (a*(b/(a*s)) - b/(b/(a*s)))^2 = (a*s - b/s)^2 := by
    have e2 : a*(b/(a*s)) = b/s := by field_simp
    have e3 : b/(b/(a*s)) = a*s := by field_simp
    rw [e2, e3]; ring
  rw [e1]
  field_simp

theorem glasser : ∫ s in Set.Ioi (0:ℝ), Real.exp (-(a*s - b/s)^2) = Real.sqrt Real.pi / (2*a) ∧
    ∫ s in Set.Ioi (0:ℝ), b/s^2 * Real.exp (-(a*s - b/s)^2) = Real.sqrt Real.pi / 2 := by
  obtain ⟨i1, i2⟩ := glasser_parts ha hb
  have h1 := (glasser_sum ha hb).2
  have h2 := glasser_flip ha hb
  have e : ∀ s : ℝ, (a + b/s^2) * Real.exp (-(a*s - b/s)^2) = a * Real.exp (-(a*s - b/s)^2) + b/s^2 * Real.exp (-(a*s - b/s)^2) :=
    fun s => by ring
  simp_rw [e] at h1
  rw [integral_add (i1.const_mul a) i2, integral_const_mul, h2] at h1
  have h3 : ∫ s in Set.Ioi (0:ℝ), Real.exp (-(a*s - b/s)^2) = Real.sqrt Real.pi / (2*a) := by
    rw [eq_div_iff (by positivity)]
    linarith
  refine ⟨h3, ?_⟩
  rw [h2, h3]
  field_simp
end

/-! ### The half line and the interval -/

/-- `s = √p t/√(1-t²)` -/
noncomputable def sOf (p t : ℝ) : ℝ := Real.sqrt p * (1*t) / Real.sqrt (1 - 1^2*t^2)

theorem one_sub_pos {t : ℝ} (ht : t ∈ Set.Ioo (0:ℝ) 1) : 0 < 1 - (1:ℝ)^2*t^2 := by
  have := (rho_bounds one_pos (le_refl (1:ℝ)) ht).2; linarith

theorem sOf_sq {p t : ℝ} (hp : 0 < p) (ht : t ∈ Set.Ioo (0:ℝ) 1) : sOf p t^2 = gE p 1 t := gv_sq hp.le (one_sub_pos ht)

theorem sOf_pos {p t : ℝ} (hp : 0 < p) (ht : t ∈ Set.Ioo (0:ℝ) 1) : 0 < sOf p t := by
  have := Real.sqrt_pos.2 (one_sub_pos ht)
  have hsp : 0 < Real.sqrt p := Real.sqrt_pos.2 hp
  have := ht.1
  unfold sOf
  positivity

theorem half_line {p : ℝ} (hp : 0 < p) (G : ℝ → ℝ) :
    (IntegrableOn G (Set.Ioi 0) ↔ IntegrableOn (fun t => gk p 1 t * G (sOf p t)) (Set.Ioo 0 1)) ∧
    ∫ s in Set.Ioi (0:ℝ), G s = ∫ t in Set.Ioo (0:ℝ) 1, gk p 1 t * G (sOf p t) := by
  have hd : ∀ t ∈ Set.Ioo (0:ℝ) 1, HasDerivWithinAt (sOf p) (gk p 1 t) (Set.Ioo 0 1) t :=
    fun t ht => (gv_hasDeriv (one_sub_pos ht)).hasDerivWithinAt
  have hinj : Set.InjOn (sOf p) (Set.Ioo 0 1) := by
    intro t ht t' ht' h
    have h3 : gE p 1 t = gE p 1 t' := by rw [← sOf_sq hp ht, ← sOf_sq hp ht', h]
    unfold gE at h3
    have b1 := one_sub_pos ht
    have b2 := one_sub_pos ht'
    rw [div_eq_div_iff b1.ne' b2.ne'] at h3
    have h4 : p * (t^2 - t'^2) = 0 := by linear_combination h3
    have h5 : t^2 = t'^2 := by
      rcases mul_eq_zero.1 h4 with h | h
      · exact absurd h hp.ne'
      · linarith
    exact (pow_left_inj₀ ht.1.le ht'.1.le two_ne_zero).1 h5
  have himg : sOf p '' Set.Ioo 0 1 = Set.Ioi 0 := by
    ext v
    constructor
    · rintro ⟨t, ht, rfl⟩
      exact sOf_pos hp ht
    · intro hv
      have hv : 0 < v := hv
      have hpv : 0 < p + v^2 := by positivity
      have hs : 0 < Real.sqrt (p + v^2) := Real.sqrt_pos.2 hpv
      have hss : Real.sqrt (p + v^2)^2 = p + v^2 := Real.sq_sqrt hpv.le
      have hlt : v < Real.sqrt (p + v^2) := by
        refine Real.lt_sqrt_of_sq_lt ?_; linarith
      have hsp : 0 < Real.sqrt p := Real.sqrt_pos.2 hp
      refine ⟨v / Real.sqrt (p+v^2), ⟨by positivity, (div_lt_one hs).2 hlt⟩, ?_⟩
      show Real.sqrt p * (1*(v / Real.sqrt (p+v^2))) / Real.sqrt (1 - 1^2*(v / Real.sqrt (p+v^2))^2) = v
      have : 1 - 1^2*(v / Real.sqrt (p+v^2))^2 = p / (p+v^2) := by
        rw [div_pow, hss]; field_simp; ring
      rw [this, Real.sqrt_div hp.le]
      field_simp
  have habs : ∀ t ∈ Set.Ioo (0:ℝ) 1, |gk p 1 t| • G (sOf p t) = gk p 1 t * G (sOf p t) := by
    intro t _
    rw [abs_of_nonneg (gk_nonneg one_pos), smul_eq_mul]
  have k1 := integrableOn_image_iff_integrableOn_abs_deriv_smul measurableSet_Ioo hd hinj G
  have k2 := integral_image_eq_integral_abs_deriv_smul measurableSet_Ioo hd hinj G
  rw [himg] at k1 k2
  exact ⟨k1.trans (integrableOn_congr_fun habs measurableSet_Ioo), k2.trans (setIntegral_congr_fun measurableSet_Ioo habs)⟩

/-- the interaction with weight `H` in the integral over Gaussians, without the factor `2/√π` -/
noncomputable def potH (H : ℝ → ℝ) (p : ℝ) (c r : Fin 3 → ℝ) : ℝ := ∫ t in Set.Ioo (0:ℝ) 1, H t * (gk p 1 t * gV (gE p 1 t) c r)

/-- `e^(U(1-t⁻²))` -/
noncomputable def wYp (U t : ℝ) : ℝ := Real.exp (U*(1 - 1/t^2))
/-- `(2U/ζ) (1-t²) t⁻² e^(U(1-t⁻²))` -/
noncomputable def wStg (ζ U t : ℝ) : ℝ := 2*U/ζ * ((1 - t^2)/t^2) * Real.exp (U*(1 - 1/t^2))

theorem gE_inv {p t : ℝ} (hp : 0 < p) (ht : t ∈ Set.Ioo (0:ℝ) 1) : 1/gE p 1 t = (1/t^2 - 1)/p := by
  have h1 := one_sub_pos ht
  have h2 := ht.1
  unfold gE
  field_simp

section
variable {p ζ : ℝ} (hp : 0 < p) (hζ : 0 < ζ) {c r : Fin 3 → ℝ} (hr : r ≠ c)
include hp hζ hr

theorem dist3_pos : 0 < dist3 c r := Real.sqrt_pos.2 (sq_dist_pos hr)

omit hr in
theorem wYp_eq {t : ℝ} (ht : t ∈ Set.Ioo (0:ℝ) 1) :
    wYp (1/4*ζ*ζ/p) t * gV (gE p 1 t) c r = Real.exp (-ζ * dist3 c r) * Real.exp (-(dist3 c r * sOf p t - ζ/2/sOf p t)^2) := by
  have hs := sOf_pos hp ht
  have hd : dist3 c r^2 = ∑ k, (r k - c k)^2 := Real.sq_sqrt (Finset.sum_nonneg fun _ _ => sq_nonneg _)
  unfold wYp gV
  rw [← Real.exp_add, ← Real.exp_add, ← hd, ← sOf_sq hp ht]
  congr 1
  have h2 := gE_inv hp ht
  rw [← sOf_sq hp ht] at h2
  have h3 : (1/4*ζ*ζ/p) * (1 - 1/t^2) = -(1/4*ζ*ζ) * (1/sOf p t^2) := by
    rw [h2]; ring
  rw [h3]
  field_simp
  ring

theorem yukawa_potH : yukawa ζ c r = 2 / Real.sqrt Real.pi * potH (wYp (1/4*ζ*ζ/p)) p c r := by
  have hd := dist3_pos hp hζ hr
  have h1 := (glasser hd (half_pos hζ)).1
  rw [(half_line hp _).2] at h1
  have h2 : potH (wYp (1/4*ζ*ζ/p)) p c r = Real.exp (-ζ * dist3 c r) * ∫ t in Set.Ioo (0:ℝ) 1,
      gk p 1 t * Real.exp (-(dist3 c r * sOf p t - ζ/2/sOf p t)^2) := by
    unfold potH
    rw [← integral_const_mul]
    refine setIntegral_congr_fun measurableSet_Ioo fun t ht => ?_
    have := wYp_eq hp hζ (c := c) (r := r) ht
    linear_combination gk p 1 t * this
  rw [h2, h1]
  unfold yukawa
  have h3 : 0 < Real.sqrt Real.pi := Real.sqrt_pos.2 Real.pi_pos
  field_simp

theorem slater_potH : slater ζ c r = 2 / Real.sqrt Real.pi * potH (wStg ζ (1/4*ζ*ζ/p)) p c r := by
  have hd := dist3_pos hp hζ hr
  have h1 := (glasser hd (half_pos hζ)).2
  rw [(half_line hp _).2] at h1
  have h2 : potH (wStg ζ (1/4*ζ*ζ/p)) p c r = Real.exp (-ζ * dist3 c r) * ∫ t in Set.Ioo (0:ℝ) 1,
      gk p 1 t * (ζ/2/sOf p t^2 * Real.exp (-(dist3 c r * sOf p t - ζ/2/sOf p t)^2)) := by
    unfold potH
    rw [← integral_const_mul]
    refine setIntegral_congr_fun measurableSet_Ioo fun t ht => ?_
    have := wYp_eq hp hζ (c := c) (r := r) ht
    have e : wStg ζ (1/4*ζ*ζ/p) t = ζ/2/sOf p t^2 * wYp (1/4*ζ*ζ/p) t := by
      have h2 := gE_inv hp ht
      rw [← sOf_sq hp ht] at h2
      rw [div_eq_mul_one_div (ζ/2), h2]
      have := ht.1
      unfold wStg wYp
      congr 1
      field_simp
      ring
    rw [e]
    linear_combination gk p 1 t * (ζ/2/sOf p t^2) * this
  rw [h2, h1]
  unfold slater
  have h3 : 0 < Real.sqrt Real.pi := Real.sqrt_pos.2 Real.pi_pos
  field_simp
end

/-! ### Integrals -/

theorem wYp_bound {U : ℝ} (hU : 0 < U) {t : ℝ} (ht : t ∈ Set.Ioo (0:ℝ) 1) : |wYp U t| ≤ 1 := by
  have h0 := ht.1
  unfold wYp
  rw [abs_of_pos (Real.exp_pos _), Real.exp_le_one_iff]
  have : 1 ≤ 1/t^2 := by
    rw [le_div_iff₀ (by positivity), one_mul]
    nlinarith [ht.2]
  nlinarith

theorem wStg_bound {U ζ : ℝ} (hU : 0 < U) (hζ : 0 < ζ) {t : ℝ} (ht : t ∈ Set.Ioo (0:ℝ) 1) : |wStg ζ U t| ≤ 2/ζ := by
  have h0 := ht.1
  have h1 := one_sub_pos ht
  have e : wStg ζ U t = 2/ζ * ((U*(1/t^2 - 1)) * Real.exp (-(U*(1/t^2 - 1)))) := by
    unfold wStg
    have : U*(1 - 1/t^2) = -(U*(1/t^2 - 1)) := by ring
    rw [this]
    generalize Real.exp _ = x
    field_simp
  have hy : 0 ≤ U*(1/t^2 - 1) := by
    have : 1 ≤ 1/t^2 := by
      rw [le_div_iff₀ (by positivity), one_mul]
      nlinarith [ht.2]
    exact mul_nonneg hU.le (by linarith)
  rw [e]
  generalize U*(1/t^2 - 1) = y at *
  rw [abs_of_nonneg (by positivity)]
  refine mul_le_of_le_one_right (by positivity) ?_
  rw [Real.exp_neg, ← div_eq_mul_inv, div_le_one (Real.exp_pos _)]
  linarith [Real.add_one_le_exp y]

section
variable {a b : ℝ} (ha : 0 < a) (hb : 0 < b) (P Q : Fin 3 → ℝ) (f g : Fin 3 → ℝ[X]) {H : ℝ → ℝ} (hm : Measurable H) {M : ℝ}
  (hM : ∀ t ∈ Set.Ioo (0:ℝ) 1, |H t| ≤ M)
include ha hb hm hM

/-- two Gaussian charge distributions interacting by `potH` -/
theorem int_pgg_potH :
    Integrable (fun z : (Fin 3 → ℝ) × (Fin 3 → ℝ) => pg a P f z.1 * potH H (a*b/(a+b)) z.1 z.2 * pg b Q g z.2) ∧
    ∫ z : (Fin 3 → ℝ) × (Fin 3 → ℝ), pg a P f z.1 * potH H (a*b/(a+b)) z.1 z.2 * pg b Q g z.2 =
      Real.sqrt (a*b/(a+b)) * (Real.pi/Real.sqrt (a*b))^3 *
      ∫ t in (0:ℝ)..1, H t * (Real.exp (-(a*b/(a+b)*t^2) * ∑ k, (P k - Q k)^2) *
        ∏ k, (red2 a b (P k) (Q k) (f k) (g k)).eval (t^2)) := by
  have hI0 := integrable_kern2 ha hb one_pos le_rfl P Q f g
  have hI : Integrable (fun y : ((Fin 3 → ℝ) × (Fin 3 → ℝ)) × ℝ =>
        H y.2 * (gk (a*b/(a+b)) 1 y.2 * pgg a b (gE (a*b/(a+b)) 1 y.2) P Q f g y.1))
      (volume.prod (volume.restrict (Set.Ioo 0 1))) := by
    refine hI0.bdd_mul (c := M) (hm.comp measurable_snd).aestronglyMeasurable ?_
    have h1 : ∀ᵐ t ∂(volume.restrict (Set.Ioo (0:ℝ) 1)), ‖H t‖ ≤ M := by
      rw [ae_restrict_iff' measurableSet_Ioo]
      exact Filter.Eventually.of_forall fun t ht => hM t ht
    exact Measure.quasiMeasurePreserving_snd.ae h1
  have hr : ∀ z : (Fin 3 → ℝ) × (Fin 3 → ℝ), pg a P f z.1 * potH H (a*b/(a+b)) z.1 z.2 * pg b Q g z.2 =
      ∫ t in Set.Ioo (0:ℝ) 1, H t * (gk (a*b/(a+b)) 1 t * pgg a b (gE (a*b/(a+b)) 1 t) P Q f g z) := by
    intro z
    unfold potH pgg
    rw [← integral_const_mul, ← integral_mul_const]
    congr 1
    funext t
    ring
  constructor
  · simp_rw [hr]
    exact hI.integral_prod_left
  · simp_rw [hr]
    rw [integral_integral_swap hI]
    rw [intervalIntegral.integral_of_le zero_le_one, integral_Ioc_eq_integral_Ioo, ← integral_const_mul]
    refine setIntegral_congr_fun measurableSet_Ioo (fun t ht => ?_)
    have := int_kern2 ha hb one_pos le_rfl P Q f g ht
    rw [integral_const_mul, this]
    simp only [one_pow, one_mul, mul_one]
    ring

theorem eri_of_potH {V : (Fin 3 → ℝ) → (Fin 3 → ℝ) → ℝ}
    (hV : ∀ c r : Fin 3 → ℝ, r ≠ c → V c r = 2 / Real.sqrt Real.pi * potH H (a*b/(a+b)) c r) :
    Integrable (fun z : (Fin 3 → ℝ) × (Fin 3 → ℝ) => pg a P f z.1 * V z.1 z.2 * pg b Q g z.2) ∧
    repulsion V (pg a P f) (pg b Q g) = 2 / Real.sqrt Real.pi * (Real.sqrt (a*b/(a+b)) * (Real.pi/Real.sqrt (a*b))^3 *
      ∫ t in (0:ℝ)..1, H t * (Real.exp (-(a*b/(a+b)*t^2) * ∑ k, (P k - Q k)^2) *
        ∏ k, (red2 a b (P k) (Q k) (f k) (g k)).eval (t^2))) := by
  obtain ⟨hi, he⟩ := int_pgg_potH ha hb P Q f g hm hM
  have hae : (fun z : (Fin 3 → ℝ) × (Fin 3 → ℝ) => 2 / Real.sqrt Real.pi *
      (pg a P f z.1 * potH H (a*b/(a+b)) z.1 z.2 * pg b Q g z.2)) =ᵐ[volume]
      fun z => pg a P f z.1 * V z.1 z.2 * pg b Q g z.2 := by
    filter_upwards [ae_ne_diag] with z hz
    rw [hV _ _ hz]
    ring
  refine ⟨(hi.const_mul _).congr hae, ?_⟩
  unfold repulsion
  rw [← integral_congr_ae hae, integral_const_mul, he]
end

/-- the interaction selected by a flag: `e^(-ζr)/r` or `e^(-ζr)` -/
noncomputable def f12V (stg : Bool) (ζ : ℝ) : (Fin 3 → ℝ) → (Fin 3 → ℝ) → ℝ := if stg then slater ζ else yukawa ζ

noncomputable def wF12 (stg : Bool) (ζ U t : ℝ) : ℝ := if stg then wStg ζ U t else wYp U t

theorem eri_f12 {a b ζ : ℝ} (ha : 0 < a) (hb : 0 < b) (hζ : 0 < ζ) (stg : Bool) (P Q : Fin 3 → ℝ) (f g : Fin 3 → ℝ[X]) :
    Integrable (fun z : (Fin 3 → ℝ) × (Fin 3 → ℝ) => pg a P f z.1 * f12V stg ζ z.1 z.2 * pg b Q g z.2) ∧
    repulsion (f12V stg ζ) (pg a P f) (pg b Q g) = 2 / Real.sqrt Real.pi * (Real.sqrt (a*b/(a+b)) * (Real.pi/Real.sqrt (a*b))^3 *
      ∫ t in (0:ℝ)..1, wF12 stg ζ (1/4*ζ*ζ/(a*b/(a+b))) t * (Real.exp (-(a*b/(a+b)*t^2) * ∑ k, (P k - Q k)^2) *
        ∏ k, (red2 a b (P k) (Q k) (f k) (g k)).eval (t^2))) := by
  have hp : 0 < a*b/(a+b) := by positivity
  have hU : 0 < 1/4*ζ*ζ/(a*b/(a+b)) := by positivity
  cases stg
  · exact eri_of_potH ha hb P Q f g (H := fun t => wF12 false ζ _ t) (M := 1) (by unfold wF12 wYp; simp only [Bool.false_eq_true, if_false]; fun_prop)
      (fun t ht => wYp_bound hU ht) (fun c r hr => yukawa_potH hp hζ hr)
  · exact eri_of_potH ha hb P Q f g (H := fun t => wF12 true ζ _ t) (M := 2/ζ) (by unfold wF12 wStg; simp only [if_true]; fun_prop)
      (fun t ht => wStg_bound hU hζ ht) (fun c r hr => slater_potH hp hζ hr)

/-- factor of the weight of a root -/
noncomputable def cF12 (stg : Bool) (ζ U : ℝ) : ℝ[X] := if stg then C (2*U/ζ) * (1 - X) else X

/-- the sum over the roots is the integral with the weight of the interaction -/
theorem f12_sum {stg : Bool} {n : ℕ} {x U ζ : ℝ} {u w : ℕ → ℝ} (Hx : StgExact n x U u w) (F : ℝ[X]) (hF : F.natDegree + 1 < 2*n) :
    ∑ k ∈ Finset.range n, w k * (cF12 stg ζ U).eval (u k) * F.eval (u k) =
      ∫ t in (0:ℝ)..1, wF12 stg ζ U t * (Real.exp (-(x*t^2)) * F.eval (t^2)) := by
  have hd : (cF12 stg ζ U * F).natDegree < 2*n := by
    have h1 : (cF12 stg ζ U).natDegree ≤ 1 := by
      unfold cF12
      split
      · refine (natDegree_C_mul_le _ _).trans ((natDegree_sub_le _ _).trans ?_)
        simp
      · simp
    refine lt_of_le_of_lt natDegree_mul_le ?_
    omega
  have := Hx.sum_eq _ hd
  simp only [eval_mul] at this
  rw [show (∑ k ∈ Finset.range n, w k * (cF12 stg ζ U).eval (u k) * F.eval (u k)) =
    ∑ k ∈ Finset.range n, w k * ((cF12 stg ζ U).eval (u k) * F.eval (u k)) from
      Finset.sum_congr rfl fun k _ => mul_assoc _ _ _, this]
  rw [intervalIntegral.integral_of_le zero_le_one, intervalIntegral.integral_of_le zero_le_one]
  refine setIntegral_congr_fun measurableSet_Ioc fun t ht => ?_
  have h0 : 0 < t := ht.1
  rw [Real.exp_add, show -x*t^2 = -(x*t^2) by ring]
  unfold wF12 cF12 wStg wYp
  cases stg
  · simp only [Bool.false_eq_true, if_false, eval_X]
    field_simp
  · simp only [if_true, eval_mul, eval_C, eval_sub, eval_one, eval_X]
    field_simp

end Verif.Lemmas
