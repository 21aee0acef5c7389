import Verif.Spec.Moment2
import Verif.Lemmas.Bivar
import Mathlib.MeasureTheory.Measure.Haar.NormedSpace

/-! The two-dimensional recursion gives the moments of a Gaussian. -/
namespace Verif.Lemmas
open Verif.Spec MeasureTheory Polynomial

/-- moments of the density, not normalised -/
noncomputable def gmom (k : RecCoeff ℝ) (n m : ℕ) : ℝ := ∫ x, ∫ y, x^n * y^m * gauss2 k x y

theorem gmom_mom2 {k : RecCoeff ℝ} (h0 : 0 ≤ k.b00) (h1 : k.b00 < k.b10) (h2 : k.b00 < k.b01) :
    0 < gmom k 0 0 ∧ ∀ n m, gmom k n m = vrr k (gmom k 0 0) n m := by
  obtain ⟨c00, c0p, b00, b10, b01⟩ := k
  dsimp only at h0 h1 h2
  have hD : 0 < b10*b01 - b00^2 := by nlinarith
  obtain ⟨Δ, hΔ⟩ : ∃ Δ, Δ = b10*b01 - b00^2 := ⟨_, rfl⟩
  rw [← hΔ] at hD
  obtain ⟨a, ha⟩ : ∃ a, a = (b01-b00)/(2*Δ) := ⟨_, rfl⟩
  obtain ⟨b, hb⟩ : ∃ b, b = (b10-b00)/(2*Δ) := ⟨_, rfl⟩
  obtain ⟨V, hV⟩ : ∃ V, V = b00/(2*Δ) := ⟨_, rfl⟩
  have pa : 0 < a := by rw [ha]; exact div_pos (by linarith) (by linarith)
  have pb : 0 < b := by rw [hb]; exact div_pos (by linarith) (by linarith)
  have pV : 0 ≤ V := by rw [hV]; exact div_nonneg h0 (by linarith)
  have eD : V*(a+b)+a*b = 1/(4*Δ) := by
    rw [ha, hb, hV]; field_simp; rw [hΔ]; ring
  obtain ⟨P, hP⟩ : ∃ P, P = c00 + V*(c00-c0p)/a := ⟨_, rfl⟩
  obtain ⟨Q, hQ⟩ : ∃ Q, Q = c0p + V*(c0p-c00)/b := ⟨_, rfl⟩
  have ePQ : P - Q = (c00-c0p) * (1/(4*Δ)) / (a*b) := by
    rw [← eD, hP, hQ]; field_simp; ring
  have e00 : P - V*b/(V*(a+b)+a*b)*(P-Q) = c00 := by
    rw [ePQ, eD, hP]; field_simp; ring
  have e0p : Q + V*a/(V*(a+b)+a*b)*(P-Q) = c0p := by
    rw [ePQ, eD, hQ]; field_simp; ring
  have k10 : (V+b)/(2*(V*(a+b)+a*b)) = b10 := by rw [eD, hV, hb]; field_simp; ring
  have k01 : (V+a)/(2*(V*(a+b)+a*b)) = b01 := by rw [eD, hV, ha]; field_simp; ring
  have k00 : V/(2*(V*(a+b)+a*b)) = b00 := by rw [eD, hV]; field_simp; ring
  obtain ⟨K, hK⟩ : ∃ K, K = Real.exp (V^2*(c00-c0p)^2/a + V^2*(c00-c0p)^2/b + V*(c00-c0p)^2) := ⟨_, rfl⟩
  have hg : ∀ x y, gauss2 ⟨c00, c0p, b00, b10, b01⟩ x y = K * bw a b V P Q (x,y) := by
    intro x y
    unfold gauss2 bw
    rw [hK, ← Real.exp_add, ← Real.exp_add, ← Real.exp_add]
    congr 1
    dsimp only
    have i1 : b01/(2*Δ) = a + V := by rw [ha, hV]; field_simp; ring
    have i2 : b10/(2*Δ) = b + V := by rw [hb, hV]; field_simp; ring
    rw [← hΔ, show -(b01*(x-c00)^2 - 2*b00*(x-c00)*(y-c0p) + b10*(y-c0p)^2)/(2*Δ) =
      -(b01/(2*Δ)*(x-c00)^2 - 2*(b00/(2*Δ))*(x-c00)*(y-c0p) + b10/(2*Δ)*(y-c0p)^2) by ring, i1, i2, ← hV, hP, hQ]
    field_simp
    ring
  have hm : ∀ n m, gmom ⟨c00, c0p, b00, b10, b01⟩ n m = K * mom2 a b V P Q (X^n) (X^m) := by
    intro n m
    unfold gmom mom2
    rw [Measure.volume_eq_prod, integral_prod _ (by rw [← Measure.volume_eq_prod]; exact integrable_mom2 pa pb pV P Q _ _),
      ← integral_const_mul]
    congr 1
    funext x
    rw [← integral_const_mul]
    congr 1
    funext y
    rw [hg]
    simp
    ring
  have hKp : 0 < K := by rw [hK]; exact Real.exp_pos _
  refine ⟨?_, fun n m => vrr_unique ?_ ?_ n m⟩
  · rw [hm, pow_zero, mom2_one pa pb pV, eD]
    positivity
  · intro n m
    simp only [hm]
    rw [pow_succ', mom2_stein pa pb pV, e00, k10, k00, derivative_X_pow, derivative_X_pow, mom2_C_left, mom2_C_right]
    ring
  · intro m
    simp only [hm]
    rw [pow_succ', mom2_stein' pa pb pV, e0p, k01, k00, derivative_X_pow, pow_zero, derivative_one, mom2_C_right]
    have : mom2 a b V P Q 0 (X^m) = 0 := by unfold mom2; simp
    rw [this]
    ring

/-- scaling of the second variable -/
noncomputable def scaleY (k : RecCoeff ℝ) (s : ℝ) : RecCoeff ℝ := ⟨k.c00, k.c0p/s, k.b00/s, k.b10, k.b01/s^2⟩

theorem gmom_scale (k : RecCoeff ℝ) {s : ℝ} (hs : s ≠ 0) (n m : ℕ) :
    gmom k n m = |s| * s^m * gmom (scaleY k s) n m := by
  have hg : ∀ x y, gauss2 k x (s*y) = gauss2 (scaleY k s) x y := by
    intro x y
    unfold gauss2 scaleY
    congr 1
    dsimp only
    rw [show k.b10 * (k.b01/s^2) - (k.b00/s)^2 = (k.b10*k.b01 - k.b00^2)/s^2 by ring,
      show s*y - k.c0p = s*(y - k.c0p/s) by field_simp]
    by_cases hd : k.b10*k.b01 - k.b00^2 = 0
    · rw [hd]; simp
    · field_simp
  unfold gmom
  rw [← integral_const_mul]
  congr 1
  funext x
  have := Measure.integral_comp_mul_left (fun y => x^n * y^m * gauss2 k x y) s
  rw [abs_inv, smul_eq_mul, ] at this
  have hs' : |s| ≠ 0 := abs_ne_zero.2 hs
  have e : ∫ y, x^n * y^m * gauss2 k x y = |s| * ∫ y, x^n * (s*y)^m * gauss2 k x (s*y) := by
    rw [this]; field_simp
  rw [e, ← integral_const_mul, ← integral_const_mul]
  congr 1
  funext y
  rw [hg, mul_pow]
  ring

theorem vrr_scale (k : RecCoeff ℝ) {s : ℝ} (hs : s ≠ 0) (z : ℝ) (n m : ℕ) :
    vrr k z n m = s^m * vrr (scaleY k s) z n m := by
  have := vrr_unique (k := k) (F := fun n m => s^m * vrr (scaleY k s) z n m) (fun n m => ?_) (fun m => ?_) n m
  · simpa [vrr] using this.symm
  · rw [vrr_up]
    cases m with
    | zero => simp [scaleY]
    | succ m =>
      simp only [scaleY, Nat.add_sub_cancel]
      field_simp
      ring
  · rw [vrr_right]
    cases m with
    | zero => simp [scaleY]; field_simp
    | succ m =>
      simp only [scaleY, Nat.add_sub_cancel]
      field_simp
      simp
      ring

theorem gmom_vrr {k : RecCoeff ℝ} (h1 : 0 < k.b10) (h2 : 0 < k.b01) (h : k.b00^2 < k.b10*k.b01) :
    0 < gmom k 0 0 ∧ ∀ n m, gmom k n m = vrr k (gmom k 0 0) n m := by
  have key : ∃ s : ℝ, s ≠ 0 ∧ 0 ≤ k.b00/s ∧ k.b00/s < k.b10 ∧ k.b00/s < k.b01/s^2 := by
    rcases eq_or_ne k.b00 0 with e | e
    · exact ⟨1, one_ne_zero, by rw [e]; simp, by rw [e]; simpa using h1, by rw [e]; simpa using h2⟩
    · -- the mean of the two bounds for the modulus
      have ha : 0 < |k.b00| := abs_pos.2 e
      have hsq : |k.b00|^2 < k.b10*k.b01 := by rwa [sq_abs]
      obtain ⟨t, ht1, ht2⟩ : ∃ t, |k.b00|/k.b10 < t ∧ t < k.b01/|k.b00| := by
        refine exists_between ?_
        rw [div_lt_div_iff₀ h1 ha]
        nlinarith
      have ht : 0 < t := lt_trans (by positivity) ht1
      have hs : k.b00 / (t * (k.b00/|k.b00|)) = |k.b00|/t := by field_simp
      refine ⟨t*(k.b00/|k.b00|), by positivity, ?_, ?_, ?_⟩
      · rw [hs]; positivity
      · rw [hs]; rw [div_lt_iff₀ h1] at ht1; rw [div_lt_iff₀ ht]; linarith
      · rw [hs, mul_pow, div_pow, sq_abs, div_self (by positivity), mul_one]
        rw [lt_div_iff₀ ha] at ht2
        rw [div_lt_div_iff₀ ht (by positivity)]
        nlinarith
  obtain ⟨s, hs, q0, q1, q2⟩ := key
  obtain ⟨p, hp⟩ := gmom_mom2 (k := scaleY k s) q0 q1 q2
  have hs' : 0 < |s| := abs_pos.2 hs
  refine ⟨?_, fun n m => ?_⟩
  · rw [gmom_scale k hs]; simp; positivity
  · rw [gmom_scale k hs, hp, vrr_scale k hs, gmom_scale k hs 0 0, vrr_mul, vrr_mul (scaleY k s) (|s| * _ * _)]
    simp
    ring

/-- the two-dimensional intermediates are the moments of the Gaussian -/
theorem vrr_mean {k : RecCoeff ℝ} (h1 : 0 < k.b10) (h2 : 0 < k.b01) (h : k.b00^2 < k.b10*k.b01) (z : ℝ) (n m : ℕ) :
    vrr k z n m = z * mean2 k (fun x y => x^n * y^m) := by
  obtain ⟨p, hp⟩ := gmom_vrr h1 h2 h
  have e : mean2 k (fun x y => x^n * y^m) = gmom k n m / gmom k 0 0 := by
    unfold mean2 gmom
    simp
  rw [e, hp, vrr_mul, vrr_mul k (gmom k 0 0)]
  field_simp

end Verif.Lemmas
