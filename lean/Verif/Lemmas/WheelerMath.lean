import Verif.Lemmas.GolubWelsch
import Verif.Lemmas.Boys
import Mathlib.Analysis.SpecialFunctions.ExpDeriv
import Mathlib.Analysis.Calculus.Deriv.Polynomial

/-! Modified moments: the recursion of Wheeler, and the moments of the Laguerre polynomials. -/
namespace Verif.Lemmas
open Polynomial Verif.Spec

/-- the monic polynomials with the recursion coefficients `al`, `be` -/
noncomputable def piP (al be : ℕ → ℝ) : ℕ → ℝ[X]
  | 0 => 1
  | 1 => X - C (al 0)
  | k+2 => (X - C (al (k+1))) * piP al be (k+1) - C (be (k+1)) * piP al be k

theorem piP_monic (al be : ℕ → ℝ) (k : ℕ) : (piP al be k).Monic ∧ (piP al be k).natDegree = k := by
  induction k using Nat.strong_induction_on with
  | _ k ih =>
    rcases k with _ | _ | k
    · exact ⟨monic_one, natDegree_one⟩
    · exact ⟨monic_X_sub_C _, natDegree_X_sub_C _⟩
    · obtain ⟨m1, d1⟩ := ih (k+1) (by omega)
      obtain ⟨m0, d0⟩ := ih k (by omega)
      have hm := (monic_X_sub_C (al (k+1))).mul m1
      have hd : ((X - C (al (k+1))) * piP al be (k+1)).natDegree = k+2 := by
        rw [(monic_X_sub_C _).natDegree_mul m1, natDegree_X_sub_C, d1]; omega
      have hlt : (C (be (k+1)) * piP al be k).degree < ((X - C (al (k+1))) * piP al be (k+1)).degree := by
        rw [degree_eq_natDegree hm.ne_zero, hd, ← smul_eq_C_mul]
        refine lt_of_le_of_lt (degree_smul_le _ _) ?_
        rw [degree_eq_natDegree m0.ne_zero, d0]
        exact_mod_cast (by omega : k < k+2)
      have hm' : (piP al be (k+2)).Monic := hm.sub_of_left hlt
      refine ⟨hm', ?_⟩
      have : (piP al be (k+2)).degree = ((X - C (al (k+1))) * piP al be (k+1)).degree := degree_sub_eq_left_of_degree_lt hlt
      rw [degree_eq_natDegree hm'.ne_zero, degree_eq_natDegree hm.ne_zero, hd] at this
      exact_mod_cast this

section
variable {L : ℝ[X] →ₗ[ℝ] ℝ} (hL : PosFun L)

include hL in
theorem gsQ_top {k : ℕ} {G : ℝ[X]} (hd : G.natDegree ≤ k) : L (gsQ L k * G) = G.coeff k * hN L k := by
  have hg := gs_main hL k
  have h1 : (G - C (G.coeff k) * gsQ L k).degree < k := by
    rw [degree_lt_iff_coeff_zero]
    intro m hm
    rw [coeff_sub, coeff_C_mul]
    rcases Nat.eq_or_lt_of_le hm with e | e
    · subst e
      have : (gsQ L k).coeff k = 1 := by have := hg.1.coeff_natDegree; rwa [hg.2.1] at this
      rw [this]; ring
    · have z1 : G.coeff m = 0 := coeff_eq_zero_of_natDegree_lt (by omega)
      have z2 : (gsQ L k).coeff m = 0 := coeff_eq_zero_of_natDegree_lt (by rw [hg.2.1]; exact e)
      rw [z1, z2]; ring
  have h2 := gsQ_orth hL k _ h1
  rw [mul_sub, map_sub, ← smul_eq_C_mul, mul_smul_comm, map_smul, smul_eq_mul] at h2
  unfold hN
  linarith

variable (L) in
/-- the mixed moments `L(Q_i π_{i+j})` -/
noncomputable def sig (al be : ℕ → ℝ) (i j : ℕ) : ℝ := L (gsQ L i * piP al be (i+j))

variable (al be : ℕ → ℝ)

include hL in
theorem sig_zero (i : ℕ) : sig L al be i 0 = hN L i := gsQ_monic hL (piP_monic al be i).1 (piP_monic al be i).2

include hL in
theorem sig_step (k j : ℕ) : sig L al be (k+1) j = sig L al be k (j+2) - (recA L k - al (k+1+j)) * sig L al be k (j+1)
    - recB L k * (if k = 0 then 0 else sig L al be (k-1) (j+2)) + be (k+1+j) * sig L al be k j := by
  have hx : X * piP al be (k+j+1) = piP al be (k+j+2) + al (k+j+1) • piP al be (k+j+1) + be (k+j+1) • piP al be (k+j) := by
    rw [smul_eq_C_mul, smul_eq_C_mul]
    show _ = ((X - C (al (k+j+1))) * piP al be (k+j+1) - C (be (k+j+1)) * piP al be (k+j)) + _ + _
    ring
  have e : gsQ L (k+1) * piP al be (k+j+1) = gsQ L k * piP al be (k+j+2) + al (k+j+1) • (gsQ L k * piP al be (k+j+1)) +
      be (k+j+1) • (gsQ L k * piP al be (k+j)) - recA L k • (gsQ L k * piP al be (k+j+1)) -
      recB L k • ((if k = 0 then 0 else gsQ L (k-1)) * piP al be (k+j+1)) := by
    have e1 : gsQ L k * (X * piP al be (k+j+1)) = gsQ L k * (piP al be (k+j+2) + al (k+j+1) • piP al be (k+j+1) + be (k+j+1) • piP al be (k+j)) := by rw [hx]
    rw [gsQ_rec hL k]
    simp only [smul_eq_C_mul] at e1 ⊢
    linear_combination e1
  unfold sig
  rw [show k+1+j = k+j+1 by omega, e, map_sub, map_sub, map_add, map_add, map_smul, map_smul, map_smul, map_smul]
  have e2 : L ((if k = 0 then 0 else gsQ L (k-1)) * piP al be (k+j+1)) = if k = 0 then 0 else L (gsQ L (k-1) * piP al be (k-1+(j+2))) := by
    rcases k with _ | k
    · simp
    · rw [if_neg (by omega), if_neg (by omega), show k+1-1+(j+2) = k+1+j+1 by omega]
  rw [e2, show k+(j+2) = k+j+2 by omega, show k+(j+1) = k+j+1 by omega]
  simp only [smul_eq_mul]
  ring

include hL in
theorem recB_sig (k : ℕ) : recB L (k+1) = sig L al be (k+1) 0 / sig L al be k 0 := by
  rw [sig_zero hL, sig_zero hL]; unfold recB; rw [if_neg (by omega), Nat.add_sub_cancel]

include hL in
theorem recA_zero : recA L 0 = al 0 + sig L al be 0 1 / sig L al be 0 0 := by
  have hq : gsQ L 0 = 1 := by simp [gsQ]
  have h0 := (hN_pos hL 0).ne'
  rw [sig_zero hL]
  unfold recA sig
  have e : piP al be (0+1) = X - al 0 • 1 := by
    show X - C (al 0) = _
    rw [smul_eq_C_mul, mul_one]
  have e1 : L 1 = hN L 0 := by unfold hN; rw [hq, mul_one]
  rw [e, hq, mul_one, mul_one, one_mul, map_sub, map_smul, smul_eq_mul, e1]
  field_simp; ring

include hL in
theorem recA_succ (k : ℕ) : recA L (k+1) = al (k+1) - sig L al be k 1 / sig L al be k 0 + sig L al be (k+1) 1 / sig L al be (k+1) 0 := by
  have h0 := (hN_pos hL k).ne'
  have h1 := (hN_pos hL (k+1)).ne'
  obtain ⟨m1, d1⟩ := piP_monic al be (k+1)
  obtain ⟨m0, d0⟩ := piP_monic al be k
  have g1 := gs_main hL (k+1)
  have dR : (gsQ L (k+1) - piP al be (k+1)).natDegree ≤ k := by
    have hlt := degree_sub_lt (p := gsQ L (k+1)) (q := piP al be (k+1)) (by rw [gsQ_degree hL, degree_eq_natDegree m1.ne_zero, d1])
      g1.1.ne_zero (by rw [g1.1.leadingCoeff, m1.leadingCoeff])
    rw [gsQ_degree hL] at hlt
    by_cases hz : gsQ L (k+1) - piP al be (k+1) = 0
    · rw [hz, natDegree_zero]; omega
    · rw [degree_eq_natDegree hz] at hlt
      have : (gsQ L (k+1) - piP al be (k+1)).natDegree < k+1 := by exact_mod_cast hlt
      omega
  have A := gsQ_top hL dR
  have dXR : (X * (gsQ L (k+1) - piP al be (k+1))).natDegree ≤ k+1 := (natDegree_mul_le).trans (by rw [natDegree_X]; omega)
  have B := gsQ_top hL dXR
  rw [coeff_X_mul] at B
  rw [mul_sub, map_sub, gsQ_gsQ hL (by omega : k ≠ k+1)] at A
  have hx : X * piP al be (k+1) = piP al be (k+2) + al (k+1) • piP al be (k+1) + be (k+1) • piP al be k := by
    rw [smul_eq_C_mul, smul_eq_C_mul]
    show _ = ((X - C (al (k+1))) * piP al be (k+1) - C (be (k+1)) * piP al be k) + _ + _
    ring
  have C0 : L (gsQ L (k+1) * piP al be k) = 0 := gsQ_orth hL (k+1) _ (by rw [degree_eq_natDegree m0.ne_zero, d0]; exact_mod_cast Nat.lt_succ_self k)
  have D : L (X * gsQ L (k+1) * gsQ L (k+1)) = L (gsQ L (k+1) * piP al be (k+2)) + al (k+1) * hN L (k+1) +
      (gsQ L (k+1) - piP al be (k+1)).coeff k * hN L (k+1) := by
    have e : X * gsQ L (k+1) * gsQ L (k+1) = gsQ L (k+1) * piP al be (k+2) + al (k+1) • (gsQ L (k+1) * piP al be (k+1)) +
        be (k+1) • (gsQ L (k+1) * piP al be k) + gsQ L (k+1) * (X * (gsQ L (k+1) - piP al be (k+1))) := by
      have e1 : gsQ L (k+1) * (X * piP al be (k+1)) = gsQ L (k+1) * (piP al be (k+2) + al (k+1) • piP al be (k+1) + be (k+1) • piP al be k) := by rw [hx]
      simp only [smul_eq_C_mul] at e1 ⊢
      linear_combination e1
    rw [e, map_add, map_add, map_add, map_smul, map_smul, C0, B, gsQ_monic hL m1 d1]
    simp only [smul_eq_mul]; ring
  rw [sig_zero hL, sig_zero hL]
  unfold recA sig
  rw [D]
  have A' : L (gsQ L k * piP al be (k+1)) = - ((gsQ L (k+1) - piP al be (k+1)).coeff k * hN L k) := by linarith
  rw [A', show k+1+1 = k+2 by omega]
  field_simp; ring
end

/-! Laguerre polynomials -/
section
variable (t : ℝ)

noncomputable def lagA (i : ℕ) : ℝ := (i*4+1) * (1/2/t)
noncomputable def lagB (i : ℕ) : ℝ := i * (i*2-1) * (1/2/(t*t))

/-- the recursion for the boundary terms, at `y` -/
noncomputable def lagQ (y : ℝ) : ℕ → ℝ
  | 0 => 1
  | 1 => y - 3 * (1/2/t)
  | k+2 => (y - ((k+2 : ℕ)*4-1) * (1/2/t)) * lagQ y (k+1) - ((k+2 : ℕ)-1) * ((k+2 : ℕ)*2-1) * (1/2/(t*t)) * lagQ y k

noncomputable def lagQP : ℕ → ℝ[X]
  | 0 => 1
  | 1 => X - C (3 * (1/2/t))
  | k+2 => (X - C (((k+2 : ℕ)*4-1) * (1/2/t))) * lagQP (k+1) - C (((k+2 : ℕ)-1) * ((k+2 : ℕ)*2-1) * (1/2/(t*t))) * lagQP k

theorem lagQP_eval (y : ℝ) (k : ℕ) : (lagQP t k).eval y = lagQ t y k := by
  induction k using Nat.strong_induction_on with
  | _ k ih =>
    rcases k with _ | _ | k
    · simp [lagQP, lagQ]
    · simp only [lagQP, lagQ, eval_sub, eval_X, eval_C]
    · simp only [lagQP, lagQ, eval_sub, eval_mul, eval_X, eval_C]
      rw [ih (k+1) (by omega), ih k (by omega)]

theorem half_sq (t : ℝ) : 1/2/(t*t) = 2 * (1/2/t) * (1/2/t) := by
  rcases eq_or_ne t 0 with h | h
  · subst h; simp
  · field_simp

theorem lag_E (y : ℝ) (k : ℕ) : y * lagQ t y k =
    (piP (lagA t) (lagB t) (k+1)).eval y + (2*k+1) * (1/2/t) * (piP (lagA t) (lagB t) k).eval y := by
  induction k using Nat.strong_induction_on with
  | _ k ih =>
    rcases k with _ | _ | k
    · simp only [piP, lagQ, lagA, eval_sub, eval_X, eval_C, eval_one, Nat.cast_zero]; ring
    · simp only [piP, lagQ, lagA, lagB, eval_sub, eval_mul, eval_X, eval_C, eval_one, Nat.cast_zero, half_sq]; push_cast; ring
    · have h1 := ih (k+1) (by omega)
      have h0 := ih k (by omega)
      have hP3 : (piP (lagA t) (lagB t) (k+1+2)).eval y = (y - lagA t (k+1+1)) * (piP (lagA t) (lagB t) (k+1+1)).eval y -
          lagB t (k+1+1) * (piP (lagA t) (lagB t) (k+1)).eval y := by
        rw [piP]; simp only [eval_sub, eval_mul, eval_X, eval_C]
      have hP2 : (piP (lagA t) (lagB t) (k+2)).eval y = (y - lagA t (k+1)) * (piP (lagA t) (lagB t) (k+1)).eval y -
          lagB t (k+1) * (piP (lagA t) (lagB t) k).eval y := by
        rw [piP]; simp only [eval_sub, eval_mul, eval_X, eval_C]
      rw [show k+2+1 = k+1+2 by omega, hP3]
      unfold lagQ
      rw [show k+1+1 = k+2 by omega] at h1 ⊢
      generalize (piP (lagA t) (lagB t) (k+2)).eval y = P2 at *
      generalize (piP (lagA t) (lagB t) (k+1)).eval y = P1 at *
      generalize (piP (lagA t) (lagB t) k).eval y = P0 at *
      unfold lagA lagB at *
      rw [half_sq] at *
      generalize 1/2/t = s at *
      push_cast at *
      linear_combination (y - (4*(k+2)-1)*s) * h1 - (k+1)*(2*(k+2)-1)*(2*s*s) * h0 - (2*(k+1)+1) * s * hP2

theorem lag_D (y : ℝ) (k : ℕ) : (y - 1/2/t) * lagQ t y k - 2 * (1/2/t) * y * (derivative (lagQP t k)).eval y =
    (piP (lagA t) (lagB t) (k+1)).eval y := by
  induction k using Nat.strong_induction_on with
  | _ k ih =>
    rcases k with _ | _ | k
    · simp [piP, lagQ, lagQP, lagA]
    · simp only [piP, lagQ, lagQP, lagA, lagB, derivative_sub, derivative_X, derivative_C, eval_sub, eval_mul, eval_X, eval_C, eval_one, eval_zero, Nat.cast_zero, half_sq]
      push_cast; ring
    · have h1 := ih (k+1) (by omega)
      have h0 := ih k (by omega)
      have e1 := lag_E t y (k+1)
      have hP3 : (piP (lagA t) (lagB t) (k+1+2)).eval y = (y - lagA t (k+1+1)) * (piP (lagA t) (lagB t) (k+1+1)).eval y -
          lagB t (k+1+1) * (piP (lagA t) (lagB t) (k+1)).eval y := by
        rw [piP]; simp only [eval_sub, eval_mul, eval_X, eval_C]
      have hq : (derivative (lagQP t (k+2))).eval y = lagQ t y (k+1) + (y - ((k+2 : ℕ)*4-1) * (1/2/t)) * (derivative (lagQP t (k+1))).eval y -
          ((k+2 : ℕ)-1) * ((k+2 : ℕ)*2-1) * (1/2/(t*t)) * (derivative (lagQP t k)).eval y := by
        rw [lagQP]
        simp only [derivative_sub, derivative_mul, derivative_X, derivative_C, eval_sub, eval_add, eval_mul, eval_X, eval_C, eval_one, eval_zero, lagQP_eval]
        ring
      rw [show k+2+1 = k+1+2 by omega, hP3, hq]
      conv_lhs => rw [lagQ]
      rw [show k+1+1 = k+2 by omega] at h1 e1 ⊢
      generalize (piP (lagA t) (lagB t) (k+2)).eval y = P2 at *
      generalize (piP (lagA t) (lagB t) (k+1)).eval y = P1 at *
      unfold lagA lagB at *
      rw [half_sq] at *
      generalize 1/2/t = s at *
      push_cast at *
      linear_combination (y - (4*(k+2)-1)*s) * h1 - (k+1)*(2*(k+2)-1)*(2*s*s) * h0 - 2 * s * e1

/-- the moments of the Laguerre polynomials are boundary terms -/
theorem lag_moment (ht : t ≠ 0) (l : ℝ) (k : ℕ) : rysL t l (piP (lagA t) (lagB t) (k+1)) =
    lagQ t (l*l) k * (Real.exp (-t*(l*l)) * l * (1/2/t)) - lagQ t 1 k * (Real.exp (-t) * (1/2/t)) := by
  have hd : ∀ u ∈ Set.uIcc l 1, HasDerivAt (fun u : ℝ => -(1/2/t) * (u * (lagQP t k).eval (u^2) * Real.exp (-t*u^2)))
      ((piP (lagA t) (lagB t) (k+1)).eval (u^2) * Real.exp (-t*u^2)) u := by
    intro u _
    have d1 : HasDerivAt (fun u : ℝ => u^2) (2*u) u := by simpa using hasDerivAt_pow 2 u
    have d2 : HasDerivAt (fun u : ℝ => (lagQP t k).eval (u^2)) ((derivative (lagQP t k)).eval (u^2) * (2*u)) u := by
      have q := ((lagQP t k).hasDerivAt (u^2)).comp u d1
      exact q
    have d3 : HasDerivAt (fun u : ℝ => Real.exp (-t*u^2)) (Real.exp (-t*u^2) * (-t * (2*u))) u := (d1.const_mul (-t)).exp
    have d4 := (((hasDerivAt_id u).mul d2).mul d3).const_mul (-(1/2/t))
    refine d4.congr_deriv ?_
    have := lag_D t (u^2) k
    rw [← lagQP_eval] at this
    rw [← this]
    have e : (1/2/t) * t = 1/2 := by field_simp
    simp only [id, Pi.mul_apply]
    generalize (1/2/t) = s at *
    linear_combination (2 * u * u * (lagQP t k).eval (u^2) * Real.exp (-t*u^2)) * e
  show rysInt t l _ = _
  unfold rysInt
  rw [intervalIntegral.integral_eq_sub_of_hasDerivAt hd ((rys_cont t _).intervalIntegrable _ _)]
  simp only [lagQP_eval, one_pow, mul_one, one_mul]
  rw [show l^2 = l*l by ring]
  ring

theorem rysL_one (ht : 0 < t) (l : ℝ) : rysL t l 1 = Real.sqrt Real.pi / 2 / Real.sqrt t * (erf (Real.sqrt t) - erf (l * Real.sqrt t)) := by
  rw [← boys_erf l ht]
  show rysInt t l 1 = _
  unfold rysInt boys
  simp

end
end Verif.Lemmas
