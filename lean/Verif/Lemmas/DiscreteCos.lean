import Mathlib.Analysis.SpecialFunctions.Trigonometric.Chebyshev.Basic
import Mathlib.Analysis.SpecialFunctions.Trigonometric.Basic
import Mathlib.Tactic.FieldSimp
import Mathlib.Tactic.Linarith

/-! Orthogonality of the cosines at the 14 Chebyshev nodes. -/
namespace Verif.Lemmas.DiscreteCos

theorem dirichlet (x : ℝ) (n : Nat) : Real.sin (x/2) * ∑ k ∈ Finset.range (n+1), (if k = 0 then 1/2 else 1) * Real.cos (k*x) = 1/2 * Real.sin ((n + 1/2) * x) := by
  induction n with
  | zero => simp; rw [mul_comm, show (2:ℝ)⁻¹ * x = x/2 by ring]
  | succ n ih =>
    rw [Finset.sum_range_succ, mul_add, ih, if_neg (by omega)]
    have h1 : Real.sin (((n+1 : ℕ) + 1/2) * x) = Real.sin ((n+1 : ℕ) * x + x/2) := by congr 1; ring
    have h2 : Real.sin ((n + 1/2) * x) = Real.sin ((n+1 : ℕ) * x - x/2) := by congr 1; push_cast; ring
    rw [h1, h2, Real.sin_add, Real.sin_sub]
    ring

theorem kernel (p : Int) (h0 : p ≠ 0) (h1 : |p| < 28) :
    ∑ k ∈ Finset.range 14, (if k = 0 then 1/2 else 1) * Real.cos (k*(p*Real.pi/14)) = -(1/2) * (-1)^p := by
  have hs : Real.sin (p*Real.pi/14/2) ≠ 0 := by
    intro e
    obtain ⟨m, hm⟩ := Real.sin_eq_zero_iff.1 e
    have : (m : ℝ) * 28 = p := by
      have := Real.pi_ne_zero
      field_simp at hm
      linarith
    have : m * 28 = p := by exact_mod_cast this
    rw [abs_lt] at h1
    omega
  have D := dirichlet (p*Real.pi/14) 13
  have e : Real.sin (((13:ℕ) + 1/2) * (p*Real.pi/14)) = -(Real.sin (p*Real.pi/14/2) * (-1)^p) := by
    rw [show ((13:ℕ) + 1/2 : ℝ) * (p*Real.pi/14) = p * Real.pi - p*Real.pi/14/2 by push_cast; ring, Real.sin_sub, Real.sin_int_mul_pi, Real.cos_int_mul_pi]
    ring
  rw [e] at D
  refine mul_left_cancel₀ hs ?_
  rw [D]; ring

theorem kernel0 : ∑ k ∈ Finset.range 14, (if k = 0 then 1/2 else 1) * Real.cos (k*(((0:Int):ℝ)*Real.pi/14)) = 27/2 := by
  norm_num [Finset.sum_range_succ]

theorem ortho (j m : Nat) (hj : j < 14) (hm : m < 14) :
    ∑ k ∈ Finset.range 14, (if k = 0 then 1/2 else 1) * (Real.cos (k*((2*j+1)*Real.pi/28)) * Real.cos (k*((2*m+1)*Real.pi/28))) = if j = m then 7 else 0 := by
  have e : ∀ k : Nat, (if k = 0 then (1/2:ℝ) else 1) * (Real.cos (k*((2*j+1)*Real.pi/28)) * Real.cos (k*((2*m+1)*Real.pi/28))) =
      1/2 * ((if k = 0 then (1/2:ℝ) else 1) * Real.cos (k*((((j:Int)+m+1 : Int):ℝ)*Real.pi/14))) + 1/2 * ((if k = 0 then (1/2:ℝ) else 1) * Real.cos (k*((((j:Int)-m : Int):ℝ)*Real.pi/14))) := by
    intro k
    have h1 : Real.cos (k*((((j:Int)+m+1 : Int):ℝ)*Real.pi/14)) = Real.cos (k*((2*j+1)*Real.pi/28) + k*((2*m+1)*Real.pi/28)) := by
      congr 1; push_cast; ring
    have h2 : Real.cos (k*((((j:Int)-m : Int):ℝ)*Real.pi/14)) = Real.cos (k*((2*j+1)*Real.pi/28) - k*((2*m+1)*Real.pi/28)) := by
      congr 1; push_cast; ring
    rw [h1, h2, Real.cos_add, Real.cos_sub]; ring
  rw [Finset.sum_congr rfl (fun k _ => e k), Finset.sum_add_distrib, ← Finset.mul_sum, ← Finset.mul_sum,
    kernel _ (by omega) (by rw [abs_lt]; omega)]
  by_cases h : j = m
  · subst h
    rw [if_pos rfl, show ((j:Int) - j) = 0 by ring, kernel0, show ((j:Int)+j+1) = 2*j+1 by ring, Odd.neg_one_zpow ⟨j, rfl⟩]
    norm_num
  · rw [if_neg h, kernel _ (by omega) (by rw [abs_lt]; omega), show (j:Int)+m+1 = (j-m) + (2*m+1) by ring, zpow_add₀ (by norm_num), Odd.neg_one_zpow ⟨(m:Int), rfl⟩]
    ring

end Verif.Lemmas.DiscreteCos
