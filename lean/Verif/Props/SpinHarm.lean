import Verif.Lemmas.SpHarm
import Verif.Model.Bas

/-!
C49 — the tables of the spinor transformation hold the spinor spherical harmonics.
-/
namespace Verif.Props
open Verif Verif.Model Verif.Lemmas Verif.Spec

/-- The orders in the specification are `m_j - 1/2` for spin up and `m_j + 1/2` for spin down. -/
theorem C49_orders (l : Nat) (plus : Bool) (i : Nat) (s : Bool) :
    (mlOf l plus i s : ℝ) = mjOf l plus i - if s then -1/2 else 1/2 := by
  unfold mlOf mjOf jOf
  cases plus <;> cases s <;> push_cast <;> simp <;> ring

/-- **C49**, the tables: for every angular momentum below 13, kappa, function of the shell and spin, the row of the tables, times the
normalisation factor that the drivers apply to s and p shells, consists of the coefficients of the spinor spherical harmonic with
j = l - 1/2 (kappa > 0), j = l + 1/2 (kappa < 0) or first one and then the other (kappa = 0) and m_j = -j, …, j in the monomials of the
documented component order, to a relative error of 4·10⁻¹⁵ in the real and in the imaginary part of each coefficient. -/
theorem C49_harmonics (kappa : Int) (l i : Nat) (s : Bool) (hl : l < 13) (hi : i < lenSpinorC2S kappa l) : ∃ T : Nat → ℂ,
    (∀ x y z, spinHarm l (spinIdx kappa l i).1 (spinIdx kappa l i).2 s x y z =
      ∑ k ∈ Finset.range (ncart l), T k * ((x^(px l k) * y^(py l k) * z^(pz l k) : ℝ) : ℂ)) ∧
    ∀ k, k < ncart l →
      |commonFacSp l * (cjCoef kappa l i s k).re - (T k).re| ≤ 4/10^15 * |(T k).re| ∧
      |commonFacSp l * (cjCoef kappa l i s k).im - (T k).im| ≤ 4/10^15 * |(T k).im| := by
  have hr : jRow kappa l i < 4*l+2 := by
    unfold jRow lenSpinorC2S at *
    split_ifs at * <;> omega
  have h := of_decide_eq_true (rowsJ_check hl) (jRow kappa l i) hr s
  have e1 : decide (2*l ≤ jRow kappa l i) = (spinIdx kappa l i).1 := by
    unfold jRow spinIdx
    split_ifs <;> simp <;> omega
  have e2 : (if 2*l ≤ jRow kappa l i then jRow kappa l i - 2*l else jRow kappa l i) = (spinIdx kappa l i).2 := by
    unfold jRow spinIdx
    split_ifs <;> dsimp only <;> omega
  rw [e1, e2] at h
  refine rowJ_spec hl ?_ h
  unfold spinIdx lenSpinorC2S at *
  split_ifs at * <;> simp at * <;> omega

/-- d functions with kappa = 0: function 7 has j = 5/2 and m_j = 1/2, its spin-down component is of order 1 -/
example : spinIdx 0 2 7 = (true, 3) ∧ mjOf 2 true 3 = 1/2 ∧ mlOf 2 true 3 true = 1 := by
  refine ⟨by decide, ?_, by decide⟩
  unfold mjOf jOf
  norm_num

example : ∃ T : Nat → ℂ, (∀ x y z, spinHarm 2 true 3 true x y z =
      ∑ k ∈ Finset.range (ncart 2), T k * ((x^(px 2 k) * y^(py 2 k) * z^(pz 2 k) : ℝ) : ℂ)) ∧
    ∀ k, k < ncart 2 → |commonFacSp 2 * (cjCoef 0 2 7 true k).re - (T k).re| ≤ 4/10^15 * |(T k).re| ∧
      |commonFacSp 2 * (cjCoef 0 2 7 true k).im - (T k).im| ≤ 4/10^15 * |(T k).im| :=
  C49_harmonics 0 2 7 true (by decide) (by decide)

end Verif.Props
