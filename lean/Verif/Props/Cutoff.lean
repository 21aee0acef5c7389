import Verif.Model.Int2c2e
import Verif.Model.Int3c2e
import Verif.Model.Int2eOpt
import Verif.Model.F12
import Mathlib.Tactic.Linarith
import Mathlib.Algebra.Order.Ring.Defs

/-!
C13 — the cutoff in force.  `env[PTR_EXPCUTOFF]` 0 selects 60; any other value is used, but never one below 40.
-/
namespace Verif.Props
open Verif Verif.Model

variable {α : Type} [Field α] [LinearOrder α] [IsStrictOrderedRing α]

/-- **C13** two-electron integrals over four functions -/
theorem C13_cutoff_2e (x : α) : cutoff2e (0:α) = 60 ∧ (x ≠ 0 → cutoff2e x = max 40 x + 1) ∧ 40 ≤ cutoff2e x := by
  have h : x ≠ 0 → cutoff2e x = max 40 x + 1 := by
    intro hx
    unfold cutoff2e
    rw [if_neg hx]
    split
    · rw [max_eq_left (le_of_lt ‹_›)]
    · rw [max_eq_right (not_lt.1 ‹_›)]
  refine ⟨if_pos rfl, h, ?_⟩
  by_cases hx : x = 0
  · rw [hx, cutoff2e, if_pos rfl]
    norm_num
  · rw [h hx]
    have := le_max_left 40 x
    linarith

/-- **C13** two-electron integrals over three functions -/
theorem C13_cutoff_three_centre (x : α) : cutoff3c2e (0:α) = 60 ∧ (x ≠ 0 → cutoff3c2e x = max 40 x) ∧ 40 ≤ cutoff3c2e x := by
  have h : x ≠ 0 → cutoff3c2e x = max 40 x := by
    intro hx
    unfold cutoff3c2e
    rw [if_neg hx]
    split
    · rw [max_eq_left (le_of_lt ‹_›)]
    · rw [max_eq_right (not_lt.1 ‹_›)]
  refine ⟨if_pos rfl, h, ?_⟩
  by_cases hx : x = 0
  · rw [hx, cutoff3c2e, if_pos rfl]
    norm_num
  · rw [h hx]
    exact le_max_left 40 x

/-- **C13** two-electron integrals over two functions -/
theorem C13_cutoff_two_centre (x : α) : cutoff2c2e (0:α) = 60 ∧ (x ≠ 0 → cutoff2c2e x = max 40 x) ∧ 40 ≤ cutoff2c2e x :=
  C13_cutoff_three_centre x

/-- **C13** pair tables of an optimizer -/
theorem C13_cutoff_optimizer (x : α) : setijCutoff (0:α) = 60 ∧ (x ≠ 0 → setijCutoff x = max 40 x) ∧ 40 ≤ setijCutoff x :=
  C13_cutoff_three_centre x

/-- **C13** integrals over the Yukawa interaction and the Slater-type geminal -/
theorem C13_cutoff_f12 (x : α) : cutoffF (0:α) = 60 ∧ (x ≠ 0 → cutoffF x = max 40 x) ∧ 40 ≤ cutoffF x :=
  C13_cutoff_three_centre x

/-- cutoffs 10 and 50 -/
example : cutoff2e (10:ℚ) = 41 ∧ cutoff2e (50:ℚ) = 51 ∧ cutoff2c2e (10:ℚ) = 40 ∧ cutoff2c2e (50:ℚ) = 50 ∧
    cutoffF (10:ℚ) = 40 ∧ cutoffF (50:ℚ) = 50 := by
  refine ⟨?_, ?_, ?_, ?_, ?_, ?_⟩ <;> norm_num [cutoff2e, cutoff2c2e, cutoffF]

end Verif.Props
