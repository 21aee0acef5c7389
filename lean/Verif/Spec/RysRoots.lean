import Verif.Spec.Coulomb
import Mathlib.Data.Set.Function

/-! Solving for the roots of a polynomial, as mathematics. -/
namespace Verif.Spec

/-- `s 0 .. s (n-1)` are `n` different real roots of the polynomial `∑ aᵢ xⁱ` of degree `n` -/
def AllRoots (n : ℕ) (a : ℕ → ℝ) (s : ℕ → ℝ) : Prop :=
  Set.InjOn s (Finset.range n : Set ℕ) ∧ ∀ k, k < n → ∑ i ∈ Finset.range (n+1), a i * s k^i = 0

/-- given the coefficients `c j i` of polynomials of the degrees `j = 0..n`, of which the last has `n` different real roots, the
solver finds them -/
def SolvesRoots (S : ℕ → (ℕ → ℕ → ℝ) → Option (ℕ → ℝ)) (n : ℕ) : Prop :=
  ∀ c : ℕ → ℕ → ℝ, c n n ≠ 0 → (∃ s, AllRoots n (c n) s) → ∃ s, S n c = some s ∧ AllRoots n (c n) s

end Verif.Spec
