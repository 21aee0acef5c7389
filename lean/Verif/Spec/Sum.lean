import Mathlib.Algebra.BigOperators.Group.Finset.Basic

/-
Sums in program order.  `lsum n f` is `(((0 + f 0) + f 1) + ...) + f (n-1)`, with no
algebraic law assumed; over a commutative monoid it is the usual finite sum.
-/
namespace Verif.Spec

def lsum {α : Type} [Zero α] [Add α] : Nat → (Nat → α) → α
  | 0, _ => 0
  | n+1, f => lsum n f + f n

@[simp] theorem lsum_zero {α : Type} [Zero α] [Add α] (f : Nat → α) : lsum 0 f = 0 := rfl
theorem lsum_succ {α : Type} [Zero α] [Add α] (n : Nat) (f : Nat → α) :
    lsum (n+1) f = lsum n f + f n := rfl

theorem lsum_congr {α : Type} [Zero α] [Add α] {n : Nat} {f g : Nat → α}
    (H : ∀ i, i < n → f i = g i) : lsum n f = lsum n g := by
  induction n with
  | zero => rfl
  | succ n ih => rw [lsum_succ, lsum_succ, ih (fun i hi => H i (by omega)), H n (by omega)]

theorem lsum_eq_sum {α : Type} [AddCommMonoid α] (n : Nat) (f : Nat → α) :
    lsum n f = ∑ i ∈ Finset.range n, f i := by
  induction n with
  | zero => rfl
  | succ n ih => rw [lsum_succ, ih, Finset.sum_range_succ]

end Verif.Spec
