import Mathlib.Algebra.Field.Defs
import Mathlib.Order.Defs.LinearOrder

/-
Specification of primitive pair data: the product of two Gaussians and the size estimate used
for screening.
-/
namespace Verif.Spec
variable {α : Type} [Field α] [LinearOrder α]

/-- exponent of the prefactor of a product of Gaussians with exponents a, b at square distance rr -/
def prodExponent (a b rr : α) : α := a*b/(a+b)*rr
/-- coordinate of the centre of the product -/
def prodCentre (a b A B : α) : α := (a*A + b*B)/(a+b)

/-- `m` is the largest absolute value of `f 0 .. f (n-1)` (0 if there are none) -/
structure IsMaxAbs (f : Nat → α) (n : Nat) (m : α) : Prop where
  ub : ∀ i, i < n → f i ≤ m ∧ -f i ≤ m
  att : (n = 0 ∧ m = 0) ∨ ∃ i, i < n ∧ (m = f i ∨ m = -f i)

/-- logarithm of the estimate of the integral over the polynomial part: `s` the sum of the two
most diffuse exponents, `l` the total angular momentum, `rr` the square distance -/
def logBound (log sqrt : α → α) (s : α) (l : Nat) (rr omega : α) : α :=
  17/10 - 15/10 * log s +
    (if l = 0 then 0 else if omega < 0 then l * log (sqrt rr + omega*omega/(omega*omega+s)*8 + 1)
      else l * log (sqrt rr + 1))

/-- minus the logarithm of the size estimate of a primitive pair -/
def pairEstimate (log sqrt : α → α) (a b s ma mb rr omega : α) (l : Nat) : α :=
  prodExponent a b rr - logBound log sqrt s l rr omega - log ma - log mb

/-- `V 0 .. V 4` are the five numbers of a primitive pair with estimate `cc`: centre and
prefactor if the pair matters, prefactor 0 if it does not, and the estimate -/
def IsPairEntry (exp : α → α) (a b : α) (A B : Nat → α) (rr cc cutoff : α) (V : Nat → α) : Prop :=
  V 4 = cc ∧
  (cc < cutoff → (∀ k, k < 3 → V k = prodCentre a b (A k) (B k)) ∧ V 3 = exp (-prodExponent a b rr)) ∧
  (¬ cc < cutoff → V 3 = 0)

end Verif.Spec
