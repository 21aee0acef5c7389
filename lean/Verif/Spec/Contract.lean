import Mathlib.Algebra.BigOperators.Group.Finset.Basic
import Mathlib.Algebra.Ring.Defs

/-
What contraction means: the integral over contracted functions is the multilinear
combination of the primitive integrals.  Contraction coefficients are stored contraction by
contraction: `c (nprim*ctr + prim)`.
-/
namespace Verif.Spec
variable {α : Type} [CommSemiring α]

/-- two-centre contraction -/
def contract2 (ni nj : Nat) (ci cj : Nat → α) (prim : Nat → Nat → α) (ic jc : Nat) : α :=
  ∑ jp ∈ Finset.range nj, ∑ ip ∈ Finset.range ni,
    cj (nj*jc+jp) * ci (ni*ic+ip) * prim ip jp

/-- three-centre contraction -/
def contract3 (ni nj nk : Nat) (ci cj ck : Nat → α) (prim : Nat → Nat → Nat → α)
    (ic jc kc : Nat) : α :=
  ∑ kp ∈ Finset.range nk, ∑ jp ∈ Finset.range nj, ∑ ip ∈ Finset.range ni,
    ck (nk*kc+kp) * cj (nj*jc+jp) * ci (ni*ic+ip) * prim ip jp kp

/-- four-centre contraction -/
def contract4 (ni nj nk nl : Nat) (ci cj ck cl : Nat → α) (prim : Nat → Nat → Nat → Nat → α)
    (ic jc kc lc : Nat) : α :=
  ∑ lp ∈ Finset.range nl, ∑ kp ∈ Finset.range nk, ∑ jp ∈ Finset.range nj, ∑ ip ∈ Finset.range ni,
    cl (nl*lc+lp) * ck (nk*kc+kp) * cj (nj*jc+jp) * ci (ni*ic+ip) * prim ip jp kp lp

/-- position of (component, contraction indices, cartesian function `n`) in the contracted
block: components slowest, then the contraction indices of the last shell, ..., the
cartesian functions fastest -/
def outIdx4 (nf I J K L : Nat) (comp ic jc kc lc n : Nat) : Nat :=
  comp * (nf * (I*J*K*L)) + ((((lc*K + kc)*J + jc)*I + ic)*nf + n)

/-- the same for two shells -/
def outIdx2 (nf I J : Nat) (comp ic jc n : Nat) : Nat :=
  comp * (nf * (I*J)) + ((jc*I + ic)*nf + n)

/-- the same for three shells -/
def outIdx3 (nf I J K : Nat) (comp ic jc kc n : Nat) : Nat :=
  comp * (nf * (I*J*K)) + (((kc*J + jc)*I + ic)*nf + n)

end Verif.Spec
