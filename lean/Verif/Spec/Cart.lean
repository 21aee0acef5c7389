/-
Specification of the order of Cartesian Gaussian components: position `k` of a
shell of angular momentum `l` has exponents `(l - r, r - c, c)` where `r` is the
row of `k` in the triangular arrangement 0 | 1 2 | 3 4 5 | ... and `c` the
column.
-/
namespace Verif.Spec

/-- triangular number -/
def tri (a : Nat) : Nat := a * (a + 1) / 2

/-- row of position `k`: the largest `r` with `tri r ≤ k` -/
def row : Nat → Nat
  | 0 => 0
  | k+1 => if tri (row k + 1) ≤ k + 1 then row k + 1 else row k

/-- column of position `k` -/
def col (k : Nat) : Nat := k - tri (row k)

/-- number of Cartesian components -/
def ncart (l : Nat) : Nat := (l + 1) * (l + 2) / 2

/-- exponents of x, y and z at position `k` -/
def px (l k : Nat) : Nat := l - row k
def py (_l k : Nat) : Nat := row k - col k
def pz (_l k : Nat) : Nat := col k

/-- strict lexicographic order on exponent triples -/
def LexGt (a b : Nat × Nat × Nat) : Prop :=
  a.1 > b.1 ∨ (a.1 = b.1 ∧ (a.2.1 > b.2.1 ∨ (a.2.1 = b.2.1 ∧ a.2.2 > b.2.2)))

end Verif.Spec

namespace Verif.Spec
/-- exponent of direction `c` (0 = x, 1 = y, 2 = z) at position `k` -/
def pw (l c k : Nat) : Nat :=
  match c with
  | 0 => px l k
  | 1 => py l k
  | _ => pz l k
end Verif.Spec
