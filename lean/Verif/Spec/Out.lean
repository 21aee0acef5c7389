/-!
Layout of the caller's output array (API documentation, doc/program_ref): component `n`, functions
`I, J, K, L` of the four shells, Fortran order, with leading dimensions `dims[0], dims[1], ...`.
For two- and three-index integrals the missing indices are 0 and the missing dimensions 1.
-/
namespace Verif.Spec

/-- element number of the integral `(I J|K L)`, component `n`, in the output array -/
def outAt (nd : Nat → Nat) (n I J K L : Nat) : Nat :=
  I + nd 0 * (J + nd 1 * (K + nd 2 * (L + nd 3 * n)))

/-- the array elements that belong to the block of the shells (`cnt t` functions in shell `t`) -/
def InBlock (nd cnt : Nat → Nat) (ncomp : Nat) (m : Nat) : Prop :=
  ∃ n I J K L, n < ncomp ∧ I < cnt 0 ∧ J < cnt 1 ∧ K < cnt 2 ∧ L < cnt 3 ∧ m = outAt nd n I J K L

/-- element number, in the array of contracted Cartesian integrals, of component `n`, contraction
`(ic,jc,kc,lc)`, Cartesian functions `(i,j,k,l)`: contractions with `ic` fastest, in a block the
order is `i`, `k`, `l`, `j` -/
def ctrAt (nctr nf : Nat → Nat) (n ic jc kc lc i j k l : Nat) : Nat :=
  (i + nf 0 * (k + nf 2 * (l + nf 3 * j))) + (nf 0 * nf 1 * nf 2 * nf 3) *
    (ic + nctr 0 * (jc + nctr 1 * (kc + nctr 2 * (lc + nctr 3 * n))))

/-- element number, for the integrals on a list of points, of component `n`, point `g`, functions `I, J`: the points
are the fastest index and `dims[2]` is their leading dimension -/
def gridAt (nd : Nat → Nat) (n g I J : Nat) : Nat :=
  g + nd 2 * (I + nd 0 * (J + nd 1 * n))

/-- the array elements that belong to `cnt 2` points, `cnt 0` and `cnt 1` functions -/
def InGridBlock (nd cnt : Nat → Nat) (ncomp : Nat) (m : Nat) : Prop :=
  ∃ n g I J, n < ncomp ∧ g < cnt 2 ∧ I < cnt 0 ∧ J < cnt 1 ∧ m = gridAt nd n g I J

end Verif.Spec
