import Verif.Model.Boys

/-
Roots and weights of Rys quadrature by Schmidt orthogonalisation, and the choice of the method, src/rys_roots.c.

The arrays on the stack (`fmt_ints`, `rt`, `v`) are passed as pointers.  Messages to stderr are left out.  KEEP_GOING is not
defined.
-/
namespace Verif.Model
open Verif Prog

variable {α : Type} [Field α] [LinearOrder α]

/-- SET_ZERO, src/rys_roots.c:1638-1643 -/
def setZeroFrom (cs : Ptr) (n start : Nat) : Prog α Unit :=
  forN (n - start) fun k => forN n fun i => st (cs + (i + (start + k) * n)) 0

/-- the body of the loop over `j` in R_dsmit up to the test, src/rys_roots.c:1664-1677; gives `fac` -/
def smitProject (cs f v : Ptr) (n j : Nat) : Prog α α := do
  forN j fun k => st (v + k) 0
  let fac ← ld (f + (j + j))
  forS j fac fun k fac => do
    let dot ← forS (k+1) 0 fun i dot => do
      let c ← ld (cs + (i + k * n))
      let m ← ld (f + (i + j))
      pure (dot + c * m)
    forN (k+1) fun i => do
      let x ← ld (v + i)
      let c ← ld (cs + (i + k * n))
      st (v + i) (x - dot * c)
    pure (fac - dot * dot)

/-- the loop over `j`, src/rys_roots.c:1663-1694; the first argument counts the rounds left -/
def smitCols (sqrt : α → α) (cs f v : Ptr) (n : Nat) : Nat → Nat → Prog α Nat
  | 0, _ => pure 0
  | m+1, j => do
    let fac ← smitProject cs f v n j
    if fac ≤ 0 then do
      setZeroFrom cs n j
      if fac = 0 then pure 0 else pure j
    else do
      let fac := 1 / sqrt fac
      st (cs + (j + j * n)) fac
      forN j fun k => do
        let x ← ld (v + k)
        st (cs + (k + j * n)) (fac * x)
      smitCols sqrt cs f v n m (j+1)

/-- R_dsmit, src/rys_roots.c:1645-1695 -/
def rDsmit (sqrt : α → α) (cs f v : Ptr) (n : Nat) : Prog α Nat := do
  let f0 ← ld f
  let f1 ← ld (f + 1)
  let f2 ← ld (f + 2)
  let fac := -f1 / f0
  let tmp := f2 + fac * f1
  if tmp ≤ 0 then do
    setZeroFrom cs n 1
    pure 1
  else do
    let tmp := 1 / sqrt tmp
    st cs (1 / sqrt f0)
    st (cs + n) (fac * tmp)
    st (cs + (1 + n)) tmp
    smitCols sqrt cs f v n (n - 2) 2

/-- `_CINT_polynomial_roots` for three roots and more, src/find_roots.c:255-299 (QR iteration on the companion matrix, then
R_dnode): a parameter that is given the coefficients `c j i` of `x^i` in polynomial `j`, `j = 0..nroots`, and gives the roots,
or nothing on failure -/
abbrev RootSolver (α : Type) := Nat → (Nat → Nat → α) → Option (Nat → α)

/-- the coefficients `cs[i + j*n]`, `i ≤ j < n`, row by row -/
def loadCoef (cs : Ptr) (n : Nat) : Prog α (Nat → Nat → α) :=
  forS n (fun _ _ => 0) fun j c =>
    forS (j+1) c fun i c => do
      let x ← ld (cs + (i + j * n))
      pure (fun j' i' => if j' = j ∧ i' = i then x else c j' i')

/-- `_CINT_polynomial_roots`, src/find_roots.c:243-300; the failure code is 1 -/
def polynomialRoots (sqrt : α → α) (S : RootSolver α) (rt cs : Ptr) (nroots : Nat) : Prog α Nat :=
  if nroots = 1 then do
    let a ← ld (cs + 2)
    let b ← ld (cs + 3)
    st rt (-a / b)
    pure 0
  else if nroots = 2 then do
    let a0 ← ld (cs + 6)
    let a1 ← ld (cs + 7)
    let a2 ← ld (cs + 8)
    let dum := sqrt (a1 * a1 - 4 * a0 * a2)
    st rt ((-a1 - dum) / a2 / 2)
    st (rt + 1) ((-a1 + dum) / a2 / 2)
    pure 0
  else do
    let c ← loadCoef cs (nroots + 1)
    match S nroots c with
    | none => pure 1
    | some s => do
      forN nroots fun k => st (rt + k) (s k)
      pure 0

/-- POLYNOMIAL_VALUE1, src/rys_roots.c:1631-1636 -/
def polyValue1 (a : Ptr) (order : Nat) (x : α) : Prog α α := do
  let p ← ld (a + order)
  forS order p fun i p => do
    let c ← ld (a + (order - (i+1)))
    pure (p * x + c)

/-- one turn of the last loop of `_rdk_rys_roots`, src/rys_roots.c:1735-1756 -/
def rdkRoot (cs rt roots weights : Ptr) (nroots : Nat) (f0 : α) (k : Nat) : Prog α Unit := do
  let root ← ld (rt + k)
  if root = 1 then do
    st (roots + k) 0
    st (weights + k) 0
  else do
    let dum ← forS (nroots - 1) (1 / f0) fun j dum => do
      let poly ← polyValue1 (cs + (j+1) * (nroots + 1)) (j+1) root
      pure (dum + poly * poly)
    st (roots + k) (root / (1 - root))
    st (weights + k) (1 / dum)

/-- `_rdk_rys_roots`, src/rys_roots.c:1701-1758 -/
def rdkRysRoots (sqrt : α → α) (S : RootSolver α) (nroots : Nat) (f rt v roots weights : Ptr) : Prog α Nat := do
  let cs := rt + (nroots + 1)
  let f0 ← ld f
  if f0 = 0 then do
    forN nroots fun k => do
      st (roots + k) 0
      st (weights + k) 0
    pure 0
  else if nroots = 1 then do
    let f1 ← ld (f + 1)
    st roots (f1 / (f0 - f1))
    st weights f0
    pure 0
  else do
    let e ← rDsmit sqrt cs f v (nroots + 1)
    if e ≠ 0 then pure 1 else do
      let e ← polynomialRoots sqrt S rt cs nroots
      if e ≠ 0 then pure e else do
        forN nroots fun k => rdkRoot cs rt roots weights nroots f0 k
        pure 0

/-- CINTrys_schmidt, src/rys_roots.c:1760-1769 -/
def rysSchmidt (L : BoysLib α) (eps : α) (fuel : Nat) (S : RootSolver α) (f rt v : Ptr) (nroots : Nat) (x lower : α)
    (roots weights : Ptr) : Prog α Nat := do
  (if lower = 0 then gammaIncLike L eps fuel f x (nroots * 2) else fmtErfcLike L eps fuel f x lower (nroots * 2))
  rdkRysRoots L.sqrt S nroots f rt v roots weights

/-! ### the choice of the method -/

/-- the methods; the ones with a small argument, with a large argument and the tabulated fits for up to five roots are those of
CINTrys_roots, src/rys_roots.c:59-96; `polyfits` is CINTsr_rys_polyfits -/
inductive RootMethod
  | schmidt | lschmidt | qschmidt | jacobi | ljacobi | qjacobi | llaguerre | qlaguerre | polyfits
  | smallx | largex | fit
deriving DecidableEq

/-- a method, run with `n`, `x` and the lower limit, writes roots and weights and gives an error code -/
abbrev Finders (α : Type) := RootMethod → Nat → α → α → Prog α Nat

open RootMethod

/-- segment_solve, src/rys_roots.c:42-55 -/
def segmentSolve (F : Finders α) (n : Nat) (x lower breakpoint : α) (fn1 fn2 : RootMethod) : Prog α Nat := do
  let error ← F (if x ≤ breakpoint then fn1 else fn2) n x lower
  if error ≠ 0 then F qschmidt n x lower else pure error

/-- segment_solve1, src/rys_roots.c:127-147 -/
def segmentSolve1 (F : Finders α) (n : Nat) (x lower bp1 bp2 breakpoint : α) (fn1 fn2 fn3 : RootMethod) : Prog α Nat :=
  if lower < bp1 then do
    let error ← F (if x ≤ breakpoint then fn1 else fn2) n x lower
    if error ≠ 0 then F qschmidt n x lower else pure error
  else if lower < bp2 then do
    let error ← F fn3 n x lower
    if error ≠ 0 then F qschmidt n x lower else pure error
  else pure 1

/-- `if (err) { ... exit(err); }`: the exit code, if the process ends -/
def exitOn (err : Nat) : Option Nat := if err ≠ 0 then some err else none

/-- CINTrys_roots, src/rys_roots.c:57-122.  The result is the exit code, if the process ends.  `smallxLimit` is
SMALLX_LIMIT. -/
def rysRootsDispatch (F : Finders α) (smallxLimit : α) (n : Nat) (x : α) : Prog α (Option Nat) :=
  if x ≤ smallxLimit then do
    let _ ← F smallx n x 0
    pure none
  else if x ≥ 35 + (n : α) * 5 then do
    let _ ← F largex n x 0
    pure none
  else do
    let err ← (
      if 1 ≤ n ∧ n ≤ 5 then F fit n x 0
      else if n = 6 ∨ n = 7 then segmentSolve F n x 0 11 jacobi schmidt
      else if n = 8 then segmentSolve F n x 0 11 jacobi lschmidt
      else if n = 9 then segmentSolve F n x 0 10 ljacobi llaguerre
      else if n = 10 ∨ n = 11 then segmentSolve F n x 0 18 ljacobi llaguerre
      else if n = 12 then segmentSolve F n x 0 22 ljacobi llaguerre
      else segmentSolve F n x 0 50 qjacobi qlaguerre)
    pure (exitOn err)

/-- the attempt with CINTsr_rys_polyfits when WITH_POLYNOMIAL_FIT is defined (`fits`), src/rys_roots.c:163-170, :180-187,
:197-204 -/
def tryFits (F : Finders α) (fits : Bool) (n : Nat) (x lower : α) (rest : Prog α Nat) : Prog α Nat :=
  if fits = true ∧ lower < 6/10 then do
    let err ← F polyfits n x lower
    if err = 0 then pure err else rest
  else rest

/-- CINTsr_rys_roots, src/rys_roots.c:149-267.  The result is the exit code, if the process ends. -/
def srRysRoots (F : Finders α) (fits : Bool) (n : Nat) (x lower : α) : Prog α (Option Nat) :=
  let segq (bp1 bp2 : α) : Prog α Nat := segmentSolve1 F n x lower bp1 bp2 60 qjacobi qlaguerre qjacobi
  match n with
  | 1 => do
    let err ← F schmidt n x lower
    pure (exitOn err)
  | 2 => do
    let err ← F (if lower < 99/100 then schmidt else qjacobi) n x lower
    pure (exitOn err)
  | 3 => do
    let err ← tryFits F fits n x lower (
      if lower < 93/100 then F schmidt n x lower
      else if lower < 97/100 then segmentSolve F n x lower 10 ljacobi llaguerre
      else F qjacobi n x lower)
    pure (exitOn err)
  | 4 => do
    let err ← tryFits F fits n x lower (
      if lower < 8/10 then F schmidt n x lower
      else if lower < 9/10 then segmentSolve F n x lower 10 ljacobi llaguerre
      else F qjacobi n x lower)
    pure (exitOn err)
  | 5 => do
    let err ← tryFits F fits n x lower (
      if lower < 4/10 then segmentSolve F n x lower 50 schmidt llaguerre
      else if lower < 8/10 then segmentSolve F n x lower 10 ljacobi llaguerre
      else F qjacobi n x lower)
    pure (exitOn err)
  | 6 => do
    let err ← (
      if lower < 25/100 then segmentSolve F n x lower 60 schmidt llaguerre
      else if lower < 8/10 then segmentSolve F n x lower 10 ljacobi llaguerre
      else F qjacobi n x lower)
    pure (exitOn err)
  | 7 => do
    let err ← segmentSolve1 F n x lower (5/10) 1 60 ljacobi llaguerre qjacobi
    pure (exitOn err)
  | 8 | 9 | 10 | 11 | 12 => do
    let err ← segq (15/100) 1
    pure (exitOn err)
  | 13 | 14 => do
    let err ← segq (25/100) 1
    pure (exitOn err)
  | 15 | 16 => do
    let err ← segq (25/100) (75/100)
    pure (exitOn err)
  | 17 => do
    let _ ← segq (25/100) (65/100)
    pure (exitOn 1)
  | 18 => do
    let _ ← segq (15/100) (65/100)
    pure (exitOn 1)
  | 19 => do
    let err ← segq (15/100) (55/100)
    pure (exitOn err)
  | 20 | 21 => do
    let err ← segq (25/100) (45/100)
    pure (exitOn err)
  | 22 | 23 | 24 => do
    let err ← segq (25/100) (35/100)
    pure (exitOn err)
  | _ => pure (some 1)

end Verif.Model
