import Verif.Model.Boys

/-!
Roots and weights of Rys polynomials from modified moments (Wheeler): src/rys_wheeler.c.  The text exists three times, for double
(:3287-3337, :3404-3477, :3667-3676), long double (:3479-3529, :3587-3665, :3692-3701) and __float128 (:6137-6187, :6245-6321,
:6323-6332); in exact arithmetic the differences are the threshold, the array the square roots are stored in and the order of a sum.
Modelled are the last two, which are the ones the library calls for the Laguerre moments.
-/
namespace Verif.Model.Wheeler
open Verif Prog

variable {α : Type} [Field α] [LinearOrder α]

/-- the value stored in `sk[j]`, :3607-3608 -/
def sigCell (alpha beta s0 sm : Ptr) (a0 b0 : α) (i j : Nat) : Prog α α := do
  let x2 ← ld (s0 + (2+j))
  let al ← ld (alpha + (i+j))
  let x1 ← ld (s0 + (1+j))
  let y2 ← ld (sm + (2+j))
  let be ← ld (beta + (i+j))
  let x0 ← ld (s0 + j)
  pure (x2 - (a0 - al) * x1 - b0 * y2 + be * x0)

/-- the variables of the loop -/
structure WState (α : Type) where
  a0 : α
  b0 : α
  s0 : Ptr
  sm : Ptr
  sk : Ptr

/-- one pass of the loop over `i`, :3604-3620 -/
def wheelerStep (n : Nat) (alpha beta a b : Ptr) (i : Nat) (s : WState α) : Prog α (WState α) := do
  forN (2*(n-i)) fun j => do
    let y ← sigCell alpha beta s.s0 s.sm s.a0 s.b0 i j
    st (s.sk + j) y
  let al ← ld (alpha + i)
  let s01 ← ld (s.s0 + 1)
  let s00 ← ld s.s0
  let sk1 ← ld (s.sk + 1)
  let sk0 ← ld s.sk
  let a1 := al - s01 / s00 + sk1 / sk0
  let b1 := sk0 / s00
  st (a + i) a1
  st (b + i) b1
  pure ⟨a1, b1, s.sk, s.s0, s.sm⟩

/-- lwheeler_recursion, src/rys_wheeler.c:3587-3622; `buf` is the local array of `MXRYSROOTS*4` numbers -/
def wheelerRecursion (n : Nat) (alpha beta moments a b buf : Ptr) : Prog α Unit := do
  let al ← ld alpha
  let m1 ← ld (moments + 1)
  let m0 ← ld moments
  st a (al + m1 / m0)
  st b 0
  forN (n*2 - 2) fun i => st (buf + (i+2)) 0
  let _ ← forS (n-1) (⟨al + m1 / m0, 0, moments, buf, buf + n*2⟩ : WState α) fun t s => wheelerStep n alpha beta a b (t+1) s
  pure ()

/-- `roots[i] = 0; weights[i] = 0;` for all `i`, :3645-3648 -/
def zeroRoots (n : Nat) (roots weights : Ptr) : Prog α Unit :=
  forN n fun i => do
    st (roots + i) 0
    st (weights + i) 0

/-- `da[i] = a[i]; db[i] = sqrtl(b[i]);`, :3653-3654 -/
def copyAB (sqrt : α → α) (a b da db : Ptr) (i : Nat) : Prog α Unit := do
  let x ← ld (a + i)
  st (da + i) x
  let y ← ld (b + i)
  st (db + i) (sqrt y)

/-- the loop :3640-3655 from `i` on, `k` passes; the result says whether the matrix was found singular -/
def prepare (sqrt : α → α) (thr : α) (n : Nat) (a b da db roots weights : Ptr) : (i k : Nat) → (firstSeen : Bool) → Prog α Bool
  | _, 0, _ => pure false
  | i, k+1, first => do
    let x ← ld (b + i)
    if x < thr ∧ (first = false ∨ x < 0) then do
      zeroRoots n roots weights
      pure true
    else do
      copyAB sqrt a b da db i
      prepare sqrt thr n a b da db roots weights (i+1) k (first && ! decide (x < thr))

/-- `_CINTdiagonalize` for two rows and more, src/eigh.c:1457-1475: a parameter that is given the diagonal and the elements beside it
and gives the error code, the eigenvalues and the eigenvectors; what is undetermined after an error is arbitrary -/
abbrev EigenSolver (α : Type) := Nat → (Nat → α) → (Nat → α) → Nat × (Nat → α) × (Nat → Nat → α)

/-- the `n` numbers at `p` -/
def loadVec (p : Ptr) (n : Nat) : Prog α (Nat → α) :=
  forS n (fun _ => 0) fun i f => do
    let x ← ld (p + i)
    pure (fun k => if k = i then x else f k)

/-- _CINTdiagonalize, src/eigh.c:1450-1475, for `n ≥ 1` -/
def diagonalize (S : EigenSolver α) (n : Nat) (diag off eig vec : Ptr) : Prog α Nat :=
  if n = 1 then do
    let x ← ld diag
    st eig x
    st vec 1
    pure 0
  else do
    let d ← loadVec diag n
    let e ← loadVec off (n-1)
    let r := S n d e
    forN n fun i => st (eig + i) (r.2.1 i)
    forN n fun i => forN n fun k => st (vec + (i*n + k)) (r.2.2 i k)
    pure r.1

/-- one pass of the loop :3659-3662 -/
def finishRoot (n : Nat) (mu0 : α) (c0 roots weights : Ptr) (i : Nat) : Prog α Unit := do
  let r ← ld (roots + i)
  st (roots + i) (r / (1 - r))
  let c ← ld (c0 + i*n)
  st (weights + i) (c * c * mu0)

/-- lrys_wheeler_partial, src/rys_wheeler.c:3625-3664; `thr` is 1e-19 (1e-32 in :6281-6321), `a` and `da` are the local arrays.
After the matrix was found singular, `i` is `n` (the message to stderr is left out). -/
def wheelerPartial (sqrt : α → α) (thr : α) (S : EigenSolver α) (n : Nat) (alpha beta moments a da buf roots weights : Ptr) : Prog α Nat := do
  let b : Ptr := a + n
  let db : Ptr := da + n
  let c0 : Ptr := da + 2*n
  let mu0 ← ld moments
  wheelerRecursion n alpha beta moments a b buf
  let x ← ld a
  st da x
  let sing ← prepare sqrt thr n a b da db roots weights 1 (n-1) true
  if sing then pure n
  else do
    let error ← diagonalize S n da (db + 1) roots c0
    forN n fun i => finishRoot n mu0 c0 roots weights i
    pure error

/-- one pass of the loops :3501-3510 (`lower` = 0, `sr` = false) and :3517-3528 of llaguerre_moments -/
def laguerreStep (sr : Bool) (t_inv t2_inv e0 et lower2 : α) (alpha beta moments : Ptr) (i : Nat) (l00 l01 l10 l11 : α) :
    Prog α (α × α × α × α) := do
  st (alpha + i) ((i*4+1) * t_inv)
  st (beta + i) (i*(i*2-1) * t2_inv)
  let fac0 := (i*4-1) * t_inv
  let fac1 := (i-1)*(i*2-1) * t2_inv
  let l12 := (lower2 - fac0) * l11 - fac1 * l10
  let l02 := (1 - fac0) * l01 - fac1 * l00
  st (moments + (i+1)) (if sr then l12 * et - l02 * e0 else -l02 * e0)
  pure (l01, l02, l11, l12)

/-- llaguerre_moments, src/rys_wheeler.c:3479-3529 -/
def laguerreMoments (L : BoysLib α) (n : Nat) (t lower : α) (alpha beta moments : Ptr) : Prog α Unit := do
  let tt := L.sqrt t
  let t_inv := 1/2 / t
  let t2_inv := 1/2 / (t*t)
  let e0 := L.exp (-t) * t_inv
  let lower2 := lower*lower
  let et := L.exp (-t*lower2) * lower * t_inv
  let sr : Bool := ! decide (lower = 0)
  st alpha t_inv
  st beta 0
  st moments (if sr then L.sqrtpie4 / tt * (L.erfc (lower*tt) - L.erfc tt) else L.sqrtpie4 / tt * L.erf tt)
  st (moments + 1) (if sr then et - e0 else -e0)
  let _ ← forS (n-2) ((0 : α), (1 : α), (0 : α), (1 : α)) fun k s =>
    laguerreStep sr t_inv t2_inv e0 et lower2 alpha beta moments (k+1) s.1 s.2.1 s.2.2.1 s.2.2.2
  pure ()

/-- CINTlrys_laguerre, src/rys_wheeler.c:3692-3701 -/
def rysLaguerre (L : BoysLib α) (thr : α) (S : EigenSolver α) (n : Nat) (x lower : α) (moments a da buf roots weights : Ptr) : Prog α Nat := do
  let alpha : Ptr := moments + n*2
  let beta : Ptr := alpha + n*2
  laguerreMoments L (n*2) x lower alpha beta moments
  wheelerPartial L.sqrt thr S n alpha beta moments a da buf roots weights

end Verif.Model.Wheeler
