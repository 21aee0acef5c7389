import Verif.Core.Assign

/-
src/fblas.c: BLAS-like kernels.
-/
namespace Verif.Model
open Verif Prog

variable {α : Type}

/-- CINTdset0, src/fblas.c:13-19 -/
def dset0 [Zero α] (n : Nat) (x : Ptr) : Prog α Unit :=
  forN n fun i => st (x + i) 0

/-- CINTdaxpy2v, src/fblas.c:25-33: v = a * x + y -/
def daxpy2v [Add α] [Mul α] (n : Nat) (a : α) (x y v : Ptr) : Prog α Unit :=
  forN n fun i => do
    let xi ← ld (x + i)
    let yi ← ld (y + i)
    st (v + i) (a * xi + yi)

/-- CINTdmat_transpose, src/fblas.c:38-75.  The main loop `for (j = 0; j < n-3; j += 4)`
leaves `j` at 4 times its trip count. -/
def dmatTranspose (at' a : Ptr) (m n : Nat) : Prog α Unit := do
  forStep (n - 3) 4 fun j =>
    forN m fun i => do
      cpy (at' + ((j+0)*m+i)) (a + (i*n+j+0))
      cpy (at' + ((j+1)*m+i)) (a + (i*n+j+1))
      cpy (at' + ((j+2)*m+i)) (a + (i*n+j+2))
      cpy (at' + ((j+3)*m+i)) (a + (i*n+j+3))
  let j := ((n - 3) + 4 - 1) / 4 * 4
  match n - j with
  | 1 =>
    forN m fun i => do
      cpy (at' + (j*m+i)) (a + (i*n+j))
  | 2 =>
    forN m fun i => do
      cpy (at' + ((j+0)*m+i)) (a + (i*n+j+0))
      cpy (at' + ((j+1)*m+i)) (a + (i*n+j+1))
  | 3 =>
    forN m fun i => do
      cpy (at' + ((j+0)*m+i)) (a + (i*n+j+0))
      cpy (at' + ((j+1)*m+i)) (a + (i*n+j+1))
      cpy (at' + ((j+2)*m+i)) (a + (i*n+j+2))
  | _ => pure ()

/-- CINTdplus_transpose, src/fblas.c:80-117 -/
def dplusTranspose [Add α] (at' a : Ptr) (m n : Nat) : Prog α Unit := do
  forStep (n - 3) 4 fun j =>
    forN m fun i => do
      addTo (at' + ((j+0)*m+i)) (a + (i*n+j+0))
      addTo (at' + ((j+1)*m+i)) (a + (i*n+j+1))
      addTo (at' + ((j+2)*m+i)) (a + (i*n+j+2))
      addTo (at' + ((j+3)*m+i)) (a + (i*n+j+3))
  let j := ((n - 3) + 4 - 1) / 4 * 4
  match n - j with
  | 1 =>
    forN m fun i => do
      addTo (at' + (j*m+i)) (a + (i*n+j))
  | 2 =>
    forN m fun i => do
      addTo (at' + ((j+0)*m+i)) (a + (i*n+j+0))
      addTo (at' + ((j+1)*m+i)) (a + (i*n+j+1))
  | 3 =>
    forN m fun i => do
      addTo (at' + ((j+0)*m+i)) (a + (i*n+j+0))
      addTo (at' + ((j+1)*m+i)) (a + (i*n+j+1))
      addTo (at' + ((j+2)*m+i)) (a + (i*n+j+2))
  | _ => pure ()

/-- CINTzmat_transpose, src/fblas.c:122-148.  Cells of the model hold complex numbers here:
`α` is the type of `double complex`. -/
def zmatTranspose (at' a : Ptr) (m n : Nat) : Prog α Unit :=
  if n = 2 then
    forN m fun i => do
      cpy (at' + i) (a + (2*i+0))
      cpy (at' + (i+m)) (a + (2*i+1))
  else if m = 2 then
    forN n fun i => do
      cpy (at' + (2*i+0)) (a + i)
      cpy (at' + (2*i+1)) (a + (i+n))
  else
    forN n fun i =>
      forN m fun j =>
        cpy (at' + (i*m+j)) (a + (j*n+i))

/-- CINTzmat_dagger, src/fblas.c:150-159; `conj` is complex conjugation -/
def zmatDagger (conj : α → α) (at' a : Ptr) (m n : Nat) : Prog α Unit :=
  forN n fun i =>
    forN m fun j => do
      let x ← ld (a + (j*n+i))
      st (at' + (i*m+j)) (conj x)

/-- CINTdgemm_NN1, src/fblas.c:161-178 -/
def dgemmNN1 [Zero α] [Add α] [Mul α] (m n k : Nat) (a b c : Ptr) (ldc : Nat) : Prog α Unit :=
  forN n fun j => do
    forN m fun i => st (c + (i+ldc*j)) 0
    forN k fun kp => do
      let bi ← ld (b + (kp+k*j))
      forN m fun i => do
        let x ← ld (c + (i+ldc*j))
        let y ← ld (a + (i+m*kp))
        st (c + (i+ldc*j)) (x + y * bi)

/-- CINTdgemm_NN, src/fblas.c:180-184 -/
def dgemmNN [Zero α] [Add α] [Mul α] (m n k : Nat) (a b c : Ptr) : Prog α Unit :=
  dgemmNN1 m n k a b c m

/-- CINTdgemm_TN, src/fblas.c:186-201 -/
def dgemmTN [Zero α] [Add α] [Mul α] (m n k : Nat) (a b c : Ptr) : Prog α Unit :=
  forN n fun j =>
    forN m fun i => do
      let ci ← forS k (0 : α) fun kp ci => do
        let x ← ld (a + (kp+k*i))
        let y ← ld (b + (kp+k*j))
        pure (ci + x * y)
      st (c + (i+m*j)) ci

/-- CINTdgemm_NT, src/fblas.c:203-220 -/
def dgemmNT [Zero α] [Add α] [Mul α] (m n k : Nat) (a b c : Ptr) : Prog α Unit :=
  forN n fun j => do
    forN m fun i => st (c + (i+m*j)) 0
    forN k fun kp => do
      let bi ← ld (b + (j+n*kp))
      forN m fun i => do
        let x ← ld (c + (i+m*j))
        let y ← ld (a + (i+m*kp))
        st (c + (i+m*j)) (x + y * bi)

end Verif.Model
