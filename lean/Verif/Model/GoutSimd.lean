import Verif.Model.Int2e

/-! The version of CINTgout2e for processors with SSE3 instructions (src/gout2e_simd.c), which src/cint2e.c:958-960 includes in
place of the plain one when the compiler defines `__SSE3__`. -/
namespace Verif.Model
open Verif Verif.Prog

variable {α : Type}

/-- a register of two doubles (`__m128d`): low and high half -/
abbrev V2 (α : Type) := α × α

/-- `_mm_loadu_pd(p)` -/
def loadu (p : Ptr) : Prog α (V2 α) := do
  let a ← ld p
  let b ← ld (p + 1)
  pure (a, b)

/-- `_mm_storeu_pd(p, v)` -/
def storeu (p : Ptr) (v : V2 α) : Prog α Unit := do
  st p v.1
  st (p + 1) v.2

/-- `_mm_loadl_pd(r, p)` followed by `_mm_loadh_pd(r, q)`: both halves of `r` are replaced -/
def loadlh (p q : Ptr) : Prog α (V2 α) := do
  let a ← ld p
  let b ← ld q
  pure (a, b)

section
variable [Add α] [Mul α]

/-- `_mm_mul_pd` -/
def vmul (v w : V2 α) : V2 α := (v.1 * w.1, v.2 * w.2)
/-- `_mm_add_pd` -/
def vadd (v w : V2 α) : V2 α := (v.1 + w.1, v.2 + w.2)
/-- `_mm_hadd_pd` -/
def hadd (v w : V2 α) : V2 α := (v.1 + v.2, w.1 + w.2)

/-- the products of two consecutive roots, `_mm_loadu_pd(g+ix+o)`, `_mm_loadu_pd(g+iy+o)`, `_mm_mul_pd`,
`_mm_loadu_pd(g+iz+o)`, `_mm_mul_pd`; src/gout2e_simd.c:32-36 and its repetitions with o = 2, 4, 6, i -/
def prodPair (g : Ptr) (ix iy iz o : Nat) : Prog α (V2 α) := do
  let x ← loadu (g + ix + o)
  let y ← loadu (g + iy + o)
  let z ← loadu (g + iz + o)
  pure (vmul (vmul x y) z)

/-- the products of the first `2*(m+1)` roots added two by two: `r0` (offsets 0, 1), then `_mm_add_pd` with those at the offsets
2, 4, ...; e.g. src/gout2e_simd.c:117-127 (two pairs), 382-409 (four and more).  Which register receives a sum is not modelled. -/
def pairSum (g : Ptr) (ix iy iz : Nat) : Nat → Prog α (V2 α)
  | 0 => prodPair g ix iy iz 0
  | m+1 => do
    let s ← pairSum g ix iy iz m
    let x ← prodPair g ix iy iz (2*(m+1))
    pure (vadd s x)

/-- the product of one root, `g[ix+o] * g[iy+o] * g[iz+o]` -/
def prodOne (g : Ptr) (ix iy iz o : Nat) : Prog α α := do
  let x ← ld (g + ix + o)
  let y ← ld (g + iy + o)
  let z ← ld (g + iz + o)
  pure (x * y * z)

/-- one pass of the loop over pairs of elements with an even or odd number of roots from 2 to 7: the elements `n` and `n+1`;
src/gout2e_simd.c:25-45 (2 roots), 60-90 (3), 106-139 (4), 160-202, 224-269, 296-350 for an empty block, 432-453, 470-502, 521-555,
578-622, 647-693, 722-778 otherwise.  The position
of the load of `gout` among the loads of `g` is not kept. -/
def simdTwo (nroots : Nat) (idx g gout : Ptr) (empty : Int) (n : Nat) : Prog α Unit := do
  let ix ← ldI (idx + (n*3+0))
  let iy ← ldI (idx + (n*3+1))
  let iz ← ldI (idx + (n*3+2))
  let jx ← ldI (idx + (n*3+3))
  let jy ← ldI (idx + (n*3+4))
  let jz ← ldI (idx + (n*3+5))
  let s ← pairSum g ix.toNat iy.toNat iz.toNat (nroots/2 - 1)
  let t ← pairSum g jx.toNat jy.toNat jz.toNat (nroots/2 - 1)
  let r ← (if nroots % 2 = 1 then do
      let o := nroots - 1
      let x ← loadlh (g + ix.toNat + o) (g + jx.toNat + o)
      let y ← loadlh (g + iy.toNat + o) (g + jy.toNat + o)
      let z ← loadlh (g + iz.toNat + o) (g + jz.toNat + o)
      pure (vadd (vmul (vmul x y) z) (hadd s t))
    else pure (hadd s t))
  if empty ≠ 0 then storeu (gout + n) r
  else do
    let o ← loadu (gout + n)
    storeu (gout + n) (vadd r o)

/-- the element left over when their number is odd, `if (n < nf)`: src/gout2e_simd.c:46-57 (2 roots), 91-103 (3), 140-157,
203-221, 270-293, 351-375 for an empty block (the product of an odd root is added in memory), 454-467, 503-518, 556-575, 623-644,
694-719, 779-806 otherwise (it is added in the register) -/
def simdLast (nroots : Nat) (idx g gout : Ptr) (empty : Int) (n : Nat) : Prog α Unit := do
  let ix ← ldI (idx + (n*3+0))
  let iy ← ldI (idx + (n*3+1))
  let iz ← ldI (idx + (n*3+2))
  let s ← pairSum g ix.toNat iy.toNat iz.toNat (nroots/2 - 1)
  if empty ≠ 0 then do
    st (gout + n) (hadd s s).1
    (if nroots % 2 = 1 then do
      let o ← ld (gout + n)
      let x ← prodOne g ix.toNat iy.toNat iz.toNat (nroots - 1)
      st (gout + n) (o + x)
    else pure ())
  else do
    let o ← ld (gout + n)
    let r := (hadd s s).1 + o
    (if nroots % 2 = 1 then do
      let x ← prodOne g ix.toNat iy.toNat iz.toNat (nroots - 1)
      st (gout + n) (r + x)
    else st (gout + n) r)

/-- one pass of the loop of the branch `default`: src/gout2e_simd.c:378-418 for an empty block, 809-851 otherwise.  The first four
pairs of roots are always used, `i` is the first root not used when the inner loop ends.  Otherwise `_mm_loadu_pd(gout+n)` reads
`gout[n]` and `gout[n+1]`; of the sum only the low half is stored. -/
def simdMany (nroots : Nat) (idx g gout : Ptr) (empty : Int) (n : Nat) : Prog α Unit := do
  let ix ← ldI (idx + (n*3+0))
  let iy ← ldI (idx + (n*3+1))
  let iz ← ldI (idx + (n*3+2))
  let m := max 4 (nroots/2)
  let s ← pairSum g ix.toNat iy.toNat iz.toNat (m - 1)
  (if empty ≠ 0 then st (gout + n) (hadd s s).1
  else do
    let o ← loadu (gout + n)
    st (gout + n) (vadd (hadd s s) o).1)
  if 2*m < nroots then do
    let o ← ld (gout + n)
    let x ← prodOne g ix.toNat iy.toNat iz.toNat (2*m)
    st (gout + n) (o + x)
  else pure ()

/-- one pass of the loop of the branch with one root: src/gout2e_simd.c:17-22, 424-429 -/
def simdSingle (idx g gout : Ptr) (empty : Int) (n : Nat) : Prog α Unit := do
  let ix ← ldI (idx + (n*3+0))
  let iy ← ldI (idx + (n*3+1))
  let iz ← ldI (idx + (n*3+2))
  if empty ≠ 0 then do
    let x ← prodOne g ix.toNat iy.toNat iz.toNat 0
    st (gout + n) x
  else do
    let o ← ld (gout + n)
    let x ← prodOne g ix.toNat iy.toNat iz.toNat 0
    st (gout + n) (o + x)

/-- CINTgout2e of src/gout2e_simd.c:4-855.  `for (n = 0; n < nf-1; n+=2)` makes `nf/2` passes and leaves `n` at the last element
when `nf` is odd. -/
def gout2eSimd (nf nroots : Nat) (idx g gout : Ptr) (empty : Int) : Prog α Unit :=
  if nroots = 1 then forN nf fun n => simdSingle idx g gout empty n
  else if 2 ≤ nroots ∧ nroots ≤ 7 then do
    forN (nf/2) fun m => simdTwo nroots idx g gout empty (2*m)
    if 2*(nf/2) < nf then simdLast nroots idx g gout empty (2*(nf/2)) else pure ()
  else forN nf fun n => simdMany nroots idx g gout empty n

end

/-- int2e_cart, int2e_sph (src/cint2e.c:1186-1210) of a build with SSE3 -/
def eriSimd [Field α] : Int2e α where
  ng := { rys := 0 }
  gbits := 0
  nComp := 1
  common := 1
  gout := fun e _ idx g gout em => gout2eSimd e.nf e.nrys_roots idx g gout em

end Verif.Model
