import Verif.Core.Assign
import Verif.Model.Env

/-!
Output stage: copying contracted blocks to the caller's array, src/cart2sph.c.
`dims` and `counts` are integer arrays in memory.
-/
namespace Verif.Model
open Verif Prog

variable {α : Type}

/-- dcopy_ij, src/cart2sph.c:4489-4498 -/
def dcopyIj (out gctr : Ptr) (ni mi mj : Nat) : Prog α Unit :=
  forN mj fun j => forN mi fun i => cpy (out + (j*ni+i)) (gctr + (j*mi+i))

/-- the body of the loops over `l`, `k`, `j` of dcopy_iklj for the case `mi`: cases 1, 3, 5, 6, 7 are
unrolled -/
def copyRow (pijkl pgctr : Ptr) (mi : Nat) : Prog α Unit :=
  match mi with
  | 1 => cpy pijkl pgctr
  | 3 => do
    cpy (pijkl + 0) (pgctr + 0)
    cpy (pijkl + 1) (pgctr + 1)
    cpy (pijkl + 2) (pgctr + 2)
  | 5 => do
    cpy (pijkl + 0) (pgctr + 0)
    cpy (pijkl + 1) (pgctr + 1)
    cpy (pijkl + 2) (pgctr + 2)
    cpy (pijkl + 3) (pgctr + 3)
    cpy (pijkl + 4) (pgctr + 4)
  | 6 => do
    cpy (pijkl + 0) (pgctr + 0)
    cpy (pijkl + 1) (pgctr + 1)
    cpy (pijkl + 2) (pgctr + 2)
    cpy (pijkl + 3) (pgctr + 3)
    cpy (pijkl + 4) (pgctr + 4)
    cpy (pijkl + 5) (pgctr + 5)
  | 7 => do
    cpy (pijkl + 0) (pgctr + 0)
    cpy (pijkl + 1) (pgctr + 1)
    cpy (pijkl + 2) (pgctr + 2)
    cpy (pijkl + 3) (pgctr + 3)
    cpy (pijkl + 4) (pgctr + 4)
    cpy (pijkl + 5) (pgctr + 5)
    cpy (pijkl + 6) (pgctr + 6)
  | mi => forN mi fun i => cpy (pijkl + i) (pgctr + i)

/-- dcopy_iklj, src/cart2sph.c:4558-4674; gctr(i,k,l,j) -> fijkl(i,j,k,l).  The switch on `mi` is
inside the loops here. -/
def dcopyIklj (fijkl gctr : Ptr) (ni nj nk mi mj mk ml : Nat) : Prog α Unit := do
  let nij := ni * nj
  let nijk := nij * nk
  let mik := mi * mk
  let mikl := mik * ml
  let _ ← forS ml (fijkl, gctr) fun _ (s : Ptr × Ptr) => do
    forN mk fun k => do
      let pijkl := s.1 + k*nij
      let pgctr := s.2 + k*mi
      forN mj fun j => copyRow (pijkl + ni*j) (pgctr + mikl*j) mi
    pure (s.1 + nijk, s.2 + mik)
  pure ()

/-- c2s_dset0, src/cart2sph.c:4707-4735 -/
def c2sDset0 [Zero α] (out dims counts : Ptr) : Prog α Unit := do
  let ni ← ldI dims
  let nj ← ldI (dims + 1)
  let nk ← ldI (dims + 2)
  let nij := ni.toNat * nj.toNat
  let nijk := nij * nk.toNat
  if dims = counts then do
    let c3 ← ldI (counts + 3)
    forN (nijk * c3.toNat) fun i => st (out + i) 0
  else do
    let di ← ldI counts
    let dj ← ldI (counts + 1)
    let dk ← ldI (counts + 2)
    let dl ← ldI (counts + 3)
    let _ ← forS dl.toNat out fun _ out => do
      forN dk.toNat fun k =>
        let pout := out + k * nij
        forN dj.toNat fun j => forN di.toNat fun i => st (pout + (j*ni.toNat+i)) 0
      pure (out + nijk)
    pure ()

/-- shape of an output block: numbers of contractions, functions per shell in the block
(`nfi, ...` or `di, ...`), Cartesian block length `nf` -/
structure Shape where
  ic : Nat
  jc : Nat
  kc : Nat := 1
  lc : Nat := 1
  di : Nat
  dj : Nat
  dk : Nat := 1
  dl : Nat := 1
  nf : Nat

/-- c2s_cart_1e, src/cart2sph.c:5820-5840 (`trans` is `pure`) and c2s_sph_1e, l.4833-4863 (`trans`
transforms a block and returns where the result is) -/
def c2s1e (S : Shape) (trans : Ptr → Prog α Ptr) (opij gctr dims : Ptr) : Prog α Unit := do
  let ni ← ldI dims
  let _nj ← ldI (dims + 1)
  let ofj := ni.toNat * S.dj
  let _ ← forS S.jc gctr fun jc gctr =>
    forS S.ic gctr fun ic gctr => do
      let tmp1 ← trans gctr
      let popij := opij + (ofj * jc + S.di * ic)
      dcopyIj popij tmp1 ni.toNat S.di S.dj
      pure (gctr + S.nf)
  pure ()

/-- c2s_cart_2e1, src/cart2sph.c:5845-5876, and c2s_sph_2e1, l.5324-5373 -/
def c2s2e1 (S : Shape) (trans : Ptr → Prog α Ptr) (fijkl gctr dims : Ptr) : Prog α Unit := do
  let ni ← ldI dims
  let nj ← ldI (dims + 1)
  let nk ← ldI (dims + 2)
  let _nl ← ldI (dims + 3)
  let ofj := ni.toNat * S.dj
  let ofk := ni.toNat * nj.toNat * S.dk
  let ofl := ni.toNat * nj.toNat * nk.toNat * S.dl
  let _ ← forS S.lc gctr fun lc gctr =>
    forS S.kc gctr fun kc gctr =>
    forS S.jc gctr fun jc gctr =>
    forS S.ic gctr fun ic gctr => do
      let tmp1 ← trans gctr
      let pfijkl := fijkl + (ofl * lc + ofk * kc + ofj * jc + S.di * ic)
      dcopyIklj pfijkl tmp1 ni.toNat nj.toNat nk.toNat S.di S.dj S.dk S.dl
      pure (gctr + S.nf)
  pure ()

/-- c2s_cart_3c2e1, src/cart2sph.c:5926-5952, c2s_sph_3c2e1, l.5884-5924, c2s_cart_3c1e and
c2s_sph_3c1e, l.6458-6468 -/
def c2s3c (S : Shape) (trans : Ptr → Prog α Ptr) (bufijk gctr dims : Ptr) : Prog α Unit := do
  let ni ← ldI dims
  let nj ← ldI (dims + 1)
  let nk ← ldI (dims + 2)
  let ofj := ni.toNat * S.dj
  let ofk := ni.toNat * nj.toNat * S.dk
  let _ ← forS S.kc gctr fun kc gctr =>
    forS S.jc gctr fun jc gctr =>
    forS S.ic gctr fun ic gctr => do
      let tmp1 ← trans gctr
      let pijk := bufijk + (ofk * kc + ofj * jc + S.di * ic)
      dcopyIklj pijk tmp1 ni.toNat nj.toNat nk.toNat S.di S.dj S.dk 1
      pure (gctr + S.nf)
  pure ()

/-- product of the first `r` elements of `dims` (`nout` of the drivers) -/
def prodDims (dims : Ptr) : Nat → Prog α Nat
  | 0 => pure 1
  | r+1 => do
    let p ← prodDims dims r
    let d ← ldI (dims + r)
    pure (p * d.toNat)

/-- The part of the drivers after the primitive loops: CINT1e_drv, src/cint1e.c:208-231 (`r = 2`),
CINT2c2e_drv, src/cint2c2e.c:265-287 (`r = 2`), CINT3c2e_drv, src/cint3c2e.c:592-620 (`r = 3`),
CINT3c1e_drv, src/cint3c1e.c:418-444 (`r = 3`), CINT2e_drv, src/cint2e.c:841-868 (`r = 4`).
`dims = none` is the NULL pointer, `counts` is the local array, `cnt` the shell sizes stored in it.
The products are exact here; in C they are computed in `FINT`. -/
def outStage [Zero α] (r : Nat) (hasValue : Bool) (nComp nc : Nat) (c2s : Ptr → Ptr → Ptr → Prog α Unit)
    (out gctr : Ptr) (dims : Option Ptr) (counts : Ptr) (cnt : Nat → Nat) : Prog α Unit := do
  forN 4 fun t => stI (counts + t) (cnt t)
  let dims := dims.getD counts
  let nout ← prodDims dims r
  if hasValue then
    forN nComp fun n => c2s (out + nout*n) (gctr + nc*n) dims
  else
    forN nComp fun n => c2sDset0 (out + nout*n) dims counts

end Verif.Model
