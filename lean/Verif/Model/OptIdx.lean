import Verif.Core.Prog

/-!
Index tables of the optimizers for integrals over two and three shells (for four shells: `genIdx4`, Model/Int2eOpt.lean).
An entry of `index_xyz_array` is the offset of the table in the buffer; -1 stands for NULL.
-/
namespace Verif.Model
open Verif Prog

variable {α : Type}

/-- initialisation of `index_xyz_array`, a table of `n` pointers, src/optimizer.c:108-114 -/
def ixInit (ixa : Ptr) (n : Nat) : Prog α Unit := do
  stI (ixa + 0) 0
  forN (n - 1) fun m => stI (ixa + (m+1)) (-1)

/-- position in `index_xyz_array`, src/optimizer.c:138 -/
def ixPos2 (li lj : Nat) : Nat := li*16 + lj
/-- position in `index_xyz_array`, src/optimizer.c:150 -/
def ixPos3 (li lj lk : Nat) : Nat := li*16*16 + lj*16 + lk

/-- gen_idx for two shells, src/optimizer.c:118-142.  `nf`: number of functions for the angular momenta, `tbl` fills the
table at a given place. -/
def genIdx2 (maxl allow : Nat) (nf : Nat → Nat → Nat) (tbl : Nat → Nat → Ptr → Prog α Unit) (ixa ixbuf : Ptr) :
    Prog α Unit := do
  let la := min maxl allow
  ixInit ixa ((maxl+1)*16)
  let _ ← forS (la+1) (0 : Nat) fun i c => forS (la+1) c fun j c => do
    stI (ixa + ixPos2 i j) (c : Int)
    tbl i j (ixbuf + c)
    pure (c + nf i j * 3)
  pure ()

/-- gen_idx for three shells, src/optimizer.c:118-132, 143-155 -/
def genIdx3 (maxl allow : Nat) (nf : Nat → Nat → Nat → Nat) (tbl : Nat → Nat → Nat → Ptr → Prog α Unit)
    (ixa ixbuf : Ptr) : Prog α Unit := do
  let la := min maxl allow
  ixInit ixa ((maxl+1)*16*16)
  let _ ← forS (la+1) (0 : Nat) fun i c => forS (la+1) c fun j c => forS (la+1) c fun k c => do
    stI (ixa + ixPos3 i j k) (c : Int)
    tbl i j k (ixbuf + c)
    pure (c + nf i j k * 3)
  pure ()

end Verif.Model
