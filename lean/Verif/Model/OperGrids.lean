import Verif.Model.Grids
import Verif.Model.Oper
import Verif.Model.Spinor

/-!
Integrals with derivatives on a list of points: the operators of src/g1e_grids.c and the functions of
src/autocode/int1e_grids1.c.  GRID_BLKSIZE is 104.
-/
namespace Verif.Model
open Verif Prog

variable {α : Type} [Field α]

/-- loop over the roots, the points of the block and the directions: `ptr + n*GRID_BLKSIZE + ig` -/
def perPoint (e : EnvG) (b : Nat) (body : (c n : Nat) → Prog α Unit) (ptr : Nat) : Prog α Unit :=
  forN e.nrys_roots fun n => forN b fun ig => forN 3 fun c => body c (ptr + n*104 + ig)

/-- CINTnabla1i_grids, src/g1e_grids.c:340-380; `a` is `envs->ai[0]`, `b` the number of points of the block -/
def nabla1iGrids (e : EnvG) (a : α) (b : Nat) (f g : Ptr) (li lj : Nat) : Prog α Unit :=
  forN (lj+1) fun j => do
    perPoint e b (dLow e f g e.g_stride_i (-2 * a)) (e.g_stride_j * j)
    forN li fun i => perPoint e b (dHigh e f g e.g_stride_i (-2 * a) (i+1)) (e.g_stride_j * j + e.g_stride_i * (i+1))

/-- CINTnabla1j_grids, src/g1e_grids.c:382-422; `a` is `envs->aj[0]` -/
def nabla1jGrids (e : EnvG) (a : α) (b : Nat) (f g : Ptr) (li lj : Nat) : Prog α Unit := do
  forN (li+1) fun i => perPoint e b (dLow e f g e.g_stride_j (-2 * a)) (e.g_stride_i * i)
  forN lj fun j => forN (li+1) fun i =>
    perPoint e b (dHigh e f g e.g_stride_j (-2 * a) (j+1)) (e.g_stride_j * (j+1) + e.g_stride_i * i)

/-- the macros G1E_GRIDS_D_I and G1E_GRIDS_D_J, src/g1e_grids.h.  No function of src/autocode uses another operator on
grids. -/
def execStepG (e : EnvG) (D : OpData α) (b : Nat) (p : Nat → Ptr) (s : GStep) : Prog α Unit :=
  let l := fun t => angOf e t + s.inc t
  if s.op = .d ∧ s.t = 0 then nabla1iGrids e (D.a 0) b (p s.dst) (p s.src) (l 0) (l 1)
  else if s.op = .d ∧ s.t = 1 then nabla1jGrids e (D.a 1) b (p s.dst) (p s.src) (l 0) (l 1)
  else Prog.fail

def execStepsG (e : EnvG) (D : OpData α) (b : Nat) (p : Nat → Ptr) : List GStep → Prog α Unit
  | [] => pure ()
  | s :: l => do
    execStepG e D b p s
    execStepsG e D b p l

/-- the products of a root for the points of the block -/
def loadLists (f : Nat → Prog α (List α)) : Nat → Prog α (Nat → List α)
  | 0 => pure fun _ => []
  | n+1 => do
    let s ← loadLists f n
    let x ← f n
    pure fun k => if k = n then x else s k

/-- A function of src/autocode/int1e_grids1.c: derivatives, the products summed over the roots
(`s[ig+GRID_BLKSIZE*m] += ...`), the components stored at `gout[ig+bgrids*(n*ncomp+k)]`.  The model stores the values of
pair `n` in the order of their places; the C code has the loop over the points outside the components. -/
def goutGridsGen (e : EnvG) (D : OpData α) (P : GoutProg) (b : Nat) (idx g gout : Ptr) (empty : Int) : Prog α Unit := do
  let p := fun k => g + k * (3 * e.g_size)
  execStepsG e D b p P.steps
  goutLoop e.nf (b * P.comps.length) idx gout empty fun ix iy iz => do
    let s ← accRoots (fun i => do
      let l ← loadLists (fun ig => loadProds p (ix + (ig + 104*i)) (iy + (ig + 104*i)) (iz + (ig + 104*i)) P.prods) b
      pure fun k => (l (k%104)).getD (k/104) 0) e.nrys_roots
    pure fun k => compVal D (P.comps.getD (k/b) []) (fun m => s (k%b + 104*m))

/-- an integral of src/autocode/int1e_grids1.c as the driver sees it -/
def Gen1e.intG (G : Gen1e) : IntG α where
  ng := G.ng
  gbits := G.gbits
  nComp := G.nComp
  gout := fun e d b idx g gout em =>
    goutGridsGen e { a := ![d.ai, d.aj, 0, 0], R := ![d.ri, d.rj, fun _ => 0, fun _ => 0], O := fun _ => 0 } G.prog b idx g gout em

namespace AutoGrids

/-- int1e_grids_ip: src/autocode/int1e_grids1.c:18-50 (`CINTgout1e_int1e_grids_ip`) and 51 ff -/
def int1e_grids_ip : Gen1e where
  ng := ⟨1, 0, 0, 0, 0⟩
  gbits := 1
  nComp := 3
  prog := {
    steps := [⟨.d, 0, 1, 0, ![0, 0, 0, 0]⟩]
    prods := [(1, 0, 0), (0, 1, 0), (0, 0, 1)]
    comps := [[(1, [], 0)],
      [(1, [], 1)],
      [(1, [], 2)]] }

/-- int1e_grids_ipvip: src/autocode/int1e_grids1.c:82-136 (`CINTgout1e_int1e_grids_ipvip`) and 137 ff -/
def int1e_grids_ipvip : Gen1e where
  ng := ⟨1, 1, 0, 0, 0⟩
  gbits := 2
  nComp := 9
  prog := {
    steps := [⟨.d, 1, 1, 0, ![1, 0, 0, 0]⟩,
      ⟨.d, 0, 2, 0, ![0, 0, 0, 0]⟩,
      ⟨.d, 0, 3, 1, ![0, 0, 0, 0]⟩]
    prods := [(3, 0, 0), (2, 1, 0), (2, 0, 1), (1, 2, 0), (0, 3, 0), (0, 2, 1), (1, 0, 2), (0, 1, 2), (0, 0, 3)]
    comps := [[(1, [], 0)],
      [(1, [], 1)],
      [(1, [], 2)],
      [(1, [], 3)],
      [(1, [], 4)],
      [(1, [], 5)],
      [(1, [], 6)],
      [(1, [], 7)],
      [(1, [], 8)]] }

/-- int1e_grids_spvsp: src/autocode/int1e_grids1.c:168-212 (`CINTgout1e_int1e_grids_spvsp`) and 213 ff -/
def int1e_grids_spvsp : Gen1e where
  ng := ⟨1, 1, 0, 0, 0⟩
  gbits := 2
  nComp := 4
  prog := {
    steps := [⟨.d, 1, 1, 0, ![1, 0, 0, 0]⟩,
      ⟨.d, 0, 2, 0, ![0, 0, 0, 0]⟩,
      ⟨.d, 0, 3, 1, ![0, 0, 0, 0]⟩]
    prods := [(3, 0, 0), (2, 1, 0), (2, 0, 1), (1, 2, 0), (0, 3, 0), (0, 2, 1), (1, 0, 2), (0, 1, 2), (0, 0, 3)]
    comps := [[(1, [], 5), (-1, [], 7)],
      [(1, [], 6), (-1, [], 2)],
      [(1, [], 1), (-1, [], 3)],
      [(1, [], 0), (1, [], 4), (1, [], 8)]] }

/-- int1e_grids_ipip: src/autocode/int1e_grids1.c:244-298 (`CINTgout1e_int1e_grids_ipip`) and 299 ff -/
def int1e_grids_ipip : Gen1e where
  ng := ⟨2, 0, 0, 0, 0⟩
  gbits := 2
  nComp := 9
  prog := {
    steps := [⟨.d, 0, 1, 0, ![1, 0, 0, 0]⟩,
      ⟨.d, 0, 2, 0, ![0, 0, 0, 0]⟩,
      ⟨.d, 0, 3, 1, ![0, 0, 0, 0]⟩]
    prods := [(3, 0, 0), (2, 1, 0), (2, 0, 1), (1, 2, 0), (0, 3, 0), (0, 2, 1), (1, 0, 2), (0, 1, 2), (0, 0, 3)]
    comps := [[(1, [], 0)],
      [(1, [], 3)],
      [(1, [], 6)],
      [(1, [], 1)],
      [(1, [], 4)],
      [(1, [], 7)],
      [(1, [], 2)],
      [(1, [], 5)],
      [(1, [], 8)]] }

/-- the integrals of src/autocode/int1e_grids1.c -/
def all : List (String × Gen1e) :=
  [("int1e_grids_ip", int1e_grids_ip), ("int1e_grids_ipvip", int1e_grids_ipvip), ("int1e_grids_spvsp", int1e_grids_spvsp),
   ("int1e_grids_ipip", int1e_grids_ipip)]

/-- int1e_grids_*_spinor of src/autocode/int1e_grids1.c (71-78, 157-164, 233-240, 319-326): name, output function, `ng[POS_E1]`,
`ng[TENSOR]` -/
def spinor : List (String × SpKind × Nat × Nat) :=
  [("int1e_grids_ip", ⟨false, false⟩, 1, 3), ("int1e_grids_ipvip", ⟨false, false⟩, 1, 9), ("int1e_grids_spvsp", ⟨true, false⟩, 4, 1),
   ("int1e_grids_ipip", ⟨false, false⟩, 1, 9)]

end AutoGrids
end Verif.Model
