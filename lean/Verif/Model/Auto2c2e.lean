import Verif.Model.Oper2

/-! Generated by tools/autocode.py from src/autocode: the two-electron two-centre integrals.
As in Auto1e.lean and AutoNuc.lean; the factors 0, 1, 2 of a term are the components of
`rirj = ri - rj`, the factors 3, 4, 5 those of `rkrl = rk - rl`.  The factor is that of the wrappers `_cart` and `_sph`. -/
namespace Verif.Model.Auto2c2e
open Verif.Model

/-- int2c2e_ip1: src/autocode/int3c2e.c:314-363 (`CINTgout2e_int2c2e_ip1`) and 368 ff -/
def int2c2e_ip1 : Gen2e where
  ng := ⟨1, 0, 0, 0, 0⟩
  gbits := 1
  nComp := 3
  prog := {
    steps := [⟨.d, 0, 1, 0, ![0, 0, 0, 0]⟩]
    prods := [(1, 0, 0), (0, 1, 0), (0, 0, 1)]
    comps := [[(1, [], 0)],
      [(1, [], 1)],
      [(1, [], 2)]] }

/-- int2c2e_ip2: src/autocode/int3c2e.c:392-441 (`CINTgout2e_int2c2e_ip2`) and 446 ff -/
def int2c2e_ip2 : Gen2e where
  ng := ⟨0, 0, 1, 0, 0⟩
  gbits := 1
  nComp := 3
  prog := {
    steps := [⟨.d, 2, 1, 0, ![0, 0, 0, 0]⟩]
    prods := [(1, 0, 0), (0, 1, 0), (0, 0, 1)]
    comps := [[(1, [], 0)],
      [(1, [], 1)],
      [(1, [], 2)]] }

/-- int2c2e_ipip1: src/autocode/int3c2e.c:1218-1267 (`CINTgout2e_int2c2e_ipip1`) and 1272 ff -/
def int2c2e_ipip1 : Gen2e where
  ng := ⟨2, 0, 0, 0, 0⟩
  gbits := 2
  nComp := 9
  prog := {
    steps := [⟨.d, 0, 1, 0, ![1, 0, 0, 0]⟩,
      ⟨.d, 0, 2, 0, ![0, 0, 0, 0]⟩,
      ⟨.d, 0, 3, 1, ![0, 0, 0, 0]⟩]
    prods := [(3, 0, 0), (2, 1, 0), (2, 0, 1), (1, 2, 0), (0, 3, 0), (0, 2, 1), (1, 0, 2), (0, 1, 2), (0, 0, 3)]
    comps := [[(1, [], 0)],
      [(1, [], 3)],
      [(1, [], 6)],
      [(1, [], 1)],
      [(1, [], 4)],
      [(1, [], 7)],
      [(1, [], 2)],
      [(1, [], 5)],
      [(1, [], 8)]] }

/-- int2c2e_ip1ip2: src/autocode/int3c2e.c:1296-1345 (`CINTgout2e_int2c2e_ip1ip2`) and 1350 ff -/
def int2c2e_ip1ip2 : Gen2e where
  ng := ⟨1, 0, 1, 0, 0⟩
  gbits := 2
  nComp := 9
  prog := {
    steps := [⟨.d, 2, 1, 0, ![1, 0, 0, 0]⟩,
      ⟨.d, 0, 2, 0, ![0, 0, 0, 0]⟩,
      ⟨.d, 0, 3, 1, ![0, 0, 0, 0]⟩]
    prods := [(3, 0, 0), (2, 1, 0), (2, 0, 1), (1, 2, 0), (0, 3, 0), (0, 2, 1), (1, 0, 2), (0, 1, 2), (0, 0, 3)]
    comps := [[(1, [], 0)],
      [(1, [], 1)],
      [(1, [], 2)],
      [(1, [], 3)],
      [(1, [], 4)],
      [(1, [], 5)],
      [(1, [], 6)],
      [(1, [], 7)],
      [(1, [], 8)]] }

/-- all of them -/
def all2c : List (String × Gen2e) := [
  ("int2c2e_ip1", int2c2e_ip1),
  ("int2c2e_ip2", int2c2e_ip2),
  ("int2c2e_ipip1", int2c2e_ipip1),
  ("int2c2e_ip1ip2", int2c2e_ip1ip2)]

/-- those whose wrapper returns zeros when two shells are the same (`envs.shls[0] == envs.shls[1]`) -/
def shortcutIJ : List String := []

/-- those whose wrapper returns zeros when two shells are the same (`envs.shls[2] == envs.shls[3]`) -/
def shortcutKL : List String := []

end Verif.Model.Auto2c2e
