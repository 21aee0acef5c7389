import Verif.Model.Oper2

/-! Generated by tools/autocode.py from src/autocode: the two-electron three-centre integrals.
As in Auto1e.lean and AutoNuc.lean; the factors 0, 1, 2 of a term are the components of
`rirj = ri - rj`, the factors 3, 4, 5 those of `rkrl = rk - rl`.  The factor is that of the wrappers `_cart` and `_sph`. -/
namespace Verif.Model.Auto3c2e
open Verif.Model

/-- int3c2e_ip1: src/autocode/int3c2e.c:18-67 (`CINTgout2e_int3c2e_ip1`) and 72 ff -/
def int3c2e_ip1 : Gen2e where
  ng := ⟨1, 0, 0, 0, 0⟩
  gbits := 1
  nComp := 3
  prog := {
    steps := [⟨.d, 0, 1, 0, ![0, 0, 0, 0]⟩]
    prods := [(1, 0, 0), (0, 1, 0), (0, 0, 1)]
    comps := [[(1, [], 0)],
      [(1, [], 1)],
      [(1, [], 2)]] }

/-- int3c2e_ip2: src/autocode/int3c2e.c:99-148 (`CINTgout2e_int3c2e_ip2`) and 153 ff -/
def int3c2e_ip2 : Gen2e where
  ng := ⟨0, 0, 1, 0, 0⟩
  gbits := 1
  nComp := 3
  prog := {
    steps := [⟨.d, 2, 1, 0, ![0, 0, 0, 0]⟩]
    prods := [(1, 0, 0), (0, 1, 0), (0, 0, 1)]
    comps := [[(1, [], 0)],
      [(1, [], 1)],
      [(1, [], 2)]] }

/-- int3c2e_pvp1: src/autocode/int3c2e.c:180-213 (`CINTgout2e_int3c2e_pvp1`) and 218 ff -/
def int3c2e_pvp1 : Gen2e where
  ng := ⟨1, 1, 0, 0, 0⟩
  gbits := 2
  nComp := 1
  prog := {
    steps := [⟨.d, 1, 1, 0, ![1, 0, 0, 0]⟩,
      ⟨.d, 0, 2, 0, ![0, 0, 0, 0]⟩,
      ⟨.d, 0, 3, 1, ![0, 0, 0, 0]⟩]
    prods := [(3, 0, 0), (2, 1, 0), (2, 0, 1), (1, 2, 0), (0, 3, 0), (0, 2, 1), (1, 0, 2), (0, 1, 2), (0, 0, 3)]
    comps := [[(1, [], 0), (1, [], 4), (1, [], 8)]] }

/-- int3c2e_pvxp1: src/autocode/int3c2e.c:245-282 (`CINTgout2e_int3c2e_pvxp1`) and 287 ff -/
def int3c2e_pvxp1 : Gen2e where
  ng := ⟨1, 1, 0, 0, 0⟩
  gbits := 2
  nComp := 3
  prog := {
    steps := [⟨.d, 1, 1, 0, ![1, 0, 0, 0]⟩,
      ⟨.d, 0, 2, 0, ![0, 0, 0, 0]⟩,
      ⟨.d, 0, 3, 1, ![0, 0, 0, 0]⟩]
    prods := [(3, 0, 0), (2, 1, 0), (2, 0, 1), (1, 2, 0), (0, 3, 0), (0, 2, 1), (1, 0, 2), (0, 1, 2), (0, 0, 3)]
    comps := [[(1, [], 5), (-1, [], 7)],
      [(1, [], 6), (-1, [], 2)],
      [(1, [], 1), (-1, [], 3)]] }

/-- int3c2e_ig1: src/autocode/int3c2e.c:470-526 (`CINTgout2e_int3c2e_ig1`) and 531 ff -/
def int3c2e_ig1 : Gen2e where
  ng := ⟨1, 0, 0, 0, 0⟩
  gbits := 1
  nComp := 3
  num := 1
  den := 2
  prog := {
    steps := [⟨.x0, 0, 1, 0, ![0, 0, 0, 0]⟩]
    prods := [(1, 0, 0), (0, 1, 0), (0, 0, 1)]
    comps := [[(-1, [1], 2), (1, [2], 1)],
      [(-1, [2], 0), (1, [0], 2)],
      [(-1, [0], 1), (1, [1], 0)]] }

/-- int3c2e_spsp1: src/autocode/int3c2e.c:597-636 (`CINTgout2e_int3c2e_spsp1`) and 641 ff -/
def int3c2e_spsp1 : Gen2e where
  ng := ⟨1, 1, 0, 0, 0⟩
  gbits := 2
  nComp := 4
  prog := {
    steps := [⟨.d, 1, 1, 0, ![1, 0, 0, 0]⟩,
      ⟨.d, 0, 2, 0, ![0, 0, 0, 0]⟩,
      ⟨.d, 0, 3, 1, ![0, 0, 0, 0]⟩]
    prods := [(3, 0, 0), (2, 1, 0), (2, 0, 1), (1, 2, 0), (0, 3, 0), (0, 2, 1), (1, 0, 2), (0, 1, 2), (0, 0, 3)]
    comps := [[(1, [], 5), (-1, [], 7)],
      [(1, [], 6), (-1, [], 2)],
      [(1, [], 1), (-1, [], 3)],
      [(1, [], 0), (1, [], 4), (1, [], 8)]] }

/-- int3c2e_ipspsp1: src/autocode/int3c2e.c:668-749 (`CINTgout2e_int3c2e_ipspsp1`) and 754 ff -/
def int3c2e_ipspsp1 : Gen2e where
  ng := ⟨2, 1, 0, 0, 0⟩
  gbits := 3
  nComp := 12
  prog := {
    steps := [⟨.d, 1, 1, 0, ![2, 0, 0, 0]⟩,
      ⟨.d, 0, 2, 0, ![1, 0, 0, 0]⟩,
      ⟨.d, 0, 3, 1, ![1, 0, 0, 0]⟩,
      ⟨.d, 0, 4, 0, ![0, 0, 0, 0]⟩,
      ⟨.d, 0, 5, 1, ![0, 0, 0, 0]⟩,
      ⟨.d, 0, 6, 2, ![0, 0, 0, 0]⟩,
      ⟨.d, 0, 7, 3, ![0, 0, 0, 0]⟩]
    prods := [(7, 0, 0), (6, 1, 0), (6, 0, 1), (5, 2, 0), (4, 3, 0), (4, 2, 1), (5, 0, 2), (4, 1, 2), (4, 0, 3),
      (3, 4, 0), (2, 5, 0), (2, 4, 1), (1, 6, 0), (0, 7, 0), (0, 6, 1), (1, 4, 2), (0, 5, 2), (0, 4, 3),
      (3, 0, 4), (2, 1, 4), (2, 0, 5), (1, 2, 4), (0, 3, 4), (0, 2, 5), (1, 0, 6), (0, 1, 6), (0, 0, 7)]
    comps := [[(1, [], 11), (-1, [], 19)],
      [(1, [], 18), (-1, [], 2)],
      [(1, [], 1), (-1, [], 9)],
      [(1, [], 0), (1, [], 10), (1, [], 20)],
      [(1, [], 14), (-1, [], 22)],
      [(1, [], 21), (-1, [], 5)],
      [(1, [], 4), (-1, [], 12)],
      [(1, [], 3), (1, [], 13), (1, [], 23)],
      [(1, [], 17), (-1, [], 25)],
      [(1, [], 24), (-1, [], 8)],
      [(1, [], 7), (-1, [], 15)],
      [(1, [], 6), (1, [], 16), (1, [], 26)]] }

/-- int3c2e_spsp1ip2: src/autocode/int3c2e.c:781-862 (`CINTgout2e_int3c2e_spsp1ip2`) and 867 ff -/
def int3c2e_spsp1ip2 : Gen2e where
  ng := ⟨1, 1, 1, 0, 0⟩
  gbits := 3
  nComp := 12
  prog := {
    steps := [⟨.d, 2, 1, 0, ![1, 1, 0, 0]⟩,
      ⟨.d, 1, 2, 0, ![1, 0, 0, 0]⟩,
      ⟨.d, 1, 3, 1, ![1, 0, 0, 0]⟩,
      ⟨.d, 0, 4, 0, ![0, 0, 0, 0]⟩,
      ⟨.d, 0, 5, 1, ![0, 0, 0, 0]⟩,
      ⟨.d, 0, 6, 2, ![0, 0, 0, 0]⟩,
      ⟨.d, 0, 7, 3, ![0, 0, 0, 0]⟩]
    prods := [(7, 0, 0), (6, 1, 0), (6, 0, 1), (5, 2, 0), (4, 3, 0), (4, 2, 1), (5, 0, 2), (4, 1, 2), (4, 0, 3),
      (3, 4, 0), (2, 5, 0), (2, 4, 1), (1, 6, 0), (0, 7, 0), (0, 6, 1), (1, 4, 2), (0, 5, 2), (0, 4, 3),
      (3, 0, 4), (2, 1, 4), (2, 0, 5), (1, 2, 4), (0, 3, 4), (0, 2, 5), (1, 0, 6), (0, 1, 6), (0, 0, 7)]
    comps := [[(1, [], 15), (-1, [], 21)],
      [(1, [], 18), (-1, [], 6)],
      [(1, [], 3), (-1, [], 9)],
      [(1, [], 0), (1, [], 12), (1, [], 24)],
      [(1, [], 16), (-1, [], 22)],
      [(1, [], 19), (-1, [], 7)],
      [(1, [], 4), (-1, [], 10)],
      [(1, [], 1), (1, [], 13), (1, [], 25)],
      [(1, [], 17), (-1, [], 23)],
      [(1, [], 20), (-1, [], 8)],
      [(1, [], 5), (-1, [], 11)],
      [(1, [], 2), (1, [], 14), (1, [], 26)]] }

/-- int3c2e_ipip1: src/autocode/int3c2e.c:894-943 (`CINTgout2e_int3c2e_ipip1`) and 948 ff -/
def int3c2e_ipip1 : Gen2e where
  ng := ⟨2, 0, 0, 0, 0⟩
  gbits := 2
  nComp := 9
  prog := {
    steps := [⟨.d, 0, 1, 0, ![1, 0, 0, 0]⟩,
      ⟨.d, 0, 2, 0, ![0, 0, 0, 0]⟩,
      ⟨.d, 0, 3, 1, ![0, 0, 0, 0]⟩]
    prods := [(3, 0, 0), (2, 1, 0), (2, 0, 1), (1, 2, 0), (0, 3, 0), (0, 2, 1), (1, 0, 2), (0, 1, 2), (0, 0, 3)]
    comps := [[(1, [], 0)],
      [(1, [], 3)],
      [(1, [], 6)],
      [(1, [], 1)],
      [(1, [], 4)],
      [(1, [], 7)],
      [(1, [], 2)],
      [(1, [], 5)],
      [(1, [], 8)]] }

/-- int3c2e_ipip2: src/autocode/int3c2e.c:975-1024 (`CINTgout2e_int3c2e_ipip2`) and 1029 ff -/
def int3c2e_ipip2 : Gen2e where
  ng := ⟨0, 0, 2, 0, 0⟩
  gbits := 2
  nComp := 9
  prog := {
    steps := [⟨.d, 2, 1, 0, ![0, 0, 1, 0]⟩,
      ⟨.d, 2, 2, 0, ![0, 0, 0, 0]⟩,
      ⟨.d, 2, 3, 1, ![0, 0, 0, 0]⟩]
    prods := [(3, 0, 0), (2, 1, 0), (2, 0, 1), (1, 2, 0), (0, 3, 0), (0, 2, 1), (1, 0, 2), (0, 1, 2), (0, 0, 3)]
    comps := [[(1, [], 0)],
      [(1, [], 3)],
      [(1, [], 6)],
      [(1, [], 1)],
      [(1, [], 4)],
      [(1, [], 7)],
      [(1, [], 2)],
      [(1, [], 5)],
      [(1, [], 8)]] }

/-- int3c2e_ipvip1: src/autocode/int3c2e.c:1056-1105 (`CINTgout2e_int3c2e_ipvip1`) and 1110 ff -/
def int3c2e_ipvip1 : Gen2e where
  ng := ⟨1, 1, 0, 0, 0⟩
  gbits := 2
  nComp := 9
  prog := {
    steps := [⟨.d, 1, 1, 0, ![1, 0, 0, 0]⟩,
      ⟨.d, 0, 2, 0, ![0, 0, 0, 0]⟩,
      ⟨.d, 0, 3, 1, ![0, 0, 0, 0]⟩]
    prods := [(3, 0, 0), (2, 1, 0), (2, 0, 1), (1, 2, 0), (0, 3, 0), (0, 2, 1), (1, 0, 2), (0, 1, 2), (0, 0, 3)]
    comps := [[(1, [], 0)],
      [(1, [], 1)],
      [(1, [], 2)],
      [(1, [], 3)],
      [(1, [], 4)],
      [(1, [], 5)],
      [(1, [], 6)],
      [(1, [], 7)],
      [(1, [], 8)]] }

/-- int3c2e_ip1ip2: src/autocode/int3c2e.c:1137-1186 (`CINTgout2e_int3c2e_ip1ip2`) and 1191 ff -/
def int3c2e_ip1ip2 : Gen2e where
  ng := ⟨1, 0, 1, 0, 0⟩
  gbits := 2
  nComp := 9
  prog := {
    steps := [⟨.d, 2, 1, 0, ![1, 0, 0, 0]⟩,
      ⟨.d, 0, 2, 0, ![0, 0, 0, 0]⟩,
      ⟨.d, 0, 3, 1, ![0, 0, 0, 0]⟩]
    prods := [(3, 0, 0), (2, 1, 0), (2, 0, 1), (1, 2, 0), (0, 3, 0), (0, 2, 1), (1, 0, 2), (0, 1, 2), (0, 0, 3)]
    comps := [[(1, [], 0)],
      [(1, [], 1)],
      [(1, [], 2)],
      [(1, [], 3)],
      [(1, [], 4)],
      [(1, [], 5)],
      [(1, [], 6)],
      [(1, [], 7)],
      [(1, [], 8)]] }

/-- all of them -/
def all3c : List (String × Gen2e) := [
  ("int3c2e_ip1", int3c2e_ip1),
  ("int3c2e_ip2", int3c2e_ip2),
  ("int3c2e_pvp1", int3c2e_pvp1),
  ("int3c2e_pvxp1", int3c2e_pvxp1),
  ("int3c2e_ig1", int3c2e_ig1),
  ("int3c2e_spsp1", int3c2e_spsp1),
  ("int3c2e_ipspsp1", int3c2e_ipspsp1),
  ("int3c2e_spsp1ip2", int3c2e_spsp1ip2),
  ("int3c2e_ipip1", int3c2e_ipip1),
  ("int3c2e_ipip2", int3c2e_ipip2),
  ("int3c2e_ipvip1", int3c2e_ipvip1),
  ("int3c2e_ip1ip2", int3c2e_ip1ip2)]

/-- those whose wrapper returns zeros when two shells are the same (`envs.shls[0] == envs.shls[1]`) -/
def shortcutIJ : List String := ["int3c2e_ig1"]

/-- those whose wrapper returns zeros when two shells are the same (`envs.shls[2] == envs.shls[3]`) -/
def shortcutKL : List String := []

end Verif.Model.Auto3c2e
