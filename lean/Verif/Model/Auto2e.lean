import Verif.Model.Oper2

/-! Generated by tools/autocode.py from src/autocode: the two-electron four-centre integrals, except
`int2e_ipvg1_xp1` and `int2e_ipvg2_xp1`.  As in Auto1e.lean and AutoNuc.lean; the factors 0, 1, 2 of a term are the components of
`rirj = ri - rj`, the factors 3, 4, 5 those of `rkrl = rk - rl`.  The factor is that of the wrappers `_cart` and `_sph`. -/
namespace Verif.Model.Auto2e
open Verif.Model

/-- int2e_gauge_r1_ssp1ssp2: src/autocode/breit1.c:19-182 (`CINTgout2e_int2e_gauge_r1_ssp1ssp2`) and 187 ff -/
def int2e_gauge_r1_ssp1ssp2 : Gen2e where
  ng := ⟨1, 3, 0, 1, 0⟩
  gbits := 4
  nComp := 16
  num := -1
  den := 1
  prog := {
    steps := [⟨.d, 3, 1, 0, ![1, 3, 0, 0]⟩,
      ⟨.d, 1, 2, 0, ![0, 0, 0, 0]⟩,
      ⟨.d, 1, 3, 1, ![0, 0, 0, 0]⟩,
      ⟨.x0, 1, 4, 0, ![0, 1, 0, 0]⟩,
      ⟨.x0, 1, 5, 1, ![0, 1, 0, 0]⟩,
      ⟨.d, 1, 6, 4, ![0, 0, 0, 0]⟩,
      ⟨.d, 1, 7, 5, ![0, 0, 0, 0]⟩,
      ⟨.d, 1, 8, 0, ![0, 2, 0, 0]⟩,
      ⟨.d, 0, 9, 0, ![0, 2, 0, 0]⟩]
    more := [(⟨8, 9, ![0, 2, 0, 0]⟩, [⟨.d, 1, 9, 1, ![0, 2, 0, 0]⟩, ⟨.d, 0, 10, 1, ![0, 2, 0, 0]⟩]),
      (⟨9, 10, ![0, 2, 0, 0]⟩, [⟨.d, 1, 10, 8, ![0, 0, 0, 0]⟩, ⟨.d, 1, 11, 9, ![0, 0, 0, 0]⟩, ⟨.x0, 1, 12, 8, ![0, 1, 0, 0]⟩, ⟨.x0, 1, 13, 9, ![0, 1, 0, 0]⟩, ⟨.d, 1, 14, 12, ![0, 0, 0, 0]⟩, ⟨.d, 1, 15, 13, ![0, 0, 0, 0]⟩])]
    prods := [(15, 0, 0), (14, 1, 0), (14, 0, 1), (13, 2, 0), (12, 3, 0), (12, 2, 1), (13, 0, 2), (12, 1, 2), (12, 0, 3),
      (11, 4, 0), (10, 5, 0), (10, 4, 1), (9, 6, 0), (8, 7, 0), (8, 6, 1), (9, 4, 2), (8, 5, 2), (8, 4, 3),
      (11, 0, 4), (10, 1, 4), (10, 0, 5), (9, 2, 4), (8, 3, 4), (8, 2, 5), (9, 0, 6), (8, 1, 6), (8, 0, 7),
      (7, 8, 0), (6, 9, 0), (6, 8, 1), (5, 10, 0), (4, 11, 0), (4, 10, 1), (5, 8, 2), (4, 9, 2), (4, 8, 3),
      (3, 12, 0), (2, 13, 0), (2, 12, 1), (1, 14, 0), (0, 15, 0), (0, 14, 1), (1, 12, 2), (0, 13, 2), (0, 12, 3),
      (3, 8, 4), (2, 9, 4), (2, 8, 5), (1, 10, 4), (0, 11, 4), (0, 10, 5), (1, 8, 6), (0, 9, 6), (0, 8, 7),
      (7, 0, 8), (6, 1, 8), (6, 0, 9), (5, 2, 8), (4, 3, 8), (4, 2, 9), (5, 0, 10), (4, 1, 10), (4, 0, 11),
      (3, 4, 8), (2, 5, 8), (2, 4, 9), (1, 6, 8), (0, 7, 8), (0, 6, 9), (1, 4, 10), (0, 5, 10), (0, 4, 11),
      (3, 0, 12), (2, 1, 12), (2, 0, 13), (1, 2, 12), (0, 3, 12), (0, 2, 13), (1, 0, 14), (0, 1, 14), (0, 0, 15)]
    comps := [[(1, [], 44), (-1, [], 68), (-1, [], 52), (1, [], 76)],
      [(1, [], 65), (-1, [], 17), (-1, [], 73), (1, [], 25)],
      [(1, [], 14), (-1, [], 38), (-1, [], 22), (1, [], 46)],
      [(1, [], 11), (1, [], 41), (1, [], 71), (-1, [], 19), (-1, [], 49), (-1, [], 79)],
      [(-1, [], 35), (1, [], 59), (1, [], 51), (-1, [], 75)],
      [(-1, [], 56), (1, [], 8), (1, [], 72), (-1, [], 24)],
      [(-1, [], 5), (1, [], 29), (1, [], 21), (-1, [], 45)],
      [(-1, [], 2), (-1, [], 32), (-1, [], 62), (1, [], 18), (1, [], 48), (1, [], 78)],
      [(1, [], 34), (-1, [], 58), (-1, [], 42), (1, [], 66)],
      [(1, [], 55), (-1, [], 7), (-1, [], 63), (1, [], 15)],
      [(1, [], 4), (-1, [], 28), (-1, [], 12), (1, [], 36)],
      [(1, [], 1), (1, [], 31), (1, [], 61), (-1, [], 9), (-1, [], 39), (-1, [], 69)],
      [(1, [], 33), (-1, [], 57), (1, [], 43), (-1, [], 67), (1, [], 53), (-1, [], 77)],
      [(1, [], 54), (-1, [], 6), (1, [], 64), (-1, [], 16), (1, [], 74), (-1, [], 26)],
      [(1, [], 3), (-1, [], 27), (1, [], 13), (-1, [], 37), (1, [], 23), (-1, [], 47)],
      [(1, [], 0), (1, [], 30), (1, [], 60), (1, [], 10), (1, [], 40), (1, [], 70), (1, [], 20), (1, [], 50), (1, [], 80)]] }

/-- int2e_gauge_r1_ssp1sps2: src/autocode/breit1.c:217-380 (`CINTgout2e_int2e_gauge_r1_ssp1sps2`) and 385 ff -/
def int2e_gauge_r1_ssp1sps2 : Gen2e where
  ng := ⟨1, 3, 1, 0, 0⟩
  gbits := 4
  nComp := 16
  num := -1
  den := 1
  prog := {
    steps := [⟨.d, 2, 1, 0, ![1, 3, 0, 0]⟩,
      ⟨.d, 1, 2, 0, ![0, 0, 0, 0]⟩,
      ⟨.d, 1, 3, 1, ![0, 0, 0, 0]⟩,
      ⟨.x0, 1, 4, 0, ![0, 1, 0, 0]⟩,
      ⟨.x0, 1, 5, 1, ![0, 1, 0, 0]⟩,
      ⟨.d, 1, 6, 4, ![0, 0, 0, 0]⟩,
      ⟨.d, 1, 7, 5, ![0, 0, 0, 0]⟩,
      ⟨.d, 1, 8, 0, ![0, 2, 0, 0]⟩,
      ⟨.d, 0, 9, 0, ![0, 2, 0, 0]⟩]
    more := [(⟨8, 9, ![0, 2, 0, 0]⟩, [⟨.d, 1, 9, 1, ![0, 2, 0, 0]⟩, ⟨.d, 0, 10, 1, ![0, 2, 0, 0]⟩]),
      (⟨9, 10, ![0, 2, 0, 0]⟩, [⟨.d, 1, 10, 8, ![0, 0, 0, 0]⟩, ⟨.d, 1, 11, 9, ![0, 0, 0, 0]⟩, ⟨.x0, 1, 12, 8, ![0, 1, 0, 0]⟩, ⟨.x0, 1, 13, 9, ![0, 1, 0, 0]⟩, ⟨.d, 1, 14, 12, ![0, 0, 0, 0]⟩, ⟨.d, 1, 15, 13, ![0, 0, 0, 0]⟩])]
    prods := [(15, 0, 0), (14, 1, 0), (14, 0, 1), (13, 2, 0), (12, 3, 0), (12, 2, 1), (13, 0, 2), (12, 1, 2), (12, 0, 3),
      (11, 4, 0), (10, 5, 0), (10, 4, 1), (9, 6, 0), (8, 7, 0), (8, 6, 1), (9, 4, 2), (8, 5, 2), (8, 4, 3),
      (11, 0, 4), (10, 1, 4), (10, 0, 5), (9, 2, 4), (8, 3, 4), (8, 2, 5), (9, 0, 6), (8, 1, 6), (8, 0, 7),
      (7, 8, 0), (6, 9, 0), (6, 8, 1), (5, 10, 0), (4, 11, 0), (4, 10, 1), (5, 8, 2), (4, 9, 2), (4, 8, 3),
      (3, 12, 0), (2, 13, 0), (2, 12, 1), (1, 14, 0), (0, 15, 0), (0, 14, 1), (1, 12, 2), (0, 13, 2), (0, 12, 3),
      (3, 8, 4), (2, 9, 4), (2, 8, 5), (1, 10, 4), (0, 11, 4), (0, 10, 5), (1, 8, 6), (0, 9, 6), (0, 8, 7),
      (7, 0, 8), (6, 1, 8), (6, 0, 9), (5, 2, 8), (4, 3, 8), (4, 2, 9), (5, 0, 10), (4, 1, 10), (4, 0, 11),
      (3, 4, 8), (2, 5, 8), (2, 4, 9), (1, 6, 8), (0, 7, 8), (0, 6, 9), (1, 4, 10), (0, 5, 10), (0, 4, 11),
      (3, 0, 12), (2, 1, 12), (2, 0, 13), (1, 2, 12), (0, 3, 12), (0, 2, 13), (1, 0, 14), (0, 1, 14), (0, 0, 15)]
    comps := [[(1, [], 44), (-1, [], 68), (-1, [], 52), (1, [], 76)],
      [(1, [], 65), (-1, [], 17), (-1, [], 73), (1, [], 25)],
      [(1, [], 14), (-1, [], 38), (-1, [], 22), (1, [], 46)],
      [(1, [], 11), (1, [], 41), (1, [], 71), (-1, [], 19), (-1, [], 49), (-1, [], 79)],
      [(-1, [], 35), (1, [], 59), (1, [], 51), (-1, [], 75)],
      [(-1, [], 56), (1, [], 8), (1, [], 72), (-1, [], 24)],
      [(-1, [], 5), (1, [], 29), (1, [], 21), (-1, [], 45)],
      [(-1, [], 2), (-1, [], 32), (-1, [], 62), (1, [], 18), (1, [], 48), (1, [], 78)],
      [(1, [], 34), (-1, [], 58), (-1, [], 42), (1, [], 66)],
      [(1, [], 55), (-1, [], 7), (-1, [], 63), (1, [], 15)],
      [(1, [], 4), (-1, [], 28), (-1, [], 12), (1, [], 36)],
      [(1, [], 1), (1, [], 31), (1, [], 61), (-1, [], 9), (-1, [], 39), (-1, [], 69)],
      [(-1, [], 33), (1, [], 57), (-1, [], 43), (1, [], 67), (-1, [], 53), (1, [], 77)],
      [(-1, [], 54), (1, [], 6), (-1, [], 64), (1, [], 16), (-1, [], 74), (1, [], 26)],
      [(-1, [], 3), (1, [], 27), (-1, [], 13), (1, [], 37), (-1, [], 23), (1, [], 47)],
      [(-1, [], 0), (-1, [], 30), (-1, [], 60), (-1, [], 10), (-1, [], 40), (-1, [], 70), (-1, [], 20), (-1, [], 50), (-1, [], 80)]] }

/-- int2e_gauge_r1_sps1ssp2: src/autocode/breit1.c:415-578 (`CINTgout2e_int2e_gauge_r1_sps1ssp2`) and 583 ff -/
def int2e_gauge_r1_sps1ssp2 : Gen2e where
  ng := ⟨2, 2, 0, 1, 0⟩
  gbits := 4
  nComp := 16
  num := -1
  den := 1
  prog := {
    steps := [⟨.d, 3, 1, 0, ![2, 2, 0, 0]⟩,
      ⟨.x0, 1, 2, 0, ![1, 0, 0, 0]⟩,
      ⟨.x0, 1, 3, 1, ![1, 0, 0, 0]⟩,
      ⟨.d, 1, 4, 0, ![1, 1, 0, 0]⟩,
      ⟨.d, 0, 5, 0, ![1, 1, 0, 0]⟩]
    more := [(⟨4, 5, ![1, 1, 0, 0]⟩, [⟨.d, 1, 5, 1, ![1, 1, 0, 0]⟩, ⟨.d, 0, 6, 1, ![1, 1, 0, 0]⟩]),
      (⟨5, 6, ![1, 1, 0, 0]⟩, [⟨.x0, 1, 6, 4, ![1, 0, 0, 0]⟩, ⟨.x0, 1, 7, 5, ![1, 0, 0, 0]⟩, ⟨.d, 0, 8, 0, ![0, 0, 0, 0]⟩, ⟨.d, 0, 9, 1, ![0, 0, 0, 0]⟩, ⟨.d, 0, 10, 2, ![0, 0, 0, 0]⟩, ⟨.d, 0, 11, 3, ![0, 0, 0, 0]⟩, ⟨.d, 0, 12, 4, ![0, 0, 0, 0]⟩, ⟨.d, 0, 13, 5, ![0, 0, 0, 0]⟩, ⟨.d, 0, 14, 6, ![0, 0, 0, 0]⟩, ⟨.d, 0, 15, 7, ![0, 0, 0, 0]⟩])]
    prods := [(15, 0, 0), (14, 1, 0), (14, 0, 1), (13, 2, 0), (12, 3, 0), (12, 2, 1), (13, 0, 2), (12, 1, 2), (12, 0, 3),
      (11, 4, 0), (10, 5, 0), (10, 4, 1), (9, 6, 0), (8, 7, 0), (8, 6, 1), (9, 4, 2), (8, 5, 2), (8, 4, 3),
      (11, 0, 4), (10, 1, 4), (10, 0, 5), (9, 2, 4), (8, 3, 4), (8, 2, 5), (9, 0, 6), (8, 1, 6), (8, 0, 7),
      (7, 8, 0), (6, 9, 0), (6, 8, 1), (5, 10, 0), (4, 11, 0), (4, 10, 1), (5, 8, 2), (4, 9, 2), (4, 8, 3),
      (3, 12, 0), (2, 13, 0), (2, 12, 1), (1, 14, 0), (0, 15, 0), (0, 14, 1), (1, 12, 2), (0, 13, 2), (0, 12, 3),
      (3, 8, 4), (2, 9, 4), (2, 8, 5), (1, 10, 4), (0, 11, 4), (0, 10, 5), (1, 8, 6), (0, 9, 6), (0, 8, 7),
      (7, 0, 8), (6, 1, 8), (6, 0, 9), (5, 2, 8), (4, 3, 8), (4, 2, 9), (5, 0, 10), (4, 1, 10), (4, 0, 11),
      (3, 4, 8), (2, 5, 8), (2, 4, 9), (1, 6, 8), (0, 7, 8), (0, 6, 9), (1, 4, 10), (0, 5, 10), (0, 4, 11),
      (3, 0, 12), (2, 1, 12), (2, 0, 13), (1, 2, 12), (0, 3, 12), (0, 2, 13), (1, 0, 14), (0, 1, 14), (0, 0, 15)]
    comps := [[(-1, [], 50), (1, [], 68), (1, [], 52), (-1, [], 70)],
      [(-1, [], 59), (1, [], 23), (1, [], 61), (-1, [], 25)],
      [(-1, [], 14), (1, [], 32), (1, [], 16), (-1, [], 34)],
      [(-1, [], 5), (-1, [], 41), (-1, [], 77), (1, [], 7), (1, [], 43), (1, [], 79)],
      [(1, [], 47), (-1, [], 65), (-1, [], 51), (1, [], 69)],
      [(1, [], 56), (-1, [], 20), (-1, [], 60), (1, [], 24)],
      [(1, [], 11), (-1, [], 29), (-1, [], 15), (1, [], 33)],
      [(1, [], 2), (1, [], 38), (1, [], 74), (-1, [], 6), (-1, [], 42), (-1, [], 78)],
      [(-1, [], 46), (1, [], 64), (1, [], 48), (-1, [], 66)],
      [(-1, [], 55), (1, [], 19), (1, [], 57), (-1, [], 21)],
      [(-1, [], 10), (1, [], 28), (1, [], 12), (-1, [], 30)],
      [(-1, [], 1), (-1, [], 37), (-1, [], 73), (1, [], 3), (1, [], 39), (1, [], 75)],
      [(-1, [], 45), (1, [], 63), (-1, [], 49), (1, [], 67), (-1, [], 53), (1, [], 71)],
      [(-1, [], 54), (1, [], 18), (-1, [], 58), (1, [], 22), (-1, [], 62), (1, [], 26)],
      [(-1, [], 9), (1, [], 27), (-1, [], 13), (1, [], 31), (-1, [], 17), (1, [], 35)],
      [(-1, [], 0), (-1, [], 36), (-1, [], 72), (-1, [], 4), (-1, [], 40), (-1, [], 76), (-1, [], 8), (-1, [], 44), (-1, [], 80)]] }

/-- int2e_gauge_r1_sps1sps2: src/autocode/breit1.c:613-776 (`CINTgout2e_int2e_gauge_r1_sps1sps2`) and 781 ff -/
def int2e_gauge_r1_sps1sps2 : Gen2e where
  ng := ⟨2, 2, 1, 0, 0⟩
  gbits := 4
  nComp := 16
  num := -1
  den := 1
  prog := {
    steps := [⟨.d, 2, 1, 0, ![2, 2, 0, 0]⟩,
      ⟨.x0, 1, 2, 0, ![1, 0, 0, 0]⟩,
      ⟨.x0, 1, 3, 1, ![1, 0, 0, 0]⟩,
      ⟨.d, 1, 4, 0, ![1, 1, 0, 0]⟩,
      ⟨.d, 0, 5, 0, ![1, 1, 0, 0]⟩]
    more := [(⟨4, 5, ![1, 1, 0, 0]⟩, [⟨.d, 1, 5, 1, ![1, 1, 0, 0]⟩, ⟨.d, 0, 6, 1, ![1, 1, 0, 0]⟩]),
      (⟨5, 6, ![1, 1, 0, 0]⟩, [⟨.x0, 1, 6, 4, ![1, 0, 0, 0]⟩, ⟨.x0, 1, 7, 5, ![1, 0, 0, 0]⟩, ⟨.d, 0, 8, 0, ![0, 0, 0, 0]⟩, ⟨.d, 0, 9, 1, ![0, 0, 0, 0]⟩, ⟨.d, 0, 10, 2, ![0, 0, 0, 0]⟩, ⟨.d, 0, 11, 3, ![0, 0, 0, 0]⟩, ⟨.d, 0, 12, 4, ![0, 0, 0, 0]⟩, ⟨.d, 0, 13, 5, ![0, 0, 0, 0]⟩, ⟨.d, 0, 14, 6, ![0, 0, 0, 0]⟩, ⟨.d, 0, 15, 7, ![0, 0, 0, 0]⟩])]
    prods := [(15, 0, 0), (14, 1, 0), (14, 0, 1), (13, 2, 0), (12, 3, 0), (12, 2, 1), (13, 0, 2), (12, 1, 2), (12, 0, 3),
      (11, 4, 0), (10, 5, 0), (10, 4, 1), (9, 6, 0), (8, 7, 0), (8, 6, 1), (9, 4, 2), (8, 5, 2), (8, 4, 3),
      (11, 0, 4), (10, 1, 4), (10, 0, 5), (9, 2, 4), (8, 3, 4), (8, 2, 5), (9, 0, 6), (8, 1, 6), (8, 0, 7),
      (7, 8, 0), (6, 9, 0), (6, 8, 1), (5, 10, 0), (4, 11, 0), (4, 10, 1), (5, 8, 2), (4, 9, 2), (4, 8, 3),
      (3, 12, 0), (2, 13, 0), (2, 12, 1), (1, 14, 0), (0, 15, 0), (0, 14, 1), (1, 12, 2), (0, 13, 2), (0, 12, 3),
      (3, 8, 4), (2, 9, 4), (2, 8, 5), (1, 10, 4), (0, 11, 4), (0, 10, 5), (1, 8, 6), (0, 9, 6), (0, 8, 7),
      (7, 0, 8), (6, 1, 8), (6, 0, 9), (5, 2, 8), (4, 3, 8), (4, 2, 9), (5, 0, 10), (4, 1, 10), (4, 0, 11),
      (3, 4, 8), (2, 5, 8), (2, 4, 9), (1, 6, 8), (0, 7, 8), (0, 6, 9), (1, 4, 10), (0, 5, 10), (0, 4, 11),
      (3, 0, 12), (2, 1, 12), (2, 0, 13), (1, 2, 12), (0, 3, 12), (0, 2, 13), (1, 0, 14), (0, 1, 14), (0, 0, 15)]
    comps := [[(-1, [], 50), (1, [], 68), (1, [], 52), (-1, [], 70)],
      [(-1, [], 59), (1, [], 23), (1, [], 61), (-1, [], 25)],
      [(-1, [], 14), (1, [], 32), (1, [], 16), (-1, [], 34)],
      [(-1, [], 5), (-1, [], 41), (-1, [], 77), (1, [], 7), (1, [], 43), (1, [], 79)],
      [(1, [], 47), (-1, [], 65), (-1, [], 51), (1, [], 69)],
      [(1, [], 56), (-1, [], 20), (-1, [], 60), (1, [], 24)],
      [(1, [], 11), (-1, [], 29), (-1, [], 15), (1, [], 33)],
      [(1, [], 2), (1, [], 38), (1, [], 74), (-1, [], 6), (-1, [], 42), (-1, [], 78)],
      [(-1, [], 46), (1, [], 64), (1, [], 48), (-1, [], 66)],
      [(-1, [], 55), (1, [], 19), (1, [], 57), (-1, [], 21)],
      [(-1, [], 10), (1, [], 28), (1, [], 12), (-1, [], 30)],
      [(-1, [], 1), (-1, [], 37), (-1, [], 73), (1, [], 3), (1, [], 39), (1, [], 75)],
      [(1, [], 45), (-1, [], 63), (1, [], 49), (-1, [], 67), (1, [], 53), (-1, [], 71)],
      [(1, [], 54), (-1, [], 18), (1, [], 58), (-1, [], 22), (1, [], 62), (-1, [], 26)],
      [(1, [], 9), (-1, [], 27), (1, [], 13), (-1, [], 31), (1, [], 17), (-1, [], 35)],
      [(1, [], 0), (1, [], 36), (1, [], 72), (1, [], 4), (1, [], 40), (1, [], 76), (1, [], 8), (1, [], 44), (1, [], 80)]] }

/-- int2e_gauge_r2_ssp1ssp2: src/autocode/breit1.c:811-978 (`CINTgout2e_int2e_gauge_r2_ssp1ssp2`) and 983 ff -/
def int2e_gauge_r2_ssp1ssp2 : Gen2e where
  ng := ⟨1, 2, 0, 2, 0⟩
  gbits := 4
  nComp := 16
  num := -1
  den := 1
  prog := {
    steps := [⟨.d, 3, 1, 0, ![1, 2, 0, 0]⟩,
      ⟨.x0, 3, 2, 0, ![1, 2, 0, 1]⟩,
      ⟨.d, 3, 3, 2, ![1, 2, 0, 0]⟩,
      ⟨.d, 1, 4, 0, ![0, 0, 0, 0]⟩,
      ⟨.d, 1, 5, 1, ![0, 0, 0, 0]⟩,
      ⟨.d, 1, 6, 2, ![0, 0, 0, 0]⟩,
      ⟨.d, 1, 7, 3, ![0, 0, 0, 0]⟩,
      ⟨.d, 1, 8, 0, ![0, 1, 0, 0]⟩,
      ⟨.d, 0, 9, 0, ![0, 1, 0, 0]⟩]
    more := [(⟨8, 9, ![0, 1, 0, 0]⟩, [⟨.d, 1, 9, 1, ![0, 1, 0, 0]⟩, ⟨.d, 0, 10, 1, ![0, 1, 0, 0]⟩]),
      (⟨9, 10, ![0, 1, 0, 0]⟩, [⟨.d, 1, 10, 2, ![0, 1, 0, 0]⟩, ⟨.d, 0, 11, 2, ![0, 1, 0, 0]⟩]),
      (⟨10, 11, ![0, 1, 0, 0]⟩, [⟨.d, 1, 11, 3, ![0, 1, 0, 0]⟩, ⟨.d, 0, 12, 3, ![0, 1, 0, 0]⟩]),
      (⟨11, 12, ![0, 1, 0, 0]⟩, [⟨.d, 1, 12, 8, ![0, 0, 0, 0]⟩, ⟨.d, 1, 13, 9, ![0, 0, 0, 0]⟩, ⟨.d, 1, 14, 10, ![0, 0, 0, 0]⟩, ⟨.d, 1, 15, 11, ![0, 0, 0, 0]⟩])]
    prods := [(15, 0, 0), (14, 1, 0), (14, 0, 1), (13, 2, 0), (12, 3, 0), (12, 2, 1), (13, 0, 2), (12, 1, 2), (12, 0, 3),
      (11, 4, 0), (10, 5, 0), (10, 4, 1), (9, 6, 0), (8, 7, 0), (8, 6, 1), (9, 4, 2), (8, 5, 2), (8, 4, 3),
      (11, 0, 4), (10, 1, 4), (10, 0, 5), (9, 2, 4), (8, 3, 4), (8, 2, 5), (9, 0, 6), (8, 1, 6), (8, 0, 7),
      (7, 8, 0), (6, 9, 0), (6, 8, 1), (5, 10, 0), (4, 11, 0), (4, 10, 1), (5, 8, 2), (4, 9, 2), (4, 8, 3),
      (3, 12, 0), (2, 13, 0), (2, 12, 1), (1, 14, 0), (0, 15, 0), (0, 14, 1), (1, 12, 2), (0, 13, 2), (0, 12, 3),
      (3, 8, 4), (2, 9, 4), (2, 8, 5), (1, 10, 4), (0, 11, 4), (0, 10, 5), (1, 8, 6), (0, 9, 6), (0, 8, 7),
      (7, 0, 8), (6, 1, 8), (6, 0, 9), (5, 2, 8), (4, 3, 8), (4, 2, 9), (5, 0, 10), (4, 1, 10), (4, 0, 11),
      (3, 4, 8), (2, 5, 8), (2, 4, 9), (1, 6, 8), (0, 7, 8), (0, 6, 9), (1, 4, 10), (0, 5, 10), (0, 4, 11),
      (3, 0, 12), (2, 1, 12), (2, 0, 13), (1, 2, 12), (0, 3, 12), (0, 2, 13), (1, 0, 14), (0, 1, 14), (0, 0, 15)]
    comps := [[(1, [], 50), (-1, [], 68), (-1, [], 52), (1, [], 70)],
      [(1, [], 59), (-1, [], 23), (-1, [], 61), (1, [], 25)],
      [(1, [], 14), (-1, [], 32), (-1, [], 16), (1, [], 34)],
      [(1, [], 5), (1, [], 41), (1, [], 77), (-1, [], 7), (-1, [], 43), (-1, [], 79)],
      [(1, [], 51), (-1, [], 69), (-1, [], 47), (1, [], 65)],
      [(1, [], 60), (-1, [], 24), (-1, [], 56), (1, [], 20)],
      [(1, [], 15), (-1, [], 33), (-1, [], 11), (1, [], 29)],
      [(1, [], 6), (1, [], 42), (1, [], 78), (-1, [], 2), (-1, [], 38), (-1, [], 74)],
      [(1, [], 46), (-1, [], 64), (-1, [], 48), (1, [], 66)],
      [(1, [], 55), (-1, [], 19), (-1, [], 57), (1, [], 21)],
      [(1, [], 10), (-1, [], 28), (-1, [], 12), (1, [], 30)],
      [(1, [], 1), (1, [], 37), (1, [], 73), (-1, [], 3), (-1, [], 39), (-1, [], 75)],
      [(1, [], 45), (-1, [], 63), (1, [], 49), (-1, [], 67), (1, [], 53), (-1, [], 71)],
      [(1, [], 54), (-1, [], 18), (1, [], 58), (-1, [], 22), (1, [], 62), (-1, [], 26)],
      [(1, [], 9), (-1, [], 27), (1, [], 13), (-1, [], 31), (1, [], 17), (-1, [], 35)],
      [(1, [], 0), (1, [], 36), (1, [], 72), (1, [], 4), (1, [], 40), (1, [], 76), (1, [], 8), (1, [], 44), (1, [], 80)]] }

/-- int2e_gauge_r2_ssp1sps2: src/autocode/breit1.c:1013-1180 (`CINTgout2e_int2e_gauge_r2_ssp1sps2`) and 1185 ff -/
def int2e_gauge_r2_ssp1sps2 : Gen2e where
  ng := ⟨1, 2, 1, 1, 0⟩
  gbits := 4
  nComp := 16
  num := -1
  den := 1
  prog := {
    steps := [⟨.x0, 3, 1, 0, ![1, 2, 1, 0]⟩,
      ⟨.d, 2, 2, 0, ![1, 2, 0, 0]⟩,
      ⟨.d, 2, 3, 1, ![1, 2, 0, 0]⟩,
      ⟨.d, 1, 4, 0, ![0, 0, 0, 0]⟩,
      ⟨.d, 1, 5, 1, ![0, 0, 0, 0]⟩,
      ⟨.d, 1, 6, 2, ![0, 0, 0, 0]⟩,
      ⟨.d, 1, 7, 3, ![0, 0, 0, 0]⟩,
      ⟨.d, 1, 8, 0, ![0, 1, 0, 0]⟩,
      ⟨.d, 0, 9, 0, ![0, 1, 0, 0]⟩]
    more := [(⟨8, 9, ![0, 1, 0, 0]⟩, [⟨.d, 1, 9, 1, ![0, 1, 0, 0]⟩, ⟨.d, 0, 10, 1, ![0, 1, 0, 0]⟩]),
      (⟨9, 10, ![0, 1, 0, 0]⟩, [⟨.d, 1, 10, 2, ![0, 1, 0, 0]⟩, ⟨.d, 0, 11, 2, ![0, 1, 0, 0]⟩]),
      (⟨10, 11, ![0, 1, 0, 0]⟩, [⟨.d, 1, 11, 3, ![0, 1, 0, 0]⟩, ⟨.d, 0, 12, 3, ![0, 1, 0, 0]⟩]),
      (⟨11, 12, ![0, 1, 0, 0]⟩, [⟨.d, 1, 12, 8, ![0, 0, 0, 0]⟩, ⟨.d, 1, 13, 9, ![0, 0, 0, 0]⟩, ⟨.d, 1, 14, 10, ![0, 0, 0, 0]⟩, ⟨.d, 1, 15, 11, ![0, 0, 0, 0]⟩])]
    prods := [(15, 0, 0), (14, 1, 0), (14, 0, 1), (13, 2, 0), (12, 3, 0), (12, 2, 1), (13, 0, 2), (12, 1, 2), (12, 0, 3),
      (11, 4, 0), (10, 5, 0), (10, 4, 1), (9, 6, 0), (8, 7, 0), (8, 6, 1), (9, 4, 2), (8, 5, 2), (8, 4, 3),
      (11, 0, 4), (10, 1, 4), (10, 0, 5), (9, 2, 4), (8, 3, 4), (8, 2, 5), (9, 0, 6), (8, 1, 6), (8, 0, 7),
      (7, 8, 0), (6, 9, 0), (6, 8, 1), (5, 10, 0), (4, 11, 0), (4, 10, 1), (5, 8, 2), (4, 9, 2), (4, 8, 3),
      (3, 12, 0), (2, 13, 0), (2, 12, 1), (1, 14, 0), (0, 15, 0), (0, 14, 1), (1, 12, 2), (0, 13, 2), (0, 12, 3),
      (3, 8, 4), (2, 9, 4), (2, 8, 5), (1, 10, 4), (0, 11, 4), (0, 10, 5), (1, 8, 6), (0, 9, 6), (0, 8, 7),
      (7, 0, 8), (6, 1, 8), (6, 0, 9), (5, 2, 8), (4, 3, 8), (4, 2, 9), (5, 0, 10), (4, 1, 10), (4, 0, 11),
      (3, 4, 8), (2, 5, 8), (2, 4, 9), (1, 6, 8), (0, 7, 8), (0, 6, 9), (1, 4, 10), (0, 5, 10), (0, 4, 11),
      (3, 0, 12), (2, 1, 12), (2, 0, 13), (1, 2, 12), (0, 3, 12), (0, 2, 13), (1, 0, 14), (0, 1, 14), (0, 0, 15)]
    comps := [[(-1, [], 50), (1, [], 68), (1, [], 52), (-1, [], 70)],
      [(-1, [], 59), (1, [], 23), (1, [], 61), (-1, [], 25)],
      [(-1, [], 14), (1, [], 32), (1, [], 16), (-1, [], 34)],
      [(-1, [], 5), (-1, [], 41), (-1, [], 77), (1, [], 7), (1, [], 43), (1, [], 79)],
      [(-1, [], 51), (1, [], 69), (1, [], 47), (-1, [], 65)],
      [(-1, [], 60), (1, [], 24), (1, [], 56), (-1, [], 20)],
      [(-1, [], 15), (1, [], 33), (1, [], 11), (-1, [], 29)],
      [(-1, [], 6), (-1, [], 42), (-1, [], 78), (1, [], 2), (1, [], 38), (1, [], 74)],
      [(-1, [], 46), (1, [], 64), (1, [], 48), (-1, [], 66)],
      [(-1, [], 55), (1, [], 19), (1, [], 57), (-1, [], 21)],
      [(-1, [], 10), (1, [], 28), (1, [], 12), (-1, [], 30)],
      [(-1, [], 1), (-1, [], 37), (-1, [], 73), (1, [], 3), (1, [], 39), (1, [], 75)],
      [(-1, [], 45), (1, [], 63), (-1, [], 49), (1, [], 67), (-1, [], 53), (1, [], 71)],
      [(-1, [], 54), (1, [], 18), (-1, [], 58), (1, [], 22), (-1, [], 62), (1, [], 26)],
      [(-1, [], 9), (1, [], 27), (-1, [], 13), (1, [], 31), (-1, [], 17), (1, [], 35)],
      [(-1, [], 0), (-1, [], 36), (-1, [], 72), (-1, [], 4), (-1, [], 40), (-1, [], 76), (-1, [], 8), (-1, [], 44), (-1, [], 80)]] }

/-- int2e_gauge_r2_sps1ssp2: src/autocode/breit1.c:1215-1382 (`CINTgout2e_int2e_gauge_r2_sps1ssp2`) and 1387 ff -/
def int2e_gauge_r2_sps1ssp2 : Gen2e where
  ng := ⟨2, 1, 0, 2, 0⟩
  gbits := 4
  nComp := 16
  num := -1
  den := 1
  prog := {
    steps := [⟨.d, 3, 1, 0, ![2, 1, 0, 0]⟩,
      ⟨.x0, 3, 2, 0, ![2, 1, 0, 1]⟩,
      ⟨.d, 3, 3, 2, ![2, 1, 0, 0]⟩,
      ⟨.d, 1, 4, 0, ![1, 0, 0, 0]⟩,
      ⟨.d, 0, 5, 0, ![1, 0, 0, 0]⟩]
    more := [(⟨4, 5, ![1, 0, 0, 0]⟩, [⟨.d, 1, 5, 1, ![1, 0, 0, 0]⟩, ⟨.d, 0, 6, 1, ![1, 0, 0, 0]⟩]),
      (⟨5, 6, ![1, 0, 0, 0]⟩, [⟨.d, 1, 6, 2, ![1, 0, 0, 0]⟩, ⟨.d, 0, 7, 2, ![1, 0, 0, 0]⟩]),
      (⟨6, 7, ![1, 0, 0, 0]⟩, [⟨.d, 1, 7, 3, ![1, 0, 0, 0]⟩, ⟨.d, 0, 8, 3, ![1, 0, 0, 0]⟩]),
      (⟨7, 8, ![1, 0, 0, 0]⟩, [⟨.d, 0, 8, 0, ![0, 0, 0, 0]⟩, ⟨.d, 0, 9, 1, ![0, 0, 0, 0]⟩, ⟨.d, 0, 10, 2, ![0, 0, 0, 0]⟩, ⟨.d, 0, 11, 3, ![0, 0, 0, 0]⟩, ⟨.d, 0, 12, 4, ![0, 0, 0, 0]⟩, ⟨.d, 0, 13, 5, ![0, 0, 0, 0]⟩, ⟨.d, 0, 14, 6, ![0, 0, 0, 0]⟩, ⟨.d, 0, 15, 7, ![0, 0, 0, 0]⟩])]
    prods := [(15, 0, 0), (14, 1, 0), (14, 0, 1), (13, 2, 0), (12, 3, 0), (12, 2, 1), (13, 0, 2), (12, 1, 2), (12, 0, 3),
      (11, 4, 0), (10, 5, 0), (10, 4, 1), (9, 6, 0), (8, 7, 0), (8, 6, 1), (9, 4, 2), (8, 5, 2), (8, 4, 3),
      (11, 0, 4), (10, 1, 4), (10, 0, 5), (9, 2, 4), (8, 3, 4), (8, 2, 5), (9, 0, 6), (8, 1, 6), (8, 0, 7),
      (7, 8, 0), (6, 9, 0), (6, 8, 1), (5, 10, 0), (4, 11, 0), (4, 10, 1), (5, 8, 2), (4, 9, 2), (4, 8, 3),
      (3, 12, 0), (2, 13, 0), (2, 12, 1), (1, 14, 0), (0, 15, 0), (0, 14, 1), (1, 12, 2), (0, 13, 2), (0, 12, 3),
      (3, 8, 4), (2, 9, 4), (2, 8, 5), (1, 10, 4), (0, 11, 4), (0, 10, 5), (1, 8, 6), (0, 9, 6), (0, 8, 7),
      (7, 0, 8), (6, 1, 8), (6, 0, 9), (5, 2, 8), (4, 3, 8), (4, 2, 9), (5, 0, 10), (4, 1, 10), (4, 0, 11),
      (3, 4, 8), (2, 5, 8), (2, 4, 9), (1, 6, 8), (0, 7, 8), (0, 6, 9), (1, 4, 10), (0, 5, 10), (0, 4, 11),
      (3, 0, 12), (2, 1, 12), (2, 0, 13), (1, 2, 12), (0, 3, 12), (0, 2, 13), (1, 0, 14), (0, 1, 14), (0, 0, 15)]
    comps := [[(-1, [], 50), (1, [], 68), (1, [], 52), (-1, [], 70)],
      [(-1, [], 59), (1, [], 23), (1, [], 61), (-1, [], 25)],
      [(-1, [], 14), (1, [], 32), (1, [], 16), (-1, [], 34)],
      [(-1, [], 5), (-1, [], 41), (-1, [], 77), (1, [], 7), (1, [], 43), (1, [], 79)],
      [(-1, [], 51), (1, [], 69), (1, [], 47), (-1, [], 65)],
      [(-1, [], 60), (1, [], 24), (1, [], 56), (-1, [], 20)],
      [(-1, [], 15), (1, [], 33), (1, [], 11), (-1, [], 29)],
      [(-1, [], 6), (-1, [], 42), (-1, [], 78), (1, [], 2), (1, [], 38), (1, [], 74)],
      [(-1, [], 46), (1, [], 64), (1, [], 48), (-1, [], 66)],
      [(-1, [], 55), (1, [], 19), (1, [], 57), (-1, [], 21)],
      [(-1, [], 10), (1, [], 28), (1, [], 12), (-1, [], 30)],
      [(-1, [], 1), (-1, [], 37), (-1, [], 73), (1, [], 3), (1, [], 39), (1, [], 75)],
      [(-1, [], 45), (1, [], 63), (-1, [], 49), (1, [], 67), (-1, [], 53), (1, [], 71)],
      [(-1, [], 54), (1, [], 18), (-1, [], 58), (1, [], 22), (-1, [], 62), (1, [], 26)],
      [(-1, [], 9), (1, [], 27), (-1, [], 13), (1, [], 31), (-1, [], 17), (1, [], 35)],
      [(-1, [], 0), (-1, [], 36), (-1, [], 72), (-1, [], 4), (-1, [], 40), (-1, [], 76), (-1, [], 8), (-1, [], 44), (-1, [], 80)]] }

/-- int2e_gauge_r2_sps1sps2: src/autocode/breit1.c:1417-1584 (`CINTgout2e_int2e_gauge_r2_sps1sps2`) and 1589 ff -/
def int2e_gauge_r2_sps1sps2 : Gen2e where
  ng := ⟨2, 1, 1, 1, 0⟩
  gbits := 4
  nComp := 16
  num := -1
  den := 1
  prog := {
    steps := [⟨.x0, 3, 1, 0, ![2, 1, 1, 0]⟩,
      ⟨.d, 2, 2, 0, ![2, 1, 0, 0]⟩,
      ⟨.d, 2, 3, 1, ![2, 1, 0, 0]⟩,
      ⟨.d, 1, 4, 0, ![1, 0, 0, 0]⟩,
      ⟨.d, 0, 5, 0, ![1, 0, 0, 0]⟩]
    more := [(⟨4, 5, ![1, 0, 0, 0]⟩, [⟨.d, 1, 5, 1, ![1, 0, 0, 0]⟩, ⟨.d, 0, 6, 1, ![1, 0, 0, 0]⟩]),
      (⟨5, 6, ![1, 0, 0, 0]⟩, [⟨.d, 1, 6, 2, ![1, 0, 0, 0]⟩, ⟨.d, 0, 7, 2, ![1, 0, 0, 0]⟩]),
      (⟨6, 7, ![1, 0, 0, 0]⟩, [⟨.d, 1, 7, 3, ![1, 0, 0, 0]⟩, ⟨.d, 0, 8, 3, ![1, 0, 0, 0]⟩]),
      (⟨7, 8, ![1, 0, 0, 0]⟩, [⟨.d, 0, 8, 0, ![0, 0, 0, 0]⟩, ⟨.d, 0, 9, 1, ![0, 0, 0, 0]⟩, ⟨.d, 0, 10, 2, ![0, 0, 0, 0]⟩, ⟨.d, 0, 11, 3, ![0, 0, 0, 0]⟩, ⟨.d, 0, 12, 4, ![0, 0, 0, 0]⟩, ⟨.d, 0, 13, 5, ![0, 0, 0, 0]⟩, ⟨.d, 0, 14, 6, ![0, 0, 0, 0]⟩, ⟨.d, 0, 15, 7, ![0, 0, 0, 0]⟩])]
    prods := [(15, 0, 0), (14, 1, 0), (14, 0, 1), (13, 2, 0), (12, 3, 0), (12, 2, 1), (13, 0, 2), (12, 1, 2), (12, 0, 3),
      (11, 4, 0), (10, 5, 0), (10, 4, 1), (9, 6, 0), (8, 7, 0), (8, 6, 1), (9, 4, 2), (8, 5, 2), (8, 4, 3),
      (11, 0, 4), (10, 1, 4), (10, 0, 5), (9, 2, 4), (8, 3, 4), (8, 2, 5), (9, 0, 6), (8, 1, 6), (8, 0, 7),
      (7, 8, 0), (6, 9, 0), (6, 8, 1), (5, 10, 0), (4, 11, 0), (4, 10, 1), (5, 8, 2), (4, 9, 2), (4, 8, 3),
      (3, 12, 0), (2, 13, 0), (2, 12, 1), (1, 14, 0), (0, 15, 0), (0, 14, 1), (1, 12, 2), (0, 13, 2), (0, 12, 3),
      (3, 8, 4), (2, 9, 4), (2, 8, 5), (1, 10, 4), (0, 11, 4), (0, 10, 5), (1, 8, 6), (0, 9, 6), (0, 8, 7),
      (7, 0, 8), (6, 1, 8), (6, 0, 9), (5, 2, 8), (4, 3, 8), (4, 2, 9), (5, 0, 10), (4, 1, 10), (4, 0, 11),
      (3, 4, 8), (2, 5, 8), (2, 4, 9), (1, 6, 8), (0, 7, 8), (0, 6, 9), (1, 4, 10), (0, 5, 10), (0, 4, 11),
      (3, 0, 12), (2, 1, 12), (2, 0, 13), (1, 2, 12), (0, 3, 12), (0, 2, 13), (1, 0, 14), (0, 1, 14), (0, 0, 15)]
    comps := [[(1, [], 50), (-1, [], 68), (-1, [], 52), (1, [], 70)],
      [(1, [], 59), (-1, [], 23), (-1, [], 61), (1, [], 25)],
      [(1, [], 14), (-1, [], 32), (-1, [], 16), (1, [], 34)],
      [(1, [], 5), (1, [], 41), (1, [], 77), (-1, [], 7), (-1, [], 43), (-1, [], 79)],
      [(1, [], 51), (-1, [], 69), (-1, [], 47), (1, [], 65)],
      [(1, [], 60), (-1, [], 24), (-1, [], 56), (1, [], 20)],
      [(1, [], 15), (-1, [], 33), (-1, [], 11), (1, [], 29)],
      [(1, [], 6), (1, [], 42), (1, [], 78), (-1, [], 2), (-1, [], 38), (-1, [], 74)],
      [(1, [], 46), (-1, [], 64), (-1, [], 48), (1, [], 66)],
      [(1, [], 55), (-1, [], 19), (-1, [], 57), (1, [], 21)],
      [(1, [], 10), (-1, [], 28), (-1, [], 12), (1, [], 30)],
      [(1, [], 1), (1, [], 37), (1, [], 73), (-1, [], 3), (-1, [], 39), (-1, [], 75)],
      [(1, [], 45), (-1, [], 63), (1, [], 49), (-1, [], 67), (1, [], 53), (-1, [], 71)],
      [(1, [], 54), (-1, [], 18), (1, [], 58), (-1, [], 22), (1, [], 62), (-1, [], 26)],
      [(1, [], 9), (-1, [], 27), (1, [], 13), (-1, [], 31), (1, [], 17), (-1, [], 35)],
      [(1, [], 0), (1, [], 36), (1, [], 72), (1, [], 4), (1, [], 40), (1, [], 76), (1, [], 8), (1, [], 44), (1, [], 80)]] }

/-- int2e_spv1: src/autocode/dkb.c:171-222 (`CINTgout2e_int2e_spv1`) and 227 ff -/
def int2e_spv1 : Gen2e where
  ng := ⟨1, 0, 0, 0, 0⟩
  gbits := 1
  nComp := 4
  prog := {
    steps := [⟨.d, 0, 1, 0, ![0, 0, 0, 0]⟩]
    prods := [(1, 0, 0), (0, 1, 0), (0, 0, 1)]
    comps := [[(1, [], 0)],
      [(1, [], 1)],
      [(1, [], 2)],
      []] }

/-- int2e_vsp1: src/autocode/dkb.c:255-306 (`CINTgout2e_int2e_vsp1`) and 311 ff -/
def int2e_vsp1 : Gen2e where
  ng := ⟨0, 1, 0, 0, 0⟩
  gbits := 1
  nComp := 4
  prog := {
    steps := [⟨.d, 1, 1, 0, ![0, 0, 0, 0]⟩]
    prods := [(1, 0, 0), (0, 1, 0), (0, 0, 1)]
    comps := [[(-1, [], 0)],
      [(-1, [], 1)],
      [(-1, [], 2)],
      []] }

/-- int2e_spsp2: src/autocode/dkb.c:339-378 (`CINTgout2e_int2e_spsp2`) and 383 ff -/
def int2e_spsp2 : Gen2e where
  ng := ⟨0, 0, 1, 1, 0⟩
  gbits := 2
  nComp := 4
  prog := {
    steps := [⟨.d, 3, 1, 0, ![0, 0, 1, 0]⟩,
      ⟨.d, 2, 2, 0, ![0, 0, 0, 0]⟩,
      ⟨.d, 2, 3, 1, ![0, 0, 0, 0]⟩]
    prods := [(3, 0, 0), (2, 1, 0), (2, 0, 1), (1, 2, 0), (0, 3, 0), (0, 2, 1), (1, 0, 2), (0, 1, 2), (0, 0, 3)]
    comps := [[(1, [], 5), (-1, [], 7)],
      [(1, [], 6), (-1, [], 2)],
      [(1, [], 1), (-1, [], 3)],
      [(1, [], 0), (1, [], 4), (1, [], 8)]] }

/-- int2e_spv1spv2: src/autocode/dkb.c:411-474 (`CINTgout2e_int2e_spv1spv2`) and 479 ff -/
def int2e_spv1spv2 : Gen2e where
  ng := ⟨1, 0, 1, 0, 0⟩
  gbits := 2
  nComp := 16
  prog := {
    steps := [⟨.d, 2, 1, 0, ![1, 0, 0, 0]⟩,
      ⟨.d, 0, 2, 0, ![0, 0, 0, 0]⟩,
      ⟨.d, 0, 3, 1, ![0, 0, 0, 0]⟩]
    prods := [(3, 0, 0), (2, 1, 0), (2, 0, 1), (1, 2, 0), (0, 3, 0), (0, 2, 1), (1, 0, 2), (0, 1, 2), (0, 0, 3)]
    comps := [[(1, [], 0)],
      [(1, [], 3)],
      [(1, [], 6)],
      [],
      [(1, [], 1)],
      [(1, [], 4)],
      [(1, [], 7)],
      [],
      [(1, [], 2)],
      [(1, [], 5)],
      [(1, [], 8)],
      [],
      [],
      [],
      [],
      []] }

/-- int2e_vsp1spv2: src/autocode/dkb.c:507-570 (`CINTgout2e_int2e_vsp1spv2`) and 575 ff -/
def int2e_vsp1spv2 : Gen2e where
  ng := ⟨0, 1, 1, 0, 0⟩
  gbits := 2
  nComp := 16
  prog := {
    steps := [⟨.d, 2, 1, 0, ![0, 1, 0, 0]⟩,
      ⟨.d, 1, 2, 0, ![0, 0, 0, 0]⟩,
      ⟨.d, 1, 3, 1, ![0, 0, 0, 0]⟩]
    prods := [(3, 0, 0), (2, 1, 0), (2, 0, 1), (1, 2, 0), (0, 3, 0), (0, 2, 1), (1, 0, 2), (0, 1, 2), (0, 0, 3)]
    comps := [[(-1, [], 0)],
      [(-1, [], 3)],
      [(-1, [], 6)],
      [],
      [(-1, [], 1)],
      [(-1, [], 4)],
      [(-1, [], 7)],
      [],
      [(-1, [], 2)],
      [(-1, [], 5)],
      [(-1, [], 8)],
      [],
      [],
      [],
      [],
      []] }

/-- int2e_spv1vsp2: src/autocode/dkb.c:603-666 (`CINTgout2e_int2e_spv1vsp2`) and 671 ff -/
def int2e_spv1vsp2 : Gen2e where
  ng := ⟨1, 0, 0, 1, 0⟩
  gbits := 2
  nComp := 16
  prog := {
    steps := [⟨.d, 3, 1, 0, ![1, 0, 0, 0]⟩,
      ⟨.d, 0, 2, 0, ![0, 0, 0, 0]⟩,
      ⟨.d, 0, 3, 1, ![0, 0, 0, 0]⟩]
    prods := [(3, 0, 0), (2, 1, 0), (2, 0, 1), (1, 2, 0), (0, 3, 0), (0, 2, 1), (1, 0, 2), (0, 1, 2), (0, 0, 3)]
    comps := [[(-1, [], 0)],
      [(-1, [], 3)],
      [(-1, [], 6)],
      [],
      [(-1, [], 1)],
      [(-1, [], 4)],
      [(-1, [], 7)],
      [],
      [(-1, [], 2)],
      [(-1, [], 5)],
      [(-1, [], 8)],
      [],
      [],
      [],
      [],
      []] }

/-- int2e_vsp1vsp2: src/autocode/dkb.c:699-762 (`CINTgout2e_int2e_vsp1vsp2`) and 767 ff -/
def int2e_vsp1vsp2 : Gen2e where
  ng := ⟨0, 1, 0, 1, 0⟩
  gbits := 2
  nComp := 16
  prog := {
    steps := [⟨.d, 3, 1, 0, ![0, 1, 0, 0]⟩,
      ⟨.d, 1, 2, 0, ![0, 0, 0, 0]⟩,
      ⟨.d, 1, 3, 1, ![0, 0, 0, 0]⟩]
    prods := [(3, 0, 0), (2, 1, 0), (2, 0, 1), (1, 2, 0), (0, 3, 0), (0, 2, 1), (1, 0, 2), (0, 1, 2), (0, 0, 3)]
    comps := [[(1, [], 0)],
      [(1, [], 3)],
      [(1, [], 6)],
      [],
      [(1, [], 1)],
      [(1, [], 4)],
      [(1, [], 7)],
      [],
      [(1, [], 2)],
      [(1, [], 5)],
      [(1, [], 8)],
      [],
      [],
      [],
      [],
      []] }

/-- int2e_spv1spsp2: src/autocode/dkb.c:795-884 (`CINTgout2e_int2e_spv1spsp2`) and 889 ff -/
def int2e_spv1spsp2 : Gen2e where
  ng := ⟨1, 0, 1, 1, 0⟩
  gbits := 3
  nComp := 16
  prog := {
    steps := [⟨.d, 3, 1, 0, ![1, 0, 1, 0]⟩,
      ⟨.d, 2, 2, 0, ![1, 0, 0, 0]⟩,
      ⟨.d, 2, 3, 1, ![1, 0, 0, 0]⟩,
      ⟨.d, 0, 4, 0, ![0, 0, 0, 0]⟩,
      ⟨.d, 0, 5, 1, ![0, 0, 0, 0]⟩,
      ⟨.d, 0, 6, 2, ![0, 0, 0, 0]⟩,
      ⟨.d, 0, 7, 3, ![0, 0, 0, 0]⟩]
    prods := [(7, 0, 0), (6, 1, 0), (6, 0, 1), (5, 2, 0), (4, 3, 0), (4, 2, 1), (5, 0, 2), (4, 1, 2), (4, 0, 3),
      (3, 4, 0), (2, 5, 0), (2, 4, 1), (1, 6, 0), (0, 7, 0), (0, 6, 1), (1, 4, 2), (0, 5, 2), (0, 4, 3),
      (3, 0, 4), (2, 1, 4), (2, 0, 5), (1, 2, 4), (0, 3, 4), (0, 2, 5), (1, 0, 6), (0, 1, 6), (0, 0, 7)]
    comps := [[(1, [], 5), (-1, [], 7)],
      [(1, [], 14), (-1, [], 16)],
      [(1, [], 23), (-1, [], 25)],
      [],
      [(1, [], 6), (-1, [], 2)],
      [(1, [], 15), (-1, [], 11)],
      [(1, [], 24), (-1, [], 20)],
      [],
      [(1, [], 1), (-1, [], 3)],
      [(1, [], 10), (-1, [], 12)],
      [(1, [], 19), (-1, [], 21)],
      [],
      [(1, [], 0), (1, [], 4), (1, [], 8)],
      [(1, [], 9), (1, [], 13), (1, [], 17)],
      [(1, [], 18), (1, [], 22), (1, [], 26)],
      []] }

/-- int2e_vsp1spsp2: src/autocode/dkb.c:917-1006 (`CINTgout2e_int2e_vsp1spsp2`) and 1011 ff -/
def int2e_vsp1spsp2 : Gen2e where
  ng := ⟨0, 1, 1, 1, 0⟩
  gbits := 3
  nComp := 16
  prog := {
    steps := [⟨.d, 3, 1, 0, ![0, 1, 1, 0]⟩,
      ⟨.d, 2, 2, 0, ![0, 1, 0, 0]⟩,
      ⟨.d, 2, 3, 1, ![0, 1, 0, 0]⟩,
      ⟨.d, 1, 4, 0, ![0, 0, 0, 0]⟩,
      ⟨.d, 1, 5, 1, ![0, 0, 0, 0]⟩,
      ⟨.d, 1, 6, 2, ![0, 0, 0, 0]⟩,
      ⟨.d, 1, 7, 3, ![0, 0, 0, 0]⟩]
    prods := [(7, 0, 0), (6, 1, 0), (6, 0, 1), (5, 2, 0), (4, 3, 0), (4, 2, 1), (5, 0, 2), (4, 1, 2), (4, 0, 3),
      (3, 4, 0), (2, 5, 0), (2, 4, 1), (1, 6, 0), (0, 7, 0), (0, 6, 1), (1, 4, 2), (0, 5, 2), (0, 4, 3),
      (3, 0, 4), (2, 1, 4), (2, 0, 5), (1, 2, 4), (0, 3, 4), (0, 2, 5), (1, 0, 6), (0, 1, 6), (0, 0, 7)]
    comps := [[(-1, [], 5), (1, [], 7)],
      [(-1, [], 14), (1, [], 16)],
      [(-1, [], 23), (1, [], 25)],
      [],
      [(-1, [], 6), (1, [], 2)],
      [(-1, [], 15), (1, [], 11)],
      [(-1, [], 24), (1, [], 20)],
      [],
      [(-1, [], 1), (1, [], 3)],
      [(-1, [], 10), (1, [], 12)],
      [(-1, [], 19), (1, [], 21)],
      [],
      [(-1, [], 0), (-1, [], 4), (-1, [], 8)],
      [(-1, [], 9), (-1, [], 13), (-1, [], 17)],
      [(-1, [], 18), (-1, [], 22), (-1, [], 26)],
      []] }

/-- int2e_ssp1ssp2: src/autocode/gaunt1.c:19-82 (`CINTgout2e_int2e_ssp1ssp2`) and 87 ff -/
def int2e_ssp1ssp2 : Gen2e where
  ng := ⟨0, 1, 0, 1, 0⟩
  gbits := 2
  nComp := 16
  num := -1
  den := 1
  prog := {
    steps := [⟨.d, 3, 1, 0, ![0, 1, 0, 0]⟩,
      ⟨.d, 1, 2, 0, ![0, 0, 0, 0]⟩,
      ⟨.d, 1, 3, 1, ![0, 0, 0, 0]⟩]
    prods := [(3, 0, 0), (2, 1, 0), (2, 0, 1), (1, 2, 0), (0, 3, 0), (0, 2, 1), (1, 0, 2), (0, 1, 2), (0, 0, 3)]
    comps := [[(1, [], 8), (1, [], 4)],
      [(-1, [], 1)],
      [(-1, [], 2)],
      [(1, [], 5), (-1, [], 7)],
      [(-1, [], 3)],
      [(1, [], 8), (1, [], 0)],
      [(-1, [], 5)],
      [(-1, [], 2), (1, [], 6)],
      [(-1, [], 6)],
      [(-1, [], 7)],
      [(1, [], 4), (1, [], 0)],
      [(1, [], 1), (-1, [], 3)],
      [(1, [], 7), (-1, [], 5)],
      [(-1, [], 6), (1, [], 2)],
      [(1, [], 3), (-1, [], 1)],
      [(1, [], 0), (1, [], 4), (1, [], 8)]] }

/-- int2e_ssp1sps2: src/autocode/gaunt1.c:117-180 (`CINTgout2e_int2e_ssp1sps2`) and 185 ff -/
def int2e_ssp1sps2 : Gen2e where
  ng := ⟨0, 1, 1, 0, 0⟩
  gbits := 2
  nComp := 16
  num := -1
  den := 1
  prog := {
    steps := [⟨.d, 2, 1, 0, ![0, 1, 0, 0]⟩,
      ⟨.d, 1, 2, 0, ![0, 0, 0, 0]⟩,
      ⟨.d, 1, 3, 1, ![0, 0, 0, 0]⟩]
    prods := [(3, 0, 0), (2, 1, 0), (2, 0, 1), (1, 2, 0), (0, 3, 0), (0, 2, 1), (1, 0, 2), (0, 1, 2), (0, 0, 3)]
    comps := [[(1, [], 8), (1, [], 4)],
      [(-1, [], 1)],
      [(-1, [], 2)],
      [(1, [], 5), (-1, [], 7)],
      [(-1, [], 3)],
      [(1, [], 8), (1, [], 0)],
      [(-1, [], 5)],
      [(-1, [], 2), (1, [], 6)],
      [(-1, [], 6)],
      [(-1, [], 7)],
      [(1, [], 4), (1, [], 0)],
      [(1, [], 1), (-1, [], 3)],
      [(-1, [], 7), (1, [], 5)],
      [(1, [], 6), (-1, [], 2)],
      [(-1, [], 3), (1, [], 1)],
      [(-1, [], 0), (-1, [], 4), (-1, [], 8)]] }

/-- int2e_sps1ssp2: src/autocode/gaunt1.c:215-278 (`CINTgout2e_int2e_sps1ssp2`) and 283 ff -/
def int2e_sps1ssp2 : Gen2e where
  ng := ⟨1, 0, 0, 1, 0⟩
  gbits := 2
  nComp := 16
  num := -1
  den := 1
  prog := {
    steps := [⟨.d, 3, 1, 0, ![1, 0, 0, 0]⟩,
      ⟨.d, 0, 2, 0, ![0, 0, 0, 0]⟩,
      ⟨.d, 0, 3, 1, ![0, 0, 0, 0]⟩]
    prods := [(3, 0, 0), (2, 1, 0), (2, 0, 1), (1, 2, 0), (0, 3, 0), (0, 2, 1), (1, 0, 2), (0, 1, 2), (0, 0, 3)]
    comps := [[(1, [], 8), (1, [], 4)],
      [(-1, [], 1)],
      [(-1, [], 2)],
      [(-1, [], 5), (1, [], 7)],
      [(-1, [], 3)],
      [(1, [], 8), (1, [], 0)],
      [(-1, [], 5)],
      [(1, [], 2), (-1, [], 6)],
      [(-1, [], 6)],
      [(-1, [], 7)],
      [(1, [], 4), (1, [], 0)],
      [(-1, [], 1), (1, [], 3)],
      [(1, [], 7), (-1, [], 5)],
      [(-1, [], 6), (1, [], 2)],
      [(1, [], 3), (-1, [], 1)],
      [(-1, [], 0), (-1, [], 4), (-1, [], 8)]] }

/-- int2e_sps1sps2: src/autocode/gaunt1.c:313-376 (`CINTgout2e_int2e_sps1sps2`) and 381 ff -/
def int2e_sps1sps2 : Gen2e where
  ng := ⟨1, 0, 1, 0, 0⟩
  gbits := 2
  nComp := 16
  num := -1
  den := 1
  prog := {
    steps := [⟨.d, 2, 1, 0, ![1, 0, 0, 0]⟩,
      ⟨.d, 0, 2, 0, ![0, 0, 0, 0]⟩,
      ⟨.d, 0, 3, 1, ![0, 0, 0, 0]⟩]
    prods := [(3, 0, 0), (2, 1, 0), (2, 0, 1), (1, 2, 0), (0, 3, 0), (0, 2, 1), (1, 0, 2), (0, 1, 2), (0, 0, 3)]
    comps := [[(1, [], 8), (1, [], 4)],
      [(-1, [], 1)],
      [(-1, [], 2)],
      [(-1, [], 5), (1, [], 7)],
      [(-1, [], 3)],
      [(1, [], 8), (1, [], 0)],
      [(-1, [], 5)],
      [(1, [], 2), (-1, [], 6)],
      [(-1, [], 6)],
      [(-1, [], 7)],
      [(1, [], 4), (1, [], 0)],
      [(-1, [], 1), (1, [], 3)],
      [(-1, [], 7), (1, [], 5)],
      [(1, [], 6), (-1, [], 2)],
      [(-1, [], 3), (1, [], 1)],
      [(1, [], 0), (1, [], 4), (1, [], 8)]] }

/-- int2e_cg_ssa10ssp2: src/autocode/gaunt1.c:411-542 (`CINTgout2e_int2e_cg_ssa10ssp2`) and 547 ff -/
def int2e_cg_ssa10ssp2 : Gen2e where
  ng := ⟨1, 0, 0, 1, 0⟩
  gbits := 2
  nComp := 48
  prog := {
    steps := [⟨.d, 3, 1, 0, ![1, 0, 0, 0]⟩,
      ⟨.xc, 0, 2, 0, ![0, 0, 0, 0]⟩,
      ⟨.xc, 0, 3, 1, ![0, 0, 0, 0]⟩]
    prods := [(3, 0, 0), (2, 1, 0), (2, 0, 1), (1, 2, 0), (0, 3, 0), (0, 2, 1), (1, 0, 2), (0, 1, 2), (0, 0, 3)]
    comps := [[(1, [], 5), (-1, [], 7)],
      [],
      [],
      [(1, [], 8), (1, [], 4)],
      [(1, [], 6)],
      [(1, [], 5)],
      [(1, [], 8)],
      [(-1, [], 3)],
      [(-1, [], 3)],
      [(-1, [], 4)],
      [(-1, [], 7)],
      [(-1, [], 6)],
      [(1, [], 4), (1, [], 8)],
      [(-1, [], 3)],
      [(-1, [], 6)],
      [(1, [], 7), (-1, [], 5)],
      [(-1, [], 2)],
      [(-1, [], 7)],
      [(-1, [], 8)],
      [(-1, [], 1)],
      [],
      [(-1, [], 2), (1, [], 6)],
      [],
      [(1, [], 8), (1, [], 0)],
      [(1, [], 0)],
      [(1, [], 1)],
      [(1, [], 6)],
      [(-1, [], 7)],
      [(-1, [], 1)],
      [(1, [], 0), (1, [], 8)],
      [(-1, [], 7)],
      [(-1, [], 6), (1, [], 2)],
      [(1, [], 1)],
      [(1, [], 4)],
      [(1, [], 5)],
      [(-1, [], 2)],
      [(-1, [], 0)],
      [(-1, [], 3)],
      [(-1, [], 2)],
      [(-1, [], 5)],
      [],
      [],
      [(1, [], 1), (-1, [], 3)],
      [(1, [], 4), (1, [], 0)],
      [(-1, [], 2)],
      [(-1, [], 5)],
      [(1, [], 0), (1, [], 4)],
      [(1, [], 3), (-1, [], 1)]] }

/-- int2e_giao_ssa10ssp2: src/autocode/gaunt1.c:575-702 (`CINTgout2e_int2e_giao_ssa10ssp2`) and 707 ff -/
def int2e_giao_ssa10ssp2 : Gen2e where
  ng := ⟨1, 0, 0, 1, 0⟩
  gbits := 2
  nComp := 48
  prog := {
    steps := [⟨.d, 3, 1, 0, ![1, 0, 0, 0]⟩,
      ⟨.own, 0, 2, 0, ![0, 0, 0, 0]⟩,
      ⟨.own, 0, 3, 1, ![0, 0, 0, 0]⟩]
    prods := [(3, 0, 0), (2, 1, 0), (2, 0, 1), (1, 2, 0), (0, 3, 0), (0, 2, 1), (1, 0, 2), (0, 1, 2), (0, 0, 3)]
    comps := [[(1, [], 5), (-1, [], 7)],
      [],
      [],
      [(1, [], 8), (1, [], 4)],
      [(1, [], 6)],
      [(1, [], 5)],
      [(1, [], 8)],
      [(-1, [], 3)],
      [(-1, [], 3)],
      [(-1, [], 4)],
      [(-1, [], 7)],
      [(-1, [], 6)],
      [(1, [], 4), (1, [], 8)],
      [(-1, [], 3)],
      [(-1, [], 6)],
      [(1, [], 7), (-1, [], 5)],
      [(-1, [], 2)],
      [(-1, [], 7)],
      [(-1, [], 8)],
      [(-1, [], 1)],
      [],
      [(-1, [], 2), (1, [], 6)],
      [],
      [(1, [], 8), (1, [], 0)],
      [(1, [], 0)],
      [(1, [], 1)],
      [(1, [], 6)],
      [(-1, [], 7)],
      [(-1, [], 1)],
      [(1, [], 0), (1, [], 8)],
      [(-1, [], 7)],
      [(-1, [], 6), (1, [], 2)],
      [(1, [], 1)],
      [(1, [], 4)],
      [(1, [], 5)],
      [(-1, [], 2)],
      [(-1, [], 0)],
      [(-1, [], 3)],
      [(-1, [], 2)],
      [(-1, [], 5)],
      [],
      [],
      [(1, [], 1), (-1, [], 3)],
      [(1, [], 4), (1, [], 0)],
      [(-1, [], 2)],
      [(-1, [], 5)],
      [(1, [], 0), (1, [], 4)],
      [(1, [], 3), (-1, [], 1)]] }

/-- int2e_gssp1ssp2: src/autocode/gaunt1.c:735-896 (`CINTgout2e_int2e_gssp1ssp2`) and 901 ff -/
def int2e_gssp1ssp2 : Gen2e where
  ng := ⟨1, 1, 0, 1, 0⟩
  gbits := 3
  nComp := 48
  num := 1
  den := 2
  prog := {
    steps := [⟨.d, 3, 1, 0, ![1, 1, 0, 0]⟩,
      ⟨.d, 1, 2, 0, ![1, 0, 0, 0]⟩,
      ⟨.d, 1, 3, 1, ![1, 0, 0, 0]⟩,
      ⟨.x0, 0, 4, 0, ![0, 0, 0, 0]⟩,
      ⟨.x0, 0, 5, 1, ![0, 0, 0, 0]⟩,
      ⟨.x0, 0, 6, 2, ![0, 0, 0, 0]⟩,
      ⟨.x0, 0, 7, 3, ![0, 0, 0, 0]⟩]
    prods := [(7, 0, 0), (6, 1, 0), (6, 0, 1), (5, 2, 0), (4, 3, 0), (4, 2, 1), (5, 0, 2), (4, 1, 2), (4, 0, 3),
      (3, 4, 0), (2, 5, 0), (2, 4, 1), (1, 6, 0), (0, 7, 0), (0, 6, 1), (1, 4, 2), (0, 5, 2), (0, 4, 3),
      (3, 0, 4), (2, 1, 4), (2, 0, 5), (1, 2, 4), (0, 3, 4), (0, 2, 5), (1, 0, 6), (0, 1, 6), (0, 0, 7)]
    comps := [[(-1, [1], 26), (1, [2], 17), (-1, [1], 22), (1, [2], 13)],
      [(1, [1], 19), (-1, [2], 10)],
      [(1, [1], 20), (-1, [2], 11)],
      [(-1, [1], 23), (1, [2], 14), (1, [1], 25), (-1, [2], 16)],
      [(1, [1], 21), (-1, [2], 12)],
      [(-1, [1], 26), (1, [2], 17), (-1, [1], 18), (1, [2], 9)],
      [(1, [1], 23), (-1, [2], 14)],
      [(1, [1], 20), (-1, [2], 11), (-1, [1], 24), (1, [2], 15)],
      [(1, [1], 24), (-1, [2], 15)],
      [(1, [1], 25), (-1, [2], 16)],
      [(-1, [1], 22), (1, [2], 13), (-1, [1], 18), (1, [2], 9)],
      [(-1, [1], 19), (1, [2], 10), (1, [1], 21), (-1, [2], 12)],
      [(-1, [1], 25), (1, [2], 16), (1, [1], 23), (-1, [2], 14)],
      [(1, [1], 24), (-1, [2], 15), (-1, [1], 20), (1, [2], 11)],
      [(-1, [1], 21), (1, [2], 12), (1, [1], 19), (-1, [2], 10)],
      [(-1, [1], 18), (1, [2], 9), (-1, [1], 22), (1, [2], 13), (-1, [1], 26), (1, [2], 17)],
      [(-1, [2], 8), (1, [0], 26), (-1, [2], 4), (1, [0], 22)],
      [(1, [2], 1), (-1, [0], 19)],
      [(1, [2], 2), (-1, [0], 20)],
      [(-1, [2], 5), (1, [0], 23), (1, [2], 7), (-1, [0], 25)],
      [(1, [2], 3), (-1, [0], 21)],
      [(-1, [2], 8), (1, [0], 26), (-1, [2], 0), (1, [0], 18)],
      [(1, [2], 5), (-1, [0], 23)],
      [(1, [2], 2), (-1, [0], 20), (-1, [2], 6), (1, [0], 24)],
      [(1, [2], 6), (-1, [0], 24)],
      [(1, [2], 7), (-1, [0], 25)],
      [(-1, [2], 4), (1, [0], 22), (-1, [2], 0), (1, [0], 18)],
      [(-1, [2], 1), (1, [0], 19), (1, [2], 3), (-1, [0], 21)],
      [(-1, [2], 7), (1, [0], 25), (1, [2], 5), (-1, [0], 23)],
      [(1, [2], 6), (-1, [0], 24), (-1, [2], 2), (1, [0], 20)],
      [(-1, [2], 3), (1, [0], 21), (1, [2], 1), (-1, [0], 19)],
      [(-1, [2], 0), (1, [0], 18), (-1, [2], 4), (1, [0], 22), (-1, [2], 8), (1, [0], 26)],
      [(-1, [0], 17), (1, [1], 8), (-1, [0], 13), (1, [1], 4)],
      [(1, [0], 10), (-1, [1], 1)],
      [(1, [0], 11), (-1, [1], 2)],
      [(-1, [0], 14), (1, [1], 5), (1, [0], 16), (-1, [1], 7)],
      [(1, [0], 12), (-1, [1], 3)],
      [(-1, [0], 17), (1, [1], 8), (-1, [0], 9), (1, [1], 0)],
      [(1, [0], 14), (-1, [1], 5)],
      [(1, [0], 11), (-1, [1], 2), (-1, [0], 15), (1, [1], 6)],
      [(1, [0], 15), (-1, [1], 6)],
      [(1, [0], 16), (-1, [1], 7)],
      [(-1, [0], 13), (1, [1], 4), (-1, [0], 9), (1, [1], 0)],
      [(-1, [0], 10), (1, [1], 1), (1, [0], 12), (-1, [1], 3)],
      [(-1, [0], 16), (1, [1], 7), (1, [0], 14), (-1, [1], 5)],
      [(1, [0], 15), (-1, [1], 6), (-1, [0], 11), (1, [1], 2)],
      [(-1, [0], 12), (1, [1], 3), (1, [0], 10), (-1, [1], 1)],
      [(-1, [0], 9), (1, [1], 0), (-1, [0], 13), (1, [1], 4), (-1, [0], 17), (1, [1], 8)]] }

/-- int2e_ip1: src/autocode/grad2.c:19-68 (`CINTgout2e_int2e_ip1`) and 73 ff -/
def int2e_ip1 : Gen2e where
  ng := ⟨1, 0, 0, 0, 0⟩
  gbits := 1
  nComp := 3
  prog := {
    steps := [⟨.d, 0, 1, 0, ![0, 0, 0, 0]⟩]
    prods := [(1, 0, 0), (0, 1, 0), (0, 0, 1)]
    comps := [[(1, [], 0)],
      [(1, [], 1)],
      [(1, [], 2)]] }

/-- int2e_ip2: src/autocode/grad2.c:101-150 (`CINTgout2e_int2e_ip2`) and 155 ff -/
def int2e_ip2 : Gen2e where
  ng := ⟨0, 0, 1, 0, 0⟩
  gbits := 1
  nComp := 3
  prog := {
    steps := [⟨.d, 2, 1, 0, ![0, 0, 0, 0]⟩]
    prods := [(1, 0, 0), (0, 1, 0), (0, 0, 1)]
    comps := [[(1, [], 0)],
      [(1, [], 1)],
      [(1, [], 2)]] }

/-- int2e_ipspsp1: src/autocode/grad2.c:183-264 (`CINTgout2e_int2e_ipspsp1`) and 269 ff -/
def int2e_ipspsp1 : Gen2e where
  ng := ⟨2, 1, 0, 0, 0⟩
  gbits := 3
  nComp := 12
  prog := {
    steps := [⟨.d, 1, 1, 0, ![2, 0, 0, 0]⟩,
      ⟨.d, 0, 2, 0, ![1, 0, 0, 0]⟩,
      ⟨.d, 0, 3, 1, ![1, 0, 0, 0]⟩,
      ⟨.d, 0, 4, 0, ![0, 0, 0, 0]⟩,
      ⟨.d, 0, 5, 1, ![0, 0, 0, 0]⟩,
      ⟨.d, 0, 6, 2, ![0, 0, 0, 0]⟩,
      ⟨.d, 0, 7, 3, ![0, 0, 0, 0]⟩]
    prods := [(7, 0, 0), (6, 1, 0), (6, 0, 1), (5, 2, 0), (4, 3, 0), (4, 2, 1), (5, 0, 2), (4, 1, 2), (4, 0, 3),
      (3, 4, 0), (2, 5, 0), (2, 4, 1), (1, 6, 0), (0, 7, 0), (0, 6, 1), (1, 4, 2), (0, 5, 2), (0, 4, 3),
      (3, 0, 4), (2, 1, 4), (2, 0, 5), (1, 2, 4), (0, 3, 4), (0, 2, 5), (1, 0, 6), (0, 1, 6), (0, 0, 7)]
    comps := [[(1, [], 11), (-1, [], 19)],
      [(1, [], 18), (-1, [], 2)],
      [(1, [], 1), (-1, [], 9)],
      [(1, [], 0), (1, [], 10), (1, [], 20)],
      [(1, [], 14), (-1, [], 22)],
      [(1, [], 21), (-1, [], 5)],
      [(1, [], 4), (-1, [], 12)],
      [(1, [], 3), (1, [], 13), (1, [], 23)],
      [(1, [], 17), (-1, [], 25)],
      [(1, [], 24), (-1, [], 8)],
      [(1, [], 7), (-1, [], 15)],
      [(1, [], 6), (1, [], 16), (1, [], 26)]] }

/-- int2e_ip1spsp2: src/autocode/grad2.c:297-378 (`CINTgout2e_int2e_ip1spsp2`) and 383 ff -/
def int2e_ip1spsp2 : Gen2e where
  ng := ⟨1, 0, 1, 1, 0⟩
  gbits := 3
  nComp := 12
  prog := {
    steps := [⟨.d, 3, 1, 0, ![1, 0, 1, 0]⟩,
      ⟨.d, 2, 2, 0, ![1, 0, 0, 0]⟩,
      ⟨.d, 2, 3, 1, ![1, 0, 0, 0]⟩,
      ⟨.d, 0, 4, 0, ![0, 0, 0, 0]⟩,
      ⟨.d, 0, 5, 1, ![0, 0, 0, 0]⟩,
      ⟨.d, 0, 6, 2, ![0, 0, 0, 0]⟩,
      ⟨.d, 0, 7, 3, ![0, 0, 0, 0]⟩]
    prods := [(7, 0, 0), (6, 1, 0), (6, 0, 1), (5, 2, 0), (4, 3, 0), (4, 2, 1), (5, 0, 2), (4, 1, 2), (4, 0, 3),
      (3, 4, 0), (2, 5, 0), (2, 4, 1), (1, 6, 0), (0, 7, 0), (0, 6, 1), (1, 4, 2), (0, 5, 2), (0, 4, 3),
      (3, 0, 4), (2, 1, 4), (2, 0, 5), (1, 2, 4), (0, 3, 4), (0, 2, 5), (1, 0, 6), (0, 1, 6), (0, 0, 7)]
    comps := [[(1, [], 5), (-1, [], 7)],
      [(1, [], 6), (-1, [], 2)],
      [(1, [], 1), (-1, [], 3)],
      [(1, [], 0), (1, [], 4), (1, [], 8)],
      [(1, [], 14), (-1, [], 16)],
      [(1, [], 15), (-1, [], 11)],
      [(1, [], 10), (-1, [], 12)],
      [(1, [], 9), (1, [], 13), (1, [], 17)],
      [(1, [], 23), (-1, [], 25)],
      [(1, [], 24), (-1, [], 20)],
      [(1, [], 19), (-1, [], 21)],
      [(1, [], 18), (1, [], 22), (1, [], 26)]] }

/-- int2e_ipspsp1spsp2: src/autocode/grad2.c:411-828 (`CINTgout2e_int2e_ipspsp1spsp2`) and 833 ff -/
def int2e_ipspsp1spsp2 : Gen2e where
  ng := ⟨2, 1, 1, 1, 0⟩
  gbits := 5
  nComp := 48
  prog := {
    steps := [⟨.d, 3, 1, 0, ![2, 1, 1, 0]⟩,
      ⟨.d, 2, 2, 0, ![2, 1, 0, 0]⟩,
      ⟨.d, 2, 3, 1, ![2, 1, 0, 0]⟩,
      ⟨.d, 1, 4, 0, ![2, 0, 0, 0]⟩,
      ⟨.d, 1, 5, 1, ![2, 0, 0, 0]⟩,
      ⟨.d, 1, 6, 2, ![2, 0, 0, 0]⟩,
      ⟨.d, 1, 7, 3, ![2, 0, 0, 0]⟩,
      ⟨.d, 0, 8, 0, ![1, 0, 0, 0]⟩,
      ⟨.d, 0, 9, 1, ![1, 0, 0, 0]⟩,
      ⟨.d, 0, 10, 2, ![1, 0, 0, 0]⟩,
      ⟨.d, 0, 11, 3, ![1, 0, 0, 0]⟩,
      ⟨.d, 0, 12, 4, ![1, 0, 0, 0]⟩,
      ⟨.d, 0, 13, 5, ![1, 0, 0, 0]⟩,
      ⟨.d, 0, 14, 6, ![1, 0, 0, 0]⟩,
      ⟨.d, 0, 15, 7, ![1, 0, 0, 0]⟩,
      ⟨.d, 0, 16, 0, ![0, 0, 0, 0]⟩,
      ⟨.d, 0, 17, 1, ![0, 0, 0, 0]⟩,
      ⟨.d, 0, 18, 2, ![0, 0, 0, 0]⟩,
      ⟨.d, 0, 19, 3, ![0, 0, 0, 0]⟩,
      ⟨.d, 0, 20, 4, ![0, 0, 0, 0]⟩,
      ⟨.d, 0, 21, 5, ![0, 0, 0, 0]⟩,
      ⟨.d, 0, 22, 6, ![0, 0, 0, 0]⟩,
      ⟨.d, 0, 23, 7, ![0, 0, 0, 0]⟩,
      ⟨.d, 0, 24, 8, ![0, 0, 0, 0]⟩,
      ⟨.d, 0, 25, 9, ![0, 0, 0, 0]⟩,
      ⟨.d, 0, 26, 10, ![0, 0, 0, 0]⟩,
      ⟨.d, 0, 27, 11, ![0, 0, 0, 0]⟩,
      ⟨.d, 0, 28, 12, ![0, 0, 0, 0]⟩,
      ⟨.d, 0, 29, 13, ![0, 0, 0, 0]⟩,
      ⟨.d, 0, 30, 14, ![0, 0, 0, 0]⟩,
      ⟨.d, 0, 31, 15, ![0, 0, 0, 0]⟩]
    prods := [(31, 0, 0), (30, 1, 0), (30, 0, 1), (29, 2, 0), (28, 3, 0), (28, 2, 1), (29, 0, 2), (28, 1, 2), (28, 0, 3),
      (27, 4, 0), (26, 5, 0), (26, 4, 1), (25, 6, 0), (24, 7, 0), (24, 6, 1), (25, 4, 2), (24, 5, 2), (24, 4, 3),
      (27, 0, 4), (26, 1, 4), (26, 0, 5), (25, 2, 4), (24, 3, 4), (24, 2, 5), (25, 0, 6), (24, 1, 6), (24, 0, 7),
      (23, 8, 0), (22, 9, 0), (22, 8, 1), (21, 10, 0), (20, 11, 0), (20, 10, 1), (21, 8, 2), (20, 9, 2), (20, 8, 3),
      (19, 12, 0), (18, 13, 0), (18, 12, 1), (17, 14, 0), (16, 15, 0), (16, 14, 1), (17, 12, 2), (16, 13, 2), (16, 12, 3),
      (19, 8, 4), (18, 9, 4), (18, 8, 5), (17, 10, 4), (16, 11, 4), (16, 10, 5), (17, 8, 6), (16, 9, 6), (16, 8, 7),
      (23, 0, 8), (22, 1, 8), (22, 0, 9), (21, 2, 8), (20, 3, 8), (20, 2, 9), (21, 0, 10), (20, 1, 10), (20, 0, 11),
      (19, 4, 8), (18, 5, 8), (18, 4, 9), (17, 6, 8), (16, 7, 8), (16, 6, 9), (17, 4, 10), (16, 5, 10), (16, 4, 11),
      (19, 0, 12), (18, 1, 12), (18, 0, 13), (17, 2, 12), (16, 3, 12), (16, 2, 13), (17, 0, 14), (16, 1, 14), (16, 0, 15),
      (15, 16, 0), (14, 17, 0), (14, 16, 1), (13, 18, 0), (12, 19, 0), (12, 18, 1), (13, 16, 2), (12, 17, 2), (12, 16, 3),
      (11, 20, 0), (10, 21, 0), (10, 20, 1), (9, 22, 0), (8, 23, 0), (8, 22, 1), (9, 20, 2), (8, 21, 2), (8, 20, 3),
      (11, 16, 4), (10, 17, 4), (10, 16, 5), (9, 18, 4), (8, 19, 4), (8, 18, 5), (9, 16, 6), (8, 17, 6), (8, 16, 7),
      (7, 24, 0), (6, 25, 0), (6, 24, 1), (5, 26, 0), (4, 27, 0), (4, 26, 1), (5, 24, 2), (4, 25, 2), (4, 24, 3),
      (3, 28, 0), (2, 29, 0), (2, 28, 1), (1, 30, 0), (0, 31, 0), (0, 30, 1), (1, 28, 2), (0, 29, 2), (0, 28, 3),
      (3, 24, 4), (2, 25, 4), (2, 24, 5), (1, 26, 4), (0, 27, 4), (0, 26, 5), (1, 24, 6), (0, 25, 6), (0, 24, 7),
      (7, 16, 8), (6, 17, 8), (6, 16, 9), (5, 18, 8), (4, 19, 8), (4, 18, 9), (5, 16, 10), (4, 17, 10), (4, 16, 11),
      (3, 20, 8), (2, 21, 8), (2, 20, 9), (1, 22, 8), (0, 23, 8), (0, 22, 9), (1, 20, 10), (0, 21, 10), (0, 20, 11),
      (3, 16, 12), (2, 17, 12), (2, 16, 13), (1, 18, 12), (0, 19, 12), (0, 18, 13), (1, 16, 14), (0, 17, 14), (0, 16, 15),
      (15, 0, 16), (14, 1, 16), (14, 0, 17), (13, 2, 16), (12, 3, 16), (12, 2, 17), (13, 0, 18), (12, 1, 18), (12, 0, 19),
      (11, 4, 16), (10, 5, 16), (10, 4, 17), (9, 6, 16), (8, 7, 16), (8, 6, 17), (9, 4, 18), (8, 5, 18), (8, 4, 19),
      (11, 0, 20), (10, 1, 20), (10, 0, 21), (9, 2, 20), (8, 3, 20), (8, 2, 21), (9, 0, 22), (8, 1, 22), (8, 0, 23),
      (7, 8, 16), (6, 9, 16), (6, 8, 17), (5, 10, 16), (4, 11, 16), (4, 10, 17), (5, 8, 18), (4, 9, 18), (4, 8, 19),
      (3, 12, 16), (2, 13, 16), (2, 12, 17), (1, 14, 16), (0, 15, 16), (0, 14, 17), (1, 12, 18), (0, 13, 18), (0, 12, 19),
      (3, 8, 20), (2, 9, 20), (2, 8, 21), (1, 10, 20), (0, 11, 20), (0, 10, 21), (1, 8, 22), (0, 9, 22), (0, 8, 23),
      (7, 0, 24), (6, 1, 24), (6, 0, 25), (5, 2, 24), (4, 3, 24), (4, 2, 25), (5, 0, 26), (4, 1, 26), (4, 0, 27),
      (3, 4, 24), (2, 5, 24), (2, 4, 25), (1, 6, 24), (0, 7, 24), (0, 6, 25), (1, 4, 26), (0, 5, 26), (0, 4, 27),
      (3, 0, 28), (2, 1, 28), (2, 0, 29), (1, 2, 28), (0, 3, 28), (0, 2, 29), (1, 0, 30), (0, 1, 30), (0, 0, 31)]
    comps := [[(1, [], 104), (-1, [], 176), (-1, [], 106), (1, [], 178)],
      [(1, [], 167), (-1, [], 23), (-1, [], 169), (1, [], 25)],
      [(1, [], 14), (-1, [], 86), (-1, [], 16), (1, [], 88)],
      [(1, [], 5), (1, [], 95), (1, [], 185), (-1, [], 7), (-1, [], 97), (-1, [], 187)],
      [(1, [], 105), (-1, [], 177), (-1, [], 101), (1, [], 173)],
      [(1, [], 168), (-1, [], 24), (-1, [], 164), (1, [], 20)],
      [(1, [], 15), (-1, [], 87), (-1, [], 11), (1, [], 83)],
      [(1, [], 6), (1, [], 96), (1, [], 186), (-1, [], 2), (-1, [], 92), (-1, [], 182)],
      [(1, [], 100), (-1, [], 172), (-1, [], 102), (1, [], 174)],
      [(1, [], 163), (-1, [], 19), (-1, [], 165), (1, [], 21)],
      [(1, [], 10), (-1, [], 82), (-1, [], 12), (1, [], 84)],
      [(1, [], 1), (1, [], 91), (1, [], 181), (-1, [], 3), (-1, [], 93), (-1, [], 183)],
      [(1, [], 99), (-1, [], 171), (1, [], 103), (-1, [], 175), (1, [], 107), (-1, [], 179)],
      [(1, [], 162), (-1, [], 18), (1, [], 166), (-1, [], 22), (1, [], 170), (-1, [], 26)],
      [(1, [], 9), (-1, [], 81), (1, [], 13), (-1, [], 85), (1, [], 17), (-1, [], 89)],
      [(1, [], 0), (1, [], 90), (1, [], 180), (1, [], 4), (1, [], 94), (1, [], 184), (1, [], 8), (1, [], 98), (1, [], 188)],
      [(1, [], 131), (-1, [], 203), (-1, [], 133), (1, [], 205)],
      [(1, [], 194), (-1, [], 50), (-1, [], 196), (1, [], 52)],
      [(1, [], 41), (-1, [], 113), (-1, [], 43), (1, [], 115)],
      [(1, [], 32), (1, [], 122), (1, [], 212), (-1, [], 34), (-1, [], 124), (-1, [], 214)],
      [(1, [], 132), (-1, [], 204), (-1, [], 128), (1, [], 200)],
      [(1, [], 195), (-1, [], 51), (-1, [], 191), (1, [], 47)],
      [(1, [], 42), (-1, [], 114), (-1, [], 38), (1, [], 110)],
      [(1, [], 33), (1, [], 123), (1, [], 213), (-1, [], 29), (-1, [], 119), (-1, [], 209)],
      [(1, [], 127), (-1, [], 199), (-1, [], 129), (1, [], 201)],
      [(1, [], 190), (-1, [], 46), (-1, [], 192), (1, [], 48)],
      [(1, [], 37), (-1, [], 109), (-1, [], 39), (1, [], 111)],
      [(1, [], 28), (1, [], 118), (1, [], 208), (-1, [], 30), (-1, [], 120), (-1, [], 210)],
      [(1, [], 126), (-1, [], 198), (1, [], 130), (-1, [], 202), (1, [], 134), (-1, [], 206)],
      [(1, [], 189), (-1, [], 45), (1, [], 193), (-1, [], 49), (1, [], 197), (-1, [], 53)],
      [(1, [], 36), (-1, [], 108), (1, [], 40), (-1, [], 112), (1, [], 44), (-1, [], 116)],
      [(1, [], 27), (1, [], 117), (1, [], 207), (1, [], 31), (1, [], 121), (1, [], 211), (1, [], 35), (1, [], 125), (1, [], 215)],
      [(1, [], 158), (-1, [], 230), (-1, [], 160), (1, [], 232)],
      [(1, [], 221), (-1, [], 77), (-1, [], 223), (1, [], 79)],
      [(1, [], 68), (-1, [], 140), (-1, [], 70), (1, [], 142)],
      [(1, [], 59), (1, [], 149), (1, [], 239), (-1, [], 61), (-1, [], 151), (-1, [], 241)],
      [(1, [], 159), (-1, [], 231), (-1, [], 155), (1, [], 227)],
      [(1, [], 222), (-1, [], 78), (-1, [], 218), (1, [], 74)],
      [(1, [], 69), (-1, [], 141), (-1, [], 65), (1, [], 137)],
      [(1, [], 60), (1, [], 150), (1, [], 240), (-1, [], 56), (-1, [], 146), (-1, [], 236)],
      [(1, [], 154), (-1, [], 226), (-1, [], 156), (1, [], 228)],
      [(1, [], 217), (-1, [], 73), (-1, [], 219), (1, [], 75)],
      [(1, [], 64), (-1, [], 136), (-1, [], 66), (1, [], 138)],
      [(1, [], 55), (1, [], 145), (1, [], 235), (-1, [], 57), (-1, [], 147), (-1, [], 237)],
      [(1, [], 153), (-1, [], 225), (1, [], 157), (-1, [], 229), (1, [], 161), (-1, [], 233)],
      [(1, [], 216), (-1, [], 72), (1, [], 220), (-1, [], 76), (1, [], 224), (-1, [], 80)],
      [(1, [], 63), (-1, [], 135), (1, [], 67), (-1, [], 139), (1, [], 71), (-1, [], 143)],
      [(1, [], 54), (1, [], 144), (1, [], 234), (1, [], 58), (1, [], 148), (1, [], 238), (1, [], 62), (1, [], 152), (1, [], 242)]] }

/-- int2e_ipsrsr1: src/autocode/grad2.c:861-942 (`CINTgout2e_int2e_ipsrsr1`) and 947 ff -/
def int2e_ipsrsr1 : Gen2e where
  ng := ⟨2, 1, 0, 0, 0⟩
  gbits := 3
  nComp := 12
  prog := {
    steps := [⟨.own, 1, 1, 0, ![2, 0, 0, 0]⟩,
      ⟨.d, 0, 2, 0, ![1, 0, 0, 0]⟩,
      ⟨.d, 0, 3, 1, ![1, 0, 0, 0]⟩,
      ⟨.own, 0, 4, 0, ![0, 0, 0, 0]⟩,
      ⟨.own, 0, 5, 1, ![0, 0, 0, 0]⟩,
      ⟨.own, 0, 6, 2, ![0, 0, 0, 0]⟩,
      ⟨.own, 0, 7, 3, ![0, 0, 0, 0]⟩]
    prods := [(7, 0, 0), (6, 1, 0), (6, 0, 1), (5, 2, 0), (4, 3, 0), (4, 2, 1), (5, 0, 2), (4, 1, 2), (4, 0, 3),
      (3, 4, 0), (2, 5, 0), (2, 4, 1), (1, 6, 0), (0, 7, 0), (0, 6, 1), (1, 4, 2), (0, 5, 2), (0, 4, 3),
      (3, 0, 4), (2, 1, 4), (2, 0, 5), (1, 2, 4), (0, 3, 4), (0, 2, 5), (1, 0, 6), (0, 1, 6), (0, 0, 7)]
    comps := [[(1, [], 11), (-1, [], 19)],
      [(1, [], 18), (-1, [], 2)],
      [(1, [], 1), (-1, [], 9)],
      [(1, [], 0), (1, [], 10), (1, [], 20)],
      [(1, [], 14), (-1, [], 22)],
      [(1, [], 21), (-1, [], 5)],
      [(1, [], 4), (-1, [], 12)],
      [(1, [], 3), (1, [], 13), (1, [], 23)],
      [(1, [], 17), (-1, [], 25)],
      [(1, [], 24), (-1, [], 8)],
      [(1, [], 7), (-1, [], 15)],
      [(1, [], 6), (1, [], 16), (1, [], 26)]] }

/-- int2e_ip1srsr2: src/autocode/grad2.c:975-1056 (`CINTgout2e_int2e_ip1srsr2`) and 1061 ff -/
def int2e_ip1srsr2 : Gen2e where
  ng := ⟨1, 0, 1, 1, 0⟩
  gbits := 3
  nComp := 12
  prog := {
    steps := [⟨.own, 3, 1, 0, ![1, 0, 1, 0]⟩,
      ⟨.own, 2, 2, 0, ![1, 0, 0, 0]⟩,
      ⟨.own, 2, 3, 1, ![1, 0, 0, 0]⟩,
      ⟨.d, 0, 4, 0, ![0, 0, 0, 0]⟩,
      ⟨.d, 0, 5, 1, ![0, 0, 0, 0]⟩,
      ⟨.d, 0, 6, 2, ![0, 0, 0, 0]⟩,
      ⟨.d, 0, 7, 3, ![0, 0, 0, 0]⟩]
    prods := [(7, 0, 0), (6, 1, 0), (6, 0, 1), (5, 2, 0), (4, 3, 0), (4, 2, 1), (5, 0, 2), (4, 1, 2), (4, 0, 3),
      (3, 4, 0), (2, 5, 0), (2, 4, 1), (1, 6, 0), (0, 7, 0), (0, 6, 1), (1, 4, 2), (0, 5, 2), (0, 4, 3),
      (3, 0, 4), (2, 1, 4), (2, 0, 5), (1, 2, 4), (0, 3, 4), (0, 2, 5), (1, 0, 6), (0, 1, 6), (0, 0, 7)]
    comps := [[(1, [], 5), (-1, [], 7)],
      [(1, [], 6), (-1, [], 2)],
      [(1, [], 1), (-1, [], 3)],
      [(1, [], 0), (1, [], 4), (1, [], 8)],
      [(1, [], 14), (-1, [], 16)],
      [(1, [], 15), (-1, [], 11)],
      [(1, [], 10), (-1, [], 12)],
      [(1, [], 9), (1, [], 13), (1, [], 17)],
      [(1, [], 23), (-1, [], 25)],
      [(1, [], 24), (-1, [], 20)],
      [(1, [], 19), (-1, [], 21)],
      [(1, [], 18), (1, [], 22), (1, [], 26)]] }

/-- int2e_ipsrsr1srsr2: src/autocode/grad2.c:1089-1506 (`CINTgout2e_int2e_ipsrsr1srsr2`) and 1511 ff -/
def int2e_ipsrsr1srsr2 : Gen2e where
  ng := ⟨2, 1, 1, 1, 0⟩
  gbits := 5
  nComp := 48
  prog := {
    steps := [⟨.own, 3, 1, 0, ![2, 1, 1, 0]⟩,
      ⟨.own, 2, 2, 0, ![2, 1, 0, 0]⟩,
      ⟨.own, 2, 3, 1, ![2, 1, 0, 0]⟩,
      ⟨.own, 1, 4, 0, ![2, 0, 0, 0]⟩,
      ⟨.own, 1, 5, 1, ![2, 0, 0, 0]⟩,
      ⟨.own, 1, 6, 2, ![2, 0, 0, 0]⟩,
      ⟨.own, 1, 7, 3, ![2, 0, 0, 0]⟩,
      ⟨.d, 0, 8, 0, ![1, 0, 0, 0]⟩,
      ⟨.d, 0, 9, 1, ![1, 0, 0, 0]⟩,
      ⟨.d, 0, 10, 2, ![1, 0, 0, 0]⟩,
      ⟨.d, 0, 11, 3, ![1, 0, 0, 0]⟩,
      ⟨.d, 0, 12, 4, ![1, 0, 0, 0]⟩,
      ⟨.d, 0, 13, 5, ![1, 0, 0, 0]⟩,
      ⟨.d, 0, 14, 6, ![1, 0, 0, 0]⟩,
      ⟨.d, 0, 15, 7, ![1, 0, 0, 0]⟩,
      ⟨.own, 0, 16, 0, ![0, 0, 0, 0]⟩,
      ⟨.own, 0, 17, 1, ![0, 0, 0, 0]⟩,
      ⟨.own, 0, 18, 2, ![0, 0, 0, 0]⟩,
      ⟨.own, 0, 19, 3, ![0, 0, 0, 0]⟩,
      ⟨.own, 0, 20, 4, ![0, 0, 0, 0]⟩,
      ⟨.own, 0, 21, 5, ![0, 0, 0, 0]⟩,
      ⟨.own, 0, 22, 6, ![0, 0, 0, 0]⟩,
      ⟨.own, 0, 23, 7, ![0, 0, 0, 0]⟩,
      ⟨.own, 0, 24, 8, ![0, 0, 0, 0]⟩,
      ⟨.own, 0, 25, 9, ![0, 0, 0, 0]⟩,
      ⟨.own, 0, 26, 10, ![0, 0, 0, 0]⟩,
      ⟨.own, 0, 27, 11, ![0, 0, 0, 0]⟩,
      ⟨.own, 0, 28, 12, ![0, 0, 0, 0]⟩,
      ⟨.own, 0, 29, 13, ![0, 0, 0, 0]⟩,
      ⟨.own, 0, 30, 14, ![0, 0, 0, 0]⟩,
      ⟨.own, 0, 31, 15, ![0, 0, 0, 0]⟩]
    prods := [(31, 0, 0), (30, 1, 0), (30, 0, 1), (29, 2, 0), (28, 3, 0), (28, 2, 1), (29, 0, 2), (28, 1, 2), (28, 0, 3),
      (27, 4, 0), (26, 5, 0), (26, 4, 1), (25, 6, 0), (24, 7, 0), (24, 6, 1), (25, 4, 2), (24, 5, 2), (24, 4, 3),
      (27, 0, 4), (26, 1, 4), (26, 0, 5), (25, 2, 4), (24, 3, 4), (24, 2, 5), (25, 0, 6), (24, 1, 6), (24, 0, 7),
      (23, 8, 0), (22, 9, 0), (22, 8, 1), (21, 10, 0), (20, 11, 0), (20, 10, 1), (21, 8, 2), (20, 9, 2), (20, 8, 3),
      (19, 12, 0), (18, 13, 0), (18, 12, 1), (17, 14, 0), (16, 15, 0), (16, 14, 1), (17, 12, 2), (16, 13, 2), (16, 12, 3),
      (19, 8, 4), (18, 9, 4), (18, 8, 5), (17, 10, 4), (16, 11, 4), (16, 10, 5), (17, 8, 6), (16, 9, 6), (16, 8, 7),
      (23, 0, 8), (22, 1, 8), (22, 0, 9), (21, 2, 8), (20, 3, 8), (20, 2, 9), (21, 0, 10), (20, 1, 10), (20, 0, 11),
      (19, 4, 8), (18, 5, 8), (18, 4, 9), (17, 6, 8), (16, 7, 8), (16, 6, 9), (17, 4, 10), (16, 5, 10), (16, 4, 11),
      (19, 0, 12), (18, 1, 12), (18, 0, 13), (17, 2, 12), (16, 3, 12), (16, 2, 13), (17, 0, 14), (16, 1, 14), (16, 0, 15),
      (15, 16, 0), (14, 17, 0), (14, 16, 1), (13, 18, 0), (12, 19, 0), (12, 18, 1), (13, 16, 2), (12, 17, 2), (12, 16, 3),
      (11, 20, 0), (10, 21, 0), (10, 20, 1), (9, 22, 0), (8, 23, 0), (8, 22, 1), (9, 20, 2), (8, 21, 2), (8, 20, 3),
      (11, 16, 4), (10, 17, 4), (10, 16, 5), (9, 18, 4), (8, 19, 4), (8, 18, 5), (9, 16, 6), (8, 17, 6), (8, 16, 7),
      (7, 24, 0), (6, 25, 0), (6, 24, 1), (5, 26, 0), (4, 27, 0), (4, 26, 1), (5, 24, 2), (4, 25, 2), (4, 24, 3),
      (3, 28, 0), (2, 29, 0), (2, 28, 1), (1, 30, 0), (0, 31, 0), (0, 30, 1), (1, 28, 2), (0, 29, 2), (0, 28, 3),
      (3, 24, 4), (2, 25, 4), (2, 24, 5), (1, 26, 4), (0, 27, 4), (0, 26, 5), (1, 24, 6), (0, 25, 6), (0, 24, 7),
      (7, 16, 8), (6, 17, 8), (6, 16, 9), (5, 18, 8), (4, 19, 8), (4, 18, 9), (5, 16, 10), (4, 17, 10), (4, 16, 11),
      (3, 20, 8), (2, 21, 8), (2, 20, 9), (1, 22, 8), (0, 23, 8), (0, 22, 9), (1, 20, 10), (0, 21, 10), (0, 20, 11),
      (3, 16, 12), (2, 17, 12), (2, 16, 13), (1, 18, 12), (0, 19, 12), (0, 18, 13), (1, 16, 14), (0, 17, 14), (0, 16, 15),
      (15, 0, 16), (14, 1, 16), (14, 0, 17), (13, 2, 16), (12, 3, 16), (12, 2, 17), (13, 0, 18), (12, 1, 18), (12, 0, 19),
      (11, 4, 16), (10, 5, 16), (10, 4, 17), (9, 6, 16), (8, 7, 16), (8, 6, 17), (9, 4, 18), (8, 5, 18), (8, 4, 19),
      (11, 0, 20), (10, 1, 20), (10, 0, 21), (9, 2, 20), (8, 3, 20), (8, 2, 21), (9, 0, 22), (8, 1, 22), (8, 0, 23),
      (7, 8, 16), (6, 9, 16), (6, 8, 17), (5, 10, 16), (4, 11, 16), (4, 10, 17), (5, 8, 18), (4, 9, 18), (4, 8, 19),
      (3, 12, 16), (2, 13, 16), (2, 12, 17), (1, 14, 16), (0, 15, 16), (0, 14, 17), (1, 12, 18), (0, 13, 18), (0, 12, 19),
      (3, 8, 20), (2, 9, 20), (2, 8, 21), (1, 10, 20), (0, 11, 20), (0, 10, 21), (1, 8, 22), (0, 9, 22), (0, 8, 23),
      (7, 0, 24), (6, 1, 24), (6, 0, 25), (5, 2, 24), (4, 3, 24), (4, 2, 25), (5, 0, 26), (4, 1, 26), (4, 0, 27),
      (3, 4, 24), (2, 5, 24), (2, 4, 25), (1, 6, 24), (0, 7, 24), (0, 6, 25), (1, 4, 26), (0, 5, 26), (0, 4, 27),
      (3, 0, 28), (2, 1, 28), (2, 0, 29), (1, 2, 28), (0, 3, 28), (0, 2, 29), (1, 0, 30), (0, 1, 30), (0, 0, 31)]
    comps := [[(1, [], 104), (-1, [], 176), (-1, [], 106), (1, [], 178)],
      [(1, [], 167), (-1, [], 23), (-1, [], 169), (1, [], 25)],
      [(1, [], 14), (-1, [], 86), (-1, [], 16), (1, [], 88)],
      [(1, [], 5), (1, [], 95), (1, [], 185), (-1, [], 7), (-1, [], 97), (-1, [], 187)],
      [(1, [], 105), (-1, [], 177), (-1, [], 101), (1, [], 173)],
      [(1, [], 168), (-1, [], 24), (-1, [], 164), (1, [], 20)],
      [(1, [], 15), (-1, [], 87), (-1, [], 11), (1, [], 83)],
      [(1, [], 6), (1, [], 96), (1, [], 186), (-1, [], 2), (-1, [], 92), (-1, [], 182)],
      [(1, [], 100), (-1, [], 172), (-1, [], 102), (1, [], 174)],
      [(1, [], 163), (-1, [], 19), (-1, [], 165), (1, [], 21)],
      [(1, [], 10), (-1, [], 82), (-1, [], 12), (1, [], 84)],
      [(1, [], 1), (1, [], 91), (1, [], 181), (-1, [], 3), (-1, [], 93), (-1, [], 183)],
      [(1, [], 99), (-1, [], 171), (1, [], 103), (-1, [], 175), (1, [], 107), (-1, [], 179)],
      [(1, [], 162), (-1, [], 18), (1, [], 166), (-1, [], 22), (1, [], 170), (-1, [], 26)],
      [(1, [], 9), (-1, [], 81), (1, [], 13), (-1, [], 85), (1, [], 17), (-1, [], 89)],
      [(1, [], 0), (1, [], 90), (1, [], 180), (1, [], 4), (1, [], 94), (1, [], 184), (1, [], 8), (1, [], 98), (1, [], 188)],
      [(1, [], 131), (-1, [], 203), (-1, [], 133), (1, [], 205)],
      [(1, [], 194), (-1, [], 50), (-1, [], 196), (1, [], 52)],
      [(1, [], 41), (-1, [], 113), (-1, [], 43), (1, [], 115)],
      [(1, [], 32), (1, [], 122), (1, [], 212), (-1, [], 34), (-1, [], 124), (-1, [], 214)],
      [(1, [], 132), (-1, [], 204), (-1, [], 128), (1, [], 200)],
      [(1, [], 195), (-1, [], 51), (-1, [], 191), (1, [], 47)],
      [(1, [], 42), (-1, [], 114), (-1, [], 38), (1, [], 110)],
      [(1, [], 33), (1, [], 123), (1, [], 213), (-1, [], 29), (-1, [], 119), (-1, [], 209)],
      [(1, [], 127), (-1, [], 199), (-1, [], 129), (1, [], 201)],
      [(1, [], 190), (-1, [], 46), (-1, [], 192), (1, [], 48)],
      [(1, [], 37), (-1, [], 109), (-1, [], 39), (1, [], 111)],
      [(1, [], 28), (1, [], 118), (1, [], 208), (-1, [], 30), (-1, [], 120), (-1, [], 210)],
      [(1, [], 126), (-1, [], 198), (1, [], 130), (-1, [], 202), (1, [], 134), (-1, [], 206)],
      [(1, [], 189), (-1, [], 45), (1, [], 193), (-1, [], 49), (1, [], 197), (-1, [], 53)],
      [(1, [], 36), (-1, [], 108), (1, [], 40), (-1, [], 112), (1, [], 44), (-1, [], 116)],
      [(1, [], 27), (1, [], 117), (1, [], 207), (1, [], 31), (1, [], 121), (1, [], 211), (1, [], 35), (1, [], 125), (1, [], 215)],
      [(1, [], 158), (-1, [], 230), (-1, [], 160), (1, [], 232)],
      [(1, [], 221), (-1, [], 77), (-1, [], 223), (1, [], 79)],
      [(1, [], 68), (-1, [], 140), (-1, [], 70), (1, [], 142)],
      [(1, [], 59), (1, [], 149), (1, [], 239), (-1, [], 61), (-1, [], 151), (-1, [], 241)],
      [(1, [], 159), (-1, [], 231), (-1, [], 155), (1, [], 227)],
      [(1, [], 222), (-1, [], 78), (-1, [], 218), (1, [], 74)],
      [(1, [], 69), (-1, [], 141), (-1, [], 65), (1, [], 137)],
      [(1, [], 60), (1, [], 150), (1, [], 240), (-1, [], 56), (-1, [], 146), (-1, [], 236)],
      [(1, [], 154), (-1, [], 226), (-1, [], 156), (1, [], 228)],
      [(1, [], 217), (-1, [], 73), (-1, [], 219), (1, [], 75)],
      [(1, [], 64), (-1, [], 136), (-1, [], 66), (1, [], 138)],
      [(1, [], 55), (1, [], 145), (1, [], 235), (-1, [], 57), (-1, [], 147), (-1, [], 237)],
      [(1, [], 153), (-1, [], 225), (1, [], 157), (-1, [], 229), (1, [], 161), (-1, [], 233)],
      [(1, [], 216), (-1, [], 72), (1, [], 220), (-1, [], 76), (1, [], 224), (-1, [], 80)],
      [(1, [], 63), (-1, [], 135), (1, [], 67), (-1, [], 139), (1, [], 71), (-1, [], 143)],
      [(1, [], 54), (1, [], 144), (1, [], 234), (1, [], 58), (1, [], 148), (1, [], 238), (1, [], 62), (1, [], 152), (1, [], 242)]] }

/-- int2e_ipip1: src/autocode/hess.c:1125-1174 (`CINTgout2e_int2e_ipip1`) and 1179 ff -/
def int2e_ipip1 : Gen2e where
  ng := ⟨2, 0, 0, 0, 0⟩
  gbits := 2
  nComp := 9
  prog := {
    steps := [⟨.d, 0, 1, 0, ![1, 0, 0, 0]⟩,
      ⟨.d, 0, 2, 0, ![0, 0, 0, 0]⟩,
      ⟨.d, 0, 3, 1, ![0, 0, 0, 0]⟩]
    prods := [(3, 0, 0), (2, 1, 0), (2, 0, 1), (1, 2, 0), (0, 3, 0), (0, 2, 1), (1, 0, 2), (0, 1, 2), (0, 0, 3)]
    comps := [[(1, [], 0)],
      [(1, [], 3)],
      [(1, [], 6)],
      [(1, [], 1)],
      [(1, [], 4)],
      [(1, [], 7)],
      [(1, [], 2)],
      [(1, [], 5)],
      [(1, [], 8)]] }

/-- int2e_ipvip1: src/autocode/hess.c:1207-1256 (`CINTgout2e_int2e_ipvip1`) and 1261 ff -/
def int2e_ipvip1 : Gen2e where
  ng := ⟨1, 1, 0, 0, 0⟩
  gbits := 2
  nComp := 9
  prog := {
    steps := [⟨.d, 1, 1, 0, ![1, 0, 0, 0]⟩,
      ⟨.d, 0, 2, 0, ![0, 0, 0, 0]⟩,
      ⟨.d, 0, 3, 1, ![0, 0, 0, 0]⟩]
    prods := [(3, 0, 0), (2, 1, 0), (2, 0, 1), (1, 2, 0), (0, 3, 0), (0, 2, 1), (1, 0, 2), (0, 1, 2), (0, 0, 3)]
    comps := [[(1, [], 0)],
      [(1, [], 1)],
      [(1, [], 2)],
      [(1, [], 3)],
      [(1, [], 4)],
      [(1, [], 5)],
      [(1, [], 6)],
      [(1, [], 7)],
      [(1, [], 8)]] }

/-- int2e_ip1ip2: src/autocode/hess.c:1289-1338 (`CINTgout2e_int2e_ip1ip2`) and 1343 ff -/
def int2e_ip1ip2 : Gen2e where
  ng := ⟨1, 0, 1, 0, 0⟩
  gbits := 2
  nComp := 9
  prog := {
    steps := [⟨.d, 2, 1, 0, ![1, 0, 0, 0]⟩,
      ⟨.d, 0, 2, 0, ![0, 0, 0, 0]⟩,
      ⟨.d, 0, 3, 1, ![0, 0, 0, 0]⟩]
    prods := [(3, 0, 0), (2, 1, 0), (2, 0, 1), (1, 2, 0), (0, 3, 0), (0, 2, 1), (1, 0, 2), (0, 1, 2), (0, 0, 3)]
    comps := [[(1, [], 0)],
      [(1, [], 1)],
      [(1, [], 2)],
      [(1, [], 3)],
      [(1, [], 4)],
      [(1, [], 5)],
      [(1, [], 6)],
      [(1, [], 7)],
      [(1, [], 8)]] }

/-- int2e_ipip1ipip2: src/autocode/hess.c:2995-3284 (`CINTgout2e_int2e_ipip1ipip2`) and 3289 ff -/
def int2e_ipip1ipip2 : Gen2e where
  ng := ⟨2, 0, 2, 0, 0⟩
  gbits := 4
  nComp := 81
  prog := {
    steps := [⟨.d, 2, 1, 0, ![2, 0, 1, 0]⟩,
      ⟨.d, 2, 2, 0, ![2, 0, 0, 0]⟩,
      ⟨.d, 2, 3, 1, ![2, 0, 0, 0]⟩,
      ⟨.d, 0, 4, 0, ![1, 0, 0, 0]⟩,
      ⟨.d, 0, 5, 1, ![1, 0, 0, 0]⟩,
      ⟨.d, 0, 6, 2, ![1, 0, 0, 0]⟩,
      ⟨.d, 0, 7, 3, ![1, 0, 0, 0]⟩,
      ⟨.d, 0, 8, 0, ![0, 0, 0, 0]⟩,
      ⟨.d, 0, 9, 1, ![0, 0, 0, 0]⟩,
      ⟨.d, 0, 10, 2, ![0, 0, 0, 0]⟩,
      ⟨.d, 0, 11, 3, ![0, 0, 0, 0]⟩,
      ⟨.d, 0, 12, 4, ![0, 0, 0, 0]⟩,
      ⟨.d, 0, 13, 5, ![0, 0, 0, 0]⟩,
      ⟨.d, 0, 14, 6, ![0, 0, 0, 0]⟩,
      ⟨.d, 0, 15, 7, ![0, 0, 0, 0]⟩]
    prods := [(15, 0, 0), (14, 1, 0), (14, 0, 1), (13, 2, 0), (12, 3, 0), (12, 2, 1), (13, 0, 2), (12, 1, 2), (12, 0, 3),
      (11, 4, 0), (10, 5, 0), (10, 4, 1), (9, 6, 0), (8, 7, 0), (8, 6, 1), (9, 4, 2), (8, 5, 2), (8, 4, 3),
      (11, 0, 4), (10, 1, 4), (10, 0, 5), (9, 2, 4), (8, 3, 4), (8, 2, 5), (9, 0, 6), (8, 1, 6), (8, 0, 7),
      (7, 8, 0), (6, 9, 0), (6, 8, 1), (5, 10, 0), (4, 11, 0), (4, 10, 1), (5, 8, 2), (4, 9, 2), (4, 8, 3),
      (3, 12, 0), (2, 13, 0), (2, 12, 1), (1, 14, 0), (0, 15, 0), (0, 14, 1), (1, 12, 2), (0, 13, 2), (0, 12, 3),
      (3, 8, 4), (2, 9, 4), (2, 8, 5), (1, 10, 4), (0, 11, 4), (0, 10, 5), (1, 8, 6), (0, 9, 6), (0, 8, 7),
      (7, 0, 8), (6, 1, 8), (6, 0, 9), (5, 2, 8), (4, 3, 8), (4, 2, 9), (5, 0, 10), (4, 1, 10), (4, 0, 11),
      (3, 4, 8), (2, 5, 8), (2, 4, 9), (1, 6, 8), (0, 7, 8), (0, 6, 9), (1, 4, 10), (0, 5, 10), (0, 4, 11),
      (3, 0, 12), (2, 1, 12), (2, 0, 13), (1, 2, 12), (0, 3, 12), (0, 2, 13), (1, 0, 14), (0, 1, 14), (0, 0, 15)]
    comps := [[(1, [], 0)],
      [(1, [], 3)],
      [(1, [], 6)],
      [(1, [], 1)],
      [(1, [], 4)],
      [(1, [], 7)],
      [(1, [], 2)],
      [(1, [], 5)],
      [(1, [], 8)],
      [(1, [], 27)],
      [(1, [], 30)],
      [(1, [], 33)],
      [(1, [], 28)],
      [(1, [], 31)],
      [(1, [], 34)],
      [(1, [], 29)],
      [(1, [], 32)],
      [(1, [], 35)],
      [(1, [], 54)],
      [(1, [], 57)],
      [(1, [], 60)],
      [(1, [], 55)],
      [(1, [], 58)],
      [(1, [], 61)],
      [(1, [], 56)],
      [(1, [], 59)],
      [(1, [], 62)],
      [(1, [], 9)],
      [(1, [], 12)],
      [(1, [], 15)],
      [(1, [], 10)],
      [(1, [], 13)],
      [(1, [], 16)],
      [(1, [], 11)],
      [(1, [], 14)],
      [(1, [], 17)],
      [(1, [], 36)],
      [(1, [], 39)],
      [(1, [], 42)],
      [(1, [], 37)],
      [(1, [], 40)],
      [(1, [], 43)],
      [(1, [], 38)],
      [(1, [], 41)],
      [(1, [], 44)],
      [(1, [], 63)],
      [(1, [], 66)],
      [(1, [], 69)],
      [(1, [], 64)],
      [(1, [], 67)],
      [(1, [], 70)],
      [(1, [], 65)],
      [(1, [], 68)],
      [(1, [], 71)],
      [(1, [], 18)],
      [(1, [], 21)],
      [(1, [], 24)],
      [(1, [], 19)],
      [(1, [], 22)],
      [(1, [], 25)],
      [(1, [], 20)],
      [(1, [], 23)],
      [(1, [], 26)],
      [(1, [], 45)],
      [(1, [], 48)],
      [(1, [], 51)],
      [(1, [], 46)],
      [(1, [], 49)],
      [(1, [], 52)],
      [(1, [], 47)],
      [(1, [], 50)],
      [(1, [], 53)],
      [(1, [], 72)],
      [(1, [], 75)],
      [(1, [], 78)],
      [(1, [], 73)],
      [(1, [], 76)],
      [(1, [], 79)],
      [(1, [], 74)],
      [(1, [], 77)],
      [(1, [], 80)]] }

/-- int2e_ipvip1ipvip2: src/autocode/hess.c:3317-3606 (`CINTgout2e_int2e_ipvip1ipvip2`) and 3611 ff -/
def int2e_ipvip1ipvip2 : Gen2e where
  ng := ⟨1, 1, 1, 1, 0⟩
  gbits := 4
  nComp := 81
  prog := {
    steps := [⟨.d, 3, 1, 0, ![1, 1, 1, 0]⟩,
      ⟨.d, 2, 2, 0, ![1, 1, 0, 0]⟩,
      ⟨.d, 2, 3, 1, ![1, 1, 0, 0]⟩,
      ⟨.d, 1, 4, 0, ![1, 0, 0, 0]⟩,
      ⟨.d, 1, 5, 1, ![1, 0, 0, 0]⟩,
      ⟨.d, 1, 6, 2, ![1, 0, 0, 0]⟩,
      ⟨.d, 1, 7, 3, ![1, 0, 0, 0]⟩,
      ⟨.d, 0, 8, 0, ![0, 0, 0, 0]⟩,
      ⟨.d, 0, 9, 1, ![0, 0, 0, 0]⟩,
      ⟨.d, 0, 10, 2, ![0, 0, 0, 0]⟩,
      ⟨.d, 0, 11, 3, ![0, 0, 0, 0]⟩,
      ⟨.d, 0, 12, 4, ![0, 0, 0, 0]⟩,
      ⟨.d, 0, 13, 5, ![0, 0, 0, 0]⟩,
      ⟨.d, 0, 14, 6, ![0, 0, 0, 0]⟩,
      ⟨.d, 0, 15, 7, ![0, 0, 0, 0]⟩]
    prods := [(15, 0, 0), (14, 1, 0), (14, 0, 1), (13, 2, 0), (12, 3, 0), (12, 2, 1), (13, 0, 2), (12, 1, 2), (12, 0, 3),
      (11, 4, 0), (10, 5, 0), (10, 4, 1), (9, 6, 0), (8, 7, 0), (8, 6, 1), (9, 4, 2), (8, 5, 2), (8, 4, 3),
      (11, 0, 4), (10, 1, 4), (10, 0, 5), (9, 2, 4), (8, 3, 4), (8, 2, 5), (9, 0, 6), (8, 1, 6), (8, 0, 7),
      (7, 8, 0), (6, 9, 0), (6, 8, 1), (5, 10, 0), (4, 11, 0), (4, 10, 1), (5, 8, 2), (4, 9, 2), (4, 8, 3),
      (3, 12, 0), (2, 13, 0), (2, 12, 1), (1, 14, 0), (0, 15, 0), (0, 14, 1), (1, 12, 2), (0, 13, 2), (0, 12, 3),
      (3, 8, 4), (2, 9, 4), (2, 8, 5), (1, 10, 4), (0, 11, 4), (0, 10, 5), (1, 8, 6), (0, 9, 6), (0, 8, 7),
      (7, 0, 8), (6, 1, 8), (6, 0, 9), (5, 2, 8), (4, 3, 8), (4, 2, 9), (5, 0, 10), (4, 1, 10), (4, 0, 11),
      (3, 4, 8), (2, 5, 8), (2, 4, 9), (1, 6, 8), (0, 7, 8), (0, 6, 9), (1, 4, 10), (0, 5, 10), (0, 4, 11),
      (3, 0, 12), (2, 1, 12), (2, 0, 13), (1, 2, 12), (0, 3, 12), (0, 2, 13), (1, 0, 14), (0, 1, 14), (0, 0, 15)]
    comps := [[(1, [], 0)],
      [(1, [], 1)],
      [(1, [], 2)],
      [(1, [], 3)],
      [(1, [], 4)],
      [(1, [], 5)],
      [(1, [], 6)],
      [(1, [], 7)],
      [(1, [], 8)],
      [(1, [], 9)],
      [(1, [], 10)],
      [(1, [], 11)],
      [(1, [], 12)],
      [(1, [], 13)],
      [(1, [], 14)],
      [(1, [], 15)],
      [(1, [], 16)],
      [(1, [], 17)],
      [(1, [], 18)],
      [(1, [], 19)],
      [(1, [], 20)],
      [(1, [], 21)],
      [(1, [], 22)],
      [(1, [], 23)],
      [(1, [], 24)],
      [(1, [], 25)],
      [(1, [], 26)],
      [(1, [], 27)],
      [(1, [], 28)],
      [(1, [], 29)],
      [(1, [], 30)],
      [(1, [], 31)],
      [(1, [], 32)],
      [(1, [], 33)],
      [(1, [], 34)],
      [(1, [], 35)],
      [(1, [], 36)],
      [(1, [], 37)],
      [(1, [], 38)],
      [(1, [], 39)],
      [(1, [], 40)],
      [(1, [], 41)],
      [(1, [], 42)],
      [(1, [], 43)],
      [(1, [], 44)],
      [(1, [], 45)],
      [(1, [], 46)],
      [(1, [], 47)],
      [(1, [], 48)],
      [(1, [], 49)],
      [(1, [], 50)],
      [(1, [], 51)],
      [(1, [], 52)],
      [(1, [], 53)],
      [(1, [], 54)],
      [(1, [], 55)],
      [(1, [], 56)],
      [(1, [], 57)],
      [(1, [], 58)],
      [(1, [], 59)],
      [(1, [], 60)],
      [(1, [], 61)],
      [(1, [], 62)],
      [(1, [], 63)],
      [(1, [], 64)],
      [(1, [], 65)],
      [(1, [], 66)],
      [(1, [], 67)],
      [(1, [], 68)],
      [(1, [], 69)],
      [(1, [], 70)],
      [(1, [], 71)],
      [(1, [], 72)],
      [(1, [], 73)],
      [(1, [], 74)],
      [(1, [], 75)],
      [(1, [], 76)],
      [(1, [], 77)],
      [(1, [], 78)],
      [(1, [], 79)],
      [(1, [], 80)]] }

/-- int2e_ig1: src/autocode/intor2.c:19-76 (`CINTgout2e_int2e_ig1`) and 81 ff -/
def int2e_ig1 : Gen2e where
  ng := ⟨1, 0, 0, 0, 0⟩
  gbits := 1
  nComp := 3
  num := 1
  den := 2
  prog := {
    steps := [⟨.x0, 0, 1, 0, ![0, 0, 0, 0]⟩]
    prods := [(1, 0, 0), (0, 1, 0), (0, 0, 1)]
    comps := [[(-1, [1], 2), (1, [2], 1)],
      [(-1, [2], 0), (1, [0], 2)],
      [(-1, [0], 1), (1, [1], 0)]] }

/-- int2e_gg1: src/autocode/intor2.c:148-211 (`CINTgout2e_int2e_gg1`) and 216 ff -/
def int2e_gg1 : Gen2e where
  ng := ⟨2, 0, 0, 0, 0⟩
  gbits := 2
  nComp := 9
  num := 1
  den := 4
  prog := {
    steps := [⟨.x0, 0, 1, 0, ![1, 0, 0, 0]⟩,
      ⟨.x0, 0, 2, 0, ![0, 0, 0, 0]⟩,
      ⟨.x0, 0, 3, 1, ![0, 0, 0, 0]⟩]
    prods := [(3, 0, 0), (2, 1, 0), (2, 0, 1), (1, 2, 0), (0, 3, 0), (0, 2, 1), (1, 0, 2), (0, 1, 2), (0, 0, 3)]
    comps := [[(-1, [1, 1], 8), (2, [1, 2], 7), (-1, [2, 2], 4)],
      [(-1, [2, 1], 2), (1, [0, 1], 8), (1, [2, 2], 1), (-1, [0, 2], 7)],
      [(-1, [0, 1], 5), (1, [1, 1], 2), (1, [0, 2], 4), (-1, [1, 2], 1)],
      [(-1, [1, 2], 6), (1, [2, 2], 3), (1, [1, 0], 8), (-1, [2, 0], 5)],
      [(-1, [2, 2], 0), (2, [2, 0], 2), (-1, [0, 0], 8)],
      [(-1, [0, 2], 3), (1, [1, 2], 0), (1, [0, 0], 5), (-1, [1, 0], 2)],
      [(-1, [1, 0], 7), (1, [2, 0], 4), (1, [1, 1], 6), (-1, [2, 1], 3)],
      [(-1, [2, 0], 1), (1, [0, 0], 7), (1, [2, 1], 0), (-1, [0, 1], 6)],
      [(-1, [0, 0], 4), (2, [0, 1], 3), (-1, [1, 1], 0)]] }

/-- int2e_g1g2: src/autocode/intor2.c:283-350 (`CINTgout2e_int2e_g1g2`) and 355 ff -/
def int2e_g1g2 : Gen2e where
  ng := ⟨1, 0, 1, 0, 0⟩
  gbits := 2
  nComp := 9
  num := -1
  den := 4
  prog := {
    steps := [⟨.x0, 2, 1, 0, ![1, 0, 0, 0]⟩,
      ⟨.x0, 0, 2, 0, ![0, 0, 0, 0]⟩,
      ⟨.x0, 0, 3, 1, ![0, 0, 0, 0]⟩]
    prods := [(3, 0, 0), (2, 1, 0), (2, 0, 1), (1, 2, 0), (0, 3, 0), (0, 2, 1), (1, 0, 2), (0, 1, 2), (0, 0, 3)]
    comps := [[(1, [1, 4], 8), (-1, [2, 4], 5), (-1, [1, 5], 7), (1, [2, 5], 4)],
      [(1, [1, 5], 6), (-1, [2, 5], 3), (-1, [1, 3], 8), (1, [2, 3], 5)],
      [(1, [1, 3], 7), (-1, [2, 3], 4), (-1, [1, 4], 6), (1, [2, 4], 3)],
      [(1, [2, 4], 2), (-1, [0, 4], 8), (-1, [2, 5], 1), (1, [0, 5], 7)],
      [(1, [2, 5], 0), (-1, [0, 5], 6), (-1, [2, 3], 2), (1, [0, 3], 8)],
      [(1, [2, 3], 1), (-1, [0, 3], 7), (-1, [2, 4], 0), (1, [0, 4], 6)],
      [(1, [0, 4], 5), (-1, [1, 4], 2), (-1, [0, 5], 4), (1, [1, 5], 1)],
      [(1, [0, 5], 3), (-1, [1, 5], 0), (-1, [0, 3], 5), (1, [1, 3], 2)],
      [(1, [0, 3], 4), (-1, [1, 3], 1), (-1, [0, 4], 3), (1, [1, 4], 0)]] }

/-- int2e_p1vxp1: src/autocode/intor2.c:452-489 (`CINTgout2e_int2e_p1vxp1`) and 494 ff -/
def int2e_p1vxp1 : Gen2e where
  ng := ⟨1, 1, 0, 0, 0⟩
  gbits := 2
  nComp := 3
  prog := {
    steps := [⟨.d, 1, 1, 0, ![1, 0, 0, 0]⟩,
      ⟨.d, 0, 2, 0, ![0, 0, 0, 0]⟩,
      ⟨.d, 0, 3, 1, ![0, 0, 0, 0]⟩]
    prods := [(3, 0, 0), (2, 1, 0), (2, 0, 1), (1, 2, 0), (0, 3, 0), (0, 2, 1), (1, 0, 2), (0, 1, 2), (0, 0, 3)]
    comps := [[(1, [], 5), (-1, [], 7)],
      [(1, [], 6), (-1, [], 2)],
      [(1, [], 1), (-1, [], 3)]] }

/-- int2e_ip1v_rc1: src/autocode/intor2.c:522-577 (`CINTgout2e_int2e_ip1v_rc1`) and 582 ff -/
def int2e_ip1v_rc1 : Gen2e where
  ng := ⟨1, 2, 0, 0, 0⟩
  gbits := 2
  nComp := 9
  prog := {
    steps := [⟨.xc, 1, 1, 0, ![0, 0, 0, 0]⟩,
      ⟨.d, 1, 2, 0, ![0, 1, 0, 0]⟩,
      ⟨.d, 0, 3, 0, ![0, 1, 0, 0]⟩]
    more := [(⟨2, 3, ![0, 1, 0, 0]⟩, [⟨.xc, 1, 3, 2, ![0, 0, 0, 0]⟩])]
    prods := [(3, 0, 0), (2, 1, 0), (2, 0, 1), (1, 2, 0), (0, 3, 0), (0, 2, 1), (1, 0, 2), (0, 1, 2), (0, 0, 3)]
    comps := [[(1, [], 0)],
      [(1, [], 1)],
      [(1, [], 2)],
      [(1, [], 3)],
      [(1, [], 4)],
      [(1, [], 5)],
      [(1, [], 6)],
      [(1, [], 7)],
      [(1, [], 8)]] }

/-- int2e_ip1v_r1: src/autocode/intor2.c:610-661 (`CINTgout2e_int2e_ip1v_r1`) and 666 ff -/
def int2e_ip1v_r1 : Gen2e where
  ng := ⟨1, 2, 0, 0, 0⟩
  gbits := 2
  nComp := 9
  prog := {
    steps := [⟨.own, 1, 1, 0, ![0, 0, 0, 0]⟩,
      ⟨.d, 1, 2, 0, ![0, 1, 0, 0]⟩,
      ⟨.d, 0, 3, 0, ![0, 1, 0, 0]⟩]
    more := [(⟨2, 3, ![0, 1, 0, 0]⟩, [⟨.own, 1, 3, 2, ![0, 0, 0, 0]⟩])]
    prods := [(3, 0, 0), (2, 1, 0), (2, 0, 1), (1, 2, 0), (0, 3, 0), (0, 2, 1), (1, 0, 2), (0, 1, 2), (0, 0, 3)]
    comps := [[(1, [], 0)],
      [(1, [], 1)],
      [(1, [], 2)],
      [(1, [], 3)],
      [(1, [], 4)],
      [(1, [], 5)],
      [(1, [], 6)],
      [(1, [], 7)],
      [(1, [], 8)]] }

/-- int2e_spsp1: src/autocode/intor4.c:19-58 (`CINTgout2e_int2e_spsp1`) and 63 ff -/
def int2e_spsp1 : Gen2e where
  ng := ⟨1, 1, 0, 0, 0⟩
  gbits := 2
  nComp := 4
  prog := {
    steps := [⟨.d, 1, 1, 0, ![1, 0, 0, 0]⟩,
      ⟨.d, 0, 2, 0, ![0, 0, 0, 0]⟩,
      ⟨.d, 0, 3, 1, ![0, 0, 0, 0]⟩]
    prods := [(3, 0, 0), (2, 1, 0), (2, 0, 1), (1, 2, 0), (0, 3, 0), (0, 2, 1), (1, 0, 2), (0, 1, 2), (0, 0, 3)]
    comps := [[(1, [], 5), (-1, [], 7)],
      [(1, [], 6), (-1, [], 2)],
      [(1, [], 1), (-1, [], 3)],
      [(1, [], 0), (1, [], 4), (1, [], 8)]] }

/-- int2e_spsp1spsp2: src/autocode/intor4.c:91-250 (`CINTgout2e_int2e_spsp1spsp2`) and 255 ff -/
def int2e_spsp1spsp2 : Gen2e where
  ng := ⟨1, 1, 1, 1, 0⟩
  gbits := 4
  nComp := 16
  prog := {
    steps := [⟨.d, 3, 1, 0, ![1, 1, 1, 0]⟩,
      ⟨.d, 2, 2, 0, ![1, 1, 0, 0]⟩,
      ⟨.d, 2, 3, 1, ![1, 1, 0, 0]⟩,
      ⟨.d, 1, 4, 0, ![1, 0, 0, 0]⟩,
      ⟨.d, 1, 5, 1, ![1, 0, 0, 0]⟩,
      ⟨.d, 1, 6, 2, ![1, 0, 0, 0]⟩,
      ⟨.d, 1, 7, 3, ![1, 0, 0, 0]⟩,
      ⟨.d, 0, 8, 0, ![0, 0, 0, 0]⟩,
      ⟨.d, 0, 9, 1, ![0, 0, 0, 0]⟩,
      ⟨.d, 0, 10, 2, ![0, 0, 0, 0]⟩,
      ⟨.d, 0, 11, 3, ![0, 0, 0, 0]⟩,
      ⟨.d, 0, 12, 4, ![0, 0, 0, 0]⟩,
      ⟨.d, 0, 13, 5, ![0, 0, 0, 0]⟩,
      ⟨.d, 0, 14, 6, ![0, 0, 0, 0]⟩,
      ⟨.d, 0, 15, 7, ![0, 0, 0, 0]⟩]
    prods := [(15, 0, 0), (14, 1, 0), (14, 0, 1), (13, 2, 0), (12, 3, 0), (12, 2, 1), (13, 0, 2), (12, 1, 2), (12, 0, 3),
      (11, 4, 0), (10, 5, 0), (10, 4, 1), (9, 6, 0), (8, 7, 0), (8, 6, 1), (9, 4, 2), (8, 5, 2), (8, 4, 3),
      (11, 0, 4), (10, 1, 4), (10, 0, 5), (9, 2, 4), (8, 3, 4), (8, 2, 5), (9, 0, 6), (8, 1, 6), (8, 0, 7),
      (7, 8, 0), (6, 9, 0), (6, 8, 1), (5, 10, 0), (4, 11, 0), (4, 10, 1), (5, 8, 2), (4, 9, 2), (4, 8, 3),
      (3, 12, 0), (2, 13, 0), (2, 12, 1), (1, 14, 0), (0, 15, 0), (0, 14, 1), (1, 12, 2), (0, 13, 2), (0, 12, 3),
      (3, 8, 4), (2, 9, 4), (2, 8, 5), (1, 10, 4), (0, 11, 4), (0, 10, 5), (1, 8, 6), (0, 9, 6), (0, 8, 7),
      (7, 0, 8), (6, 1, 8), (6, 0, 9), (5, 2, 8), (4, 3, 8), (4, 2, 9), (5, 0, 10), (4, 1, 10), (4, 0, 11),
      (3, 4, 8), (2, 5, 8), (2, 4, 9), (1, 6, 8), (0, 7, 8), (0, 6, 9), (1, 4, 10), (0, 5, 10), (0, 4, 11),
      (3, 0, 12), (2, 1, 12), (2, 0, 13), (1, 2, 12), (0, 3, 12), (0, 2, 13), (1, 0, 14), (0, 1, 14), (0, 0, 15)]
    comps := [[(1, [], 50), (-1, [], 68), (-1, [], 52), (1, [], 70)],
      [(1, [], 59), (-1, [], 23), (-1, [], 61), (1, [], 25)],
      [(1, [], 14), (-1, [], 32), (-1, [], 16), (1, [], 34)],
      [(1, [], 5), (1, [], 41), (1, [], 77), (-1, [], 7), (-1, [], 43), (-1, [], 79)],
      [(1, [], 51), (-1, [], 69), (-1, [], 47), (1, [], 65)],
      [(1, [], 60), (-1, [], 24), (-1, [], 56), (1, [], 20)],
      [(1, [], 15), (-1, [], 33), (-1, [], 11), (1, [], 29)],
      [(1, [], 6), (1, [], 42), (1, [], 78), (-1, [], 2), (-1, [], 38), (-1, [], 74)],
      [(1, [], 46), (-1, [], 64), (-1, [], 48), (1, [], 66)],
      [(1, [], 55), (-1, [], 19), (-1, [], 57), (1, [], 21)],
      [(1, [], 10), (-1, [], 28), (-1, [], 12), (1, [], 30)],
      [(1, [], 1), (1, [], 37), (1, [], 73), (-1, [], 3), (-1, [], 39), (-1, [], 75)],
      [(1, [], 45), (-1, [], 63), (1, [], 49), (-1, [], 67), (1, [], 53), (-1, [], 71)],
      [(1, [], 54), (-1, [], 18), (1, [], 58), (-1, [], 22), (1, [], 62), (-1, [], 26)],
      [(1, [], 9), (-1, [], 27), (1, [], 13), (-1, [], 31), (1, [], 17), (-1, [], 35)],
      [(1, [], 0), (1, [], 36), (1, [], 72), (1, [], 4), (1, [], 40), (1, [], 76), (1, [], 8), (1, [], 44), (1, [], 80)]] }

/-- int2e_srsr1: src/autocode/intor4.c:283-322 (`CINTgout2e_int2e_srsr1`) and 327 ff -/
def int2e_srsr1 : Gen2e where
  ng := ⟨1, 1, 0, 0, 0⟩
  gbits := 2
  nComp := 4
  prog := {
    steps := [⟨.own, 1, 1, 0, ![1, 0, 0, 0]⟩,
      ⟨.own, 0, 2, 0, ![0, 0, 0, 0]⟩,
      ⟨.own, 0, 3, 1, ![0, 0, 0, 0]⟩]
    prods := [(3, 0, 0), (2, 1, 0), (2, 0, 1), (1, 2, 0), (0, 3, 0), (0, 2, 1), (1, 0, 2), (0, 1, 2), (0, 0, 3)]
    comps := [[(1, [], 5), (-1, [], 7)],
      [(1, [], 6), (-1, [], 2)],
      [(1, [], 1), (-1, [], 3)],
      [(1, [], 0), (1, [], 4), (1, [], 8)]] }

/-- int2e_srsr1srsr2: src/autocode/intor4.c:355-514 (`CINTgout2e_int2e_srsr1srsr2`) and 519 ff -/
def int2e_srsr1srsr2 : Gen2e where
  ng := ⟨1, 1, 1, 1, 0⟩
  gbits := 4
  nComp := 16
  prog := {
    steps := [⟨.own, 3, 1, 0, ![1, 1, 1, 0]⟩,
      ⟨.own, 2, 2, 0, ![1, 1, 0, 0]⟩,
      ⟨.own, 2, 3, 1, ![1, 1, 0, 0]⟩,
      ⟨.own, 1, 4, 0, ![1, 0, 0, 0]⟩,
      ⟨.own, 1, 5, 1, ![1, 0, 0, 0]⟩,
      ⟨.own, 1, 6, 2, ![1, 0, 0, 0]⟩,
      ⟨.own, 1, 7, 3, ![1, 0, 0, 0]⟩,
      ⟨.own, 0, 8, 0, ![0, 0, 0, 0]⟩,
      ⟨.own, 0, 9, 1, ![0, 0, 0, 0]⟩,
      ⟨.own, 0, 10, 2, ![0, 0, 0, 0]⟩,
      ⟨.own, 0, 11, 3, ![0, 0, 0, 0]⟩,
      ⟨.own, 0, 12, 4, ![0, 0, 0, 0]⟩,
      ⟨.own, 0, 13, 5, ![0, 0, 0, 0]⟩,
      ⟨.own, 0, 14, 6, ![0, 0, 0, 0]⟩,
      ⟨.own, 0, 15, 7, ![0, 0, 0, 0]⟩]
    prods := [(15, 0, 0), (14, 1, 0), (14, 0, 1), (13, 2, 0), (12, 3, 0), (12, 2, 1), (13, 0, 2), (12, 1, 2), (12, 0, 3),
      (11, 4, 0), (10, 5, 0), (10, 4, 1), (9, 6, 0), (8, 7, 0), (8, 6, 1), (9, 4, 2), (8, 5, 2), (8, 4, 3),
      (11, 0, 4), (10, 1, 4), (10, 0, 5), (9, 2, 4), (8, 3, 4), (8, 2, 5), (9, 0, 6), (8, 1, 6), (8, 0, 7),
      (7, 8, 0), (6, 9, 0), (6, 8, 1), (5, 10, 0), (4, 11, 0), (4, 10, 1), (5, 8, 2), (4, 9, 2), (4, 8, 3),
      (3, 12, 0), (2, 13, 0), (2, 12, 1), (1, 14, 0), (0, 15, 0), (0, 14, 1), (1, 12, 2), (0, 13, 2), (0, 12, 3),
      (3, 8, 4), (2, 9, 4), (2, 8, 5), (1, 10, 4), (0, 11, 4), (0, 10, 5), (1, 8, 6), (0, 9, 6), (0, 8, 7),
      (7, 0, 8), (6, 1, 8), (6, 0, 9), (5, 2, 8), (4, 3, 8), (4, 2, 9), (5, 0, 10), (4, 1, 10), (4, 0, 11),
      (3, 4, 8), (2, 5, 8), (2, 4, 9), (1, 6, 8), (0, 7, 8), (0, 6, 9), (1, 4, 10), (0, 5, 10), (0, 4, 11),
      (3, 0, 12), (2, 1, 12), (2, 0, 13), (1, 2, 12), (0, 3, 12), (0, 2, 13), (1, 0, 14), (0, 1, 14), (0, 0, 15)]
    comps := [[(1, [], 50), (-1, [], 68), (-1, [], 52), (1, [], 70)],
      [(1, [], 59), (-1, [], 23), (-1, [], 61), (1, [], 25)],
      [(1, [], 14), (-1, [], 32), (-1, [], 16), (1, [], 34)],
      [(1, [], 5), (1, [], 41), (1, [], 77), (-1, [], 7), (-1, [], 43), (-1, [], 79)],
      [(1, [], 51), (-1, [], 69), (-1, [], 47), (1, [], 65)],
      [(1, [], 60), (-1, [], 24), (-1, [], 56), (1, [], 20)],
      [(1, [], 15), (-1, [], 33), (-1, [], 11), (1, [], 29)],
      [(1, [], 6), (1, [], 42), (1, [], 78), (-1, [], 2), (-1, [], 38), (-1, [], 74)],
      [(1, [], 46), (-1, [], 64), (-1, [], 48), (1, [], 66)],
      [(1, [], 55), (-1, [], 19), (-1, [], 57), (1, [], 21)],
      [(1, [], 10), (-1, [], 28), (-1, [], 12), (1, [], 30)],
      [(1, [], 1), (1, [], 37), (1, [], 73), (-1, [], 3), (-1, [], 39), (-1, [], 75)],
      [(1, [], 45), (-1, [], 63), (1, [], 49), (-1, [], 67), (1, [], 53), (-1, [], 71)],
      [(1, [], 54), (-1, [], 18), (1, [], 58), (-1, [], 22), (1, [], 62), (-1, [], 26)],
      [(1, [], 9), (-1, [], 27), (1, [], 13), (-1, [], 31), (1, [], 17), (-1, [], 35)],
      [(1, [], 0), (1, [], 36), (1, [], 72), (1, [], 4), (1, [], 40), (1, [], 76), (1, [], 8), (1, [], 44), (1, [], 80)]] }

/-- int2e_cg_sa10sp1: src/autocode/intor4.c:547-606 (`CINTgout2e_int2e_cg_sa10sp1`) and 611 ff -/
def int2e_cg_sa10sp1 : Gen2e where
  ng := ⟨1, 1, 0, 0, 0⟩
  gbits := 2
  nComp := 12
  num := 1
  den := 2
  prog := {
    steps := [⟨.d, 1, 1, 0, ![1, 0, 0, 0]⟩,
      ⟨.xc, 0, 2, 0, ![0, 0, 0, 0]⟩,
      ⟨.xc, 0, 3, 1, ![0, 0, 0, 0]⟩]
    prods := [(3, 0, 0), (2, 1, 0), (2, 0, 1), (1, 2, 0), (0, 3, 0), (0, 2, 1), (1, 0, 2), (0, 1, 2), (0, 0, 3)]
    comps := [[(1, [], 8), (1, [], 4)],
      [(-1, [], 3)],
      [(-1, [], 6)],
      [(1, [], 7), (-1, [], 5)],
      [(-1, [], 1)],
      [(1, [], 0), (1, [], 8)],
      [(-1, [], 7)],
      [(-1, [], 6), (1, [], 2)],
      [(-1, [], 2)],
      [(-1, [], 5)],
      [(1, [], 4), (1, [], 0)],
      [(1, [], 3), (-1, [], 1)]] }

/-- int2e_cg_sa10sp1spsp2: src/autocode/intor4.c:642-869 (`CINTgout2e_int2e_cg_sa10sp1spsp2`) and 874 ff -/
def int2e_cg_sa10sp1spsp2 : Gen2e where
  ng := ⟨1, 1, 1, 1, 0⟩
  gbits := 4
  nComp := 48
  num := 1
  den := 2
  prog := {
    steps := [⟨.d, 3, 1, 0, ![1, 1, 1, 0]⟩,
      ⟨.d, 2, 2, 0, ![1, 1, 0, 0]⟩,
      ⟨.d, 2, 3, 1, ![1, 1, 0, 0]⟩,
      ⟨.d, 1, 4, 0, ![1, 0, 0, 0]⟩,
      ⟨.d, 1, 5, 1, ![1, 0, 0, 0]⟩,
      ⟨.d, 1, 6, 2, ![1, 0, 0, 0]⟩,
      ⟨.d, 1, 7, 3, ![1, 0, 0, 0]⟩,
      ⟨.xc, 0, 8, 0, ![0, 0, 0, 0]⟩,
      ⟨.xc, 0, 9, 1, ![0, 0, 0, 0]⟩,
      ⟨.xc, 0, 10, 2, ![0, 0, 0, 0]⟩,
      ⟨.xc, 0, 11, 3, ![0, 0, 0, 0]⟩,
      ⟨.xc, 0, 12, 4, ![0, 0, 0, 0]⟩,
      ⟨.xc, 0, 13, 5, ![0, 0, 0, 0]⟩,
      ⟨.xc, 0, 14, 6, ![0, 0, 0, 0]⟩,
      ⟨.xc, 0, 15, 7, ![0, 0, 0, 0]⟩]
    prods := [(15, 0, 0), (14, 1, 0), (14, 0, 1), (13, 2, 0), (12, 3, 0), (12, 2, 1), (13, 0, 2), (12, 1, 2), (12, 0, 3),
      (11, 4, 0), (10, 5, 0), (10, 4, 1), (9, 6, 0), (8, 7, 0), (8, 6, 1), (9, 4, 2), (8, 5, 2), (8, 4, 3),
      (11, 0, 4), (10, 1, 4), (10, 0, 5), (9, 2, 4), (8, 3, 4), (8, 2, 5), (9, 0, 6), (8, 1, 6), (8, 0, 7),
      (7, 8, 0), (6, 9, 0), (6, 8, 1), (5, 10, 0), (4, 11, 0), (4, 10, 1), (5, 8, 2), (4, 9, 2), (4, 8, 3),
      (3, 12, 0), (2, 13, 0), (2, 12, 1), (1, 14, 0), (0, 15, 0), (0, 14, 1), (1, 12, 2), (0, 13, 2), (0, 12, 3),
      (3, 8, 4), (2, 9, 4), (2, 8, 5), (1, 10, 4), (0, 11, 4), (0, 10, 5), (1, 8, 6), (0, 9, 6), (0, 8, 7),
      (7, 0, 8), (6, 1, 8), (6, 0, 9), (5, 2, 8), (4, 3, 8), (4, 2, 9), (5, 0, 10), (4, 1, 10), (4, 0, 11),
      (3, 4, 8), (2, 5, 8), (2, 4, 9), (1, 6, 8), (0, 7, 8), (0, 6, 9), (1, 4, 10), (0, 5, 10), (0, 4, 11),
      (3, 0, 12), (2, 1, 12), (2, 0, 13), (1, 2, 12), (0, 3, 12), (0, 2, 13), (1, 0, 14), (0, 1, 14), (0, 0, 15)]
    comps := [[(1, [], 77), (1, [], 41), (-1, [], 79), (-1, [], 43)],
      [(-1, [], 32), (1, [], 34)],
      [(-1, [], 59), (1, [], 61)],
      [(1, [], 68), (-1, [], 50), (-1, [], 70), (1, [], 52)],
      [(1, [], 78), (1, [], 42), (-1, [], 74), (-1, [], 38)],
      [(-1, [], 33), (1, [], 29)],
      [(-1, [], 60), (1, [], 56)],
      [(1, [], 69), (-1, [], 51), (-1, [], 65), (1, [], 47)],
      [(1, [], 73), (1, [], 37), (-1, [], 75), (-1, [], 39)],
      [(-1, [], 28), (1, [], 30)],
      [(-1, [], 55), (1, [], 57)],
      [(1, [], 64), (-1, [], 46), (-1, [], 66), (1, [], 48)],
      [(1, [], 72), (1, [], 36), (1, [], 76), (1, [], 40), (1, [], 80), (1, [], 44)],
      [(-1, [], 27), (-1, [], 31), (-1, [], 35)],
      [(-1, [], 54), (-1, [], 58), (-1, [], 62)],
      [(1, [], 63), (-1, [], 45), (1, [], 67), (-1, [], 49), (1, [], 71), (-1, [], 53)],
      [(-1, [], 14), (1, [], 16)],
      [(1, [], 5), (1, [], 77), (-1, [], 7), (-1, [], 79)],
      [(-1, [], 68), (1, [], 70)],
      [(-1, [], 59), (1, [], 23), (1, [], 61), (-1, [], 25)],
      [(-1, [], 15), (1, [], 11)],
      [(1, [], 6), (1, [], 78), (-1, [], 2), (-1, [], 74)],
      [(-1, [], 69), (1, [], 65)],
      [(-1, [], 60), (1, [], 24), (1, [], 56), (-1, [], 20)],
      [(-1, [], 10), (1, [], 12)],
      [(1, [], 1), (1, [], 73), (-1, [], 3), (-1, [], 75)],
      [(-1, [], 64), (1, [], 66)],
      [(-1, [], 55), (1, [], 19), (1, [], 57), (-1, [], 21)],
      [(-1, [], 9), (-1, [], 13), (-1, [], 17)],
      [(1, [], 0), (1, [], 72), (1, [], 4), (1, [], 76), (1, [], 8), (1, [], 80)],
      [(-1, [], 63), (-1, [], 67), (-1, [], 71)],
      [(-1, [], 54), (1, [], 18), (-1, [], 58), (1, [], 22), (-1, [], 62), (1, [], 26)],
      [(-1, [], 23), (1, [], 25)],
      [(-1, [], 50), (1, [], 52)],
      [(1, [], 41), (1, [], 5), (-1, [], 43), (-1, [], 7)],
      [(1, [], 32), (-1, [], 14), (-1, [], 34), (1, [], 16)],
      [(-1, [], 24), (1, [], 20)],
      [(-1, [], 51), (1, [], 47)],
      [(1, [], 42), (1, [], 6), (-1, [], 38), (-1, [], 2)],
      [(1, [], 33), (-1, [], 15), (-1, [], 29), (1, [], 11)],
      [(-1, [], 19), (1, [], 21)],
      [(-1, [], 46), (1, [], 48)],
      [(1, [], 37), (1, [], 1), (-1, [], 39), (-1, [], 3)],
      [(1, [], 28), (-1, [], 10), (-1, [], 30), (1, [], 12)],
      [(-1, [], 18), (-1, [], 22), (-1, [], 26)],
      [(-1, [], 45), (-1, [], 49), (-1, [], 53)],
      [(1, [], 36), (1, [], 0), (1, [], 40), (1, [], 4), (1, [], 44), (1, [], 8)],
      [(1, [], 27), (-1, [], 9), (1, [], 31), (-1, [], 13), (1, [], 35), (-1, [], 17)]] }

/-- int2e_giao_sa10sp1: src/autocode/intor4.c:905-960 (`CINTgout2e_int2e_giao_sa10sp1`) and 965 ff -/
def int2e_giao_sa10sp1 : Gen2e where
  ng := ⟨1, 1, 0, 0, 0⟩
  gbits := 2
  nComp := 12
  num := 1
  den := 2
  prog := {
    steps := [⟨.d, 1, 1, 0, ![1, 0, 0, 0]⟩,
      ⟨.own, 0, 2, 0, ![0, 0, 0, 0]⟩,
      ⟨.own, 0, 3, 1, ![0, 0, 0, 0]⟩]
    prods := [(3, 0, 0), (2, 1, 0), (2, 0, 1), (1, 2, 0), (0, 3, 0), (0, 2, 1), (1, 0, 2), (0, 1, 2), (0, 0, 3)]
    comps := [[(1, [], 8), (1, [], 4)],
      [(-1, [], 3)],
      [(-1, [], 6)],
      [(1, [], 7), (-1, [], 5)],
      [(-1, [], 1)],
      [(1, [], 0), (1, [], 8)],
      [(-1, [], 7)],
      [(-1, [], 6), (1, [], 2)],
      [(-1, [], 2)],
      [(-1, [], 5)],
      [(1, [], 4), (1, [], 0)],
      [(1, [], 3), (-1, [], 1)]] }

/-- int2e_giao_sa10sp1spsp2: src/autocode/intor4.c:996-1219 (`CINTgout2e_int2e_giao_sa10sp1spsp2`) and 1224 ff -/
def int2e_giao_sa10sp1spsp2 : Gen2e where
  ng := ⟨1, 1, 1, 1, 0⟩
  gbits := 4
  nComp := 48
  num := 1
  den := 2
  prog := {
    steps := [⟨.d, 3, 1, 0, ![1, 1, 1, 0]⟩,
      ⟨.d, 2, 2, 0, ![1, 1, 0, 0]⟩,
      ⟨.d, 2, 3, 1, ![1, 1, 0, 0]⟩,
      ⟨.d, 1, 4, 0, ![1, 0, 0, 0]⟩,
      ⟨.d, 1, 5, 1, ![1, 0, 0, 0]⟩,
      ⟨.d, 1, 6, 2, ![1, 0, 0, 0]⟩,
      ⟨.d, 1, 7, 3, ![1, 0, 0, 0]⟩,
      ⟨.own, 0, 8, 0, ![0, 0, 0, 0]⟩,
      ⟨.own, 0, 9, 1, ![0, 0, 0, 0]⟩,
      ⟨.own, 0, 10, 2, ![0, 0, 0, 0]⟩,
      ⟨.own, 0, 11, 3, ![0, 0, 0, 0]⟩,
      ⟨.own, 0, 12, 4, ![0, 0, 0, 0]⟩,
      ⟨.own, 0, 13, 5, ![0, 0, 0, 0]⟩,
      ⟨.own, 0, 14, 6, ![0, 0, 0, 0]⟩,
      ⟨.own, 0, 15, 7, ![0, 0, 0, 0]⟩]
    prods := [(15, 0, 0), (14, 1, 0), (14, 0, 1), (13, 2, 0), (12, 3, 0), (12, 2, 1), (13, 0, 2), (12, 1, 2), (12, 0, 3),
      (11, 4, 0), (10, 5, 0), (10, 4, 1), (9, 6, 0), (8, 7, 0), (8, 6, 1), (9, 4, 2), (8, 5, 2), (8, 4, 3),
      (11, 0, 4), (10, 1, 4), (10, 0, 5), (9, 2, 4), (8, 3, 4), (8, 2, 5), (9, 0, 6), (8, 1, 6), (8, 0, 7),
      (7, 8, 0), (6, 9, 0), (6, 8, 1), (5, 10, 0), (4, 11, 0), (4, 10, 1), (5, 8, 2), (4, 9, 2), (4, 8, 3),
      (3, 12, 0), (2, 13, 0), (2, 12, 1), (1, 14, 0), (0, 15, 0), (0, 14, 1), (1, 12, 2), (0, 13, 2), (0, 12, 3),
      (3, 8, 4), (2, 9, 4), (2, 8, 5), (1, 10, 4), (0, 11, 4), (0, 10, 5), (1, 8, 6), (0, 9, 6), (0, 8, 7),
      (7, 0, 8), (6, 1, 8), (6, 0, 9), (5, 2, 8), (4, 3, 8), (4, 2, 9), (5, 0, 10), (4, 1, 10), (4, 0, 11),
      (3, 4, 8), (2, 5, 8), (2, 4, 9), (1, 6, 8), (0, 7, 8), (0, 6, 9), (1, 4, 10), (0, 5, 10), (0, 4, 11),
      (3, 0, 12), (2, 1, 12), (2, 0, 13), (1, 2, 12), (0, 3, 12), (0, 2, 13), (1, 0, 14), (0, 1, 14), (0, 0, 15)]
    comps := [[(1, [], 77), (1, [], 41), (-1, [], 79), (-1, [], 43)],
      [(-1, [], 32), (1, [], 34)],
      [(-1, [], 59), (1, [], 61)],
      [(1, [], 68), (-1, [], 50), (-1, [], 70), (1, [], 52)],
      [(1, [], 78), (1, [], 42), (-1, [], 74), (-1, [], 38)],
      [(-1, [], 33), (1, [], 29)],
      [(-1, [], 60), (1, [], 56)],
      [(1, [], 69), (-1, [], 51), (-1, [], 65), (1, [], 47)],
      [(1, [], 73), (1, [], 37), (-1, [], 75), (-1, [], 39)],
      [(-1, [], 28), (1, [], 30)],
      [(-1, [], 55), (1, [], 57)],
      [(1, [], 64), (-1, [], 46), (-1, [], 66), (1, [], 48)],
      [(1, [], 72), (1, [], 36), (1, [], 76), (1, [], 40), (1, [], 80), (1, [], 44)],
      [(-1, [], 27), (-1, [], 31), (-1, [], 35)],
      [(-1, [], 54), (-1, [], 58), (-1, [], 62)],
      [(1, [], 63), (-1, [], 45), (1, [], 67), (-1, [], 49), (1, [], 71), (-1, [], 53)],
      [(-1, [], 14), (1, [], 16)],
      [(1, [], 5), (1, [], 77), (-1, [], 7), (-1, [], 79)],
      [(-1, [], 68), (1, [], 70)],
      [(-1, [], 59), (1, [], 23), (1, [], 61), (-1, [], 25)],
      [(-1, [], 15), (1, [], 11)],
      [(1, [], 6), (1, [], 78), (-1, [], 2), (-1, [], 74)],
      [(-1, [], 69), (1, [], 65)],
      [(-1, [], 60), (1, [], 24), (1, [], 56), (-1, [], 20)],
      [(-1, [], 10), (1, [], 12)],
      [(1, [], 1), (1, [], 73), (-1, [], 3), (-1, [], 75)],
      [(-1, [], 64), (1, [], 66)],
      [(-1, [], 55), (1, [], 19), (1, [], 57), (-1, [], 21)],
      [(-1, [], 9), (-1, [], 13), (-1, [], 17)],
      [(1, [], 0), (1, [], 72), (1, [], 4), (1, [], 76), (1, [], 8), (1, [], 80)],
      [(-1, [], 63), (-1, [], 67), (-1, [], 71)],
      [(-1, [], 54), (1, [], 18), (-1, [], 58), (1, [], 22), (-1, [], 62), (1, [], 26)],
      [(-1, [], 23), (1, [], 25)],
      [(-1, [], 50), (1, [], 52)],
      [(1, [], 41), (1, [], 5), (-1, [], 43), (-1, [], 7)],
      [(1, [], 32), (-1, [], 14), (-1, [], 34), (1, [], 16)],
      [(-1, [], 24), (1, [], 20)],
      [(-1, [], 51), (1, [], 47)],
      [(1, [], 42), (1, [], 6), (-1, [], 38), (-1, [], 2)],
      [(1, [], 33), (-1, [], 15), (-1, [], 29), (1, [], 11)],
      [(-1, [], 19), (1, [], 21)],
      [(-1, [], 46), (1, [], 48)],
      [(1, [], 37), (1, [], 1), (-1, [], 39), (-1, [], 3)],
      [(1, [], 28), (-1, [], 10), (-1, [], 30), (1, [], 12)],
      [(-1, [], 18), (-1, [], 22), (-1, [], 26)],
      [(-1, [], 45), (-1, [], 49), (-1, [], 53)],
      [(1, [], 36), (1, [], 0), (1, [], 40), (1, [], 4), (1, [], 44), (1, [], 8)],
      [(1, [], 27), (-1, [], 9), (1, [], 31), (-1, [], 13), (1, [], 35), (-1, [], 17)]] }

/-- int2e_g1: src/autocode/intor4.c:1255-1312 (`CINTgout2e_int2e_g1`) and 1317 ff -/
def int2e_g1 : Gen2e where
  ng := ⟨1, 0, 0, 0, 0⟩
  gbits := 1
  nComp := 3
  num := 1
  den := 2
  prog := {
    steps := [⟨.x0, 0, 1, 0, ![0, 0, 0, 0]⟩]
    prods := [(1, 0, 0), (0, 1, 0), (0, 0, 1)]
    comps := [[(1, [1], 2), (-1, [2], 1)],
      [(1, [2], 0), (-1, [0], 2)],
      [(1, [0], 1), (-1, [1], 0)]] }

/-- int2e_spgsp1: src/autocode/intor4.c:1384-1473 (`CINTgout2e_int2e_spgsp1`) and 1478 ff -/
def int2e_spgsp1 : Gen2e where
  ng := ⟨2, 1, 0, 0, 0⟩
  gbits := 3
  nComp := 12
  num := 1
  den := 2
  prog := {
    steps := [⟨.d, 1, 1, 0, ![2, 0, 0, 0]⟩,
      ⟨.x0, 0, 2, 0, ![1, 0, 0, 0]⟩,
      ⟨.x0, 0, 3, 1, ![1, 0, 0, 0]⟩,
      ⟨.d, 0, 4, 0, ![0, 0, 0, 0]⟩,
      ⟨.d, 0, 5, 1, ![0, 0, 0, 0]⟩,
      ⟨.d, 0, 6, 2, ![0, 0, 0, 0]⟩,
      ⟨.d, 0, 7, 3, ![0, 0, 0, 0]⟩]
    prods := [(7, 0, 0), (6, 1, 0), (6, 0, 1), (5, 2, 0), (4, 3, 0), (4, 2, 1), (5, 0, 2), (4, 1, 2), (4, 0, 3),
      (3, 4, 0), (2, 5, 0), (2, 4, 1), (1, 6, 0), (0, 7, 0), (0, 6, 1), (1, 4, 2), (0, 5, 2), (0, 4, 3),
      (3, 0, 4), (2, 1, 4), (2, 0, 5), (1, 2, 4), (0, 3, 4), (0, 2, 5), (1, 0, 6), (0, 1, 6), (0, 0, 7)]
    comps := [[(1, [1], 17), (-1, [2], 14), (-1, [1], 25), (1, [2], 22)],
      [(1, [1], 24), (-1, [2], 21), (-1, [1], 8), (1, [2], 5)],
      [(1, [1], 7), (-1, [2], 4), (-1, [1], 15), (1, [2], 12)],
      [(1, [1], 6), (-1, [2], 3), (1, [1], 16), (-1, [2], 13), (1, [1], 26), (-1, [2], 23)],
      [(1, [2], 11), (-1, [0], 17), (-1, [2], 19), (1, [0], 25)],
      [(1, [2], 18), (-1, [0], 24), (-1, [2], 2), (1, [0], 8)],
      [(1, [2], 1), (-1, [0], 7), (-1, [2], 9), (1, [0], 15)],
      [(1, [2], 0), (-1, [0], 6), (1, [2], 10), (-1, [0], 16), (1, [2], 20), (-1, [0], 26)],
      [(1, [0], 14), (-1, [1], 11), (-1, [0], 22), (1, [1], 19)],
      [(1, [0], 21), (-1, [1], 18), (-1, [0], 5), (1, [1], 2)],
      [(1, [0], 4), (-1, [1], 1), (-1, [0], 12), (1, [1], 9)],
      [(1, [0], 3), (-1, [1], 0), (1, [0], 13), (-1, [1], 10), (1, [0], 23), (-1, [1], 20)]] }

/-- int2e_g1spsp2: src/autocode/intor4.c:1545-1634 (`CINTgout2e_int2e_g1spsp2`) and 1639 ff -/
def int2e_g1spsp2 : Gen2e where
  ng := ⟨1, 0, 1, 1, 0⟩
  gbits := 3
  nComp := 12
  num := 1
  den := 2
  prog := {
    steps := [⟨.d, 3, 1, 0, ![1, 0, 1, 0]⟩,
      ⟨.d, 2, 2, 0, ![1, 0, 0, 0]⟩,
      ⟨.d, 2, 3, 1, ![1, 0, 0, 0]⟩,
      ⟨.x0, 0, 4, 0, ![0, 0, 0, 0]⟩,
      ⟨.x0, 0, 5, 1, ![0, 0, 0, 0]⟩,
      ⟨.x0, 0, 6, 2, ![0, 0, 0, 0]⟩,
      ⟨.x0, 0, 7, 3, ![0, 0, 0, 0]⟩]
    prods := [(7, 0, 0), (6, 1, 0), (6, 0, 1), (5, 2, 0), (4, 3, 0), (4, 2, 1), (5, 0, 2), (4, 1, 2), (4, 0, 3),
      (3, 4, 0), (2, 5, 0), (2, 4, 1), (1, 6, 0), (0, 7, 0), (0, 6, 1), (1, 4, 2), (0, 5, 2), (0, 4, 3),
      (3, 0, 4), (2, 1, 4), (2, 0, 5), (1, 2, 4), (0, 3, 4), (0, 2, 5), (1, 0, 6), (0, 1, 6), (0, 0, 7)]
    comps := [[(1, [1], 23), (-1, [2], 14), (-1, [1], 25), (1, [2], 16)],
      [(1, [1], 24), (-1, [2], 15), (-1, [1], 20), (1, [2], 11)],
      [(1, [1], 19), (-1, [2], 10), (-1, [1], 21), (1, [2], 12)],
      [(1, [1], 18), (-1, [2], 9), (1, [1], 22), (-1, [2], 13), (1, [1], 26), (-1, [2], 17)],
      [(1, [2], 5), (-1, [0], 23), (-1, [2], 7), (1, [0], 25)],
      [(1, [2], 6), (-1, [0], 24), (-1, [2], 2), (1, [0], 20)],
      [(1, [2], 1), (-1, [0], 19), (-1, [2], 3), (1, [0], 21)],
      [(1, [2], 0), (-1, [0], 18), (1, [2], 4), (-1, [0], 22), (1, [2], 8), (-1, [0], 26)],
      [(1, [0], 14), (-1, [1], 5), (-1, [0], 16), (1, [1], 7)],
      [(1, [0], 15), (-1, [1], 6), (-1, [0], 11), (1, [1], 2)],
      [(1, [0], 10), (-1, [1], 1), (-1, [0], 12), (1, [1], 3)],
      [(1, [0], 9), (-1, [1], 0), (1, [0], 13), (-1, [1], 4), (1, [0], 17), (-1, [1], 8)]] }

set_option maxHeartbeats 1000000 in
/-- int2e_spgsp1spsp2: src/autocode/intor4.c:1706-2131 (`CINTgout2e_int2e_spgsp1spsp2`) and 2136 ff -/
def int2e_spgsp1spsp2 : Gen2e where
  ng := ⟨2, 1, 1, 1, 0⟩
  gbits := 5
  nComp := 48
  num := 1
  den := 2
  prog := {
    steps := [⟨.d, 3, 1, 0, ![2, 1, 1, 0]⟩,
      ⟨.d, 2, 2, 0, ![2, 1, 0, 0]⟩,
      ⟨.d, 2, 3, 1, ![2, 1, 0, 0]⟩,
      ⟨.d, 1, 4, 0, ![2, 0, 0, 0]⟩,
      ⟨.d, 1, 5, 1, ![2, 0, 0, 0]⟩,
      ⟨.d, 1, 6, 2, ![2, 0, 0, 0]⟩,
      ⟨.d, 1, 7, 3, ![2, 0, 0, 0]⟩,
      ⟨.x0, 0, 8, 0, ![1, 0, 0, 0]⟩,
      ⟨.x0, 0, 9, 1, ![1, 0, 0, 0]⟩,
      ⟨.x0, 0, 10, 2, ![1, 0, 0, 0]⟩,
      ⟨.x0, 0, 11, 3, ![1, 0, 0, 0]⟩,
      ⟨.x0, 0, 12, 4, ![1, 0, 0, 0]⟩,
      ⟨.x0, 0, 13, 5, ![1, 0, 0, 0]⟩,
      ⟨.x0, 0, 14, 6, ![1, 0, 0, 0]⟩,
      ⟨.x0, 0, 15, 7, ![1, 0, 0, 0]⟩,
      ⟨.d, 0, 16, 0, ![0, 0, 0, 0]⟩,
      ⟨.d, 0, 17, 1, ![0, 0, 0, 0]⟩,
      ⟨.d, 0, 18, 2, ![0, 0, 0, 0]⟩,
      ⟨.d, 0, 19, 3, ![0, 0, 0, 0]⟩,
      ⟨.d, 0, 20, 4, ![0, 0, 0, 0]⟩,
      ⟨.d, 0, 21, 5, ![0, 0, 0, 0]⟩,
      ⟨.d, 0, 22, 6, ![0, 0, 0, 0]⟩,
      ⟨.d, 0, 23, 7, ![0, 0, 0, 0]⟩,
      ⟨.d, 0, 24, 8, ![0, 0, 0, 0]⟩,
      ⟨.d, 0, 25, 9, ![0, 0, 0, 0]⟩,
      ⟨.d, 0, 26, 10, ![0, 0, 0, 0]⟩,
      ⟨.d, 0, 27, 11, ![0, 0, 0, 0]⟩,
      ⟨.d, 0, 28, 12, ![0, 0, 0, 0]⟩,
      ⟨.d, 0, 29, 13, ![0, 0, 0, 0]⟩,
      ⟨.d, 0, 30, 14, ![0, 0, 0, 0]⟩,
      ⟨.d, 0, 31, 15, ![0, 0, 0, 0]⟩]
    prods := [(31, 0, 0), (30, 1, 0), (30, 0, 1), (29, 2, 0), (28, 3, 0), (28, 2, 1), (29, 0, 2), (28, 1, 2), (28, 0, 3),
      (27, 4, 0), (26, 5, 0), (26, 4, 1), (25, 6, 0), (24, 7, 0), (24, 6, 1), (25, 4, 2), (24, 5, 2), (24, 4, 3),
      (27, 0, 4), (26, 1, 4), (26, 0, 5), (25, 2, 4), (24, 3, 4), (24, 2, 5), (25, 0, 6), (24, 1, 6), (24, 0, 7),
      (23, 8, 0), (22, 9, 0), (22, 8, 1), (21, 10, 0), (20, 11, 0), (20, 10, 1), (21, 8, 2), (20, 9, 2), (20, 8, 3),
      (19, 12, 0), (18, 13, 0), (18, 12, 1), (17, 14, 0), (16, 15, 0), (16, 14, 1), (17, 12, 2), (16, 13, 2), (16, 12, 3),
      (19, 8, 4), (18, 9, 4), (18, 8, 5), (17, 10, 4), (16, 11, 4), (16, 10, 5), (17, 8, 6), (16, 9, 6), (16, 8, 7),
      (23, 0, 8), (22, 1, 8), (22, 0, 9), (21, 2, 8), (20, 3, 8), (20, 2, 9), (21, 0, 10), (20, 1, 10), (20, 0, 11),
      (19, 4, 8), (18, 5, 8), (18, 4, 9), (17, 6, 8), (16, 7, 8), (16, 6, 9), (17, 4, 10), (16, 5, 10), (16, 4, 11),
      (19, 0, 12), (18, 1, 12), (18, 0, 13), (17, 2, 12), (16, 3, 12), (16, 2, 13), (17, 0, 14), (16, 1, 14), (16, 0, 15),
      (15, 16, 0), (14, 17, 0), (14, 16, 1), (13, 18, 0), (12, 19, 0), (12, 18, 1), (13, 16, 2), (12, 17, 2), (12, 16, 3),
      (11, 20, 0), (10, 21, 0), (10, 20, 1), (9, 22, 0), (8, 23, 0), (8, 22, 1), (9, 20, 2), (8, 21, 2), (8, 20, 3),
      (11, 16, 4), (10, 17, 4), (10, 16, 5), (9, 18, 4), (8, 19, 4), (8, 18, 5), (9, 16, 6), (8, 17, 6), (8, 16, 7),
      (7, 24, 0), (6, 25, 0), (6, 24, 1), (5, 26, 0), (4, 27, 0), (4, 26, 1), (5, 24, 2), (4, 25, 2), (4, 24, 3),
      (3, 28, 0), (2, 29, 0), (2, 28, 1), (1, 30, 0), (0, 31, 0), (0, 30, 1), (1, 28, 2), (0, 29, 2), (0, 28, 3),
      (3, 24, 4), (2, 25, 4), (2, 24, 5), (1, 26, 4), (0, 27, 4), (0, 26, 5), (1, 24, 6), (0, 25, 6), (0, 24, 7),
      (7, 16, 8), (6, 17, 8), (6, 16, 9), (5, 18, 8), (4, 19, 8), (4, 18, 9), (5, 16, 10), (4, 17, 10), (4, 16, 11),
      (3, 20, 8), (2, 21, 8), (2, 20, 9), (1, 22, 8), (0, 23, 8), (0, 22, 9), (1, 20, 10), (0, 21, 10), (0, 20, 11),
      (3, 16, 12), (2, 17, 12), (2, 16, 13), (1, 18, 12), (0, 19, 12), (0, 18, 13), (1, 16, 14), (0, 17, 14), (0, 16, 15),
      (15, 0, 16), (14, 1, 16), (14, 0, 17), (13, 2, 16), (12, 3, 16), (12, 2, 17), (13, 0, 18), (12, 1, 18), (12, 0, 19),
      (11, 4, 16), (10, 5, 16), (10, 4, 17), (9, 6, 16), (8, 7, 16), (8, 6, 17), (9, 4, 18), (8, 5, 18), (8, 4, 19),
      (11, 0, 20), (10, 1, 20), (10, 0, 21), (9, 2, 20), (8, 3, 20), (8, 2, 21), (9, 0, 22), (8, 1, 22), (8, 0, 23),
      (7, 8, 16), (6, 9, 16), (6, 8, 17), (5, 10, 16), (4, 11, 16), (4, 10, 17), (5, 8, 18), (4, 9, 18), (4, 8, 19),
      (3, 12, 16), (2, 13, 16), (2, 12, 17), (1, 14, 16), (0, 15, 16), (0, 14, 17), (1, 12, 18), (0, 13, 18), (0, 12, 19),
      (3, 8, 20), (2, 9, 20), (2, 8, 21), (1, 10, 20), (0, 11, 20), (0, 10, 21), (1, 8, 22), (0, 9, 22), (0, 8, 23),
      (7, 0, 24), (6, 1, 24), (6, 0, 25), (5, 2, 24), (4, 3, 24), (4, 2, 25), (5, 0, 26), (4, 1, 26), (4, 0, 27),
      (3, 4, 24), (2, 5, 24), (2, 4, 25), (1, 6, 24), (0, 7, 24), (0, 6, 25), (1, 4, 26), (0, 5, 26), (0, 4, 27),
      (3, 0, 28), (2, 1, 28), (2, 0, 29), (1, 2, 28), (0, 3, 28), (0, 2, 29), (1, 0, 30), (0, 1, 30), (0, 0, 31)]
    comps := [[(1, [1], 158), (-1, [2], 131), (-1, [1], 230), (1, [2], 203), (-1, [1], 160), (1, [2], 133), (1, [1], 232), (-1, [2], 205)],
      [(1, [1], 221), (-1, [2], 194), (-1, [1], 77), (1, [2], 50), (-1, [1], 223), (1, [2], 196), (1, [1], 79), (-1, [2], 52)],
      [(1, [1], 68), (-1, [2], 41), (-1, [1], 140), (1, [2], 113), (-1, [1], 70), (1, [2], 43), (1, [1], 142), (-1, [2], 115)],
      [(1, [1], 59), (-1, [2], 32), (1, [1], 149), (-1, [2], 122), (1, [1], 239), (-1, [2], 212), (-1, [1], 61), (1, [2], 34), (-1, [1], 151), (1, [2], 124), (-1, [1], 241), (1, [2], 214)],
      [(1, [1], 159), (-1, [2], 132), (-1, [1], 231), (1, [2], 204), (-1, [1], 155), (1, [2], 128), (1, [1], 227), (-1, [2], 200)],
      [(1, [1], 222), (-1, [2], 195), (-1, [1], 78), (1, [2], 51), (-1, [1], 218), (1, [2], 191), (1, [1], 74), (-1, [2], 47)],
      [(1, [1], 69), (-1, [2], 42), (-1, [1], 141), (1, [2], 114), (-1, [1], 65), (1, [2], 38), (1, [1], 137), (-1, [2], 110)],
      [(1, [1], 60), (-1, [2], 33), (1, [1], 150), (-1, [2], 123), (1, [1], 240), (-1, [2], 213), (-1, [1], 56), (1, [2], 29), (-1, [1], 146), (1, [2], 119), (-1, [1], 236), (1, [2], 209)],
      [(1, [1], 154), (-1, [2], 127), (-1, [1], 226), (1, [2], 199), (-1, [1], 156), (1, [2], 129), (1, [1], 228), (-1, [2], 201)],
      [(1, [1], 217), (-1, [2], 190), (-1, [1], 73), (1, [2], 46), (-1, [1], 219), (1, [2], 192), (1, [1], 75), (-1, [2], 48)],
      [(1, [1], 64), (-1, [2], 37), (-1, [1], 136), (1, [2], 109), (-1, [1], 66), (1, [2], 39), (1, [1], 138), (-1, [2], 111)],
      [(1, [1], 55), (-1, [2], 28), (1, [1], 145), (-1, [2], 118), (1, [1], 235), (-1, [2], 208), (-1, [1], 57), (1, [2], 30), (-1, [1], 147), (1, [2], 120), (-1, [1], 237), (1, [2], 210)],
      [(1, [1], 153), (-1, [2], 126), (-1, [1], 225), (1, [2], 198), (1, [1], 157), (-1, [2], 130), (-1, [1], 229), (1, [2], 202), (1, [1], 161), (-1, [2], 134), (-1, [1], 233), (1, [2], 206)],
      [(1, [1], 216), (-1, [2], 189), (-1, [1], 72), (1, [2], 45), (1, [1], 220), (-1, [2], 193), (-1, [1], 76), (1, [2], 49), (1, [1], 224), (-1, [2], 197), (-1, [1], 80), (1, [2], 53)],
      [(1, [1], 63), (-1, [2], 36), (-1, [1], 135), (1, [2], 108), (1, [1], 67), (-1, [2], 40), (-1, [1], 139), (1, [2], 112), (1, [1], 71), (-1, [2], 44), (-1, [1], 143), (1, [2], 116)],
      [(1, [1], 54), (-1, [2], 27), (1, [1], 144), (-1, [2], 117), (1, [1], 234), (-1, [2], 207), (1, [1], 58), (-1, [2], 31), (1, [1], 148), (-1, [2], 121), (1, [1], 238), (-1, [2], 211), (1, [1], 62), (-1, [2], 35), (1, [1], 152), (-1, [2], 125), (1, [1], 242), (-1, [2], 215)],
      [(1, [2], 104), (-1, [0], 158), (-1, [2], 176), (1, [0], 230), (-1, [2], 106), (1, [0], 160), (1, [2], 178), (-1, [0], 232)],
      [(1, [2], 167), (-1, [0], 221), (-1, [2], 23), (1, [0], 77), (-1, [2], 169), (1, [0], 223), (1, [2], 25), (-1, [0], 79)],
      [(1, [2], 14), (-1, [0], 68), (-1, [2], 86), (1, [0], 140), (-1, [2], 16), (1, [0], 70), (1, [2], 88), (-1, [0], 142)],
      [(1, [2], 5), (-1, [0], 59), (1, [2], 95), (-1, [0], 149), (1, [2], 185), (-1, [0], 239), (-1, [2], 7), (1, [0], 61), (-1, [2], 97), (1, [0], 151), (-1, [2], 187), (1, [0], 241)],
      [(1, [2], 105), (-1, [0], 159), (-1, [2], 177), (1, [0], 231), (-1, [2], 101), (1, [0], 155), (1, [2], 173), (-1, [0], 227)],
      [(1, [2], 168), (-1, [0], 222), (-1, [2], 24), (1, [0], 78), (-1, [2], 164), (1, [0], 218), (1, [2], 20), (-1, [0], 74)],
      [(1, [2], 15), (-1, [0], 69), (-1, [2], 87), (1, [0], 141), (-1, [2], 11), (1, [0], 65), (1, [2], 83), (-1, [0], 137)],
      [(1, [2], 6), (-1, [0], 60), (1, [2], 96), (-1, [0], 150), (1, [2], 186), (-1, [0], 240), (-1, [2], 2), (1, [0], 56), (-1, [2], 92), (1, [0], 146), (-1, [2], 182), (1, [0], 236)],
      [(1, [2], 100), (-1, [0], 154), (-1, [2], 172), (1, [0], 226), (-1, [2], 102), (1, [0], 156), (1, [2], 174), (-1, [0], 228)],
      [(1, [2], 163), (-1, [0], 217), (-1, [2], 19), (1, [0], 73), (-1, [2], 165), (1, [0], 219), (1, [2], 21), (-1, [0], 75)],
      [(1, [2], 10), (-1, [0], 64), (-1, [2], 82), (1, [0], 136), (-1, [2], 12), (1, [0], 66), (1, [2], 84), (-1, [0], 138)],
      [(1, [2], 1), (-1, [0], 55), (1, [2], 91), (-1, [0], 145), (1, [2], 181), (-1, [0], 235), (-1, [2], 3), (1, [0], 57), (-1, [2], 93), (1, [0], 147), (-1, [2], 183), (1, [0], 237)],
      [(1, [2], 99), (-1, [0], 153), (-1, [2], 171), (1, [0], 225), (1, [2], 103), (-1, [0], 157), (-1, [2], 175), (1, [0], 229), (1, [2], 107), (-1, [0], 161), (-1, [2], 179), (1, [0], 233)],
      [(1, [2], 162), (-1, [0], 216), (-1, [2], 18), (1, [0], 72), (1, [2], 166), (-1, [0], 220), (-1, [2], 22), (1, [0], 76), (1, [2], 170), (-1, [0], 224), (-1, [2], 26), (1, [0], 80)],
      [(1, [2], 9), (-1, [0], 63), (-1, [2], 81), (1, [0], 135), (1, [2], 13), (-1, [0], 67), (-1, [2], 85), (1, [0], 139), (1, [2], 17), (-1, [0], 71), (-1, [2], 89), (1, [0], 143)],
      [(1, [2], 0), (-1, [0], 54), (1, [2], 90), (-1, [0], 144), (1, [2], 180), (-1, [0], 234), (1, [2], 4), (-1, [0], 58), (1, [2], 94), (-1, [0], 148), (1, [2], 184), (-1, [0], 238), (1, [2], 8), (-1, [0], 62), (1, [2], 98), (-1, [0], 152), (1, [2], 188), (-1, [0], 242)],
      [(1, [0], 131), (-1, [1], 104), (-1, [0], 203), (1, [1], 176), (-1, [0], 133), (1, [1], 106), (1, [0], 205), (-1, [1], 178)],
      [(1, [0], 194), (-1, [1], 167), (-1, [0], 50), (1, [1], 23), (-1, [0], 196), (1, [1], 169), (1, [0], 52), (-1, [1], 25)],
      [(1, [0], 41), (-1, [1], 14), (-1, [0], 113), (1, [1], 86), (-1, [0], 43), (1, [1], 16), (1, [0], 115), (-1, [1], 88)],
      [(1, [0], 32), (-1, [1], 5), (1, [0], 122), (-1, [1], 95), (1, [0], 212), (-1, [1], 185), (-1, [0], 34), (1, [1], 7), (-1, [0], 124), (1, [1], 97), (-1, [0], 214), (1, [1], 187)],
      [(1, [0], 132), (-1, [1], 105), (-1, [0], 204), (1, [1], 177), (-1, [0], 128), (1, [1], 101), (1, [0], 200), (-1, [1], 173)],
      [(1, [0], 195), (-1, [1], 168), (-1, [0], 51), (1, [1], 24), (-1, [0], 191), (1, [1], 164), (1, [0], 47), (-1, [1], 20)],
      [(1, [0], 42), (-1, [1], 15), (-1, [0], 114), (1, [1], 87), (-1, [0], 38), (1, [1], 11), (1, [0], 110), (-1, [1], 83)],
      [(1, [0], 33), (-1, [1], 6), (1, [0], 123), (-1, [1], 96), (1, [0], 213), (-1, [1], 186), (-1, [0], 29), (1, [1], 2), (-1, [0], 119), (1, [1], 92), (-1, [0], 209), (1, [1], 182)],
      [(1, [0], 127), (-1, [1], 100), (-1, [0], 199), (1, [1], 172), (-1, [0], 129), (1, [1], 102), (1, [0], 201), (-1, [1], 174)],
      [(1, [0], 190), (-1, [1], 163), (-1, [0], 46), (1, [1], 19), (-1, [0], 192), (1, [1], 165), (1, [0], 48), (-1, [1], 21)],
      [(1, [0], 37), (-1, [1], 10), (-1, [0], 109), (1, [1], 82), (-1, [0], 39), (1, [1], 12), (1, [0], 111), (-1, [1], 84)],
      [(1, [0], 28), (-1, [1], 1), (1, [0], 118), (-1, [1], 91), (1, [0], 208), (-1, [1], 181), (-1, [0], 30), (1, [1], 3), (-1, [0], 120), (1, [1], 93), (-1, [0], 210), (1, [1], 183)],
      [(1, [0], 126), (-1, [1], 99), (-1, [0], 198), (1, [1], 171), (1, [0], 130), (-1, [1], 103), (-1, [0], 202), (1, [1], 175), (1, [0], 134), (-1, [1], 107), (-1, [0], 206), (1, [1], 179)],
      [(1, [0], 189), (-1, [1], 162), (-1, [0], 45), (1, [1], 18), (1, [0], 193), (-1, [1], 166), (-1, [0], 49), (1, [1], 22), (1, [0], 197), (-1, [1], 170), (-1, [0], 53), (1, [1], 26)],
      [(1, [0], 36), (-1, [1], 9), (-1, [0], 108), (1, [1], 81), (1, [0], 40), (-1, [1], 13), (-1, [0], 112), (1, [1], 85), (1, [0], 44), (-1, [1], 17), (-1, [0], 116), (1, [1], 89)],
      [(1, [0], 27), (-1, [1], 0), (1, [0], 117), (-1, [1], 90), (1, [0], 207), (-1, [1], 180), (1, [0], 31), (-1, [1], 4), (1, [0], 121), (-1, [1], 94), (1, [0], 211), (-1, [1], 184), (1, [0], 35), (-1, [1], 8), (1, [0], 125), (-1, [1], 98), (1, [0], 215), (-1, [1], 188)]] }

/-- int2e_pp1: src/autocode/intor4.c:2203-2236 (`CINTgout2e_int2e_pp1`) and 2241 ff -/
def int2e_pp1 : Gen2e where
  ng := ⟨1, 1, 0, 0, 0⟩
  gbits := 2
  nComp := 1
  prog := {
    steps := [⟨.d, 1, 1, 0, ![1, 0, 0, 0]⟩,
      ⟨.d, 0, 2, 0, ![0, 0, 0, 0]⟩,
      ⟨.d, 0, 3, 1, ![0, 0, 0, 0]⟩]
    prods := [(3, 0, 0), (2, 1, 0), (2, 0, 1), (1, 2, 0), (0, 3, 0), (0, 2, 1), (1, 0, 2), (0, 1, 2), (0, 0, 3)]
    comps := [[(1, [], 0), (1, [], 4), (1, [], 8)]] }

/-- int2e_pp2: src/autocode/intor4.c:2269-2302 (`CINTgout2e_int2e_pp2`) and 2307 ff -/
def int2e_pp2 : Gen2e where
  ng := ⟨0, 0, 1, 1, 0⟩
  gbits := 2
  nComp := 1
  prog := {
    steps := [⟨.d, 3, 1, 0, ![0, 0, 1, 0]⟩,
      ⟨.d, 2, 2, 0, ![0, 0, 0, 0]⟩,
      ⟨.d, 2, 3, 1, ![0, 0, 0, 0]⟩]
    prods := [(3, 0, 0), (2, 1, 0), (2, 0, 1), (1, 2, 0), (0, 3, 0), (0, 2, 1), (1, 0, 2), (0, 1, 2), (0, 0, 3)]
    comps := [[(1, [], 0), (1, [], 4), (1, [], 8)]] }

/-- int2e_pp1pp2: src/autocode/intor4.c:2335-2464 (`CINTgout2e_int2e_pp1pp2`) and 2469 ff -/
def int2e_pp1pp2 : Gen2e where
  ng := ⟨1, 1, 1, 1, 0⟩
  gbits := 4
  nComp := 1
  prog := {
    steps := [⟨.d, 3, 1, 0, ![1, 1, 1, 0]⟩,
      ⟨.d, 2, 2, 0, ![1, 1, 0, 0]⟩,
      ⟨.d, 2, 3, 1, ![1, 1, 0, 0]⟩,
      ⟨.d, 1, 4, 0, ![1, 0, 0, 0]⟩,
      ⟨.d, 1, 5, 1, ![1, 0, 0, 0]⟩,
      ⟨.d, 1, 6, 2, ![1, 0, 0, 0]⟩,
      ⟨.d, 1, 7, 3, ![1, 0, 0, 0]⟩,
      ⟨.d, 0, 8, 0, ![0, 0, 0, 0]⟩,
      ⟨.d, 0, 9, 1, ![0, 0, 0, 0]⟩,
      ⟨.d, 0, 10, 2, ![0, 0, 0, 0]⟩,
      ⟨.d, 0, 11, 3, ![0, 0, 0, 0]⟩,
      ⟨.d, 0, 12, 4, ![0, 0, 0, 0]⟩,
      ⟨.d, 0, 13, 5, ![0, 0, 0, 0]⟩,
      ⟨.d, 0, 14, 6, ![0, 0, 0, 0]⟩,
      ⟨.d, 0, 15, 7, ![0, 0, 0, 0]⟩]
    prods := [(15, 0, 0), (14, 1, 0), (14, 0, 1), (13, 2, 0), (12, 3, 0), (12, 2, 1), (13, 0, 2), (12, 1, 2), (12, 0, 3),
      (11, 4, 0), (10, 5, 0), (10, 4, 1), (9, 6, 0), (8, 7, 0), (8, 6, 1), (9, 4, 2), (8, 5, 2), (8, 4, 3),
      (11, 0, 4), (10, 1, 4), (10, 0, 5), (9, 2, 4), (8, 3, 4), (8, 2, 5), (9, 0, 6), (8, 1, 6), (8, 0, 7),
      (7, 8, 0), (6, 9, 0), (6, 8, 1), (5, 10, 0), (4, 11, 0), (4, 10, 1), (5, 8, 2), (4, 9, 2), (4, 8, 3),
      (3, 12, 0), (2, 13, 0), (2, 12, 1), (1, 14, 0), (0, 15, 0), (0, 14, 1), (1, 12, 2), (0, 13, 2), (0, 12, 3),
      (3, 8, 4), (2, 9, 4), (2, 8, 5), (1, 10, 4), (0, 11, 4), (0, 10, 5), (1, 8, 6), (0, 9, 6), (0, 8, 7),
      (7, 0, 8), (6, 1, 8), (6, 0, 9), (5, 2, 8), (4, 3, 8), (4, 2, 9), (5, 0, 10), (4, 1, 10), (4, 0, 11),
      (3, 4, 8), (2, 5, 8), (2, 4, 9), (1, 6, 8), (0, 7, 8), (0, 6, 9), (1, 4, 10), (0, 5, 10), (0, 4, 11),
      (3, 0, 12), (2, 1, 12), (2, 0, 13), (1, 2, 12), (0, 3, 12), (0, 2, 13), (1, 0, 14), (0, 1, 14), (0, 0, 15)]
    comps := [[(1, [], 0), (1, [], 36), (1, [], 72), (1, [], 4), (1, [], 40), (1, [], 76), (1, [], 8), (1, [], 44), (1, [], 80)]] }

/-- all of them -/
def all2e : List (String × Gen2e) := [
  ("int2e_gauge_r1_ssp1ssp2", int2e_gauge_r1_ssp1ssp2),
  ("int2e_gauge_r1_ssp1sps2", int2e_gauge_r1_ssp1sps2),
  ("int2e_gauge_r1_sps1ssp2", int2e_gauge_r1_sps1ssp2),
  ("int2e_gauge_r1_sps1sps2", int2e_gauge_r1_sps1sps2),
  ("int2e_gauge_r2_ssp1ssp2", int2e_gauge_r2_ssp1ssp2),
  ("int2e_gauge_r2_ssp1sps2", int2e_gauge_r2_ssp1sps2),
  ("int2e_gauge_r2_sps1ssp2", int2e_gauge_r2_sps1ssp2),
  ("int2e_gauge_r2_sps1sps2", int2e_gauge_r2_sps1sps2),
  ("int2e_spv1", int2e_spv1),
  ("int2e_vsp1", int2e_vsp1),
  ("int2e_spsp2", int2e_spsp2),
  ("int2e_spv1spv2", int2e_spv1spv2),
  ("int2e_vsp1spv2", int2e_vsp1spv2),
  ("int2e_spv1vsp2", int2e_spv1vsp2),
  ("int2e_vsp1vsp2", int2e_vsp1vsp2),
  ("int2e_spv1spsp2", int2e_spv1spsp2),
  ("int2e_vsp1spsp2", int2e_vsp1spsp2),
  ("int2e_ssp1ssp2", int2e_ssp1ssp2),
  ("int2e_ssp1sps2", int2e_ssp1sps2),
  ("int2e_sps1ssp2", int2e_sps1ssp2),
  ("int2e_sps1sps2", int2e_sps1sps2),
  ("int2e_cg_ssa10ssp2", int2e_cg_ssa10ssp2),
  ("int2e_giao_ssa10ssp2", int2e_giao_ssa10ssp2),
  ("int2e_gssp1ssp2", int2e_gssp1ssp2),
  ("int2e_ip1", int2e_ip1),
  ("int2e_ip2", int2e_ip2),
  ("int2e_ipspsp1", int2e_ipspsp1),
  ("int2e_ip1spsp2", int2e_ip1spsp2),
  ("int2e_ipspsp1spsp2", int2e_ipspsp1spsp2),
  ("int2e_ipsrsr1", int2e_ipsrsr1),
  ("int2e_ip1srsr2", int2e_ip1srsr2),
  ("int2e_ipsrsr1srsr2", int2e_ipsrsr1srsr2),
  ("int2e_ipip1", int2e_ipip1),
  ("int2e_ipvip1", int2e_ipvip1),
  ("int2e_ip1ip2", int2e_ip1ip2),
  ("int2e_ipip1ipip2", int2e_ipip1ipip2),
  ("int2e_ipvip1ipvip2", int2e_ipvip1ipvip2),
  ("int2e_ig1", int2e_ig1),
  ("int2e_gg1", int2e_gg1),
  ("int2e_g1g2", int2e_g1g2),
  ("int2e_p1vxp1", int2e_p1vxp1),
  ("int2e_ip1v_rc1", int2e_ip1v_rc1),
  ("int2e_ip1v_r1", int2e_ip1v_r1),
  ("int2e_spsp1", int2e_spsp1),
  ("int2e_spsp1spsp2", int2e_spsp1spsp2),
  ("int2e_srsr1", int2e_srsr1),
  ("int2e_srsr1srsr2", int2e_srsr1srsr2),
  ("int2e_cg_sa10sp1", int2e_cg_sa10sp1),
  ("int2e_cg_sa10sp1spsp2", int2e_cg_sa10sp1spsp2),
  ("int2e_giao_sa10sp1", int2e_giao_sa10sp1),
  ("int2e_giao_sa10sp1spsp2", int2e_giao_sa10sp1spsp2),
  ("int2e_g1", int2e_g1),
  ("int2e_spgsp1", int2e_spgsp1),
  ("int2e_g1spsp2", int2e_g1spsp2),
  ("int2e_spgsp1spsp2", int2e_spgsp1spsp2),
  ("int2e_pp1", int2e_pp1),
  ("int2e_pp2", int2e_pp2),
  ("int2e_pp1pp2", int2e_pp1pp2)]

/-- those whose wrapper returns zeros when two shells are the same (`envs.shls[0] == envs.shls[1]`) -/
def shortcutIJ : List String := ["int2e_gssp1ssp2", "int2e_ig1", "int2e_gg1", "int2e_g1g2", "int2e_g1", "int2e_spgsp1", "int2e_g1spsp2", "int2e_spgsp1spsp2"]

/-- those whose wrapper returns zeros when two shells are the same (`envs.shls[2] == envs.shls[3]`) -/
def shortcutKL : List String := ["int2e_g1g2"]

end Verif.Model.Auto2e
