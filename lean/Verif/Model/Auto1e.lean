import Verif.Model.Oper

/-! Generated by tools/autocode.py from src/autocode and src/cint1e_a.c: every one-electron integral evaluated with `int1e_type = 0`
(overlap intermediates).  The two branches on `gout_empty` of each function have the same right-hand sides (checked by
the translator) and are represented once; the declarations of pointers `g<k> = g0 + k*3*g_size`, of `rirj = ri - rj`, of
`dri`/`drj` (centre minus common origin) and the products `c[...]` of `rirj` components are folded into the terms.  The wrappers `_cart`, `_sph`, `_spinor` and
`_optimizer` use the same `ng`, factor and `f_gout` (checked by the translator). -/
namespace Verif.Model.Auto
open Verif.Model

/-- int1e_spspsp: src/autocode/dkb.c:18-78 (`CINTgout1e_int1e_spspsp`) and 83 ff -/
def int1e_spspsp : Gen1e where
  ng := ⟨1, 2, 0, 0, 1⟩
  gbits := 3
  nComp := 4
  prog := {
    steps := [⟨.d, 1, 1, 0, ![1, 0, 0, 0]⟩,
      ⟨.d, 1, 2, 0, ![1, 1, 0, 0]⟩,
      ⟨.d, 1, 3, 2, ![1, 0, 0, 0]⟩,
      ⟨.d, 0, 4, 0, ![0, 0, 0, 0]⟩,
      ⟨.d, 0, 5, 1, ![0, 0, 0, 0]⟩,
      ⟨.d, 0, 6, 2, ![0, 0, 0, 0]⟩,
      ⟨.d, 0, 7, 3, ![0, 0, 0, 0]⟩]
    prods := [(7, 0, 0), (6, 1, 0), (6, 0, 1), (5, 2, 0), (4, 3, 0), (4, 2, 1), (5, 0, 2), (4, 1, 2), (4, 0, 3),
      (3, 4, 0), (2, 5, 0), (2, 4, 1), (1, 6, 0), (0, 7, 0), (0, 6, 1), (1, 4, 2), (0, 5, 2), (0, 4, 3),
      (3, 0, 4), (2, 1, 4), (2, 0, 5), (1, 2, 4), (0, 3, 4), (0, 2, 5), (1, 0, 6), (0, 1, 6), (0, 0, 7)]
    comps := [[(-1, [], 0), (-1, [], 12), (-1, [], 24)],
      [(-1, [], 1), (-1, [], 13), (-1, [], 25)],
      [(-1, [], 2), (-1, [], 14), (-1, [], 26)],
      []] }

/-- int1e_ipovlp: src/autocode/grad1.c:18-40 (`CINTgout1e_int1e_ipovlp`) and 45 ff -/
def int1e_ipovlp : Gen1e where
  ng := ⟨1, 0, 0, 0, 1⟩
  gbits := 1
  nComp := 3
  prog := {
    steps := [⟨.d, 0, 1, 0, ![0, 0, 0, 0]⟩]
    prods := [(1, 0, 0), (0, 1, 0), (0, 0, 1)]
    comps := [[(1, [], 0)],
      [(1, [], 1)],
      [(1, [], 2)]] }

/-- int1e_ovlpip: src/autocode/grad1.c:72-94 (`CINTgout1e_int1e_ovlpip`) and 99 ff -/
def int1e_ovlpip : Gen1e where
  ng := ⟨0, 1, 0, 0, 1⟩
  gbits := 1
  nComp := 3
  prog := {
    steps := [⟨.d, 1, 1, 0, ![0, 0, 0, 0]⟩]
    prods := [(1, 0, 0), (0, 1, 0), (0, 0, 1)]
    comps := [[(1, [], 0)],
      [(1, [], 1)],
      [(1, [], 2)]] }

/-- int1e_ipkin: src/autocode/grad1.c:126-184 (`CINTgout1e_int1e_ipkin`) and 189 ff -/
def int1e_ipkin : Gen1e where
  ng := ⟨1, 2, 0, 0, 1⟩
  gbits := 3
  nComp := 3
  num := 1
  den := 2
  prog := {
    steps := [⟨.d, 1, 1, 0, ![1, 0, 0, 0]⟩,
      ⟨.d, 1, 2, 0, ![1, 1, 0, 0]⟩,
      ⟨.d, 1, 3, 2, ![1, 0, 0, 0]⟩,
      ⟨.d, 0, 4, 0, ![0, 0, 0, 0]⟩,
      ⟨.d, 0, 5, 1, ![0, 0, 0, 0]⟩,
      ⟨.d, 0, 6, 2, ![0, 0, 0, 0]⟩,
      ⟨.d, 0, 7, 3, ![0, 0, 0, 0]⟩]
    prods := [(7, 0, 0), (6, 1, 0), (6, 0, 1), (5, 2, 0), (4, 3, 0), (4, 2, 1), (5, 0, 2), (4, 1, 2), (4, 0, 3),
      (3, 4, 0), (2, 5, 0), (2, 4, 1), (1, 6, 0), (0, 7, 0), (0, 6, 1), (1, 4, 2), (0, 5, 2), (0, 4, 3),
      (3, 0, 4), (2, 1, 4), (2, 0, 5), (1, 2, 4), (0, 3, 4), (0, 2, 5), (1, 0, 6), (0, 1, 6), (0, 0, 7)]
    comps := [[(-1, [], 0), (-1, [], 4), (-1, [], 8)],
      [(-1, [], 9), (-1, [], 13), (-1, [], 17)],
      [(-1, [], 18), (-1, [], 22), (-1, [], 26)]] }

/-- int1e_kinip: src/autocode/grad1.c:219-277 (`CINTgout1e_int1e_kinip`) and 282 ff -/
def int1e_kinip : Gen1e where
  ng := ⟨0, 3, 0, 0, 1⟩
  gbits := 3
  nComp := 3
  num := 1
  den := 2
  prog := {
    steps := [⟨.d, 1, 1, 0, ![0, 0, 0, 0]⟩,
      ⟨.d, 1, 2, 0, ![0, 1, 0, 0]⟩,
      ⟨.d, 1, 3, 2, ![0, 0, 0, 0]⟩,
      ⟨.d, 1, 4, 0, ![0, 2, 0, 0]⟩,
      ⟨.d, 1, 5, 4, ![0, 0, 0, 0]⟩,
      ⟨.d, 1, 6, 4, ![0, 1, 0, 0]⟩,
      ⟨.d, 1, 7, 6, ![0, 0, 0, 0]⟩]
    prods := [(7, 0, 0), (6, 1, 0), (6, 0, 1), (5, 2, 0), (4, 3, 0), (4, 2, 1), (5, 0, 2), (4, 1, 2), (4, 0, 3),
      (3, 4, 0), (2, 5, 0), (2, 4, 1), (1, 6, 0), (0, 7, 0), (0, 6, 1), (1, 4, 2), (0, 5, 2), (0, 4, 3),
      (3, 0, 4), (2, 1, 4), (2, 0, 5), (1, 2, 4), (0, 3, 4), (0, 2, 5), (1, 0, 6), (0, 1, 6), (0, 0, 7)]
    comps := [[(-1, [], 0), (-1, [], 12), (-1, [], 24)],
      [(-1, [], 1), (-1, [], 13), (-1, [], 25)],
      [(-1, [], 2), (-1, [], 14), (-1, [], 26)]] }

/-- int1e_ipipovlp: src/autocode/hess.c:18-62 (`CINTgout1e_int1e_ipipovlp`) and 67 ff -/
def int1e_ipipovlp : Gen1e where
  ng := ⟨2, 0, 0, 0, 1⟩
  gbits := 2
  nComp := 9
  prog := {
    steps := [⟨.d, 0, 1, 0, ![1, 0, 0, 0]⟩,
      ⟨.d, 0, 2, 0, ![0, 0, 0, 0]⟩,
      ⟨.d, 0, 3, 1, ![0, 0, 0, 0]⟩]
    prods := [(3, 0, 0), (2, 1, 0), (2, 0, 1), (1, 2, 0), (0, 3, 0), (0, 2, 1), (1, 0, 2), (0, 1, 2), (0, 0, 3)]
    comps := [[(1, [], 0)],
      [(1, [], 3)],
      [(1, [], 6)],
      [(1, [], 1)],
      [(1, [], 4)],
      [(1, [], 7)],
      [(1, [], 2)],
      [(1, [], 5)],
      [(1, [], 8)]] }

/-- int1e_ipovlpip: src/autocode/hess.c:94-138 (`CINTgout1e_int1e_ipovlpip`) and 143 ff -/
def int1e_ipovlpip : Gen1e where
  ng := ⟨1, 1, 0, 0, 1⟩
  gbits := 2
  nComp := 9
  prog := {
    steps := [⟨.d, 1, 1, 0, ![1, 0, 0, 0]⟩,
      ⟨.d, 0, 2, 0, ![0, 0, 0, 0]⟩,
      ⟨.d, 0, 3, 1, ![0, 0, 0, 0]⟩]
    prods := [(3, 0, 0), (2, 1, 0), (2, 0, 1), (1, 2, 0), (0, 3, 0), (0, 2, 1), (1, 0, 2), (0, 1, 2), (0, 0, 3)]
    comps := [[(1, [], 0)],
      [(1, [], 1)],
      [(1, [], 2)],
      [(1, [], 3)],
      [(1, [], 4)],
      [(1, [], 5)],
      [(1, [], 6)],
      [(1, [], 7)],
      [(1, [], 8)]] }

/-- int1e_ipipkin: src/autocode/hess.c:170-310 (`CINTgout1e_int1e_ipipkin`) and 315 ff -/
def int1e_ipipkin : Gen1e where
  ng := ⟨2, 2, 0, 0, 1⟩
  gbits := 4
  nComp := 9
  num := 1
  den := 2
  prog := {
    steps := [⟨.d, 1, 1, 0, ![2, 0, 0, 0]⟩,
      ⟨.d, 1, 2, 0, ![2, 1, 0, 0]⟩,
      ⟨.d, 1, 3, 2, ![2, 0, 0, 0]⟩,
      ⟨.d, 0, 4, 0, ![1, 0, 0, 0]⟩,
      ⟨.d, 0, 5, 1, ![1, 0, 0, 0]⟩,
      ⟨.d, 0, 6, 2, ![1, 0, 0, 0]⟩,
      ⟨.d, 0, 7, 3, ![1, 0, 0, 0]⟩,
      ⟨.d, 0, 8, 0, ![0, 0, 0, 0]⟩,
      ⟨.d, 0, 9, 1, ![0, 0, 0, 0]⟩,
      ⟨.d, 0, 10, 2, ![0, 0, 0, 0]⟩,
      ⟨.d, 0, 11, 3, ![0, 0, 0, 0]⟩,
      ⟨.d, 0, 12, 4, ![0, 0, 0, 0]⟩,
      ⟨.d, 0, 13, 5, ![0, 0, 0, 0]⟩,
      ⟨.d, 0, 14, 6, ![0, 0, 0, 0]⟩,
      ⟨.d, 0, 15, 7, ![0, 0, 0, 0]⟩]
    prods := [(15, 0, 0), (14, 1, 0), (14, 0, 1), (13, 2, 0), (12, 3, 0), (12, 2, 1), (13, 0, 2), (12, 1, 2), (12, 0, 3),
      (11, 4, 0), (10, 5, 0), (10, 4, 1), (9, 6, 0), (8, 7, 0), (8, 6, 1), (9, 4, 2), (8, 5, 2), (8, 4, 3),
      (11, 0, 4), (10, 1, 4), (10, 0, 5), (9, 2, 4), (8, 3, 4), (8, 2, 5), (9, 0, 6), (8, 1, 6), (8, 0, 7),
      (7, 8, 0), (6, 9, 0), (6, 8, 1), (5, 10, 0), (4, 11, 0), (4, 10, 1), (5, 8, 2), (4, 9, 2), (4, 8, 3),
      (3, 12, 0), (2, 13, 0), (2, 12, 1), (1, 14, 0), (0, 15, 0), (0, 14, 1), (1, 12, 2), (0, 13, 2), (0, 12, 3),
      (3, 8, 4), (2, 9, 4), (2, 8, 5), (1, 10, 4), (0, 11, 4), (0, 10, 5), (1, 8, 6), (0, 9, 6), (0, 8, 7),
      (7, 0, 8), (6, 1, 8), (6, 0, 9), (5, 2, 8), (4, 3, 8), (4, 2, 9), (5, 0, 10), (4, 1, 10), (4, 0, 11),
      (3, 4, 8), (2, 5, 8), (2, 4, 9), (1, 6, 8), (0, 7, 8), (0, 6, 9), (1, 4, 10), (0, 5, 10), (0, 4, 11),
      (3, 0, 12), (2, 1, 12), (2, 0, 13), (1, 2, 12), (0, 3, 12), (0, 2, 13), (1, 0, 14), (0, 1, 14), (0, 0, 15)]
    comps := [[(-1, [], 0), (-1, [], 4), (-1, [], 8)],
      [(-1, [], 27), (-1, [], 31), (-1, [], 35)],
      [(-1, [], 54), (-1, [], 58), (-1, [], 62)],
      [(-1, [], 9), (-1, [], 13), (-1, [], 17)],
      [(-1, [], 36), (-1, [], 40), (-1, [], 44)],
      [(-1, [], 63), (-1, [], 67), (-1, [], 71)],
      [(-1, [], 18), (-1, [], 22), (-1, [], 26)],
      [(-1, [], 45), (-1, [], 49), (-1, [], 53)],
      [(-1, [], 72), (-1, [], 76), (-1, [], 80)]] }

/-- int1e_ipkinip: src/autocode/hess.c:345-485 (`CINTgout1e_int1e_ipkinip`) and 490 ff -/
def int1e_ipkinip : Gen1e where
  ng := ⟨1, 3, 0, 0, 1⟩
  gbits := 4
  nComp := 9
  num := 1
  den := 2
  prog := {
    steps := [⟨.d, 1, 1, 0, ![1, 0, 0, 0]⟩,
      ⟨.d, 1, 2, 0, ![1, 1, 0, 0]⟩,
      ⟨.d, 1, 3, 2, ![1, 0, 0, 0]⟩,
      ⟨.d, 1, 4, 0, ![1, 2, 0, 0]⟩,
      ⟨.d, 1, 5, 4, ![1, 0, 0, 0]⟩,
      ⟨.d, 1, 6, 4, ![1, 1, 0, 0]⟩,
      ⟨.d, 1, 7, 6, ![1, 0, 0, 0]⟩,
      ⟨.d, 0, 8, 0, ![0, 0, 0, 0]⟩,
      ⟨.d, 0, 9, 1, ![0, 0, 0, 0]⟩,
      ⟨.d, 0, 10, 2, ![0, 0, 0, 0]⟩,
      ⟨.d, 0, 11, 3, ![0, 0, 0, 0]⟩,
      ⟨.d, 0, 12, 4, ![0, 0, 0, 0]⟩,
      ⟨.d, 0, 13, 5, ![0, 0, 0, 0]⟩,
      ⟨.d, 0, 14, 6, ![0, 0, 0, 0]⟩,
      ⟨.d, 0, 15, 7, ![0, 0, 0, 0]⟩]
    prods := [(15, 0, 0), (14, 1, 0), (14, 0, 1), (13, 2, 0), (12, 3, 0), (12, 2, 1), (13, 0, 2), (12, 1, 2), (12, 0, 3),
      (11, 4, 0), (10, 5, 0), (10, 4, 1), (9, 6, 0), (8, 7, 0), (8, 6, 1), (9, 4, 2), (8, 5, 2), (8, 4, 3),
      (11, 0, 4), (10, 1, 4), (10, 0, 5), (9, 2, 4), (8, 3, 4), (8, 2, 5), (9, 0, 6), (8, 1, 6), (8, 0, 7),
      (7, 8, 0), (6, 9, 0), (6, 8, 1), (5, 10, 0), (4, 11, 0), (4, 10, 1), (5, 8, 2), (4, 9, 2), (4, 8, 3),
      (3, 12, 0), (2, 13, 0), (2, 12, 1), (1, 14, 0), (0, 15, 0), (0, 14, 1), (1, 12, 2), (0, 13, 2), (0, 12, 3),
      (3, 8, 4), (2, 9, 4), (2, 8, 5), (1, 10, 4), (0, 11, 4), (0, 10, 5), (1, 8, 6), (0, 9, 6), (0, 8, 7),
      (7, 0, 8), (6, 1, 8), (6, 0, 9), (5, 2, 8), (4, 3, 8), (4, 2, 9), (5, 0, 10), (4, 1, 10), (4, 0, 11),
      (3, 4, 8), (2, 5, 8), (2, 4, 9), (1, 6, 8), (0, 7, 8), (0, 6, 9), (1, 4, 10), (0, 5, 10), (0, 4, 11),
      (3, 0, 12), (2, 1, 12), (2, 0, 13), (1, 2, 12), (0, 3, 12), (0, 2, 13), (1, 0, 14), (0, 1, 14), (0, 0, 15)]
    comps := [[(-1, [], 0), (-1, [], 12), (-1, [], 24)],
      [(-1, [], 1), (-1, [], 13), (-1, [], 25)],
      [(-1, [], 2), (-1, [], 14), (-1, [], 26)],
      [(-1, [], 27), (-1, [], 39), (-1, [], 51)],
      [(-1, [], 28), (-1, [], 40), (-1, [], 52)],
      [(-1, [], 29), (-1, [], 41), (-1, [], 53)],
      [(-1, [], 54), (-1, [], 66), (-1, [], 78)],
      [(-1, [], 55), (-1, [], 67), (-1, [], 79)],
      [(-1, [], 56), (-1, [], 68), (-1, [], 80)]] }

/-- int1e_ipipr: src/autocode/hess.c:840-950 (`CINTgout1e_int1e_ipipr`) and 955 ff -/
def int1e_ipipr : Gen1e where
  ng := ⟨2, 1, 0, 0, 1⟩
  gbits := 3
  nComp := 27
  prog := {
    steps := [⟨.xc, 1, 1, 0, ![2, 0, 0, 0]⟩,
      ⟨.d, 0, 2, 0, ![1, 0, 0, 0]⟩,
      ⟨.d, 0, 3, 1, ![1, 0, 0, 0]⟩,
      ⟨.d, 0, 4, 0, ![0, 0, 0, 0]⟩,
      ⟨.d, 0, 5, 1, ![0, 0, 0, 0]⟩,
      ⟨.d, 0, 6, 2, ![0, 0, 0, 0]⟩,
      ⟨.d, 0, 7, 3, ![0, 0, 0, 0]⟩]
    prods := [(7, 0, 0), (6, 1, 0), (6, 0, 1), (5, 2, 0), (4, 3, 0), (4, 2, 1), (5, 0, 2), (4, 1, 2), (4, 0, 3),
      (3, 4, 0), (2, 5, 0), (2, 4, 1), (1, 6, 0), (0, 7, 0), (0, 6, 1), (1, 4, 2), (0, 5, 2), (0, 4, 3),
      (3, 0, 4), (2, 1, 4), (2, 0, 5), (1, 2, 4), (0, 3, 4), (0, 2, 5), (1, 0, 6), (0, 1, 6), (0, 0, 7)]
    comps := [[(1, [], 0)],
      [(1, [], 1)],
      [(1, [], 2)],
      [(1, [], 9)],
      [(1, [], 10)],
      [(1, [], 11)],
      [(1, [], 18)],
      [(1, [], 19)],
      [(1, [], 20)],
      [(1, [], 3)],
      [(1, [], 4)],
      [(1, [], 5)],
      [(1, [], 12)],
      [(1, [], 13)],
      [(1, [], 14)],
      [(1, [], 21)],
      [(1, [], 22)],
      [(1, [], 23)],
      [(1, [], 6)],
      [(1, [], 7)],
      [(1, [], 8)],
      [(1, [], 15)],
      [(1, [], 16)],
      [(1, [], 17)],
      [(1, [], 24)],
      [(1, [], 25)],
      [(1, [], 26)]] }

/-- int1e_iprip: src/autocode/hess.c:982-1092 (`CINTgout1e_int1e_iprip`) and 1097 ff -/
def int1e_iprip : Gen1e where
  ng := ⟨1, 2, 0, 0, 1⟩
  gbits := 3
  nComp := 27
  prog := {
    steps := [⟨.d, 1, 1, 0, ![1, 0, 0, 0]⟩,
      ⟨.xc, 1, 2, 0, ![1, 1, 0, 0]⟩,
      ⟨.d, 1, 3, 2, ![1, 0, 0, 0]⟩,
      ⟨.d, 0, 4, 0, ![0, 0, 0, 0]⟩,
      ⟨.d, 0, 5, 1, ![0, 0, 0, 0]⟩,
      ⟨.d, 0, 6, 2, ![0, 0, 0, 0]⟩,
      ⟨.d, 0, 7, 3, ![0, 0, 0, 0]⟩]
    prods := [(7, 0, 0), (6, 1, 0), (6, 0, 1), (5, 2, 0), (4, 3, 0), (4, 2, 1), (5, 0, 2), (4, 1, 2), (4, 0, 3),
      (3, 4, 0), (2, 5, 0), (2, 4, 1), (1, 6, 0), (0, 7, 0), (0, 6, 1), (1, 4, 2), (0, 5, 2), (0, 4, 3),
      (3, 0, 4), (2, 1, 4), (2, 0, 5), (1, 2, 4), (0, 3, 4), (0, 2, 5), (1, 0, 6), (0, 1, 6), (0, 0, 7)]
    comps := [[(1, [], 0)],
      [(1, [], 1)],
      [(1, [], 2)],
      [(1, [], 3)],
      [(1, [], 4)],
      [(1, [], 5)],
      [(1, [], 6)],
      [(1, [], 7)],
      [(1, [], 8)],
      [(1, [], 9)],
      [(1, [], 10)],
      [(1, [], 11)],
      [(1, [], 12)],
      [(1, [], 13)],
      [(1, [], 14)],
      [(1, [], 15)],
      [(1, [], 16)],
      [(1, [], 17)],
      [(1, [], 18)],
      [(1, [], 19)],
      [(1, [], 20)],
      [(1, [], 21)],
      [(1, [], 22)],
      [(1, [], 23)],
      [(1, [], 24)],
      [(1, [], 25)],
      [(1, [], 26)]] }

/-- int1e_kin: src/autocode/intor1.c:18-46 (`CINTgout1e_int1e_kin`) and 51 ff -/
def int1e_kin : Gen1e where
  ng := ⟨0, 2, 0, 0, 1⟩
  gbits := 2
  nComp := 1
  num := 1
  den := 2
  prog := {
    steps := [⟨.d, 1, 1, 0, ![0, 0, 0, 0]⟩,
      ⟨.d, 1, 2, 0, ![0, 1, 0, 0]⟩,
      ⟨.d, 1, 3, 2, ![0, 0, 0, 0]⟩]
    prods := [(3, 0, 0), (2, 1, 0), (2, 0, 1), (1, 2, 0), (0, 3, 0), (0, 2, 1), (1, 0, 2), (0, 1, 2), (0, 0, 3)]
    comps := [[(-1, [], 0), (-1, [], 4), (-1, [], 8)]] }

/-- int1e_giao_irjxp: src/autocode/intor1.c:151-183 (`CINTgout1e_int1e_giao_irjxp`) and 188 ff -/
def int1e_giao_irjxp : Gen1e where
  ng := ⟨0, 2, 0, 0, 1⟩
  gbits := 2
  nComp := 3
  prog := {
    steps := [⟨.d, 1, 1, 0, ![0, 0, 0, 0]⟩,
      ⟨.own, 1, 2, 0, ![0, 1, 0, 0]⟩,
      ⟨.d, 1, 3, 2, ![0, 0, 0, 0]⟩]
    prods := [(3, 0, 0), (2, 1, 0), (2, 0, 1), (1, 2, 0), (0, 3, 0), (0, 2, 1), (1, 0, 2), (0, 1, 2), (0, 0, 3)]
    comps := [[(1, [], 5), (-1, [], 7)],
      [(1, [], 6), (-1, [], 2)],
      [(1, [], 1), (-1, [], 3)]] }

/-- int1e_cg_irxp: src/autocode/intor1.c:215-251 (`CINTgout1e_int1e_cg_irxp`) and 256 ff -/
def int1e_cg_irxp : Gen1e where
  ng := ⟨0, 2, 0, 0, 1⟩
  gbits := 2
  nComp := 3
  prog := {
    steps := [⟨.d, 1, 1, 0, ![0, 0, 0, 0]⟩,
      ⟨.xc, 1, 2, 0, ![0, 1, 0, 0]⟩,
      ⟨.d, 1, 3, 2, ![0, 0, 0, 0]⟩]
    prods := [(3, 0, 0), (2, 1, 0), (2, 0, 1), (1, 2, 0), (0, 3, 0), (0, 2, 1), (1, 0, 2), (0, 1, 2), (0, 0, 3)]
    comps := [[(1, [], 5), (-1, [], 7)],
      [(1, [], 6), (-1, [], 2)],
      [(1, [], 1), (-1, [], 3)]] }

/-- int1e_igkin: src/autocode/intor1.c:611-676 (`CINTgout1e_int1e_igkin`) and 681 ff -/
def int1e_igkin : Gen1e where
  ng := ⟨1, 2, 0, 0, 1⟩
  gbits := 3
  nComp := 3
  num := 1
  den := 4
  prog := {
    steps := [⟨.d, 1, 1, 0, ![1, 0, 0, 0]⟩,
      ⟨.d, 1, 2, 0, ![1, 1, 0, 0]⟩,
      ⟨.d, 1, 3, 2, ![1, 0, 0, 0]⟩,
      ⟨.x0, 0, 4, 0, ![0, 0, 0, 0]⟩,
      ⟨.x0, 0, 5, 1, ![0, 0, 0, 0]⟩,
      ⟨.x0, 0, 6, 2, ![0, 0, 0, 0]⟩,
      ⟨.x0, 0, 7, 3, ![0, 0, 0, 0]⟩]
    prods := [(7, 0, 0), (6, 1, 0), (6, 0, 1), (5, 2, 0), (4, 3, 0), (4, 2, 1), (5, 0, 2), (4, 1, 2), (4, 0, 3),
      (3, 4, 0), (2, 5, 0), (2, 4, 1), (1, 6, 0), (0, 7, 0), (0, 6, 1), (1, 4, 2), (0, 5, 2), (0, 4, 3),
      (3, 0, 4), (2, 1, 4), (2, 0, 5), (1, 2, 4), (0, 3, 4), (0, 2, 5), (1, 0, 6), (0, 1, 6), (0, 0, 7)]
    comps := [[(1, [1], 18), (-1, [2], 9), (1, [1], 22), (-1, [2], 13), (1, [1], 26), (-1, [2], 17)],
      [(1, [2], 0), (-1, [0], 18), (1, [2], 4), (-1, [0], 22), (1, [2], 8), (-1, [0], 26)],
      [(1, [0], 9), (-1, [1], 0), (1, [0], 13), (-1, [1], 4), (1, [0], 17), (-1, [1], 8)]] }

/-- int1e_igovlp: src/autocode/intor1.c:747-776 (`CINTgout1e_int1e_igovlp`) and 781 ff -/
def int1e_igovlp : Gen1e where
  ng := ⟨1, 0, 0, 0, 1⟩
  gbits := 1
  nComp := 3
  num := 1
  den := 2
  prog := {
    steps := [⟨.x0, 0, 1, 0, ![0, 0, 0, 0]⟩]
    prods := [(1, 0, 0), (0, 1, 0), (0, 0, 1)]
    comps := [[(-1, [1], 2), (1, [2], 1)],
      [(-1, [2], 0), (1, [0], 2)],
      [(-1, [0], 1), (1, [1], 0)]] }

/-- int1e_z: src/autocode/intor1.c:1015-1037 (`CINTgout1e_int1e_z`) and 1042 ff -/
def int1e_z : Gen1e where
  ng := ⟨0, 1, 0, 0, 1⟩
  gbits := 1
  nComp := 1
  prog := {
    steps := [⟨.xc, 1, 1, 0, ![0, 0, 0, 0]⟩]
    prods := [(1, 0, 0), (0, 1, 0), (0, 0, 1)]
    comps := [[(1, [], 2)]] }

/-- int1e_zz: src/autocode/intor1.c:1069-1101 (`CINTgout1e_int1e_zz`) and 1106 ff -/
def int1e_zz : Gen1e where
  ng := ⟨0, 2, 0, 0, 1⟩
  gbits := 2
  nComp := 1
  prog := {
    steps := [⟨.xc, 1, 1, 0, ![0, 0, 0, 0]⟩,
      ⟨.xc, 1, 2, 0, ![0, 1, 0, 0]⟩,
      ⟨.xc, 1, 3, 2, ![0, 0, 0, 0]⟩]
    prods := [(3, 0, 0), (2, 1, 0), (2, 0, 1), (1, 2, 0), (0, 3, 0), (0, 2, 1), (1, 0, 2), (0, 1, 2), (0, 0, 3)]
    comps := [[(1, [], 8)]] }

/-- int1e_r: src/autocode/intor1.c:1133-1159 (`CINTgout1e_int1e_r`) and 1164 ff -/
def int1e_r : Gen1e where
  ng := ⟨0, 1, 0, 0, 1⟩
  gbits := 1
  nComp := 3
  prog := {
    steps := [⟨.xc, 1, 1, 0, ![0, 0, 0, 0]⟩]
    prods := [(1, 0, 0), (0, 1, 0), (0, 0, 1)]
    comps := [[(1, [], 0)],
      [(1, [], 1)],
      [(1, [], 2)]] }

/-- int1e_r2: src/autocode/intor1.c:1191-1223 (`CINTgout1e_int1e_r2`) and 1228 ff -/
def int1e_r2 : Gen1e where
  ng := ⟨0, 2, 0, 0, 1⟩
  gbits := 2
  nComp := 1
  prog := {
    steps := [⟨.xc, 1, 1, 0, ![0, 0, 0, 0]⟩,
      ⟨.xc, 1, 2, 0, ![0, 1, 0, 0]⟩,
      ⟨.xc, 1, 3, 2, ![0, 0, 0, 0]⟩]
    prods := [(3, 0, 0), (2, 1, 0), (2, 0, 1), (1, 2, 0), (0, 3, 0), (0, 2, 1), (1, 0, 2), (0, 1, 2), (0, 0, 3)]
    comps := [[(1, [], 0), (1, [], 4), (1, [], 8)]] }

/-- int1e_r4: src/autocode/intor1.c:1255-1383 (`CINTgout1e_int1e_r4`) and 1388 ff -/
def int1e_r4 : Gen1e where
  ng := ⟨0, 4, 0, 0, 1⟩
  gbits := 4
  nComp := 1
  prog := {
    steps := [⟨.xc, 1, 1, 0, ![0, 0, 0, 0]⟩,
      ⟨.xc, 1, 2, 0, ![0, 1, 0, 0]⟩,
      ⟨.xc, 1, 3, 2, ![0, 0, 0, 0]⟩,
      ⟨.xc, 1, 4, 0, ![0, 2, 0, 0]⟩,
      ⟨.xc, 1, 5, 4, ![0, 0, 0, 0]⟩,
      ⟨.xc, 1, 6, 4, ![0, 1, 0, 0]⟩,
      ⟨.xc, 1, 7, 6, ![0, 0, 0, 0]⟩,
      ⟨.xc, 1, 8, 0, ![0, 3, 0, 0]⟩,
      ⟨.xc, 1, 9, 8, ![0, 0, 0, 0]⟩,
      ⟨.xc, 1, 10, 8, ![0, 1, 0, 0]⟩,
      ⟨.xc, 1, 11, 10, ![0, 0, 0, 0]⟩,
      ⟨.xc, 1, 12, 8, ![0, 2, 0, 0]⟩,
      ⟨.xc, 1, 13, 12, ![0, 0, 0, 0]⟩,
      ⟨.xc, 1, 14, 12, ![0, 1, 0, 0]⟩,
      ⟨.xc, 1, 15, 14, ![0, 0, 0, 0]⟩]
    prods := [(15, 0, 0), (14, 1, 0), (14, 0, 1), (13, 2, 0), (12, 3, 0), (12, 2, 1), (13, 0, 2), (12, 1, 2), (12, 0, 3),
      (11, 4, 0), (10, 5, 0), (10, 4, 1), (9, 6, 0), (8, 7, 0), (8, 6, 1), (9, 4, 2), (8, 5, 2), (8, 4, 3),
      (11, 0, 4), (10, 1, 4), (10, 0, 5), (9, 2, 4), (8, 3, 4), (8, 2, 5), (9, 0, 6), (8, 1, 6), (8, 0, 7),
      (7, 8, 0), (6, 9, 0), (6, 8, 1), (5, 10, 0), (4, 11, 0), (4, 10, 1), (5, 8, 2), (4, 9, 2), (4, 8, 3),
      (3, 12, 0), (2, 13, 0), (2, 12, 1), (1, 14, 0), (0, 15, 0), (0, 14, 1), (1, 12, 2), (0, 13, 2), (0, 12, 3),
      (3, 8, 4), (2, 9, 4), (2, 8, 5), (1, 10, 4), (0, 11, 4), (0, 10, 5), (1, 8, 6), (0, 9, 6), (0, 8, 7),
      (7, 0, 8), (6, 1, 8), (6, 0, 9), (5, 2, 8), (4, 3, 8), (4, 2, 9), (5, 0, 10), (4, 1, 10), (4, 0, 11),
      (3, 4, 8), (2, 5, 8), (2, 4, 9), (1, 6, 8), (0, 7, 8), (0, 6, 9), (1, 4, 10), (0, 5, 10), (0, 4, 11),
      (3, 0, 12), (2, 1, 12), (2, 0, 13), (1, 2, 12), (0, 3, 12), (0, 2, 13), (1, 0, 14), (0, 1, 14), (0, 0, 15)]
    comps := [[(1, [], 0), (2, [], 4), (2, [], 8), (1, [], 40), (2, [], 44), (1, [], 80)]] }

/-- int1e_rr: src/autocode/intor1.c:1415-1463 (`CINTgout1e_int1e_rr`) and 1468 ff -/
def int1e_rr : Gen1e where
  ng := ⟨0, 2, 0, 0, 1⟩
  gbits := 2
  nComp := 9
  prog := {
    steps := [⟨.xc, 1, 1, 0, ![0, 0, 0, 0]⟩,
      ⟨.xc, 1, 2, 0, ![0, 1, 0, 0]⟩,
      ⟨.xc, 1, 3, 2, ![0, 0, 0, 0]⟩]
    prods := [(3, 0, 0), (2, 1, 0), (2, 0, 1), (1, 2, 0), (0, 3, 0), (0, 2, 1), (1, 0, 2), (0, 1, 2), (0, 0, 3)]
    comps := [[(1, [], 0)],
      [(1, [], 1)],
      [(1, [], 2)],
      [(1, [], 3)],
      [(1, [], 4)],
      [(1, [], 5)],
      [(1, [], 6)],
      [(1, [], 7)],
      [(1, [], 8)]] }

/-- int1e_rrr: src/autocode/intor1.c:1495-1605 (`CINTgout1e_int1e_rrr`) and 1610 ff -/
def int1e_rrr : Gen1e where
  ng := ⟨0, 3, 0, 0, 1⟩
  gbits := 3
  nComp := 27
  prog := {
    steps := [⟨.xc, 1, 1, 0, ![0, 0, 0, 0]⟩,
      ⟨.xc, 1, 2, 0, ![0, 1, 0, 0]⟩,
      ⟨.xc, 1, 3, 2, ![0, 0, 0, 0]⟩,
      ⟨.xc, 1, 4, 0, ![0, 2, 0, 0]⟩,
      ⟨.xc, 1, 5, 4, ![0, 0, 0, 0]⟩,
      ⟨.xc, 1, 6, 4, ![0, 1, 0, 0]⟩,
      ⟨.xc, 1, 7, 6, ![0, 0, 0, 0]⟩]
    prods := [(7, 0, 0), (6, 1, 0), (6, 0, 1), (5, 2, 0), (4, 3, 0), (4, 2, 1), (5, 0, 2), (4, 1, 2), (4, 0, 3),
      (3, 4, 0), (2, 5, 0), (2, 4, 1), (1, 6, 0), (0, 7, 0), (0, 6, 1), (1, 4, 2), (0, 5, 2), (0, 4, 3),
      (3, 0, 4), (2, 1, 4), (2, 0, 5), (1, 2, 4), (0, 3, 4), (0, 2, 5), (1, 0, 6), (0, 1, 6), (0, 0, 7)]
    comps := [[(1, [], 0)],
      [(1, [], 1)],
      [(1, [], 2)],
      [(1, [], 3)],
      [(1, [], 4)],
      [(1, [], 5)],
      [(1, [], 6)],
      [(1, [], 7)],
      [(1, [], 8)],
      [(1, [], 9)],
      [(1, [], 10)],
      [(1, [], 11)],
      [(1, [], 12)],
      [(1, [], 13)],
      [(1, [], 14)],
      [(1, [], 15)],
      [(1, [], 16)],
      [(1, [], 17)],
      [(1, [], 18)],
      [(1, [], 19)],
      [(1, [], 20)],
      [(1, [], 21)],
      [(1, [], 22)],
      [(1, [], 23)],
      [(1, [], 24)],
      [(1, [], 25)],
      [(1, [], 26)]] }

/-- int1e_rrrr: src/autocode/intor1.c:1637-1925 (`CINTgout1e_int1e_rrrr`) and 1930 ff -/
def int1e_rrrr : Gen1e where
  ng := ⟨0, 4, 0, 0, 1⟩
  gbits := 4
  nComp := 81
  prog := {
    steps := [⟨.xc, 1, 1, 0, ![0, 0, 0, 0]⟩,
      ⟨.xc, 1, 2, 0, ![0, 1, 0, 0]⟩,
      ⟨.xc, 1, 3, 2, ![0, 0, 0, 0]⟩,
      ⟨.xc, 1, 4, 0, ![0, 2, 0, 0]⟩,
      ⟨.xc, 1, 5, 4, ![0, 0, 0, 0]⟩,
      ⟨.xc, 1, 6, 4, ![0, 1, 0, 0]⟩,
      ⟨.xc, 1, 7, 6, ![0, 0, 0, 0]⟩,
      ⟨.xc, 1, 8, 0, ![0, 3, 0, 0]⟩,
      ⟨.xc, 1, 9, 8, ![0, 0, 0, 0]⟩,
      ⟨.xc, 1, 10, 8, ![0, 1, 0, 0]⟩,
      ⟨.xc, 1, 11, 10, ![0, 0, 0, 0]⟩,
      ⟨.xc, 1, 12, 8, ![0, 2, 0, 0]⟩,
      ⟨.xc, 1, 13, 12, ![0, 0, 0, 0]⟩,
      ⟨.xc, 1, 14, 12, ![0, 1, 0, 0]⟩,
      ⟨.xc, 1, 15, 14, ![0, 0, 0, 0]⟩]
    prods := [(15, 0, 0), (14, 1, 0), (14, 0, 1), (13, 2, 0), (12, 3, 0), (12, 2, 1), (13, 0, 2), (12, 1, 2), (12, 0, 3),
      (11, 4, 0), (10, 5, 0), (10, 4, 1), (9, 6, 0), (8, 7, 0), (8, 6, 1), (9, 4, 2), (8, 5, 2), (8, 4, 3),
      (11, 0, 4), (10, 1, 4), (10, 0, 5), (9, 2, 4), (8, 3, 4), (8, 2, 5), (9, 0, 6), (8, 1, 6), (8, 0, 7),
      (7, 8, 0), (6, 9, 0), (6, 8, 1), (5, 10, 0), (4, 11, 0), (4, 10, 1), (5, 8, 2), (4, 9, 2), (4, 8, 3),
      (3, 12, 0), (2, 13, 0), (2, 12, 1), (1, 14, 0), (0, 15, 0), (0, 14, 1), (1, 12, 2), (0, 13, 2), (0, 12, 3),
      (3, 8, 4), (2, 9, 4), (2, 8, 5), (1, 10, 4), (0, 11, 4), (0, 10, 5), (1, 8, 6), (0, 9, 6), (0, 8, 7),
      (7, 0, 8), (6, 1, 8), (6, 0, 9), (5, 2, 8), (4, 3, 8), (4, 2, 9), (5, 0, 10), (4, 1, 10), (4, 0, 11),
      (3, 4, 8), (2, 5, 8), (2, 4, 9), (1, 6, 8), (0, 7, 8), (0, 6, 9), (1, 4, 10), (0, 5, 10), (0, 4, 11),
      (3, 0, 12), (2, 1, 12), (2, 0, 13), (1, 2, 12), (0, 3, 12), (0, 2, 13), (1, 0, 14), (0, 1, 14), (0, 0, 15)]
    comps := [[(1, [], 0)],
      [(1, [], 1)],
      [(1, [], 2)],
      [(1, [], 3)],
      [(1, [], 4)],
      [(1, [], 5)],
      [(1, [], 6)],
      [(1, [], 7)],
      [(1, [], 8)],
      [(1, [], 9)],
      [(1, [], 10)],
      [(1, [], 11)],
      [(1, [], 12)],
      [(1, [], 13)],
      [(1, [], 14)],
      [(1, [], 15)],
      [(1, [], 16)],
      [(1, [], 17)],
      [(1, [], 18)],
      [(1, [], 19)],
      [(1, [], 20)],
      [(1, [], 21)],
      [(1, [], 22)],
      [(1, [], 23)],
      [(1, [], 24)],
      [(1, [], 25)],
      [(1, [], 26)],
      [(1, [], 27)],
      [(1, [], 28)],
      [(1, [], 29)],
      [(1, [], 30)],
      [(1, [], 31)],
      [(1, [], 32)],
      [(1, [], 33)],
      [(1, [], 34)],
      [(1, [], 35)],
      [(1, [], 36)],
      [(1, [], 37)],
      [(1, [], 38)],
      [(1, [], 39)],
      [(1, [], 40)],
      [(1, [], 41)],
      [(1, [], 42)],
      [(1, [], 43)],
      [(1, [], 44)],
      [(1, [], 45)],
      [(1, [], 46)],
      [(1, [], 47)],
      [(1, [], 48)],
      [(1, [], 49)],
      [(1, [], 50)],
      [(1, [], 51)],
      [(1, [], 52)],
      [(1, [], 53)],
      [(1, [], 54)],
      [(1, [], 55)],
      [(1, [], 56)],
      [(1, [], 57)],
      [(1, [], 58)],
      [(1, [], 59)],
      [(1, [], 60)],
      [(1, [], 61)],
      [(1, [], 62)],
      [(1, [], 63)],
      [(1, [], 64)],
      [(1, [], 65)],
      [(1, [], 66)],
      [(1, [], 67)],
      [(1, [], 68)],
      [(1, [], 69)],
      [(1, [], 70)],
      [(1, [], 71)],
      [(1, [], 72)],
      [(1, [], 73)],
      [(1, [], 74)],
      [(1, [], 75)],
      [(1, [], 76)],
      [(1, [], 77)],
      [(1, [], 78)],
      [(1, [], 79)],
      [(1, [], 80)]] }

/-- int1e_z_origj: src/autocode/intor1.c:1957-1975 (`CINTgout1e_int1e_z_origj`) and 1980 ff -/
def int1e_z_origj : Gen1e where
  ng := ⟨0, 1, 0, 0, 1⟩
  gbits := 1
  nComp := 1
  prog := {
    steps := [⟨.own, 1, 1, 0, ![0, 0, 0, 0]⟩]
    prods := [(1, 0, 0), (0, 1, 0), (0, 0, 1)]
    comps := [[(1, [], 2)]] }

/-- int1e_zz_origj: src/autocode/intor1.c:2007-2035 (`CINTgout1e_int1e_zz_origj`) and 2040 ff -/
def int1e_zz_origj : Gen1e where
  ng := ⟨0, 2, 0, 0, 1⟩
  gbits := 2
  nComp := 1
  prog := {
    steps := [⟨.own, 1, 1, 0, ![0, 0, 0, 0]⟩,
      ⟨.own, 1, 2, 0, ![0, 1, 0, 0]⟩,
      ⟨.own, 1, 3, 2, ![0, 0, 0, 0]⟩]
    prods := [(3, 0, 0), (2, 1, 0), (2, 0, 1), (1, 2, 0), (0, 3, 0), (0, 2, 1), (1, 0, 2), (0, 1, 2), (0, 0, 3)]
    comps := [[(1, [], 8)]] }

/-- int1e_r_origj: src/autocode/intor1.c:2067-2089 (`CINTgout1e_int1e_r_origj`) and 2094 ff -/
def int1e_r_origj : Gen1e where
  ng := ⟨0, 1, 0, 0, 1⟩
  gbits := 1
  nComp := 3
  prog := {
    steps := [⟨.own, 1, 1, 0, ![0, 0, 0, 0]⟩]
    prods := [(1, 0, 0), (0, 1, 0), (0, 0, 1)]
    comps := [[(1, [], 0)],
      [(1, [], 1)],
      [(1, [], 2)]] }

/-- int1e_rr_origj: src/autocode/intor1.c:2121-2165 (`CINTgout1e_int1e_rr_origj`) and 2170 ff -/
def int1e_rr_origj : Gen1e where
  ng := ⟨0, 2, 0, 0, 1⟩
  gbits := 2
  nComp := 9
  prog := {
    steps := [⟨.own, 1, 1, 0, ![0, 0, 0, 0]⟩,
      ⟨.own, 1, 2, 0, ![0, 1, 0, 0]⟩,
      ⟨.own, 1, 3, 2, ![0, 0, 0, 0]⟩]
    prods := [(3, 0, 0), (2, 1, 0), (2, 0, 1), (1, 2, 0), (0, 3, 0), (0, 2, 1), (1, 0, 2), (0, 1, 2), (0, 0, 3)]
    comps := [[(1, [], 0)],
      [(1, [], 1)],
      [(1, [], 2)],
      [(1, [], 3)],
      [(1, [], 4)],
      [(1, [], 5)],
      [(1, [], 6)],
      [(1, [], 7)],
      [(1, [], 8)]] }

/-- int1e_r2_origj: src/autocode/intor1.c:2197-2225 (`CINTgout1e_int1e_r2_origj`) and 2230 ff -/
def int1e_r2_origj : Gen1e where
  ng := ⟨0, 2, 0, 0, 1⟩
  gbits := 2
  nComp := 1
  prog := {
    steps := [⟨.own, 1, 1, 0, ![0, 0, 0, 0]⟩,
      ⟨.own, 1, 2, 0, ![0, 1, 0, 0]⟩,
      ⟨.own, 1, 3, 2, ![0, 0, 0, 0]⟩]
    prods := [(3, 0, 0), (2, 1, 0), (2, 0, 1), (1, 2, 0), (0, 3, 0), (0, 2, 1), (1, 0, 2), (0, 1, 2), (0, 0, 3)]
    comps := [[(1, [], 0), (1, [], 4), (1, [], 8)]] }

/-- int1e_r4_origj: src/autocode/intor1.c:2257-2381 (`CINTgout1e_int1e_r4_origj`) and 2386 ff -/
def int1e_r4_origj : Gen1e where
  ng := ⟨0, 4, 0, 0, 1⟩
  gbits := 4
  nComp := 1
  prog := {
    steps := [⟨.own, 1, 1, 0, ![0, 0, 0, 0]⟩,
      ⟨.own, 1, 2, 0, ![0, 1, 0, 0]⟩,
      ⟨.own, 1, 3, 2, ![0, 0, 0, 0]⟩,
      ⟨.own, 1, 4, 0, ![0, 2, 0, 0]⟩,
      ⟨.own, 1, 5, 4, ![0, 0, 0, 0]⟩,
      ⟨.own, 1, 6, 4, ![0, 1, 0, 0]⟩,
      ⟨.own, 1, 7, 6, ![0, 0, 0, 0]⟩,
      ⟨.own, 1, 8, 0, ![0, 3, 0, 0]⟩,
      ⟨.own, 1, 9, 8, ![0, 0, 0, 0]⟩,
      ⟨.own, 1, 10, 8, ![0, 1, 0, 0]⟩,
      ⟨.own, 1, 11, 10, ![0, 0, 0, 0]⟩,
      ⟨.own, 1, 12, 8, ![0, 2, 0, 0]⟩,
      ⟨.own, 1, 13, 12, ![0, 0, 0, 0]⟩,
      ⟨.own, 1, 14, 12, ![0, 1, 0, 0]⟩,
      ⟨.own, 1, 15, 14, ![0, 0, 0, 0]⟩]
    prods := [(15, 0, 0), (14, 1, 0), (14, 0, 1), (13, 2, 0), (12, 3, 0), (12, 2, 1), (13, 0, 2), (12, 1, 2), (12, 0, 3),
      (11, 4, 0), (10, 5, 0), (10, 4, 1), (9, 6, 0), (8, 7, 0), (8, 6, 1), (9, 4, 2), (8, 5, 2), (8, 4, 3),
      (11, 0, 4), (10, 1, 4), (10, 0, 5), (9, 2, 4), (8, 3, 4), (8, 2, 5), (9, 0, 6), (8, 1, 6), (8, 0, 7),
      (7, 8, 0), (6, 9, 0), (6, 8, 1), (5, 10, 0), (4, 11, 0), (4, 10, 1), (5, 8, 2), (4, 9, 2), (4, 8, 3),
      (3, 12, 0), (2, 13, 0), (2, 12, 1), (1, 14, 0), (0, 15, 0), (0, 14, 1), (1, 12, 2), (0, 13, 2), (0, 12, 3),
      (3, 8, 4), (2, 9, 4), (2, 8, 5), (1, 10, 4), (0, 11, 4), (0, 10, 5), (1, 8, 6), (0, 9, 6), (0, 8, 7),
      (7, 0, 8), (6, 1, 8), (6, 0, 9), (5, 2, 8), (4, 3, 8), (4, 2, 9), (5, 0, 10), (4, 1, 10), (4, 0, 11),
      (3, 4, 8), (2, 5, 8), (2, 4, 9), (1, 6, 8), (0, 7, 8), (0, 6, 9), (1, 4, 10), (0, 5, 10), (0, 4, 11),
      (3, 0, 12), (2, 1, 12), (2, 0, 13), (1, 2, 12), (0, 3, 12), (0, 2, 13), (1, 0, 14), (0, 1, 14), (0, 0, 15)]
    comps := [[(1, [], 0), (2, [], 4), (2, [], 8), (1, [], 40), (2, [], 44), (1, [], 80)]] }

/-- int1e_p4: src/autocode/intor1.c:2413-2537 (`CINTgout1e_int1e_p4`) and 2542 ff -/
def int1e_p4 : Gen1e where
  ng := ⟨2, 2, 0, 0, 1⟩
  gbits := 4
  nComp := 1
  prog := {
    steps := [⟨.d, 1, 1, 0, ![2, 0, 0, 0]⟩,
      ⟨.d, 1, 2, 0, ![2, 1, 0, 0]⟩,
      ⟨.d, 1, 3, 2, ![2, 0, 0, 0]⟩,
      ⟨.d, 0, 4, 0, ![1, 0, 0, 0]⟩,
      ⟨.d, 0, 5, 1, ![1, 0, 0, 0]⟩,
      ⟨.d, 0, 6, 2, ![1, 0, 0, 0]⟩,
      ⟨.d, 0, 7, 3, ![1, 0, 0, 0]⟩,
      ⟨.d, 0, 8, 0, ![0, 0, 0, 0]⟩,
      ⟨.d, 0, 9, 1, ![0, 0, 0, 0]⟩,
      ⟨.d, 0, 10, 2, ![0, 0, 0, 0]⟩,
      ⟨.d, 0, 11, 3, ![0, 0, 0, 0]⟩,
      ⟨.d, 0, 12, 4, ![0, 0, 0, 0]⟩,
      ⟨.d, 0, 13, 5, ![0, 0, 0, 0]⟩,
      ⟨.d, 0, 14, 6, ![0, 0, 0, 0]⟩,
      ⟨.d, 0, 15, 7, ![0, 0, 0, 0]⟩]
    prods := [(15, 0, 0), (14, 1, 0), (14, 0, 1), (13, 2, 0), (12, 3, 0), (12, 2, 1), (13, 0, 2), (12, 1, 2), (12, 0, 3),
      (11, 4, 0), (10, 5, 0), (10, 4, 1), (9, 6, 0), (8, 7, 0), (8, 6, 1), (9, 4, 2), (8, 5, 2), (8, 4, 3),
      (11, 0, 4), (10, 1, 4), (10, 0, 5), (9, 2, 4), (8, 3, 4), (8, 2, 5), (9, 0, 6), (8, 1, 6), (8, 0, 7),
      (7, 8, 0), (6, 9, 0), (6, 8, 1), (5, 10, 0), (4, 11, 0), (4, 10, 1), (5, 8, 2), (4, 9, 2), (4, 8, 3),
      (3, 12, 0), (2, 13, 0), (2, 12, 1), (1, 14, 0), (0, 15, 0), (0, 14, 1), (1, 12, 2), (0, 13, 2), (0, 12, 3),
      (3, 8, 4), (2, 9, 4), (2, 8, 5), (1, 10, 4), (0, 11, 4), (0, 10, 5), (1, 8, 6), (0, 9, 6), (0, 8, 7),
      (7, 0, 8), (6, 1, 8), (6, 0, 9), (5, 2, 8), (4, 3, 8), (4, 2, 9), (5, 0, 10), (4, 1, 10), (4, 0, 11),
      (3, 4, 8), (2, 5, 8), (2, 4, 9), (1, 6, 8), (0, 7, 8), (0, 6, 9), (1, 4, 10), (0, 5, 10), (0, 4, 11),
      (3, 0, 12), (2, 1, 12), (2, 0, 13), (1, 2, 12), (0, 3, 12), (0, 2, 13), (1, 0, 14), (0, 1, 14), (0, 0, 15)]
    comps := [[(1, [], 0), (2, [], 4), (2, [], 8), (1, [], 40), (2, [], 44), (1, [], 80)]] }

/-- int1e_irp: src/autocode/intor1.c:2769-2817 (`CINTgout1e_int1e_irp`) and 2822 ff -/
def int1e_irp : Gen1e where
  ng := ⟨0, 2, 0, 0, 1⟩
  gbits := 2
  nComp := 9
  prog := {
    steps := [⟨.d, 1, 1, 0, ![0, 0, 0, 0]⟩,
      ⟨.xc, 1, 2, 0, ![0, 1, 0, 0]⟩,
      ⟨.d, 1, 3, 2, ![0, 0, 0, 0]⟩]
    prods := [(3, 0, 0), (2, 1, 0), (2, 0, 1), (1, 2, 0), (0, 3, 0), (0, 2, 1), (1, 0, 2), (0, 1, 2), (0, 0, 3)]
    comps := [[(1, [], 0)],
      [(1, [], 1)],
      [(1, [], 2)],
      [(1, [], 3)],
      [(1, [], 4)],
      [(1, [], 5)],
      [(1, [], 6)],
      [(1, [], 7)],
      [(1, [], 8)]] }

/-- int1e_irrp: src/autocode/intor1.c:2849-2959 (`CINTgout1e_int1e_irrp`) and 2964 ff -/
def int1e_irrp : Gen1e where
  ng := ⟨0, 3, 0, 0, 1⟩
  gbits := 3
  nComp := 27
  prog := {
    steps := [⟨.d, 1, 1, 0, ![0, 0, 0, 0]⟩,
      ⟨.xc, 1, 2, 0, ![0, 1, 0, 0]⟩,
      ⟨.d, 1, 3, 2, ![0, 0, 0, 0]⟩,
      ⟨.xc, 1, 4, 0, ![0, 2, 0, 0]⟩,
      ⟨.d, 1, 5, 4, ![0, 0, 0, 0]⟩,
      ⟨.xc, 1, 6, 4, ![0, 1, 0, 0]⟩,
      ⟨.d, 1, 7, 6, ![0, 0, 0, 0]⟩]
    prods := [(7, 0, 0), (6, 1, 0), (6, 0, 1), (5, 2, 0), (4, 3, 0), (4, 2, 1), (5, 0, 2), (4, 1, 2), (4, 0, 3),
      (3, 4, 0), (2, 5, 0), (2, 4, 1), (1, 6, 0), (0, 7, 0), (0, 6, 1), (1, 4, 2), (0, 5, 2), (0, 4, 3),
      (3, 0, 4), (2, 1, 4), (2, 0, 5), (1, 2, 4), (0, 3, 4), (0, 2, 5), (1, 0, 6), (0, 1, 6), (0, 0, 7)]
    comps := [[(1, [], 0)],
      [(1, [], 1)],
      [(1, [], 2)],
      [(1, [], 3)],
      [(1, [], 4)],
      [(1, [], 5)],
      [(1, [], 6)],
      [(1, [], 7)],
      [(1, [], 8)],
      [(1, [], 9)],
      [(1, [], 10)],
      [(1, [], 11)],
      [(1, [], 12)],
      [(1, [], 13)],
      [(1, [], 14)],
      [(1, [], 15)],
      [(1, [], 16)],
      [(1, [], 17)],
      [(1, [], 18)],
      [(1, [], 19)],
      [(1, [], 20)],
      [(1, [], 21)],
      [(1, [], 22)],
      [(1, [], 23)],
      [(1, [], 24)],
      [(1, [], 25)],
      [(1, [], 26)]] }

/-- int1e_irpr: src/autocode/intor1.c:2991-3101 (`CINTgout1e_int1e_irpr`) and 3106 ff -/
def int1e_irpr : Gen1e where
  ng := ⟨0, 3, 0, 0, 1⟩
  gbits := 3
  nComp := 27
  prog := {
    steps := [⟨.xc, 1, 1, 0, ![0, 0, 0, 0]⟩,
      ⟨.d, 1, 2, 0, ![0, 1, 0, 0]⟩,
      ⟨.xc, 1, 3, 2, ![0, 0, 0, 0]⟩,
      ⟨.xc, 1, 4, 0, ![0, 2, 0, 0]⟩,
      ⟨.xc, 1, 5, 4, ![0, 0, 0, 0]⟩,
      ⟨.d, 1, 6, 4, ![0, 1, 0, 0]⟩,
      ⟨.xc, 1, 7, 6, ![0, 0, 0, 0]⟩]
    prods := [(7, 0, 0), (6, 1, 0), (6, 0, 1), (5, 2, 0), (4, 3, 0), (4, 2, 1), (5, 0, 2), (4, 1, 2), (4, 0, 3),
      (3, 4, 0), (2, 5, 0), (2, 4, 1), (1, 6, 0), (0, 7, 0), (0, 6, 1), (1, 4, 2), (0, 5, 2), (0, 4, 3),
      (3, 0, 4), (2, 1, 4), (2, 0, 5), (1, 2, 4), (0, 3, 4), (0, 2, 5), (1, 0, 6), (0, 1, 6), (0, 0, 7)]
    comps := [[(1, [], 0)],
      [(1, [], 1)],
      [(1, [], 2)],
      [(1, [], 3)],
      [(1, [], 4)],
      [(1, [], 5)],
      [(1, [], 6)],
      [(1, [], 7)],
      [(1, [], 8)],
      [(1, [], 9)],
      [(1, [], 10)],
      [(1, [], 11)],
      [(1, [], 12)],
      [(1, [], 13)],
      [(1, [], 14)],
      [(1, [], 15)],
      [(1, [], 16)],
      [(1, [], 17)],
      [(1, [], 18)],
      [(1, [], 19)],
      [(1, [], 20)],
      [(1, [], 21)],
      [(1, [], 22)],
      [(1, [], 23)],
      [(1, [], 24)],
      [(1, [], 25)],
      [(1, [], 26)]] }

/-- int1e_ggovlp: src/autocode/intor1.c:3133-3190 (`CINTgout1e_int1e_ggovlp`) and 3195 ff -/
def int1e_ggovlp : Gen1e where
  ng := ⟨0, 2, 0, 0, 1⟩
  gbits := 2
  nComp := 9
  num := 1
  den := 4
  prog := {
    steps := [⟨.x0, 1, 1, 0, ![0, 0, 0, 0]⟩,
      ⟨.x0, 1, 2, 0, ![0, 1, 0, 0]⟩,
      ⟨.x0, 1, 3, 2, ![0, 0, 0, 0]⟩]
    prods := [(3, 0, 0), (2, 1, 0), (2, 0, 1), (1, 2, 0), (0, 3, 0), (0, 2, 1), (1, 0, 2), (0, 1, 2), (0, 0, 3)]
    comps := [[(-1, [1, 1], 8), (2, [1, 2], 7), (-1, [2, 2], 4)],
      [(-1, [1, 2], 6), (1, [2, 2], 3), (1, [1, 0], 8), (-1, [2, 0], 5)],
      [(-1, [1, 0], 7), (1, [2, 0], 4), (1, [1, 1], 6), (-1, [2, 1], 3)],
      [(-1, [2, 1], 2), (1, [0, 1], 8), (1, [2, 2], 1), (-1, [0, 2], 7)],
      [(-1, [2, 2], 0), (2, [2, 0], 2), (-1, [0, 0], 8)],
      [(-1, [2, 0], 1), (1, [0, 0], 7), (1, [2, 1], 0), (-1, [0, 1], 6)],
      [(-1, [0, 1], 5), (1, [1, 1], 2), (1, [0, 2], 4), (-1, [1, 2], 1)],
      [(-1, [0, 2], 3), (1, [1, 2], 0), (1, [0, 0], 5), (-1, [1, 0], 2)],
      [(-1, [0, 0], 4), (2, [0, 1], 3), (-1, [1, 1], 0)]] }

/-- int1e_ggkin: src/autocode/intor1.c:3225-3378 (`CINTgout1e_int1e_ggkin`) and 3383 ff -/
def int1e_ggkin : Gen1e where
  ng := ⟨0, 4, 0, 0, 1⟩
  gbits := 4
  nComp := 9
  num := 1
  den := 8
  prog := {
    steps := [⟨.d, 1, 1, 0, ![0, 0, 0, 0]⟩,
      ⟨.d, 1, 2, 0, ![0, 1, 0, 0]⟩,
      ⟨.d, 1, 3, 2, ![0, 0, 0, 0]⟩,
      ⟨.x0, 1, 4, 0, ![0, 2, 0, 0]⟩,
      ⟨.d, 1, 5, 4, ![0, 0, 0, 0]⟩,
      ⟨.d, 1, 6, 4, ![0, 1, 0, 0]⟩,
      ⟨.d, 1, 7, 6, ![0, 0, 0, 0]⟩,
      ⟨.x0, 1, 8, 0, ![0, 3, 0, 0]⟩,
      ⟨.d, 1, 9, 8, ![0, 0, 0, 0]⟩,
      ⟨.d, 1, 10, 8, ![0, 1, 0, 0]⟩,
      ⟨.d, 1, 11, 10, ![0, 0, 0, 0]⟩,
      ⟨.x0, 1, 12, 8, ![0, 2, 0, 0]⟩,
      ⟨.d, 1, 13, 12, ![0, 0, 0, 0]⟩,
      ⟨.d, 1, 14, 12, ![0, 1, 0, 0]⟩,
      ⟨.d, 1, 15, 14, ![0, 0, 0, 0]⟩]
    prods := [(15, 0, 0), (14, 1, 0), (14, 0, 1), (13, 2, 0), (12, 3, 0), (12, 2, 1), (13, 0, 2), (12, 1, 2), (12, 0, 3),
      (11, 4, 0), (10, 5, 0), (10, 4, 1), (9, 6, 0), (8, 7, 0), (8, 6, 1), (9, 4, 2), (8, 5, 2), (8, 4, 3),
      (11, 0, 4), (10, 1, 4), (10, 0, 5), (9, 2, 4), (8, 3, 4), (8, 2, 5), (9, 0, 6), (8, 1, 6), (8, 0, 7),
      (7, 8, 0), (6, 9, 0), (6, 8, 1), (5, 10, 0), (4, 11, 0), (4, 10, 1), (5, 8, 2), (4, 9, 2), (4, 8, 3),
      (3, 12, 0), (2, 13, 0), (2, 12, 1), (1, 14, 0), (0, 15, 0), (0, 14, 1), (1, 12, 2), (0, 13, 2), (0, 12, 3),
      (3, 8, 4), (2, 9, 4), (2, 8, 5), (1, 10, 4), (0, 11, 4), (0, 10, 5), (1, 8, 6), (0, 9, 6), (0, 8, 7),
      (7, 0, 8), (6, 1, 8), (6, 0, 9), (5, 2, 8), (4, 3, 8), (4, 2, 9), (5, 0, 10), (4, 1, 10), (4, 0, 11),
      (3, 4, 8), (2, 5, 8), (2, 4, 9), (1, 6, 8), (0, 7, 8), (0, 6, 9), (1, 4, 10), (0, 5, 10), (0, 4, 11),
      (3, 0, 12), (2, 1, 12), (2, 0, 13), (1, 2, 12), (0, 3, 12), (0, 2, 13), (1, 0, 14), (0, 1, 14), (0, 0, 15)]
    comps := [[(1, [1, 1], 72), (-2, [1, 2], 63), (1, [2, 2], 36), (1, [1, 1], 76), (-2, [1, 2], 67), (1, [2, 2], 40), (1, [1, 1], 80), (-2, [1, 2], 71), (1, [2, 2], 44)],
      [(1, [1, 2], 54), (-1, [2, 2], 27), (-1, [1, 0], 72), (1, [2, 0], 45), (1, [1, 2], 58), (-1, [2, 2], 31), (-1, [1, 0], 76), (1, [2, 0], 49), (1, [1, 2], 62), (-1, [2, 2], 35), (-1, [1, 0], 80), (1, [2, 0], 53)],
      [(1, [1, 0], 63), (-1, [2, 0], 36), (-1, [1, 1], 54), (1, [2, 1], 27), (1, [1, 0], 67), (-1, [2, 0], 40), (-1, [1, 1], 58), (1, [2, 1], 31), (1, [1, 0], 71), (-1, [2, 0], 44), (-1, [1, 1], 62), (1, [2, 1], 35)],
      [(1, [2, 1], 18), (-1, [0, 1], 72), (-1, [2, 2], 9), (1, [0, 2], 63), (1, [2, 1], 22), (-1, [0, 1], 76), (-1, [2, 2], 13), (1, [0, 2], 67), (1, [2, 1], 26), (-1, [0, 1], 80), (-1, [2, 2], 17), (1, [0, 2], 71)],
      [(1, [2, 2], 0), (-2, [2, 0], 18), (1, [0, 0], 72), (1, [2, 2], 4), (-2, [2, 0], 22), (1, [0, 0], 76), (1, [2, 2], 8), (-2, [2, 0], 26), (1, [0, 0], 80)],
      [(1, [2, 0], 9), (-1, [0, 0], 63), (-1, [2, 1], 0), (1, [0, 1], 54), (1, [2, 0], 13), (-1, [0, 0], 67), (-1, [2, 1], 4), (1, [0, 1], 58), (1, [2, 0], 17), (-1, [0, 0], 71), (-1, [2, 1], 8), (1, [0, 1], 62)],
      [(1, [0, 1], 45), (-1, [1, 1], 18), (-1, [0, 2], 36), (1, [1, 2], 9), (1, [0, 1], 49), (-1, [1, 1], 22), (-1, [0, 2], 40), (1, [1, 2], 13), (1, [0, 1], 53), (-1, [1, 1], 26), (-1, [0, 2], 44), (1, [1, 2], 17)],
      [(1, [0, 2], 27), (-1, [1, 2], 0), (-1, [0, 0], 45), (1, [1, 0], 18), (1, [0, 2], 31), (-1, [1, 2], 4), (-1, [0, 0], 49), (1, [1, 0], 22), (1, [0, 2], 35), (-1, [1, 2], 8), (-1, [0, 0], 53), (1, [1, 0], 26)],
      [(1, [0, 0], 36), (-2, [0, 1], 27), (1, [1, 1], 0), (1, [0, 0], 40), (-2, [0, 1], 31), (1, [1, 1], 4), (1, [0, 0], 44), (-2, [0, 1], 35), (1, [1, 1], 8)]] }

/-- int1e_grjxp: src/autocode/intor1.c:3509-3586 (`CINTgout1e_int1e_grjxp`) and 3591 ff -/
def int1e_grjxp : Gen1e where
  ng := ⟨0, 3, 0, 0, 1⟩
  gbits := 3
  nComp := 9
  num := 1
  den := 2
  prog := {
    steps := [⟨.d, 1, 1, 0, ![0, 0, 0, 0]⟩,
      ⟨.own, 1, 2, 0, ![0, 1, 0, 0]⟩,
      ⟨.d, 1, 3, 2, ![0, 0, 0, 0]⟩,
      ⟨.x0, 1, 4, 0, ![0, 2, 0, 0]⟩,
      ⟨.d, 1, 5, 4, ![0, 0, 0, 0]⟩,
      ⟨.own, 1, 6, 4, ![0, 1, 0, 0]⟩,
      ⟨.d, 1, 7, 6, ![0, 0, 0, 0]⟩]
    prods := [(7, 0, 0), (6, 1, 0), (6, 0, 1), (5, 2, 0), (4, 3, 0), (4, 2, 1), (5, 0, 2), (4, 1, 2), (4, 0, 3),
      (3, 4, 0), (2, 5, 0), (2, 4, 1), (1, 6, 0), (0, 7, 0), (0, 6, 1), (1, 4, 2), (0, 5, 2), (0, 4, 3),
      (3, 0, 4), (2, 1, 4), (2, 0, 5), (1, 2, 4), (0, 3, 4), (0, 2, 5), (1, 0, 6), (0, 1, 6), (0, 0, 7)]
    comps := [[(1, [1], 23), (-1, [2], 14), (-1, [1], 25), (1, [2], 16)],
      [(1, [1], 24), (-1, [2], 15), (-1, [1], 20), (1, [2], 11)],
      [(1, [1], 19), (-1, [2], 10), (-1, [1], 21), (1, [2], 12)],
      [(1, [2], 5), (-1, [0], 23), (-1, [2], 7), (1, [0], 25)],
      [(1, [2], 6), (-1, [0], 24), (-1, [2], 2), (1, [0], 20)],
      [(1, [2], 1), (-1, [0], 19), (-1, [2], 3), (1, [0], 21)],
      [(1, [0], 14), (-1, [1], 5), (-1, [0], 16), (1, [1], 7)],
      [(1, [0], 15), (-1, [1], 6), (-1, [0], 11), (1, [1], 2)],
      [(1, [0], 10), (-1, [1], 1), (-1, [0], 12), (1, [1], 3)]] }

/-- int1e_sigma: src/autocode/intor3.c:18-54 (`CINTgout1e_int1e_sigma`) and 59 ff -/
def int1e_sigma : Gen1e where
  ng := ⟨0, 0, 0, 0, 1⟩
  gbits := 0
  nComp := 12
  prog := {
    steps := []
    prods := [(0, 0, 0)]
    comps := [[(-1, [], 0)],
      [],
      [],
      [],
      [],
      [(-1, [], 0)],
      [],
      [],
      [],
      [],
      [(-1, [], 0)],
      []] }

/-- int1e_spsigmasp: src/autocode/intor3.c:86-136 (`CINTgout1e_int1e_spsigmasp`) and 141 ff -/
def int1e_spsigmasp : Gen1e where
  ng := ⟨1, 1, 0, 0, 1⟩
  gbits := 2
  nComp := 12
  prog := {
    steps := [⟨.d, 1, 1, 0, ![1, 0, 0, 0]⟩,
      ⟨.d, 0, 2, 0, ![0, 0, 0, 0]⟩,
      ⟨.d, 0, 3, 1, ![0, 0, 0, 0]⟩]
    prods := [(3, 0, 0), (2, 1, 0), (2, 0, 1), (1, 2, 0), (0, 3, 0), (0, 2, 1), (1, 0, 2), (0, 1, 2), (0, 0, 3)]
    comps := [[(-1, [], 0), (1, [], 8), (1, [], 4)],
      [(-2, [], 3)],
      [(-2, [], 6)],
      [],
      [(-2, [], 1)],
      [(-1, [], 4), (1, [], 0), (1, [], 8)],
      [(-2, [], 7)],
      [],
      [(-2, [], 2)],
      [(-2, [], 5)],
      [(-1, [], 8), (1, [], 4), (1, [], 0)],
      []] }

/-- int1e_srsr: src/autocode/intor3.c:168-202 (`CINTgout1e_int1e_srsr`) and 207 ff -/
def int1e_srsr : Gen1e where
  ng := ⟨1, 1, 0, 0, 1⟩
  gbits := 2
  nComp := 4
  prog := {
    steps := [⟨.own, 1, 1, 0, ![1, 0, 0, 0]⟩,
      ⟨.own, 0, 2, 0, ![0, 0, 0, 0]⟩,
      ⟨.own, 0, 3, 1, ![0, 0, 0, 0]⟩]
    prods := [(3, 0, 0), (2, 1, 0), (2, 0, 1), (1, 2, 0), (0, 3, 0), (0, 2, 1), (1, 0, 2), (0, 1, 2), (0, 0, 3)]
    comps := [[(1, [], 5), (-1, [], 7)],
      [(1, [], 6), (-1, [], 2)],
      [(1, [], 1), (-1, [], 3)],
      [(1, [], 0), (1, [], 4), (1, [], 8)]] }

/-- int1e_sr: src/autocode/intor3.c:234-258 (`CINTgout1e_int1e_sr`) and 263 ff -/
def int1e_sr : Gen1e where
  ng := ⟨1, 0, 0, 0, 1⟩
  gbits := 1
  nComp := 4
  prog := {
    steps := [⟨.own, 0, 1, 0, ![0, 0, 0, 0]⟩]
    prods := [(1, 0, 0), (0, 1, 0), (0, 0, 1)]
    comps := [[(-1, [], 0)],
      [(-1, [], 1)],
      [(-1, [], 2)],
      []] }

/-- int1e_srsp: src/autocode/intor3.c:290-324 (`CINTgout1e_int1e_srsp`) and 329 ff -/
def int1e_srsp : Gen1e where
  ng := ⟨1, 1, 0, 0, 1⟩
  gbits := 2
  nComp := 4
  prog := {
    steps := [⟨.d, 1, 1, 0, ![1, 0, 0, 0]⟩,
      ⟨.own, 0, 2, 0, ![0, 0, 0, 0]⟩,
      ⟨.own, 0, 3, 1, ![0, 0, 0, 0]⟩]
    prods := [(3, 0, 0), (2, 1, 0), (2, 0, 1), (1, 2, 0), (0, 3, 0), (0, 2, 1), (1, 0, 2), (0, 1, 2), (0, 0, 3)]
    comps := [[(-1, [], 5), (1, [], 7)],
      [(-1, [], 6), (1, [], 2)],
      [(-1, [], 1), (1, [], 3)],
      [(-1, [], 0), (-1, [], 4), (-1, [], 8)]] }

/-- int1e_spsp: src/autocode/intor3.c:356-384 (`CINTgout1e_int1e_spsp`) and 389 ff -/
def int1e_spsp : Gen1e where
  ng := ⟨1, 1, 0, 0, 1⟩
  gbits := 2
  nComp := 1
  prog := {
    steps := [⟨.d, 1, 1, 0, ![1, 0, 0, 0]⟩,
      ⟨.d, 0, 2, 0, ![0, 0, 0, 0]⟩,
      ⟨.d, 0, 3, 1, ![0, 0, 0, 0]⟩]
    prods := [(3, 0, 0), (2, 1, 0), (2, 0, 1), (1, 2, 0), (0, 3, 0), (0, 2, 1), (1, 0, 2), (0, 1, 2), (0, 0, 3)]
    comps := [[(1, [], 0), (1, [], 4), (1, [], 8)]] }

/-- int1e_sp: src/autocode/intor3.c:416-440 (`CINTgout1e_int1e_sp`) and 445 ff -/
def int1e_sp : Gen1e where
  ng := ⟨1, 0, 0, 0, 1⟩
  gbits := 1
  nComp := 4
  prog := {
    steps := [⟨.d, 0, 1, 0, ![0, 0, 0, 0]⟩]
    prods := [(1, 0, 0), (0, 1, 0), (0, 0, 1)]
    comps := [[(1, [], 0)],
      [(1, [], 1)],
      [(1, [], 2)],
      []] }

/-- int1e_sprsp: src/autocode/intor3.c:682-762 (`CINTgout1e_int1e_sprsp`) and 767 ff -/
def int1e_sprsp : Gen1e where
  ng := ⟨1, 2, 0, 0, 1⟩
  gbits := 3
  nComp := 12
  prog := {
    steps := [⟨.d, 1, 1, 0, ![1, 0, 0, 0]⟩,
      ⟨.xc, 1, 2, 0, ![1, 1, 0, 0]⟩,
      ⟨.d, 1, 3, 2, ![1, 0, 0, 0]⟩,
      ⟨.d, 0, 4, 0, ![0, 0, 0, 0]⟩,
      ⟨.d, 0, 5, 1, ![0, 0, 0, 0]⟩,
      ⟨.d, 0, 6, 2, ![0, 0, 0, 0]⟩,
      ⟨.d, 0, 7, 3, ![0, 0, 0, 0]⟩]
    prods := [(7, 0, 0), (6, 1, 0), (6, 0, 1), (5, 2, 0), (4, 3, 0), (4, 2, 1), (5, 0, 2), (4, 1, 2), (4, 0, 3),
      (3, 4, 0), (2, 5, 0), (2, 4, 1), (1, 6, 0), (0, 7, 0), (0, 6, 1), (1, 4, 2), (0, 5, 2), (0, 4, 3),
      (3, 0, 4), (2, 1, 4), (2, 0, 5), (1, 2, 4), (0, 3, 4), (0, 2, 5), (1, 0, 6), (0, 1, 6), (0, 0, 7)]
    comps := [[],
      [(1, [], 18), (-1, [], 2)],
      [(1, [], 1), (-1, [], 9)],
      [(1, [], 0), (1, [], 10), (1, [], 20)],
      [(1, [], 14), (-1, [], 22)],
      [],
      [(1, [], 4), (-1, [], 12)],
      [(1, [], 3), (1, [], 13), (1, [], 23)],
      [(1, [], 17), (-1, [], 25)],
      [(1, [], 24), (-1, [], 8)],
      [],
      [(1, [], 6), (1, [], 16), (1, [], 26)]] }

/-- int1e_govlp: src/autocode/intor3.c:794-823 (`CINTgout1e_int1e_govlp`) and 828 ff -/
def int1e_govlp : Gen1e where
  ng := ⟨1, 0, 0, 0, 1⟩
  gbits := 1
  nComp := 3
  num := 1
  den := 2
  prog := {
    steps := [⟨.x0, 0, 1, 0, ![0, 0, 0, 0]⟩]
    prods := [(1, 0, 0), (0, 1, 0), (0, 0, 1)]
    comps := [[(1, [1], 2), (-1, [2], 1)],
      [(1, [2], 0), (-1, [0], 2)],
      [(1, [0], 1), (-1, [1], 0)]] }

/-- int1e_cg_sa10sp: src/autocode/intor3.c:1141-1195 (`CINTgout1e_int1e_cg_sa10sp`) and 1200 ff -/
def int1e_cg_sa10sp : Gen1e where
  ng := ⟨1, 1, 0, 0, 1⟩
  gbits := 2
  nComp := 12
  num := 1
  den := 2
  prog := {
    steps := [⟨.d, 1, 1, 0, ![1, 0, 0, 0]⟩,
      ⟨.xc, 0, 2, 0, ![0, 0, 0, 0]⟩,
      ⟨.xc, 0, 3, 1, ![0, 0, 0, 0]⟩]
    prods := [(3, 0, 0), (2, 1, 0), (2, 0, 1), (1, 2, 0), (0, 3, 0), (0, 2, 1), (1, 0, 2), (0, 1, 2), (0, 0, 3)]
    comps := [[(1, [], 8), (1, [], 4)],
      [(-1, [], 3)],
      [(-1, [], 6)],
      [(1, [], 7), (-1, [], 5)],
      [(-1, [], 1)],
      [(1, [], 0), (1, [], 8)],
      [(-1, [], 7)],
      [(-1, [], 6), (1, [], 2)],
      [(-1, [], 2)],
      [(-1, [], 5)],
      [(1, [], 4), (1, [], 0)],
      [(1, [], 3), (-1, [], 1)]] }

/-- int1e_giao_sa10sp: src/autocode/intor3.c:1462-1512 (`CINTgout1e_int1e_giao_sa10sp`) and 1517 ff -/
def int1e_giao_sa10sp : Gen1e where
  ng := ⟨1, 1, 0, 0, 1⟩
  gbits := 2
  nComp := 12
  num := 1
  den := 2
  prog := {
    steps := [⟨.d, 1, 1, 0, ![1, 0, 0, 0]⟩,
      ⟨.own, 0, 2, 0, ![0, 0, 0, 0]⟩,
      ⟨.own, 0, 3, 1, ![0, 0, 0, 0]⟩]
    prods := [(3, 0, 0), (2, 1, 0), (2, 0, 1), (1, 2, 0), (0, 3, 0), (0, 2, 1), (1, 0, 2), (0, 1, 2), (0, 0, 3)]
    comps := [[(1, [], 8), (1, [], 4)],
      [(-1, [], 3)],
      [(-1, [], 6)],
      [(1, [], 7), (-1, [], 5)],
      [(-1, [], 1)],
      [(1, [], 0), (1, [], 8)],
      [(-1, [], 7)],
      [(-1, [], 6), (1, [], 2)],
      [(-1, [], 2)],
      [(-1, [], 5)],
      [(1, [], 4), (1, [], 0)],
      [(1, [], 3), (-1, [], 1)]] }

/-- int1e_spgsp: src/autocode/intor3.c:1724-1807 (`CINTgout1e_int1e_spgsp`) and 1812 ff -/
def int1e_spgsp : Gen1e where
  ng := ⟨2, 1, 0, 0, 1⟩
  gbits := 3
  nComp := 12
  num := 1
  den := 2
  prog := {
    steps := [⟨.d, 1, 1, 0, ![2, 0, 0, 0]⟩,
      ⟨.x0, 0, 2, 0, ![1, 0, 0, 0]⟩,
      ⟨.x0, 0, 3, 1, ![1, 0, 0, 0]⟩,
      ⟨.d, 0, 4, 0, ![0, 0, 0, 0]⟩,
      ⟨.d, 0, 5, 1, ![0, 0, 0, 0]⟩,
      ⟨.d, 0, 6, 2, ![0, 0, 0, 0]⟩,
      ⟨.d, 0, 7, 3, ![0, 0, 0, 0]⟩]
    prods := [(7, 0, 0), (6, 1, 0), (6, 0, 1), (5, 2, 0), (4, 3, 0), (4, 2, 1), (5, 0, 2), (4, 1, 2), (4, 0, 3),
      (3, 4, 0), (2, 5, 0), (2, 4, 1), (1, 6, 0), (0, 7, 0), (0, 6, 1), (1, 4, 2), (0, 5, 2), (0, 4, 3),
      (3, 0, 4), (2, 1, 4), (2, 0, 5), (1, 2, 4), (0, 3, 4), (0, 2, 5), (1, 0, 6), (0, 1, 6), (0, 0, 7)]
    comps := [[(1, [1], 17), (-1, [2], 14), (-1, [1], 25), (1, [2], 22)],
      [(1, [1], 24), (-1, [1], 8)],
      [(-1, [2], 4), (1, [2], 12)],
      [(1, [1], 6), (-1, [2], 3), (1, [1], 16), (-1, [2], 13), (1, [1], 26), (-1, [2], 23)],
      [(-1, [0], 17), (1, [0], 25)],
      [(1, [2], 18), (-1, [0], 24), (-1, [2], 2), (1, [0], 8)],
      [(1, [2], 1), (-1, [2], 9)],
      [(1, [2], 0), (-1, [0], 6), (1, [2], 10), (-1, [0], 16), (1, [2], 20), (-1, [0], 26)],
      [(1, [0], 14), (-1, [0], 22)],
      [(-1, [1], 18), (1, [1], 2)],
      [(1, [0], 4), (-1, [1], 1), (-1, [0], 12), (1, [1], 9)],
      [(1, [0], 3), (-1, [1], 0), (1, [0], 13), (-1, [1], 10), (1, [0], 23), (-1, [1], 20)]] }

/-- int1e_r2_origi: src/cint1e_a.c:19-42 (`CINTgout1e_int1e_r2_origi`) and 47 ff -/
def int1e_r2_origi : Gen1e where
  ng := ⟨2, 0, 0, 0, 1⟩
  gbits := 2
  nComp := 1
  prog := {
    steps := [⟨.own, 0, 1, 0, ![1, 0, 0, 0]⟩,
      ⟨.own, 0, 3, 1, ![0, 0, 0, 0]⟩]
    prods := [(3, 0, 0), (0, 3, 0), (0, 0, 3)]
    comps := [[(1, [], 0), (1, [], 1), (1, [], 2)]] }

/-- int1e_r4_origi: src/cint1e_a.c:76-118 (`CINTgout1e_int1e_r4_origi`) and 123 ff -/
def int1e_r4_origi : Gen1e where
  ng := ⟨4, 0, 0, 0, 1⟩
  gbits := 4
  nComp := 1
  prog := {
    steps := [⟨.own, 0, 1, 0, ![3, 0, 0, 0]⟩,
      ⟨.own, 0, 3, 1, ![2, 0, 0, 0]⟩,
      ⟨.own, 0, 4, 0, ![1, 0, 0, 0]⟩,
      ⟨.own, 0, 7, 3, ![1, 0, 0, 0]⟩,
      ⟨.own, 0, 12, 4, ![0, 0, 0, 0]⟩,
      ⟨.own, 0, 15, 7, ![0, 0, 0, 0]⟩]
    prods := [(15, 0, 0), (12, 3, 0), (12, 0, 3), (0, 15, 0), (0, 12, 3), (0, 0, 15)]
    comps := [[(1, [], 0), (2, [], 1), (2, [], 2), (1, [], 3), (2, [], 4), (1, [], 5)]] }

/-- int1e_r2_origi_ip2: src/cint1e_a.c:151-185 (`CINTgout1e_int1e_r2_origi_ip2`) and 190 ff -/
def int1e_r2_origi_ip2 : Gen1e where
  ng := ⟨2, 1, 0, 0, 1⟩
  gbits := 3
  nComp := 3
  prog := {
    steps := [⟨.d, 1, 1, 0, ![2, 0, 0, 0]⟩,
      ⟨.own, 0, 2, 0, ![1, 0, 0, 0]⟩,
      ⟨.own, 0, 3, 1, ![1, 0, 0, 0]⟩,
      ⟨.own, 0, 6, 2, ![0, 0, 0, 0]⟩,
      ⟨.own, 0, 7, 3, ![0, 0, 0, 0]⟩]
    prods := [(7, 0, 0), (1, 6, 0), (1, 0, 6), (6, 1, 0), (0, 7, 0), (0, 1, 6), (6, 0, 1), (0, 6, 1), (0, 0, 7)]
    comps := [[(1, [], 0), (1, [], 1), (1, [], 2)],
      [(1, [], 3), (1, [], 4), (1, [], 5)],
      [(1, [], 6), (1, [], 7), (1, [], 8)]] }

/-- int1e_r4_origi_ip2: src/cint1e_a.c:218-287 (`CINTgout1e_int1e_r4_origi_ip2`) and 292 ff -/
def int1e_r4_origi_ip2 : Gen1e where
  ng := ⟨4, 1, 0, 0, 1⟩
  gbits := 5
  nComp := 3
  prog := {
    steps := [⟨.d, 1, 1, 0, ![4, 0, 0, 0]⟩,
      ⟨.own, 0, 2, 0, ![3, 0, 0, 0]⟩,
      ⟨.own, 0, 3, 1, ![3, 0, 0, 0]⟩,
      ⟨.own, 0, 6, 2, ![2, 0, 0, 0]⟩,
      ⟨.own, 0, 7, 3, ![2, 0, 0, 0]⟩,
      ⟨.own, 0, 8, 0, ![1, 0, 0, 0]⟩,
      ⟨.own, 0, 9, 1, ![1, 0, 0, 0]⟩,
      ⟨.own, 0, 14, 6, ![1, 0, 0, 0]⟩,
      ⟨.own, 0, 15, 7, ![1, 0, 0, 0]⟩,
      ⟨.own, 0, 24, 8, ![0, 0, 0, 0]⟩,
      ⟨.own, 0, 25, 9, ![0, 0, 0, 0]⟩,
      ⟨.own, 0, 30, 14, ![0, 0, 0, 0]⟩,
      ⟨.own, 0, 31, 15, ![0, 0, 0, 0]⟩]
    prods := [(31, 0, 0), (25, 6, 0), (25, 0, 6), (1, 30, 0), (1, 24, 6), (1, 0, 30), (30, 1, 0), (24, 7, 0), (24, 1, 6),
      (0, 31, 0), (0, 25, 6), (0, 1, 30), (30, 0, 1), (24, 6, 1), (24, 0, 7), (0, 30, 1), (0, 24, 7), (0, 0, 31)]
    comps := [[(1, [], 0), (2, [], 1), (2, [], 2), (1, [], 3), (2, [], 4), (1, [], 5)],
      [(1, [], 6), (2, [], 7), (2, [], 8), (1, [], 9), (2, [], 10), (1, [], 11)],
      [(1, [], 12), (2, [], 13), (2, [], 14), (1, [], 15), (2, [], 16), (1, [], 17)]] }

/-- all of them -/
def all1e : List (String × Gen1e) := [
  ("int1e_spspsp", int1e_spspsp),
  ("int1e_ipovlp", int1e_ipovlp),
  ("int1e_ovlpip", int1e_ovlpip),
  ("int1e_ipkin", int1e_ipkin),
  ("int1e_kinip", int1e_kinip),
  ("int1e_ipipovlp", int1e_ipipovlp),
  ("int1e_ipovlpip", int1e_ipovlpip),
  ("int1e_ipipkin", int1e_ipipkin),
  ("int1e_ipkinip", int1e_ipkinip),
  ("int1e_ipipr", int1e_ipipr),
  ("int1e_iprip", int1e_iprip),
  ("int1e_kin", int1e_kin),
  ("int1e_giao_irjxp", int1e_giao_irjxp),
  ("int1e_cg_irxp", int1e_cg_irxp),
  ("int1e_igkin", int1e_igkin),
  ("int1e_igovlp", int1e_igovlp),
  ("int1e_z", int1e_z),
  ("int1e_zz", int1e_zz),
  ("int1e_r", int1e_r),
  ("int1e_r2", int1e_r2),
  ("int1e_r4", int1e_r4),
  ("int1e_rr", int1e_rr),
  ("int1e_rrr", int1e_rrr),
  ("int1e_rrrr", int1e_rrrr),
  ("int1e_z_origj", int1e_z_origj),
  ("int1e_zz_origj", int1e_zz_origj),
  ("int1e_r_origj", int1e_r_origj),
  ("int1e_rr_origj", int1e_rr_origj),
  ("int1e_r2_origj", int1e_r2_origj),
  ("int1e_r4_origj", int1e_r4_origj),
  ("int1e_p4", int1e_p4),
  ("int1e_irp", int1e_irp),
  ("int1e_irrp", int1e_irrp),
  ("int1e_irpr", int1e_irpr),
  ("int1e_ggovlp", int1e_ggovlp),
  ("int1e_ggkin", int1e_ggkin),
  ("int1e_grjxp", int1e_grjxp),
  ("int1e_sigma", int1e_sigma),
  ("int1e_spsigmasp", int1e_spsigmasp),
  ("int1e_srsr", int1e_srsr),
  ("int1e_sr", int1e_sr),
  ("int1e_srsp", int1e_srsp),
  ("int1e_spsp", int1e_spsp),
  ("int1e_sp", int1e_sp),
  ("int1e_sprsp", int1e_sprsp),
  ("int1e_govlp", int1e_govlp),
  ("int1e_cg_sa10sp", int1e_cg_sa10sp),
  ("int1e_giao_sa10sp", int1e_giao_sa10sp),
  ("int1e_spgsp", int1e_spgsp),
  ("int1e_r2_origi", int1e_r2_origi),
  ("int1e_r4_origi", int1e_r4_origi),
  ("int1e_r2_origi_ip2", int1e_r2_origi_ip2),
  ("int1e_r4_origi_ip2", int1e_r4_origi_ip2)]

/-- those whose wrapper returns zeros when both shells are the same (`envs.shls[0] == envs.shls[1]`) -/
def shortcut1e : List String := ["int1e_igkin", "int1e_igovlp", "int1e_govlp", "int1e_spgsp"]

end Verif.Model.Auto
