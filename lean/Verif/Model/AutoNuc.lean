import Verif.Model.Nuc

/-! Generated by tools/autocode.py from src/autocode: the one-electron integrals evaluated with `int1e_type` 1 (the
potential of one charge) and 2 (of all the nuclei), except `int1e_a01gp`.  As in Auto1e.lean; the
products are summed over the roots. -/
namespace Verif.Model.AutoNuc
open Verif.Model

/-- int1e_ipipipnuc: src/autocode/deriv3.c:18-128 (`CINTgout1e_int1e_ipipipnuc`) and 133 ff -/
def int1e_ipipipnuc : Gen1e where
  ng := ⟨3, 0, 0, 0, 0⟩
  gbits := 3
  nComp := 27
  prog := {
    steps := [⟨.d, 0, 1, 0, ![2, 0, 0, 0]⟩,
      ⟨.d, 0, 2, 0, ![1, 0, 0, 0]⟩,
      ⟨.d, 0, 3, 1, ![1, 0, 0, 0]⟩,
      ⟨.d, 0, 4, 0, ![0, 0, 0, 0]⟩,
      ⟨.d, 0, 5, 1, ![0, 0, 0, 0]⟩,
      ⟨.d, 0, 6, 2, ![0, 0, 0, 0]⟩,
      ⟨.d, 0, 7, 3, ![0, 0, 0, 0]⟩]
    prods := [(7, 0, 0), (6, 1, 0), (6, 0, 1), (5, 2, 0), (4, 3, 0), (4, 2, 1), (5, 0, 2), (4, 1, 2), (4, 0, 3),
      (3, 4, 0), (2, 5, 0), (2, 4, 1), (1, 6, 0), (0, 7, 0), (0, 6, 1), (1, 4, 2), (0, 5, 2), (0, 4, 3),
      (3, 0, 4), (2, 1, 4), (2, 0, 5), (1, 2, 4), (0, 3, 4), (0, 2, 5), (1, 0, 6), (0, 1, 6), (0, 0, 7)]
    comps := [[(1, [], 0)],
      [(1, [], 9)],
      [(1, [], 18)],
      [(1, [], 3)],
      [(1, [], 12)],
      [(1, [], 21)],
      [(1, [], 6)],
      [(1, [], 15)],
      [(1, [], 24)],
      [(1, [], 1)],
      [(1, [], 10)],
      [(1, [], 19)],
      [(1, [], 4)],
      [(1, [], 13)],
      [(1, [], 22)],
      [(1, [], 7)],
      [(1, [], 16)],
      [(1, [], 25)],
      [(1, [], 2)],
      [(1, [], 11)],
      [(1, [], 20)],
      [(1, [], 5)],
      [(1, [], 14)],
      [(1, [], 23)],
      [(1, [], 8)],
      [(1, [], 17)],
      [(1, [], 26)]] }

/-- int1e_ipipiprinv: src/autocode/deriv3.c:160-270 (`CINTgout1e_int1e_ipipiprinv`) and 275 ff -/
def int1e_ipipiprinv : Gen1e where
  ng := ⟨3, 0, 0, 0, 0⟩
  gbits := 3
  nComp := 27
  prog := {
    steps := [⟨.d, 0, 1, 0, ![2, 0, 0, 0]⟩,
      ⟨.d, 0, 2, 0, ![1, 0, 0, 0]⟩,
      ⟨.d, 0, 3, 1, ![1, 0, 0, 0]⟩,
      ⟨.d, 0, 4, 0, ![0, 0, 0, 0]⟩,
      ⟨.d, 0, 5, 1, ![0, 0, 0, 0]⟩,
      ⟨.d, 0, 6, 2, ![0, 0, 0, 0]⟩,
      ⟨.d, 0, 7, 3, ![0, 0, 0, 0]⟩]
    prods := [(7, 0, 0), (6, 1, 0), (6, 0, 1), (5, 2, 0), (4, 3, 0), (4, 2, 1), (5, 0, 2), (4, 1, 2), (4, 0, 3),
      (3, 4, 0), (2, 5, 0), (2, 4, 1), (1, 6, 0), (0, 7, 0), (0, 6, 1), (1, 4, 2), (0, 5, 2), (0, 4, 3),
      (3, 0, 4), (2, 1, 4), (2, 0, 5), (1, 2, 4), (0, 3, 4), (0, 2, 5), (1, 0, 6), (0, 1, 6), (0, 0, 7)]
    comps := [[(1, [], 0)],
      [(1, [], 9)],
      [(1, [], 18)],
      [(1, [], 3)],
      [(1, [], 12)],
      [(1, [], 21)],
      [(1, [], 6)],
      [(1, [], 15)],
      [(1, [], 24)],
      [(1, [], 1)],
      [(1, [], 10)],
      [(1, [], 19)],
      [(1, [], 4)],
      [(1, [], 13)],
      [(1, [], 22)],
      [(1, [], 7)],
      [(1, [], 16)],
      [(1, [], 25)],
      [(1, [], 2)],
      [(1, [], 11)],
      [(1, [], 20)],
      [(1, [], 5)],
      [(1, [], 14)],
      [(1, [], 23)],
      [(1, [], 8)],
      [(1, [], 17)],
      [(1, [], 26)]] }

/-- int1e_ipipnucip: src/autocode/deriv3.c:302-412 (`CINTgout1e_int1e_ipipnucip`) and 417 ff -/
def int1e_ipipnucip : Gen1e where
  ng := ⟨2, 1, 0, 0, 0⟩
  gbits := 3
  nComp := 27
  prog := {
    steps := [⟨.d, 1, 1, 0, ![2, 0, 0, 0]⟩,
      ⟨.d, 0, 2, 0, ![1, 0, 0, 0]⟩,
      ⟨.d, 0, 3, 1, ![1, 0, 0, 0]⟩,
      ⟨.d, 0, 4, 0, ![0, 0, 0, 0]⟩,
      ⟨.d, 0, 5, 1, ![0, 0, 0, 0]⟩,
      ⟨.d, 0, 6, 2, ![0, 0, 0, 0]⟩,
      ⟨.d, 0, 7, 3, ![0, 0, 0, 0]⟩]
    prods := [(7, 0, 0), (6, 1, 0), (6, 0, 1), (5, 2, 0), (4, 3, 0), (4, 2, 1), (5, 0, 2), (4, 1, 2), (4, 0, 3),
      (3, 4, 0), (2, 5, 0), (2, 4, 1), (1, 6, 0), (0, 7, 0), (0, 6, 1), (1, 4, 2), (0, 5, 2), (0, 4, 3),
      (3, 0, 4), (2, 1, 4), (2, 0, 5), (1, 2, 4), (0, 3, 4), (0, 2, 5), (1, 0, 6), (0, 1, 6), (0, 0, 7)]
    comps := [[(1, [], 0)],
      [(1, [], 1)],
      [(1, [], 2)],
      [(1, [], 9)],
      [(1, [], 10)],
      [(1, [], 11)],
      [(1, [], 18)],
      [(1, [], 19)],
      [(1, [], 20)],
      [(1, [], 3)],
      [(1, [], 4)],
      [(1, [], 5)],
      [(1, [], 12)],
      [(1, [], 13)],
      [(1, [], 14)],
      [(1, [], 21)],
      [(1, [], 22)],
      [(1, [], 23)],
      [(1, [], 6)],
      [(1, [], 7)],
      [(1, [], 8)],
      [(1, [], 15)],
      [(1, [], 16)],
      [(1, [], 17)],
      [(1, [], 24)],
      [(1, [], 25)],
      [(1, [], 26)]] }

/-- int1e_ipiprinvip: src/autocode/deriv3.c:444-554 (`CINTgout1e_int1e_ipiprinvip`) and 559 ff -/
def int1e_ipiprinvip : Gen1e where
  ng := ⟨2, 1, 0, 0, 0⟩
  gbits := 3
  nComp := 27
  prog := {
    steps := [⟨.d, 1, 1, 0, ![2, 0, 0, 0]⟩,
      ⟨.d, 0, 2, 0, ![1, 0, 0, 0]⟩,
      ⟨.d, 0, 3, 1, ![1, 0, 0, 0]⟩,
      ⟨.d, 0, 4, 0, ![0, 0, 0, 0]⟩,
      ⟨.d, 0, 5, 1, ![0, 0, 0, 0]⟩,
      ⟨.d, 0, 6, 2, ![0, 0, 0, 0]⟩,
      ⟨.d, 0, 7, 3, ![0, 0, 0, 0]⟩]
    prods := [(7, 0, 0), (6, 1, 0), (6, 0, 1), (5, 2, 0), (4, 3, 0), (4, 2, 1), (5, 0, 2), (4, 1, 2), (4, 0, 3),
      (3, 4, 0), (2, 5, 0), (2, 4, 1), (1, 6, 0), (0, 7, 0), (0, 6, 1), (1, 4, 2), (0, 5, 2), (0, 4, 3),
      (3, 0, 4), (2, 1, 4), (2, 0, 5), (1, 2, 4), (0, 3, 4), (0, 2, 5), (1, 0, 6), (0, 1, 6), (0, 0, 7)]
    comps := [[(1, [], 0)],
      [(1, [], 1)],
      [(1, [], 2)],
      [(1, [], 9)],
      [(1, [], 10)],
      [(1, [], 11)],
      [(1, [], 18)],
      [(1, [], 19)],
      [(1, [], 20)],
      [(1, [], 3)],
      [(1, [], 4)],
      [(1, [], 5)],
      [(1, [], 12)],
      [(1, [], 13)],
      [(1, [], 14)],
      [(1, [], 21)],
      [(1, [], 22)],
      [(1, [], 23)],
      [(1, [], 6)],
      [(1, [], 7)],
      [(1, [], 8)],
      [(1, [], 15)],
      [(1, [], 16)],
      [(1, [], 17)],
      [(1, [], 24)],
      [(1, [], 25)],
      [(1, [], 26)]] }

/-- int1e_ipiprinvipip: src/autocode/deriv4.c:18-306 (`CINTgout1e_int1e_ipiprinvipip`) and 311 ff -/
def int1e_ipiprinvipip : Gen1e where
  ng := ⟨2, 2, 0, 0, 0⟩
  gbits := 4
  nComp := 81
  prog := {
    steps := [⟨.d, 1, 1, 0, ![2, 0, 0, 0]⟩,
      ⟨.d, 1, 2, 0, ![2, 1, 0, 0]⟩,
      ⟨.d, 1, 3, 2, ![2, 0, 0, 0]⟩,
      ⟨.d, 0, 4, 0, ![1, 0, 0, 0]⟩,
      ⟨.d, 0, 5, 1, ![1, 0, 0, 0]⟩,
      ⟨.d, 0, 6, 2, ![1, 0, 0, 0]⟩,
      ⟨.d, 0, 7, 3, ![1, 0, 0, 0]⟩,
      ⟨.d, 0, 8, 0, ![0, 0, 0, 0]⟩,
      ⟨.d, 0, 9, 1, ![0, 0, 0, 0]⟩,
      ⟨.d, 0, 10, 2, ![0, 0, 0, 0]⟩,
      ⟨.d, 0, 11, 3, ![0, 0, 0, 0]⟩,
      ⟨.d, 0, 12, 4, ![0, 0, 0, 0]⟩,
      ⟨.d, 0, 13, 5, ![0, 0, 0, 0]⟩,
      ⟨.d, 0, 14, 6, ![0, 0, 0, 0]⟩,
      ⟨.d, 0, 15, 7, ![0, 0, 0, 0]⟩]
    prods := [(15, 0, 0), (14, 1, 0), (14, 0, 1), (13, 2, 0), (12, 3, 0), (12, 2, 1), (13, 0, 2), (12, 1, 2), (12, 0, 3),
      (11, 4, 0), (10, 5, 0), (10, 4, 1), (9, 6, 0), (8, 7, 0), (8, 6, 1), (9, 4, 2), (8, 5, 2), (8, 4, 3),
      (11, 0, 4), (10, 1, 4), (10, 0, 5), (9, 2, 4), (8, 3, 4), (8, 2, 5), (9, 0, 6), (8, 1, 6), (8, 0, 7),
      (7, 8, 0), (6, 9, 0), (6, 8, 1), (5, 10, 0), (4, 11, 0), (4, 10, 1), (5, 8, 2), (4, 9, 2), (4, 8, 3),
      (3, 12, 0), (2, 13, 0), (2, 12, 1), (1, 14, 0), (0, 15, 0), (0, 14, 1), (1, 12, 2), (0, 13, 2), (0, 12, 3),
      (3, 8, 4), (2, 9, 4), (2, 8, 5), (1, 10, 4), (0, 11, 4), (0, 10, 5), (1, 8, 6), (0, 9, 6), (0, 8, 7),
      (7, 0, 8), (6, 1, 8), (6, 0, 9), (5, 2, 8), (4, 3, 8), (4, 2, 9), (5, 0, 10), (4, 1, 10), (4, 0, 11),
      (3, 4, 8), (2, 5, 8), (2, 4, 9), (1, 6, 8), (0, 7, 8), (0, 6, 9), (1, 4, 10), (0, 5, 10), (0, 4, 11),
      (3, 0, 12), (2, 1, 12), (2, 0, 13), (1, 2, 12), (0, 3, 12), (0, 2, 13), (1, 0, 14), (0, 1, 14), (0, 0, 15)]
    comps := [[(1, [], 0)],
      [(1, [], 1)],
      [(1, [], 2)],
      [(1, [], 3)],
      [(1, [], 4)],
      [(1, [], 5)],
      [(1, [], 6)],
      [(1, [], 7)],
      [(1, [], 8)],
      [(1, [], 27)],
      [(1, [], 28)],
      [(1, [], 29)],
      [(1, [], 30)],
      [(1, [], 31)],
      [(1, [], 32)],
      [(1, [], 33)],
      [(1, [], 34)],
      [(1, [], 35)],
      [(1, [], 54)],
      [(1, [], 55)],
      [(1, [], 56)],
      [(1, [], 57)],
      [(1, [], 58)],
      [(1, [], 59)],
      [(1, [], 60)],
      [(1, [], 61)],
      [(1, [], 62)],
      [(1, [], 9)],
      [(1, [], 10)],
      [(1, [], 11)],
      [(1, [], 12)],
      [(1, [], 13)],
      [(1, [], 14)],
      [(1, [], 15)],
      [(1, [], 16)],
      [(1, [], 17)],
      [(1, [], 36)],
      [(1, [], 37)],
      [(1, [], 38)],
      [(1, [], 39)],
      [(1, [], 40)],
      [(1, [], 41)],
      [(1, [], 42)],
      [(1, [], 43)],
      [(1, [], 44)],
      [(1, [], 63)],
      [(1, [], 64)],
      [(1, [], 65)],
      [(1, [], 66)],
      [(1, [], 67)],
      [(1, [], 68)],
      [(1, [], 69)],
      [(1, [], 70)],
      [(1, [], 71)],
      [(1, [], 18)],
      [(1, [], 19)],
      [(1, [], 20)],
      [(1, [], 21)],
      [(1, [], 22)],
      [(1, [], 23)],
      [(1, [], 24)],
      [(1, [], 25)],
      [(1, [], 26)],
      [(1, [], 45)],
      [(1, [], 46)],
      [(1, [], 47)],
      [(1, [], 48)],
      [(1, [], 49)],
      [(1, [], 50)],
      [(1, [], 51)],
      [(1, [], 52)],
      [(1, [], 53)],
      [(1, [], 72)],
      [(1, [], 73)],
      [(1, [], 74)],
      [(1, [], 75)],
      [(1, [], 76)],
      [(1, [], 77)],
      [(1, [], 78)],
      [(1, [], 79)],
      [(1, [], 80)]] }

/-- int1e_ipipiprinvip: src/autocode/deriv4.c:338-626 (`CINTgout1e_int1e_ipipiprinvip`) and 631 ff -/
def int1e_ipipiprinvip : Gen1e where
  ng := ⟨3, 1, 0, 0, 0⟩
  gbits := 4
  nComp := 81
  prog := {
    steps := [⟨.d, 1, 1, 0, ![3, 0, 0, 0]⟩,
      ⟨.d, 0, 2, 0, ![2, 0, 0, 0]⟩,
      ⟨.d, 0, 3, 1, ![2, 0, 0, 0]⟩,
      ⟨.d, 0, 4, 0, ![1, 0, 0, 0]⟩,
      ⟨.d, 0, 5, 1, ![1, 0, 0, 0]⟩,
      ⟨.d, 0, 6, 2, ![1, 0, 0, 0]⟩,
      ⟨.d, 0, 7, 3, ![1, 0, 0, 0]⟩,
      ⟨.d, 0, 8, 0, ![0, 0, 0, 0]⟩,
      ⟨.d, 0, 9, 1, ![0, 0, 0, 0]⟩,
      ⟨.d, 0, 10, 2, ![0, 0, 0, 0]⟩,
      ⟨.d, 0, 11, 3, ![0, 0, 0, 0]⟩,
      ⟨.d, 0, 12, 4, ![0, 0, 0, 0]⟩,
      ⟨.d, 0, 13, 5, ![0, 0, 0, 0]⟩,
      ⟨.d, 0, 14, 6, ![0, 0, 0, 0]⟩,
      ⟨.d, 0, 15, 7, ![0, 0, 0, 0]⟩]
    prods := [(15, 0, 0), (14, 1, 0), (14, 0, 1), (13, 2, 0), (12, 3, 0), (12, 2, 1), (13, 0, 2), (12, 1, 2), (12, 0, 3),
      (11, 4, 0), (10, 5, 0), (10, 4, 1), (9, 6, 0), (8, 7, 0), (8, 6, 1), (9, 4, 2), (8, 5, 2), (8, 4, 3),
      (11, 0, 4), (10, 1, 4), (10, 0, 5), (9, 2, 4), (8, 3, 4), (8, 2, 5), (9, 0, 6), (8, 1, 6), (8, 0, 7),
      (7, 8, 0), (6, 9, 0), (6, 8, 1), (5, 10, 0), (4, 11, 0), (4, 10, 1), (5, 8, 2), (4, 9, 2), (4, 8, 3),
      (3, 12, 0), (2, 13, 0), (2, 12, 1), (1, 14, 0), (0, 15, 0), (0, 14, 1), (1, 12, 2), (0, 13, 2), (0, 12, 3),
      (3, 8, 4), (2, 9, 4), (2, 8, 5), (1, 10, 4), (0, 11, 4), (0, 10, 5), (1, 8, 6), (0, 9, 6), (0, 8, 7),
      (7, 0, 8), (6, 1, 8), (6, 0, 9), (5, 2, 8), (4, 3, 8), (4, 2, 9), (5, 0, 10), (4, 1, 10), (4, 0, 11),
      (3, 4, 8), (2, 5, 8), (2, 4, 9), (1, 6, 8), (0, 7, 8), (0, 6, 9), (1, 4, 10), (0, 5, 10), (0, 4, 11),
      (3, 0, 12), (2, 1, 12), (2, 0, 13), (1, 2, 12), (0, 3, 12), (0, 2, 13), (1, 0, 14), (0, 1, 14), (0, 0, 15)]
    comps := [[(1, [], 0)],
      [(1, [], 1)],
      [(1, [], 2)],
      [(1, [], 27)],
      [(1, [], 28)],
      [(1, [], 29)],
      [(1, [], 54)],
      [(1, [], 55)],
      [(1, [], 56)],
      [(1, [], 9)],
      [(1, [], 10)],
      [(1, [], 11)],
      [(1, [], 36)],
      [(1, [], 37)],
      [(1, [], 38)],
      [(1, [], 63)],
      [(1, [], 64)],
      [(1, [], 65)],
      [(1, [], 18)],
      [(1, [], 19)],
      [(1, [], 20)],
      [(1, [], 45)],
      [(1, [], 46)],
      [(1, [], 47)],
      [(1, [], 72)],
      [(1, [], 73)],
      [(1, [], 74)],
      [(1, [], 3)],
      [(1, [], 4)],
      [(1, [], 5)],
      [(1, [], 30)],
      [(1, [], 31)],
      [(1, [], 32)],
      [(1, [], 57)],
      [(1, [], 58)],
      [(1, [], 59)],
      [(1, [], 12)],
      [(1, [], 13)],
      [(1, [], 14)],
      [(1, [], 39)],
      [(1, [], 40)],
      [(1, [], 41)],
      [(1, [], 66)],
      [(1, [], 67)],
      [(1, [], 68)],
      [(1, [], 21)],
      [(1, [], 22)],
      [(1, [], 23)],
      [(1, [], 48)],
      [(1, [], 49)],
      [(1, [], 50)],
      [(1, [], 75)],
      [(1, [], 76)],
      [(1, [], 77)],
      [(1, [], 6)],
      [(1, [], 7)],
      [(1, [], 8)],
      [(1, [], 33)],
      [(1, [], 34)],
      [(1, [], 35)],
      [(1, [], 60)],
      [(1, [], 61)],
      [(1, [], 62)],
      [(1, [], 15)],
      [(1, [], 16)],
      [(1, [], 17)],
      [(1, [], 42)],
      [(1, [], 43)],
      [(1, [], 44)],
      [(1, [], 69)],
      [(1, [], 70)],
      [(1, [], 71)],
      [(1, [], 24)],
      [(1, [], 25)],
      [(1, [], 26)],
      [(1, [], 51)],
      [(1, [], 52)],
      [(1, [], 53)],
      [(1, [], 78)],
      [(1, [], 79)],
      [(1, [], 80)]] }

/-- int1e_ipipipiprinv: src/autocode/deriv4.c:658-946 (`CINTgout1e_int1e_ipipipiprinv`) and 951 ff -/
def int1e_ipipipiprinv : Gen1e where
  ng := ⟨4, 0, 0, 0, 0⟩
  gbits := 4
  nComp := 81
  prog := {
    steps := [⟨.d, 0, 1, 0, ![3, 0, 0, 0]⟩,
      ⟨.d, 0, 2, 0, ![2, 0, 0, 0]⟩,
      ⟨.d, 0, 3, 1, ![2, 0, 0, 0]⟩,
      ⟨.d, 0, 4, 0, ![1, 0, 0, 0]⟩,
      ⟨.d, 0, 5, 1, ![1, 0, 0, 0]⟩,
      ⟨.d, 0, 6, 2, ![1, 0, 0, 0]⟩,
      ⟨.d, 0, 7, 3, ![1, 0, 0, 0]⟩,
      ⟨.d, 0, 8, 0, ![0, 0, 0, 0]⟩,
      ⟨.d, 0, 9, 1, ![0, 0, 0, 0]⟩,
      ⟨.d, 0, 10, 2, ![0, 0, 0, 0]⟩,
      ⟨.d, 0, 11, 3, ![0, 0, 0, 0]⟩,
      ⟨.d, 0, 12, 4, ![0, 0, 0, 0]⟩,
      ⟨.d, 0, 13, 5, ![0, 0, 0, 0]⟩,
      ⟨.d, 0, 14, 6, ![0, 0, 0, 0]⟩,
      ⟨.d, 0, 15, 7, ![0, 0, 0, 0]⟩]
    prods := [(15, 0, 0), (14, 1, 0), (14, 0, 1), (13, 2, 0), (12, 3, 0), (12, 2, 1), (13, 0, 2), (12, 1, 2), (12, 0, 3),
      (11, 4, 0), (10, 5, 0), (10, 4, 1), (9, 6, 0), (8, 7, 0), (8, 6, 1), (9, 4, 2), (8, 5, 2), (8, 4, 3),
      (11, 0, 4), (10, 1, 4), (10, 0, 5), (9, 2, 4), (8, 3, 4), (8, 2, 5), (9, 0, 6), (8, 1, 6), (8, 0, 7),
      (7, 8, 0), (6, 9, 0), (6, 8, 1), (5, 10, 0), (4, 11, 0), (4, 10, 1), (5, 8, 2), (4, 9, 2), (4, 8, 3),
      (3, 12, 0), (2, 13, 0), (2, 12, 1), (1, 14, 0), (0, 15, 0), (0, 14, 1), (1, 12, 2), (0, 13, 2), (0, 12, 3),
      (3, 8, 4), (2, 9, 4), (2, 8, 5), (1, 10, 4), (0, 11, 4), (0, 10, 5), (1, 8, 6), (0, 9, 6), (0, 8, 7),
      (7, 0, 8), (6, 1, 8), (6, 0, 9), (5, 2, 8), (4, 3, 8), (4, 2, 9), (5, 0, 10), (4, 1, 10), (4, 0, 11),
      (3, 4, 8), (2, 5, 8), (2, 4, 9), (1, 6, 8), (0, 7, 8), (0, 6, 9), (1, 4, 10), (0, 5, 10), (0, 4, 11),
      (3, 0, 12), (2, 1, 12), (2, 0, 13), (1, 2, 12), (0, 3, 12), (0, 2, 13), (1, 0, 14), (0, 1, 14), (0, 0, 15)]
    comps := [[(1, [], 0)],
      [(1, [], 27)],
      [(1, [], 54)],
      [(1, [], 9)],
      [(1, [], 36)],
      [(1, [], 63)],
      [(1, [], 18)],
      [(1, [], 45)],
      [(1, [], 72)],
      [(1, [], 3)],
      [(1, [], 30)],
      [(1, [], 57)],
      [(1, [], 12)],
      [(1, [], 39)],
      [(1, [], 66)],
      [(1, [], 21)],
      [(1, [], 48)],
      [(1, [], 75)],
      [(1, [], 6)],
      [(1, [], 33)],
      [(1, [], 60)],
      [(1, [], 15)],
      [(1, [], 42)],
      [(1, [], 69)],
      [(1, [], 24)],
      [(1, [], 51)],
      [(1, [], 78)],
      [(1, [], 1)],
      [(1, [], 28)],
      [(1, [], 55)],
      [(1, [], 10)],
      [(1, [], 37)],
      [(1, [], 64)],
      [(1, [], 19)],
      [(1, [], 46)],
      [(1, [], 73)],
      [(1, [], 4)],
      [(1, [], 31)],
      [(1, [], 58)],
      [(1, [], 13)],
      [(1, [], 40)],
      [(1, [], 67)],
      [(1, [], 22)],
      [(1, [], 49)],
      [(1, [], 76)],
      [(1, [], 7)],
      [(1, [], 34)],
      [(1, [], 61)],
      [(1, [], 16)],
      [(1, [], 43)],
      [(1, [], 70)],
      [(1, [], 25)],
      [(1, [], 52)],
      [(1, [], 79)],
      [(1, [], 2)],
      [(1, [], 29)],
      [(1, [], 56)],
      [(1, [], 11)],
      [(1, [], 38)],
      [(1, [], 65)],
      [(1, [], 20)],
      [(1, [], 47)],
      [(1, [], 74)],
      [(1, [], 5)],
      [(1, [], 32)],
      [(1, [], 59)],
      [(1, [], 14)],
      [(1, [], 41)],
      [(1, [], 68)],
      [(1, [], 23)],
      [(1, [], 50)],
      [(1, [], 77)],
      [(1, [], 8)],
      [(1, [], 35)],
      [(1, [], 62)],
      [(1, [], 17)],
      [(1, [], 44)],
      [(1, [], 71)],
      [(1, [], 26)],
      [(1, [], 53)],
      [(1, [], 80)]] }

/-- int1e_spnuc: src/autocode/dkb.c:110-138 (`CINTgout1e_int1e_spnuc`) and 143 ff -/
def int1e_spnuc : Gen1e where
  ng := ⟨1, 0, 0, 0, 0⟩
  gbits := 1
  nComp := 4
  prog := {
    steps := [⟨.d, 0, 1, 0, ![0, 0, 0, 0]⟩]
    prods := [(1, 0, 0), (0, 1, 0), (0, 0, 1)]
    comps := [[(1, [], 0)],
      [(1, [], 1)],
      [(1, [], 2)],
      []] }

/-- int1e_ipnuc: src/autocode/grad1.c:312-338 (`CINTgout1e_int1e_ipnuc`) and 343 ff -/
def int1e_ipnuc : Gen1e where
  ng := ⟨1, 0, 0, 0, 0⟩
  gbits := 1
  nComp := 3
  prog := {
    steps := [⟨.d, 0, 1, 0, ![0, 0, 0, 0]⟩]
    prods := [(1, 0, 0), (0, 1, 0), (0, 0, 1)]
    comps := [[(1, [], 0)],
      [(1, [], 1)],
      [(1, [], 2)]] }

/-- int1e_iprinv: src/autocode/grad1.c:370-396 (`CINTgout1e_int1e_iprinv`) and 401 ff -/
def int1e_iprinv : Gen1e where
  ng := ⟨1, 0, 0, 0, 0⟩
  gbits := 1
  nComp := 3
  prog := {
    steps := [⟨.d, 0, 1, 0, ![0, 0, 0, 0]⟩]
    prods := [(1, 0, 0), (0, 1, 0), (0, 0, 1)]
    comps := [[(1, [], 0)],
      [(1, [], 1)],
      [(1, [], 2)]] }

/-- int1e_ipspnucsp: src/autocode/grad1.c:428-508 (`CINTgout1e_int1e_ipspnucsp`) and 513 ff -/
def int1e_ipspnucsp : Gen1e where
  ng := ⟨2, 1, 0, 0, 0⟩
  gbits := 3
  nComp := 12
  prog := {
    steps := [⟨.d, 1, 1, 0, ![2, 0, 0, 0]⟩,
      ⟨.d, 0, 2, 0, ![1, 0, 0, 0]⟩,
      ⟨.d, 0, 3, 1, ![1, 0, 0, 0]⟩,
      ⟨.d, 0, 4, 0, ![0, 0, 0, 0]⟩,
      ⟨.d, 0, 5, 1, ![0, 0, 0, 0]⟩,
      ⟨.d, 0, 6, 2, ![0, 0, 0, 0]⟩,
      ⟨.d, 0, 7, 3, ![0, 0, 0, 0]⟩]
    prods := [(7, 0, 0), (6, 1, 0), (6, 0, 1), (5, 2, 0), (4, 3, 0), (4, 2, 1), (5, 0, 2), (4, 1, 2), (4, 0, 3),
      (3, 4, 0), (2, 5, 0), (2, 4, 1), (1, 6, 0), (0, 7, 0), (0, 6, 1), (1, 4, 2), (0, 5, 2), (0, 4, 3),
      (3, 0, 4), (2, 1, 4), (2, 0, 5), (1, 2, 4), (0, 3, 4), (0, 2, 5), (1, 0, 6), (0, 1, 6), (0, 0, 7)]
    comps := [[(1, [], 11), (-1, [], 19)],
      [(1, [], 18), (-1, [], 2)],
      [(1, [], 1), (-1, [], 9)],
      [(1, [], 0), (1, [], 10), (1, [], 20)],
      [(1, [], 14), (-1, [], 22)],
      [(1, [], 21), (-1, [], 5)],
      [(1, [], 4), (-1, [], 12)],
      [(1, [], 3), (1, [], 13), (1, [], 23)],
      [(1, [], 17), (-1, [], 25)],
      [(1, [], 24), (-1, [], 8)],
      [(1, [], 7), (-1, [], 15)],
      [(1, [], 6), (1, [], 16), (1, [], 26)]] }

/-- int1e_ipsprinvsp: src/autocode/grad1.c:540-620 (`CINTgout1e_int1e_ipsprinvsp`) and 625 ff -/
def int1e_ipsprinvsp : Gen1e where
  ng := ⟨2, 1, 0, 0, 0⟩
  gbits := 3
  nComp := 12
  prog := {
    steps := [⟨.d, 1, 1, 0, ![2, 0, 0, 0]⟩,
      ⟨.d, 0, 2, 0, ![1, 0, 0, 0]⟩,
      ⟨.d, 0, 3, 1, ![1, 0, 0, 0]⟩,
      ⟨.d, 0, 4, 0, ![0, 0, 0, 0]⟩,
      ⟨.d, 0, 5, 1, ![0, 0, 0, 0]⟩,
      ⟨.d, 0, 6, 2, ![0, 0, 0, 0]⟩,
      ⟨.d, 0, 7, 3, ![0, 0, 0, 0]⟩]
    prods := [(7, 0, 0), (6, 1, 0), (6, 0, 1), (5, 2, 0), (4, 3, 0), (4, 2, 1), (5, 0, 2), (4, 1, 2), (4, 0, 3),
      (3, 4, 0), (2, 5, 0), (2, 4, 1), (1, 6, 0), (0, 7, 0), (0, 6, 1), (1, 4, 2), (0, 5, 2), (0, 4, 3),
      (3, 0, 4), (2, 1, 4), (2, 0, 5), (1, 2, 4), (0, 3, 4), (0, 2, 5), (1, 0, 6), (0, 1, 6), (0, 0, 7)]
    comps := [[(1, [], 11), (-1, [], 19)],
      [(1, [], 18), (-1, [], 2)],
      [(1, [], 1), (-1, [], 9)],
      [(1, [], 0), (1, [], 10), (1, [], 20)],
      [(1, [], 14), (-1, [], 22)],
      [(1, [], 21), (-1, [], 5)],
      [(1, [], 4), (-1, [], 12)],
      [(1, [], 3), (1, [], 13), (1, [], 23)],
      [(1, [], 17), (-1, [], 25)],
      [(1, [], 24), (-1, [], 8)],
      [(1, [], 7), (-1, [], 15)],
      [(1, [], 6), (1, [], 16), (1, [], 26)]] }

/-- int1e_ippnucp: src/autocode/grad1.c:652-714 (`CINTgout1e_int1e_ippnucp`) and 719 ff -/
def int1e_ippnucp : Gen1e where
  ng := ⟨2, 1, 0, 0, 0⟩
  gbits := 3
  nComp := 3
  prog := {
    steps := [⟨.d, 1, 1, 0, ![2, 0, 0, 0]⟩,
      ⟨.d, 0, 2, 0, ![1, 0, 0, 0]⟩,
      ⟨.d, 0, 3, 1, ![1, 0, 0, 0]⟩,
      ⟨.d, 0, 4, 0, ![0, 0, 0, 0]⟩,
      ⟨.d, 0, 5, 1, ![0, 0, 0, 0]⟩,
      ⟨.d, 0, 6, 2, ![0, 0, 0, 0]⟩,
      ⟨.d, 0, 7, 3, ![0, 0, 0, 0]⟩]
    prods := [(7, 0, 0), (6, 1, 0), (6, 0, 1), (5, 2, 0), (4, 3, 0), (4, 2, 1), (5, 0, 2), (4, 1, 2), (4, 0, 3),
      (3, 4, 0), (2, 5, 0), (2, 4, 1), (1, 6, 0), (0, 7, 0), (0, 6, 1), (1, 4, 2), (0, 5, 2), (0, 4, 3),
      (3, 0, 4), (2, 1, 4), (2, 0, 5), (1, 2, 4), (0, 3, 4), (0, 2, 5), (1, 0, 6), (0, 1, 6), (0, 0, 7)]
    comps := [[(1, [], 0), (1, [], 4), (1, [], 8)],
      [(1, [], 9), (1, [], 13), (1, [], 17)],
      [(1, [], 18), (1, [], 22), (1, [], 26)]] }

/-- int1e_ipprinvp: src/autocode/grad1.c:746-808 (`CINTgout1e_int1e_ipprinvp`) and 813 ff -/
def int1e_ipprinvp : Gen1e where
  ng := ⟨2, 1, 0, 0, 0⟩
  gbits := 3
  nComp := 3
  prog := {
    steps := [⟨.d, 1, 1, 0, ![2, 0, 0, 0]⟩,
      ⟨.d, 0, 2, 0, ![1, 0, 0, 0]⟩,
      ⟨.d, 0, 3, 1, ![1, 0, 0, 0]⟩,
      ⟨.d, 0, 4, 0, ![0, 0, 0, 0]⟩,
      ⟨.d, 0, 5, 1, ![0, 0, 0, 0]⟩,
      ⟨.d, 0, 6, 2, ![0, 0, 0, 0]⟩,
      ⟨.d, 0, 7, 3, ![0, 0, 0, 0]⟩]
    prods := [(7, 0, 0), (6, 1, 0), (6, 0, 1), (5, 2, 0), (4, 3, 0), (4, 2, 1), (5, 0, 2), (4, 1, 2), (4, 0, 3),
      (3, 4, 0), (2, 5, 0), (2, 4, 1), (1, 6, 0), (0, 7, 0), (0, 6, 1), (1, 4, 2), (0, 5, 2), (0, 4, 3),
      (3, 0, 4), (2, 1, 4), (2, 0, 5), (1, 2, 4), (0, 3, 4), (0, 2, 5), (1, 0, 6), (0, 1, 6), (0, 0, 7)]
    comps := [[(1, [], 0), (1, [], 4), (1, [], 8)],
      [(1, [], 9), (1, [], 13), (1, [], 17)],
      [(1, [], 18), (1, [], 22), (1, [], 26)]] }

/-- int1e_ipipnuc: src/autocode/hess.c:520-568 (`CINTgout1e_int1e_ipipnuc`) and 573 ff -/
def int1e_ipipnuc : Gen1e where
  ng := ⟨2, 0, 0, 0, 0⟩
  gbits := 2
  nComp := 9
  prog := {
    steps := [⟨.d, 0, 1, 0, ![1, 0, 0, 0]⟩,
      ⟨.d, 0, 2, 0, ![0, 0, 0, 0]⟩,
      ⟨.d, 0, 3, 1, ![0, 0, 0, 0]⟩]
    prods := [(3, 0, 0), (2, 1, 0), (2, 0, 1), (1, 2, 0), (0, 3, 0), (0, 2, 1), (1, 0, 2), (0, 1, 2), (0, 0, 3)]
    comps := [[(1, [], 0)],
      [(1, [], 3)],
      [(1, [], 6)],
      [(1, [], 1)],
      [(1, [], 4)],
      [(1, [], 7)],
      [(1, [], 2)],
      [(1, [], 5)],
      [(1, [], 8)]] }

/-- int1e_ipnucip: src/autocode/hess.c:600-648 (`CINTgout1e_int1e_ipnucip`) and 653 ff -/
def int1e_ipnucip : Gen1e where
  ng := ⟨1, 1, 0, 0, 0⟩
  gbits := 2
  nComp := 9
  prog := {
    steps := [⟨.d, 1, 1, 0, ![1, 0, 0, 0]⟩,
      ⟨.d, 0, 2, 0, ![0, 0, 0, 0]⟩,
      ⟨.d, 0, 3, 1, ![0, 0, 0, 0]⟩]
    prods := [(3, 0, 0), (2, 1, 0), (2, 0, 1), (1, 2, 0), (0, 3, 0), (0, 2, 1), (1, 0, 2), (0, 1, 2), (0, 0, 3)]
    comps := [[(1, [], 0)],
      [(1, [], 1)],
      [(1, [], 2)],
      [(1, [], 3)],
      [(1, [], 4)],
      [(1, [], 5)],
      [(1, [], 6)],
      [(1, [], 7)],
      [(1, [], 8)]] }

/-- int1e_ipiprinv: src/autocode/hess.c:680-728 (`CINTgout1e_int1e_ipiprinv`) and 733 ff -/
def int1e_ipiprinv : Gen1e where
  ng := ⟨2, 0, 0, 0, 0⟩
  gbits := 2
  nComp := 9
  prog := {
    steps := [⟨.d, 0, 1, 0, ![1, 0, 0, 0]⟩,
      ⟨.d, 0, 2, 0, ![0, 0, 0, 0]⟩,
      ⟨.d, 0, 3, 1, ![0, 0, 0, 0]⟩]
    prods := [(3, 0, 0), (2, 1, 0), (2, 0, 1), (1, 2, 0), (0, 3, 0), (0, 2, 1), (1, 0, 2), (0, 1, 2), (0, 0, 3)]
    comps := [[(1, [], 0)],
      [(1, [], 3)],
      [(1, [], 6)],
      [(1, [], 1)],
      [(1, [], 4)],
      [(1, [], 7)],
      [(1, [], 2)],
      [(1, [], 5)],
      [(1, [], 8)]] }

/-- int1e_iprinvip: src/autocode/hess.c:760-808 (`CINTgout1e_int1e_iprinvip`) and 813 ff -/
def int1e_iprinvip : Gen1e where
  ng := ⟨1, 1, 0, 0, 0⟩
  gbits := 2
  nComp := 9
  prog := {
    steps := [⟨.d, 1, 1, 0, ![1, 0, 0, 0]⟩,
      ⟨.d, 0, 2, 0, ![0, 0, 0, 0]⟩,
      ⟨.d, 0, 3, 1, ![0, 0, 0, 0]⟩]
    prods := [(3, 0, 0), (2, 1, 0), (2, 0, 1), (1, 2, 0), (0, 3, 0), (0, 2, 1), (1, 0, 2), (0, 1, 2), (0, 0, 3)]
    comps := [[(1, [], 0)],
      [(1, [], 1)],
      [(1, [], 2)],
      [(1, [], 3)],
      [(1, [], 4)],
      [(1, [], 5)],
      [(1, [], 6)],
      [(1, [], 7)],
      [(1, [], 8)]] }

/-- int1e_ipippnucp: src/autocode/hess.c:1370-1514 (`CINTgout1e_int1e_ipippnucp`) and 1519 ff -/
def int1e_ipippnucp : Gen1e where
  ng := ⟨3, 1, 0, 0, 0⟩
  gbits := 4
  nComp := 9
  prog := {
    steps := [⟨.d, 1, 1, 0, ![3, 0, 0, 0]⟩,
      ⟨.d, 0, 2, 0, ![2, 0, 0, 0]⟩,
      ⟨.d, 0, 3, 1, ![2, 0, 0, 0]⟩,
      ⟨.d, 0, 4, 0, ![1, 0, 0, 0]⟩,
      ⟨.d, 0, 5, 1, ![1, 0, 0, 0]⟩,
      ⟨.d, 0, 6, 2, ![1, 0, 0, 0]⟩,
      ⟨.d, 0, 7, 3, ![1, 0, 0, 0]⟩,
      ⟨.d, 0, 8, 0, ![0, 0, 0, 0]⟩,
      ⟨.d, 0, 9, 1, ![0, 0, 0, 0]⟩,
      ⟨.d, 0, 10, 2, ![0, 0, 0, 0]⟩,
      ⟨.d, 0, 11, 3, ![0, 0, 0, 0]⟩,
      ⟨.d, 0, 12, 4, ![0, 0, 0, 0]⟩,
      ⟨.d, 0, 13, 5, ![0, 0, 0, 0]⟩,
      ⟨.d, 0, 14, 6, ![0, 0, 0, 0]⟩,
      ⟨.d, 0, 15, 7, ![0, 0, 0, 0]⟩]
    prods := [(15, 0, 0), (14, 1, 0), (14, 0, 1), (13, 2, 0), (12, 3, 0), (12, 2, 1), (13, 0, 2), (12, 1, 2), (12, 0, 3),
      (11, 4, 0), (10, 5, 0), (10, 4, 1), (9, 6, 0), (8, 7, 0), (8, 6, 1), (9, 4, 2), (8, 5, 2), (8, 4, 3),
      (11, 0, 4), (10, 1, 4), (10, 0, 5), (9, 2, 4), (8, 3, 4), (8, 2, 5), (9, 0, 6), (8, 1, 6), (8, 0, 7),
      (7, 8, 0), (6, 9, 0), (6, 8, 1), (5, 10, 0), (4, 11, 0), (4, 10, 1), (5, 8, 2), (4, 9, 2), (4, 8, 3),
      (3, 12, 0), (2, 13, 0), (2, 12, 1), (1, 14, 0), (0, 15, 0), (0, 14, 1), (1, 12, 2), (0, 13, 2), (0, 12, 3),
      (3, 8, 4), (2, 9, 4), (2, 8, 5), (1, 10, 4), (0, 11, 4), (0, 10, 5), (1, 8, 6), (0, 9, 6), (0, 8, 7),
      (7, 0, 8), (6, 1, 8), (6, 0, 9), (5, 2, 8), (4, 3, 8), (4, 2, 9), (5, 0, 10), (4, 1, 10), (4, 0, 11),
      (3, 4, 8), (2, 5, 8), (2, 4, 9), (1, 6, 8), (0, 7, 8), (0, 6, 9), (1, 4, 10), (0, 5, 10), (0, 4, 11),
      (3, 0, 12), (2, 1, 12), (2, 0, 13), (1, 2, 12), (0, 3, 12), (0, 2, 13), (1, 0, 14), (0, 1, 14), (0, 0, 15)]
    comps := [[(1, [], 0), (1, [], 4), (1, [], 8)],
      [(1, [], 27), (1, [], 31), (1, [], 35)],
      [(1, [], 54), (1, [], 58), (1, [], 62)],
      [(1, [], 9), (1, [], 13), (1, [], 17)],
      [(1, [], 36), (1, [], 40), (1, [], 44)],
      [(1, [], 63), (1, [], 67), (1, [], 71)],
      [(1, [], 18), (1, [], 22), (1, [], 26)],
      [(1, [], 45), (1, [], 49), (1, [], 53)],
      [(1, [], 72), (1, [], 76), (1, [], 80)]] }

/-- int1e_ippnucpip: src/autocode/hess.c:1546-1690 (`CINTgout1e_int1e_ippnucpip`) and 1695 ff -/
def int1e_ippnucpip : Gen1e where
  ng := ⟨2, 2, 0, 0, 0⟩
  gbits := 4
  nComp := 9
  prog := {
    steps := [⟨.d, 1, 1, 0, ![2, 0, 0, 0]⟩,
      ⟨.d, 1, 2, 0, ![2, 1, 0, 0]⟩,
      ⟨.d, 1, 3, 2, ![2, 0, 0, 0]⟩,
      ⟨.d, 0, 4, 0, ![1, 0, 0, 0]⟩,
      ⟨.d, 0, 5, 1, ![1, 0, 0, 0]⟩,
      ⟨.d, 0, 6, 2, ![1, 0, 0, 0]⟩,
      ⟨.d, 0, 7, 3, ![1, 0, 0, 0]⟩,
      ⟨.d, 0, 8, 0, ![0, 0, 0, 0]⟩,
      ⟨.d, 0, 9, 1, ![0, 0, 0, 0]⟩,
      ⟨.d, 0, 10, 2, ![0, 0, 0, 0]⟩,
      ⟨.d, 0, 11, 3, ![0, 0, 0, 0]⟩,
      ⟨.d, 0, 12, 4, ![0, 0, 0, 0]⟩,
      ⟨.d, 0, 13, 5, ![0, 0, 0, 0]⟩,
      ⟨.d, 0, 14, 6, ![0, 0, 0, 0]⟩,
      ⟨.d, 0, 15, 7, ![0, 0, 0, 0]⟩]
    prods := [(15, 0, 0), (14, 1, 0), (14, 0, 1), (13, 2, 0), (12, 3, 0), (12, 2, 1), (13, 0, 2), (12, 1, 2), (12, 0, 3),
      (11, 4, 0), (10, 5, 0), (10, 4, 1), (9, 6, 0), (8, 7, 0), (8, 6, 1), (9, 4, 2), (8, 5, 2), (8, 4, 3),
      (11, 0, 4), (10, 1, 4), (10, 0, 5), (9, 2, 4), (8, 3, 4), (8, 2, 5), (9, 0, 6), (8, 1, 6), (8, 0, 7),
      (7, 8, 0), (6, 9, 0), (6, 8, 1), (5, 10, 0), (4, 11, 0), (4, 10, 1), (5, 8, 2), (4, 9, 2), (4, 8, 3),
      (3, 12, 0), (2, 13, 0), (2, 12, 1), (1, 14, 0), (0, 15, 0), (0, 14, 1), (1, 12, 2), (0, 13, 2), (0, 12, 3),
      (3, 8, 4), (2, 9, 4), (2, 8, 5), (1, 10, 4), (0, 11, 4), (0, 10, 5), (1, 8, 6), (0, 9, 6), (0, 8, 7),
      (7, 0, 8), (6, 1, 8), (6, 0, 9), (5, 2, 8), (4, 3, 8), (4, 2, 9), (5, 0, 10), (4, 1, 10), (4, 0, 11),
      (3, 4, 8), (2, 5, 8), (2, 4, 9), (1, 6, 8), (0, 7, 8), (0, 6, 9), (1, 4, 10), (0, 5, 10), (0, 4, 11),
      (3, 0, 12), (2, 1, 12), (2, 0, 13), (1, 2, 12), (0, 3, 12), (0, 2, 13), (1, 0, 14), (0, 1, 14), (0, 0, 15)]
    comps := [[(1, [], 0), (1, [], 12), (1, [], 24)],
      [(1, [], 27), (1, [], 39), (1, [], 51)],
      [(1, [], 54), (1, [], 66), (1, [], 78)],
      [(1, [], 1), (1, [], 13), (1, [], 25)],
      [(1, [], 28), (1, [], 40), (1, [], 52)],
      [(1, [], 55), (1, [], 67), (1, [], 79)],
      [(1, [], 2), (1, [], 14), (1, [], 26)],
      [(1, [], 29), (1, [], 41), (1, [], 53)],
      [(1, [], 56), (1, [], 68), (1, [], 80)]] }

/-- int1e_ipipprinvp: src/autocode/hess.c:1722-1866 (`CINTgout1e_int1e_ipipprinvp`) and 1871 ff -/
def int1e_ipipprinvp : Gen1e where
  ng := ⟨3, 1, 0, 0, 0⟩
  gbits := 4
  nComp := 9
  prog := {
    steps := [⟨.d, 1, 1, 0, ![3, 0, 0, 0]⟩,
      ⟨.d, 0, 2, 0, ![2, 0, 0, 0]⟩,
      ⟨.d, 0, 3, 1, ![2, 0, 0, 0]⟩,
      ⟨.d, 0, 4, 0, ![1, 0, 0, 0]⟩,
      ⟨.d, 0, 5, 1, ![1, 0, 0, 0]⟩,
      ⟨.d, 0, 6, 2, ![1, 0, 0, 0]⟩,
      ⟨.d, 0, 7, 3, ![1, 0, 0, 0]⟩,
      ⟨.d, 0, 8, 0, ![0, 0, 0, 0]⟩,
      ⟨.d, 0, 9, 1, ![0, 0, 0, 0]⟩,
      ⟨.d, 0, 10, 2, ![0, 0, 0, 0]⟩,
      ⟨.d, 0, 11, 3, ![0, 0, 0, 0]⟩,
      ⟨.d, 0, 12, 4, ![0, 0, 0, 0]⟩,
      ⟨.d, 0, 13, 5, ![0, 0, 0, 0]⟩,
      ⟨.d, 0, 14, 6, ![0, 0, 0, 0]⟩,
      ⟨.d, 0, 15, 7, ![0, 0, 0, 0]⟩]
    prods := [(15, 0, 0), (14, 1, 0), (14, 0, 1), (13, 2, 0), (12, 3, 0), (12, 2, 1), (13, 0, 2), (12, 1, 2), (12, 0, 3),
      (11, 4, 0), (10, 5, 0), (10, 4, 1), (9, 6, 0), (8, 7, 0), (8, 6, 1), (9, 4, 2), (8, 5, 2), (8, 4, 3),
      (11, 0, 4), (10, 1, 4), (10, 0, 5), (9, 2, 4), (8, 3, 4), (8, 2, 5), (9, 0, 6), (8, 1, 6), (8, 0, 7),
      (7, 8, 0), (6, 9, 0), (6, 8, 1), (5, 10, 0), (4, 11, 0), (4, 10, 1), (5, 8, 2), (4, 9, 2), (4, 8, 3),
      (3, 12, 0), (2, 13, 0), (2, 12, 1), (1, 14, 0), (0, 15, 0), (0, 14, 1), (1, 12, 2), (0, 13, 2), (0, 12, 3),
      (3, 8, 4), (2, 9, 4), (2, 8, 5), (1, 10, 4), (0, 11, 4), (0, 10, 5), (1, 8, 6), (0, 9, 6), (0, 8, 7),
      (7, 0, 8), (6, 1, 8), (6, 0, 9), (5, 2, 8), (4, 3, 8), (4, 2, 9), (5, 0, 10), (4, 1, 10), (4, 0, 11),
      (3, 4, 8), (2, 5, 8), (2, 4, 9), (1, 6, 8), (0, 7, 8), (0, 6, 9), (1, 4, 10), (0, 5, 10), (0, 4, 11),
      (3, 0, 12), (2, 1, 12), (2, 0, 13), (1, 2, 12), (0, 3, 12), (0, 2, 13), (1, 0, 14), (0, 1, 14), (0, 0, 15)]
    comps := [[(1, [], 0), (1, [], 4), (1, [], 8)],
      [(1, [], 27), (1, [], 31), (1, [], 35)],
      [(1, [], 54), (1, [], 58), (1, [], 62)],
      [(1, [], 9), (1, [], 13), (1, [], 17)],
      [(1, [], 36), (1, [], 40), (1, [], 44)],
      [(1, [], 63), (1, [], 67), (1, [], 71)],
      [(1, [], 18), (1, [], 22), (1, [], 26)],
      [(1, [], 45), (1, [], 49), (1, [], 53)],
      [(1, [], 72), (1, [], 76), (1, [], 80)]] }

/-- int1e_ipprinvpip: src/autocode/hess.c:1898-2042 (`CINTgout1e_int1e_ipprinvpip`) and 2047 ff -/
def int1e_ipprinvpip : Gen1e where
  ng := ⟨2, 2, 0, 0, 0⟩
  gbits := 4
  nComp := 9
  prog := {
    steps := [⟨.d, 1, 1, 0, ![2, 0, 0, 0]⟩,
      ⟨.d, 1, 2, 0, ![2, 1, 0, 0]⟩,
      ⟨.d, 1, 3, 2, ![2, 0, 0, 0]⟩,
      ⟨.d, 0, 4, 0, ![1, 0, 0, 0]⟩,
      ⟨.d, 0, 5, 1, ![1, 0, 0, 0]⟩,
      ⟨.d, 0, 6, 2, ![1, 0, 0, 0]⟩,
      ⟨.d, 0, 7, 3, ![1, 0, 0, 0]⟩,
      ⟨.d, 0, 8, 0, ![0, 0, 0, 0]⟩,
      ⟨.d, 0, 9, 1, ![0, 0, 0, 0]⟩,
      ⟨.d, 0, 10, 2, ![0, 0, 0, 0]⟩,
      ⟨.d, 0, 11, 3, ![0, 0, 0, 0]⟩,
      ⟨.d, 0, 12, 4, ![0, 0, 0, 0]⟩,
      ⟨.d, 0, 13, 5, ![0, 0, 0, 0]⟩,
      ⟨.d, 0, 14, 6, ![0, 0, 0, 0]⟩,
      ⟨.d, 0, 15, 7, ![0, 0, 0, 0]⟩]
    prods := [(15, 0, 0), (14, 1, 0), (14, 0, 1), (13, 2, 0), (12, 3, 0), (12, 2, 1), (13, 0, 2), (12, 1, 2), (12, 0, 3),
      (11, 4, 0), (10, 5, 0), (10, 4, 1), (9, 6, 0), (8, 7, 0), (8, 6, 1), (9, 4, 2), (8, 5, 2), (8, 4, 3),
      (11, 0, 4), (10, 1, 4), (10, 0, 5), (9, 2, 4), (8, 3, 4), (8, 2, 5), (9, 0, 6), (8, 1, 6), (8, 0, 7),
      (7, 8, 0), (6, 9, 0), (6, 8, 1), (5, 10, 0), (4, 11, 0), (4, 10, 1), (5, 8, 2), (4, 9, 2), (4, 8, 3),
      (3, 12, 0), (2, 13, 0), (2, 12, 1), (1, 14, 0), (0, 15, 0), (0, 14, 1), (1, 12, 2), (0, 13, 2), (0, 12, 3),
      (3, 8, 4), (2, 9, 4), (2, 8, 5), (1, 10, 4), (0, 11, 4), (0, 10, 5), (1, 8, 6), (0, 9, 6), (0, 8, 7),
      (7, 0, 8), (6, 1, 8), (6, 0, 9), (5, 2, 8), (4, 3, 8), (4, 2, 9), (5, 0, 10), (4, 1, 10), (4, 0, 11),
      (3, 4, 8), (2, 5, 8), (2, 4, 9), (1, 6, 8), (0, 7, 8), (0, 6, 9), (1, 4, 10), (0, 5, 10), (0, 4, 11),
      (3, 0, 12), (2, 1, 12), (2, 0, 13), (1, 2, 12), (0, 3, 12), (0, 2, 13), (1, 0, 14), (0, 1, 14), (0, 0, 15)]
    comps := [[(1, [], 0), (1, [], 12), (1, [], 24)],
      [(1, [], 27), (1, [], 39), (1, [], 51)],
      [(1, [], 54), (1, [], 66), (1, [], 78)],
      [(1, [], 1), (1, [], 13), (1, [], 25)],
      [(1, [], 28), (1, [], 40), (1, [], 52)],
      [(1, [], 55), (1, [], 67), (1, [], 79)],
      [(1, [], 2), (1, [], 14), (1, [], 26)],
      [(1, [], 29), (1, [], 41), (1, [], 53)],
      [(1, [], 56), (1, [], 68), (1, [], 80)]] }

/-- int1e_ipipspnucsp: src/autocode/hess.c:2074-2272 (`CINTgout1e_int1e_ipipspnucsp`) and 2277 ff -/
def int1e_ipipspnucsp : Gen1e where
  ng := ⟨3, 1, 0, 0, 0⟩
  gbits := 4
  nComp := 36
  prog := {
    steps := [⟨.d, 1, 1, 0, ![3, 0, 0, 0]⟩,
      ⟨.d, 0, 2, 0, ![2, 0, 0, 0]⟩,
      ⟨.d, 0, 3, 1, ![2, 0, 0, 0]⟩,
      ⟨.d, 0, 4, 0, ![1, 0, 0, 0]⟩,
      ⟨.d, 0, 5, 1, ![1, 0, 0, 0]⟩,
      ⟨.d, 0, 6, 2, ![1, 0, 0, 0]⟩,
      ⟨.d, 0, 7, 3, ![1, 0, 0, 0]⟩,
      ⟨.d, 0, 8, 0, ![0, 0, 0, 0]⟩,
      ⟨.d, 0, 9, 1, ![0, 0, 0, 0]⟩,
      ⟨.d, 0, 10, 2, ![0, 0, 0, 0]⟩,
      ⟨.d, 0, 11, 3, ![0, 0, 0, 0]⟩,
      ⟨.d, 0, 12, 4, ![0, 0, 0, 0]⟩,
      ⟨.d, 0, 13, 5, ![0, 0, 0, 0]⟩,
      ⟨.d, 0, 14, 6, ![0, 0, 0, 0]⟩,
      ⟨.d, 0, 15, 7, ![0, 0, 0, 0]⟩]
    prods := [(15, 0, 0), (14, 1, 0), (14, 0, 1), (13, 2, 0), (12, 3, 0), (12, 2, 1), (13, 0, 2), (12, 1, 2), (12, 0, 3),
      (11, 4, 0), (10, 5, 0), (10, 4, 1), (9, 6, 0), (8, 7, 0), (8, 6, 1), (9, 4, 2), (8, 5, 2), (8, 4, 3),
      (11, 0, 4), (10, 1, 4), (10, 0, 5), (9, 2, 4), (8, 3, 4), (8, 2, 5), (9, 0, 6), (8, 1, 6), (8, 0, 7),
      (7, 8, 0), (6, 9, 0), (6, 8, 1), (5, 10, 0), (4, 11, 0), (4, 10, 1), (5, 8, 2), (4, 9, 2), (4, 8, 3),
      (3, 12, 0), (2, 13, 0), (2, 12, 1), (1, 14, 0), (0, 15, 0), (0, 14, 1), (1, 12, 2), (0, 13, 2), (0, 12, 3),
      (3, 8, 4), (2, 9, 4), (2, 8, 5), (1, 10, 4), (0, 11, 4), (0, 10, 5), (1, 8, 6), (0, 9, 6), (0, 8, 7),
      (7, 0, 8), (6, 1, 8), (6, 0, 9), (5, 2, 8), (4, 3, 8), (4, 2, 9), (5, 0, 10), (4, 1, 10), (4, 0, 11),
      (3, 4, 8), (2, 5, 8), (2, 4, 9), (1, 6, 8), (0, 7, 8), (0, 6, 9), (1, 4, 10), (0, 5, 10), (0, 4, 11),
      (3, 0, 12), (2, 1, 12), (2, 0, 13), (1, 2, 12), (0, 3, 12), (0, 2, 13), (1, 0, 14), (0, 1, 14), (0, 0, 15)]
    comps := [[(1, [], 29), (-1, [], 55)],
      [(1, [], 54), (-1, [], 2)],
      [(1, [], 1), (-1, [], 27)],
      [(1, [], 0), (1, [], 28), (1, [], 56)],
      [(1, [], 32), (-1, [], 58)],
      [(1, [], 57), (-1, [], 5)],
      [(1, [], 4), (-1, [], 30)],
      [(1, [], 3), (1, [], 31), (1, [], 59)],
      [(1, [], 35), (-1, [], 61)],
      [(1, [], 60), (-1, [], 8)],
      [(1, [], 7), (-1, [], 33)],
      [(1, [], 6), (1, [], 34), (1, [], 62)],
      [(1, [], 38), (-1, [], 64)],
      [(1, [], 63), (-1, [], 11)],
      [(1, [], 10), (-1, [], 36)],
      [(1, [], 9), (1, [], 37), (1, [], 65)],
      [(1, [], 41), (-1, [], 67)],
      [(1, [], 66), (-1, [], 14)],
      [(1, [], 13), (-1, [], 39)],
      [(1, [], 12), (1, [], 40), (1, [], 68)],
      [(1, [], 44), (-1, [], 70)],
      [(1, [], 69), (-1, [], 17)],
      [(1, [], 16), (-1, [], 42)],
      [(1, [], 15), (1, [], 43), (1, [], 71)],
      [(1, [], 47), (-1, [], 73)],
      [(1, [], 72), (-1, [], 20)],
      [(1, [], 19), (-1, [], 45)],
      [(1, [], 18), (1, [], 46), (1, [], 74)],
      [(1, [], 50), (-1, [], 76)],
      [(1, [], 75), (-1, [], 23)],
      [(1, [], 22), (-1, [], 48)],
      [(1, [], 21), (1, [], 49), (1, [], 77)],
      [(1, [], 53), (-1, [], 79)],
      [(1, [], 78), (-1, [], 26)],
      [(1, [], 25), (-1, [], 51)],
      [(1, [], 24), (1, [], 52), (1, [], 80)]] }

/-- int1e_ipspnucspip: src/autocode/hess.c:2304-2502 (`CINTgout1e_int1e_ipspnucspip`) and 2507 ff -/
def int1e_ipspnucspip : Gen1e where
  ng := ⟨2, 2, 0, 0, 0⟩
  gbits := 4
  nComp := 36
  prog := {
    steps := [⟨.d, 1, 1, 0, ![2, 0, 0, 0]⟩,
      ⟨.d, 1, 2, 0, ![2, 1, 0, 0]⟩,
      ⟨.d, 1, 3, 2, ![2, 0, 0, 0]⟩,
      ⟨.d, 0, 4, 0, ![1, 0, 0, 0]⟩,
      ⟨.d, 0, 5, 1, ![1, 0, 0, 0]⟩,
      ⟨.d, 0, 6, 2, ![1, 0, 0, 0]⟩,
      ⟨.d, 0, 7, 3, ![1, 0, 0, 0]⟩,
      ⟨.d, 0, 8, 0, ![0, 0, 0, 0]⟩,
      ⟨.d, 0, 9, 1, ![0, 0, 0, 0]⟩,
      ⟨.d, 0, 10, 2, ![0, 0, 0, 0]⟩,
      ⟨.d, 0, 11, 3, ![0, 0, 0, 0]⟩,
      ⟨.d, 0, 12, 4, ![0, 0, 0, 0]⟩,
      ⟨.d, 0, 13, 5, ![0, 0, 0, 0]⟩,
      ⟨.d, 0, 14, 6, ![0, 0, 0, 0]⟩,
      ⟨.d, 0, 15, 7, ![0, 0, 0, 0]⟩]
    prods := [(15, 0, 0), (14, 1, 0), (14, 0, 1), (13, 2, 0), (12, 3, 0), (12, 2, 1), (13, 0, 2), (12, 1, 2), (12, 0, 3),
      (11, 4, 0), (10, 5, 0), (10, 4, 1), (9, 6, 0), (8, 7, 0), (8, 6, 1), (9, 4, 2), (8, 5, 2), (8, 4, 3),
      (11, 0, 4), (10, 1, 4), (10, 0, 5), (9, 2, 4), (8, 3, 4), (8, 2, 5), (9, 0, 6), (8, 1, 6), (8, 0, 7),
      (7, 8, 0), (6, 9, 0), (6, 8, 1), (5, 10, 0), (4, 11, 0), (4, 10, 1), (5, 8, 2), (4, 9, 2), (4, 8, 3),
      (3, 12, 0), (2, 13, 0), (2, 12, 1), (1, 14, 0), (0, 15, 0), (0, 14, 1), (1, 12, 2), (0, 13, 2), (0, 12, 3),
      (3, 8, 4), (2, 9, 4), (2, 8, 5), (1, 10, 4), (0, 11, 4), (0, 10, 5), (1, 8, 6), (0, 9, 6), (0, 8, 7),
      (7, 0, 8), (6, 1, 8), (6, 0, 9), (5, 2, 8), (4, 3, 8), (4, 2, 9), (5, 0, 10), (4, 1, 10), (4, 0, 11),
      (3, 4, 8), (2, 5, 8), (2, 4, 9), (1, 6, 8), (0, 7, 8), (0, 6, 9), (1, 4, 10), (0, 5, 10), (0, 4, 11),
      (3, 0, 12), (2, 1, 12), (2, 0, 13), (1, 2, 12), (0, 3, 12), (0, 2, 13), (1, 0, 14), (0, 1, 14), (0, 0, 15)]
    comps := [[(1, [], 33), (-1, [], 57)],
      [(1, [], 54), (-1, [], 6)],
      [(1, [], 3), (-1, [], 27)],
      [(1, [], 0), (1, [], 30), (1, [], 60)],
      [(1, [], 34), (-1, [], 58)],
      [(1, [], 55), (-1, [], 7)],
      [(1, [], 4), (-1, [], 28)],
      [(1, [], 1), (1, [], 31), (1, [], 61)],
      [(1, [], 35), (-1, [], 59)],
      [(1, [], 56), (-1, [], 8)],
      [(1, [], 5), (-1, [], 29)],
      [(1, [], 2), (1, [], 32), (1, [], 62)],
      [(1, [], 42), (-1, [], 66)],
      [(1, [], 63), (-1, [], 15)],
      [(1, [], 12), (-1, [], 36)],
      [(1, [], 9), (1, [], 39), (1, [], 69)],
      [(1, [], 43), (-1, [], 67)],
      [(1, [], 64), (-1, [], 16)],
      [(1, [], 13), (-1, [], 37)],
      [(1, [], 10), (1, [], 40), (1, [], 70)],
      [(1, [], 44), (-1, [], 68)],
      [(1, [], 65), (-1, [], 17)],
      [(1, [], 14), (-1, [], 38)],
      [(1, [], 11), (1, [], 41), (1, [], 71)],
      [(1, [], 51), (-1, [], 75)],
      [(1, [], 72), (-1, [], 24)],
      [(1, [], 21), (-1, [], 45)],
      [(1, [], 18), (1, [], 48), (1, [], 78)],
      [(1, [], 52), (-1, [], 76)],
      [(1, [], 73), (-1, [], 25)],
      [(1, [], 22), (-1, [], 46)],
      [(1, [], 19), (1, [], 49), (1, [], 79)],
      [(1, [], 53), (-1, [], 77)],
      [(1, [], 74), (-1, [], 26)],
      [(1, [], 23), (-1, [], 47)],
      [(1, [], 20), (1, [], 50), (1, [], 80)]] }

/-- int1e_ipipsprinvsp: src/autocode/hess.c:2534-2732 (`CINTgout1e_int1e_ipipsprinvsp`) and 2737 ff -/
def int1e_ipipsprinvsp : Gen1e where
  ng := ⟨3, 1, 0, 0, 0⟩
  gbits := 4
  nComp := 36
  prog := {
    steps := [⟨.d, 1, 1, 0, ![3, 0, 0, 0]⟩,
      ⟨.d, 0, 2, 0, ![2, 0, 0, 0]⟩,
      ⟨.d, 0, 3, 1, ![2, 0, 0, 0]⟩,
      ⟨.d, 0, 4, 0, ![1, 0, 0, 0]⟩,
      ⟨.d, 0, 5, 1, ![1, 0, 0, 0]⟩,
      ⟨.d, 0, 6, 2, ![1, 0, 0, 0]⟩,
      ⟨.d, 0, 7, 3, ![1, 0, 0, 0]⟩,
      ⟨.d, 0, 8, 0, ![0, 0, 0, 0]⟩,
      ⟨.d, 0, 9, 1, ![0, 0, 0, 0]⟩,
      ⟨.d, 0, 10, 2, ![0, 0, 0, 0]⟩,
      ⟨.d, 0, 11, 3, ![0, 0, 0, 0]⟩,
      ⟨.d, 0, 12, 4, ![0, 0, 0, 0]⟩,
      ⟨.d, 0, 13, 5, ![0, 0, 0, 0]⟩,
      ⟨.d, 0, 14, 6, ![0, 0, 0, 0]⟩,
      ⟨.d, 0, 15, 7, ![0, 0, 0, 0]⟩]
    prods := [(15, 0, 0), (14, 1, 0), (14, 0, 1), (13, 2, 0), (12, 3, 0), (12, 2, 1), (13, 0, 2), (12, 1, 2), (12, 0, 3),
      (11, 4, 0), (10, 5, 0), (10, 4, 1), (9, 6, 0), (8, 7, 0), (8, 6, 1), (9, 4, 2), (8, 5, 2), (8, 4, 3),
      (11, 0, 4), (10, 1, 4), (10, 0, 5), (9, 2, 4), (8, 3, 4), (8, 2, 5), (9, 0, 6), (8, 1, 6), (8, 0, 7),
      (7, 8, 0), (6, 9, 0), (6, 8, 1), (5, 10, 0), (4, 11, 0), (4, 10, 1), (5, 8, 2), (4, 9, 2), (4, 8, 3),
      (3, 12, 0), (2, 13, 0), (2, 12, 1), (1, 14, 0), (0, 15, 0), (0, 14, 1), (1, 12, 2), (0, 13, 2), (0, 12, 3),
      (3, 8, 4), (2, 9, 4), (2, 8, 5), (1, 10, 4), (0, 11, 4), (0, 10, 5), (1, 8, 6), (0, 9, 6), (0, 8, 7),
      (7, 0, 8), (6, 1, 8), (6, 0, 9), (5, 2, 8), (4, 3, 8), (4, 2, 9), (5, 0, 10), (4, 1, 10), (4, 0, 11),
      (3, 4, 8), (2, 5, 8), (2, 4, 9), (1, 6, 8), (0, 7, 8), (0, 6, 9), (1, 4, 10), (0, 5, 10), (0, 4, 11),
      (3, 0, 12), (2, 1, 12), (2, 0, 13), (1, 2, 12), (0, 3, 12), (0, 2, 13), (1, 0, 14), (0, 1, 14), (0, 0, 15)]
    comps := [[(1, [], 29), (-1, [], 55)],
      [(1, [], 54), (-1, [], 2)],
      [(1, [], 1), (-1, [], 27)],
      [(1, [], 0), (1, [], 28), (1, [], 56)],
      [(1, [], 32), (-1, [], 58)],
      [(1, [], 57), (-1, [], 5)],
      [(1, [], 4), (-1, [], 30)],
      [(1, [], 3), (1, [], 31), (1, [], 59)],
      [(1, [], 35), (-1, [], 61)],
      [(1, [], 60), (-1, [], 8)],
      [(1, [], 7), (-1, [], 33)],
      [(1, [], 6), (1, [], 34), (1, [], 62)],
      [(1, [], 38), (-1, [], 64)],
      [(1, [], 63), (-1, [], 11)],
      [(1, [], 10), (-1, [], 36)],
      [(1, [], 9), (1, [], 37), (1, [], 65)],
      [(1, [], 41), (-1, [], 67)],
      [(1, [], 66), (-1, [], 14)],
      [(1, [], 13), (-1, [], 39)],
      [(1, [], 12), (1, [], 40), (1, [], 68)],
      [(1, [], 44), (-1, [], 70)],
      [(1, [], 69), (-1, [], 17)],
      [(1, [], 16), (-1, [], 42)],
      [(1, [], 15), (1, [], 43), (1, [], 71)],
      [(1, [], 47), (-1, [], 73)],
      [(1, [], 72), (-1, [], 20)],
      [(1, [], 19), (-1, [], 45)],
      [(1, [], 18), (1, [], 46), (1, [], 74)],
      [(1, [], 50), (-1, [], 76)],
      [(1, [], 75), (-1, [], 23)],
      [(1, [], 22), (-1, [], 48)],
      [(1, [], 21), (1, [], 49), (1, [], 77)],
      [(1, [], 53), (-1, [], 79)],
      [(1, [], 78), (-1, [], 26)],
      [(1, [], 25), (-1, [], 51)],
      [(1, [], 24), (1, [], 52), (1, [], 80)]] }

/-- int1e_ipsprinvspip: src/autocode/hess.c:2764-2962 (`CINTgout1e_int1e_ipsprinvspip`) and 2967 ff -/
def int1e_ipsprinvspip : Gen1e where
  ng := ⟨2, 2, 0, 0, 0⟩
  gbits := 4
  nComp := 36
  prog := {
    steps := [⟨.d, 1, 1, 0, ![2, 0, 0, 0]⟩,
      ⟨.d, 1, 2, 0, ![2, 1, 0, 0]⟩,
      ⟨.d, 1, 3, 2, ![2, 0, 0, 0]⟩,
      ⟨.d, 0, 4, 0, ![1, 0, 0, 0]⟩,
      ⟨.d, 0, 5, 1, ![1, 0, 0, 0]⟩,
      ⟨.d, 0, 6, 2, ![1, 0, 0, 0]⟩,
      ⟨.d, 0, 7, 3, ![1, 0, 0, 0]⟩,
      ⟨.d, 0, 8, 0, ![0, 0, 0, 0]⟩,
      ⟨.d, 0, 9, 1, ![0, 0, 0, 0]⟩,
      ⟨.d, 0, 10, 2, ![0, 0, 0, 0]⟩,
      ⟨.d, 0, 11, 3, ![0, 0, 0, 0]⟩,
      ⟨.d, 0, 12, 4, ![0, 0, 0, 0]⟩,
      ⟨.d, 0, 13, 5, ![0, 0, 0, 0]⟩,
      ⟨.d, 0, 14, 6, ![0, 0, 0, 0]⟩,
      ⟨.d, 0, 15, 7, ![0, 0, 0, 0]⟩]
    prods := [(15, 0, 0), (14, 1, 0), (14, 0, 1), (13, 2, 0), (12, 3, 0), (12, 2, 1), (13, 0, 2), (12, 1, 2), (12, 0, 3),
      (11, 4, 0), (10, 5, 0), (10, 4, 1), (9, 6, 0), (8, 7, 0), (8, 6, 1), (9, 4, 2), (8, 5, 2), (8, 4, 3),
      (11, 0, 4), (10, 1, 4), (10, 0, 5), (9, 2, 4), (8, 3, 4), (8, 2, 5), (9, 0, 6), (8, 1, 6), (8, 0, 7),
      (7, 8, 0), (6, 9, 0), (6, 8, 1), (5, 10, 0), (4, 11, 0), (4, 10, 1), (5, 8, 2), (4, 9, 2), (4, 8, 3),
      (3, 12, 0), (2, 13, 0), (2, 12, 1), (1, 14, 0), (0, 15, 0), (0, 14, 1), (1, 12, 2), (0, 13, 2), (0, 12, 3),
      (3, 8, 4), (2, 9, 4), (2, 8, 5), (1, 10, 4), (0, 11, 4), (0, 10, 5), (1, 8, 6), (0, 9, 6), (0, 8, 7),
      (7, 0, 8), (6, 1, 8), (6, 0, 9), (5, 2, 8), (4, 3, 8), (4, 2, 9), (5, 0, 10), (4, 1, 10), (4, 0, 11),
      (3, 4, 8), (2, 5, 8), (2, 4, 9), (1, 6, 8), (0, 7, 8), (0, 6, 9), (1, 4, 10), (0, 5, 10), (0, 4, 11),
      (3, 0, 12), (2, 1, 12), (2, 0, 13), (1, 2, 12), (0, 3, 12), (0, 2, 13), (1, 0, 14), (0, 1, 14), (0, 0, 15)]
    comps := [[(1, [], 33), (-1, [], 57)],
      [(1, [], 54), (-1, [], 6)],
      [(1, [], 3), (-1, [], 27)],
      [(1, [], 0), (1, [], 30), (1, [], 60)],
      [(1, [], 34), (-1, [], 58)],
      [(1, [], 55), (-1, [], 7)],
      [(1, [], 4), (-1, [], 28)],
      [(1, [], 1), (1, [], 31), (1, [], 61)],
      [(1, [], 35), (-1, [], 59)],
      [(1, [], 56), (-1, [], 8)],
      [(1, [], 5), (-1, [], 29)],
      [(1, [], 2), (1, [], 32), (1, [], 62)],
      [(1, [], 42), (-1, [], 66)],
      [(1, [], 63), (-1, [], 15)],
      [(1, [], 12), (-1, [], 36)],
      [(1, [], 9), (1, [], 39), (1, [], 69)],
      [(1, [], 43), (-1, [], 67)],
      [(1, [], 64), (-1, [], 16)],
      [(1, [], 13), (-1, [], 37)],
      [(1, [], 10), (1, [], 40), (1, [], 70)],
      [(1, [], 44), (-1, [], 68)],
      [(1, [], 65), (-1, [], 17)],
      [(1, [], 14), (-1, [], 38)],
      [(1, [], 11), (1, [], 41), (1, [], 71)],
      [(1, [], 51), (-1, [], 75)],
      [(1, [], 72), (-1, [], 24)],
      [(1, [], 21), (-1, [], 45)],
      [(1, [], 18), (1, [], 48), (1, [], 78)],
      [(1, [], 52), (-1, [], 76)],
      [(1, [], 73), (-1, [], 25)],
      [(1, [], 22), (-1, [], 46)],
      [(1, [], 19), (1, [], 49), (1, [], 79)],
      [(1, [], 53), (-1, [], 77)],
      [(1, [], 74), (-1, [], 26)],
      [(1, [], 23), (-1, [], 47)],
      [(1, [], 20), (1, [], 50), (1, [], 80)]] }

/-- int1e_ia01p: src/autocode/intor1.c:81-119 (`CINTgout1e_int1e_ia01p`) and 124 ff -/
def int1e_ia01p : Gen1e where
  ng := ⟨1, 2, 0, 0, 0⟩
  gbits := 2
  nComp := 3
  prog := {
    steps := [⟨.d, 1, 1, 0, ![0, 0, 0, 0]⟩,
      ⟨.d, 1, 2, 0, ![0, 1, 0, 0]⟩,
      ⟨.d, 0, 3, 0, ![0, 1, 0, 0]⟩]
    more := [(⟨2, 3, ![0, 1, 0, 0]⟩, [⟨.d, 1, 3, 2, ![0, 0, 0, 0]⟩])]
    prods := [(3, 0, 0), (2, 1, 0), (2, 0, 1), (1, 2, 0), (0, 3, 0), (0, 2, 1), (1, 0, 2), (0, 1, 2), (0, 0, 3)]
    comps := [[(1, [], 5), (-1, [], 7)],
      [(1, [], 6), (-1, [], 2)],
      [(1, [], 1), (-1, [], 3)]] }

/-- int1e_giao_a11part: src/autocode/intor1.c:283-333 (`CINTgout1e_int1e_giao_a11part`) and 338 ff -/
def int1e_giao_a11part : Gen1e where
  ng := ⟨1, 2, 0, 0, 0⟩
  gbits := 2
  nComp := 9
  num := -1
  den := 2
  prog := {
    steps := [⟨.own, 1, 1, 0, ![0, 0, 0, 0]⟩,
      ⟨.d, 1, 2, 0, ![0, 1, 0, 0]⟩,
      ⟨.d, 0, 3, 0, ![0, 1, 0, 0]⟩]
    more := [(⟨2, 3, ![0, 1, 0, 0]⟩, [⟨.own, 1, 3, 2, ![0, 0, 0, 0]⟩])]
    prods := [(3, 0, 0), (2, 1, 0), (2, 0, 1), (1, 2, 0), (0, 3, 0), (0, 2, 1), (1, 0, 2), (0, 1, 2), (0, 0, 3)]
    comps := [[(1, [], 0)],
      [(1, [], 1)],
      [(1, [], 2)],
      [(1, [], 3)],
      [(1, [], 4)],
      [(1, [], 5)],
      [(1, [], 6)],
      [(1, [], 7)],
      [(1, [], 8)]] }

/-- int1e_cg_a11part: src/autocode/intor1.c:368-422 (`CINTgout1e_int1e_cg_a11part`) and 427 ff -/
def int1e_cg_a11part : Gen1e where
  ng := ⟨1, 2, 0, 0, 0⟩
  gbits := 2
  nComp := 9
  num := -1
  den := 2
  prog := {
    steps := [⟨.xc, 1, 1, 0, ![0, 0, 0, 0]⟩,
      ⟨.d, 1, 2, 0, ![0, 1, 0, 0]⟩,
      ⟨.d, 0, 3, 0, ![0, 1, 0, 0]⟩]
    more := [(⟨2, 3, ![0, 1, 0, 0]⟩, [⟨.xc, 1, 3, 2, ![0, 0, 0, 0]⟩])]
    prods := [(3, 0, 0), (2, 1, 0), (2, 0, 1), (1, 2, 0), (0, 3, 0), (0, 2, 1), (1, 0, 2), (0, 1, 2), (0, 0, 3)]
    comps := [[(1, [], 0)],
      [(1, [], 1)],
      [(1, [], 2)],
      [(1, [], 3)],
      [(1, [], 4)],
      [(1, [], 5)],
      [(1, [], 6)],
      [(1, [], 7)],
      [(1, [], 8)]] }

/-- int1e_ignuc: src/autocode/intor1.c:847-880 (`CINTgout1e_int1e_ignuc`) and 885 ff -/
def int1e_ignuc : Gen1e where
  ng := ⟨1, 0, 0, 0, 0⟩
  gbits := 1
  nComp := 3
  num := 1
  den := 2
  prog := {
    steps := [⟨.x0, 0, 1, 0, ![0, 0, 0, 0]⟩]
    prods := [(1, 0, 0), (0, 1, 0), (0, 0, 1)]
    comps := [[(-1, [1], 2), (1, [2], 1)],
      [(-1, [2], 0), (1, [0], 2)],
      [(-1, [0], 1), (1, [1], 0)]] }

/-- int1e_pnucp: src/autocode/intor1.c:951-983 (`CINTgout1e_int1e_pnucp`) and 988 ff -/
def int1e_pnucp : Gen1e where
  ng := ⟨1, 1, 0, 0, 0⟩
  gbits := 2
  nComp := 1
  prog := {
    steps := [⟨.d, 1, 1, 0, ![1, 0, 0, 0]⟩,
      ⟨.d, 0, 2, 0, ![0, 0, 0, 0]⟩,
      ⟨.d, 0, 3, 1, ![0, 0, 0, 0]⟩]
    prods := [(3, 0, 0), (2, 1, 0), (2, 0, 1), (1, 2, 0), (0, 3, 0), (0, 2, 1), (1, 0, 2), (0, 1, 2), (0, 0, 3)]
    comps := [[(1, [], 0), (1, [], 4), (1, [], 8)]] }

/-- int1e_prinvp: src/autocode/intor1.c:2569-2601 (`CINTgout1e_int1e_prinvp`) and 2606 ff -/
def int1e_prinvp : Gen1e where
  ng := ⟨1, 1, 0, 0, 0⟩
  gbits := 2
  nComp := 1
  prog := {
    steps := [⟨.d, 1, 1, 0, ![1, 0, 0, 0]⟩,
      ⟨.d, 0, 2, 0, ![0, 0, 0, 0]⟩,
      ⟨.d, 0, 3, 1, ![0, 0, 0, 0]⟩]
    prods := [(3, 0, 0), (2, 1, 0), (2, 0, 1), (1, 2, 0), (0, 3, 0), (0, 2, 1), (1, 0, 2), (0, 1, 2), (0, 0, 3)]
    comps := [[(1, [], 0), (1, [], 4), (1, [], 8)]] }

/-- int1e_prinvxp: src/autocode/intor1.c:2633-2669 (`CINTgout1e_int1e_prinvxp`) and 2674 ff -/
def int1e_prinvxp : Gen1e where
  ng := ⟨1, 1, 0, 0, 0⟩
  gbits := 2
  nComp := 3
  prog := {
    steps := [⟨.d, 1, 1, 0, ![1, 0, 0, 0]⟩,
      ⟨.d, 0, 2, 0, ![0, 0, 0, 0]⟩,
      ⟨.d, 0, 3, 1, ![0, 0, 0, 0]⟩]
    prods := [(3, 0, 0), (2, 1, 0), (2, 0, 1), (1, 2, 0), (0, 3, 0), (0, 2, 1), (1, 0, 2), (0, 1, 2), (0, 0, 3)]
    comps := [[(1, [], 5), (-1, [], 7)],
      [(1, [], 6), (-1, [], 2)],
      [(1, [], 1), (-1, [], 3)]] }

/-- int1e_pnucxp: src/autocode/intor1.c:2701-2737 (`CINTgout1e_int1e_pnucxp`) and 2742 ff -/
def int1e_pnucxp : Gen1e where
  ng := ⟨1, 1, 0, 0, 0⟩
  gbits := 2
  nComp := 3
  prog := {
    steps := [⟨.d, 1, 1, 0, ![1, 0, 0, 0]⟩,
      ⟨.d, 0, 2, 0, ![0, 0, 0, 0]⟩,
      ⟨.d, 0, 3, 1, ![0, 0, 0, 0]⟩]
    prods := [(3, 0, 0), (2, 1, 0), (2, 0, 1), (1, 2, 0), (0, 3, 0), (0, 2, 1), (1, 0, 2), (0, 1, 2), (0, 0, 3)]
    comps := [[(1, [], 5), (-1, [], 7)],
      [(1, [], 6), (-1, [], 2)],
      [(1, [], 1), (-1, [], 3)]] }

/-- int1e_ggnuc: src/autocode/intor1.c:3413-3474 (`CINTgout1e_int1e_ggnuc`) and 3479 ff -/
def int1e_ggnuc : Gen1e where
  ng := ⟨0, 2, 0, 0, 0⟩
  gbits := 2
  nComp := 9
  num := 1
  den := 4
  prog := {
    steps := [⟨.x0, 1, 1, 0, ![0, 0, 0, 0]⟩,
      ⟨.x0, 1, 2, 0, ![0, 1, 0, 0]⟩,
      ⟨.x0, 1, 3, 2, ![0, 0, 0, 0]⟩]
    prods := [(3, 0, 0), (2, 1, 0), (2, 0, 1), (1, 2, 0), (0, 3, 0), (0, 2, 1), (1, 0, 2), (0, 1, 2), (0, 0, 3)]
    comps := [[(-1, [1, 1], 8), (2, [1, 2], 7), (-1, [2, 2], 4)],
      [(-1, [1, 2], 6), (1, [2, 2], 3), (1, [1, 0], 8), (-1, [2, 0], 5)],
      [(-1, [1, 0], 7), (1, [2, 0], 4), (1, [1, 1], 6), (-1, [2, 1], 3)],
      [(-1, [2, 1], 2), (1, [0, 1], 8), (1, [2, 2], 1), (-1, [0, 2], 7)],
      [(-1, [2, 2], 0), (2, [2, 0], 2), (-1, [0, 0], 8)],
      [(-1, [2, 0], 1), (1, [0, 0], 7), (1, [2, 1], 0), (-1, [0, 1], 6)],
      [(-1, [0, 1], 5), (1, [1, 1], 2), (1, [0, 2], 4), (-1, [1, 2], 1)],
      [(-1, [0, 2], 3), (1, [1, 2], 0), (1, [0, 0], 5), (-1, [1, 0], 2)],
      [(-1, [0, 0], 4), (2, [0, 1], 3), (-1, [1, 1], 0)]] }

/-- int1e_rinv: src/autocode/intor1.c:3621-3639 (`CINTgout1e_int1e_rinv`) and 3644 ff -/
def int1e_rinv : Gen1e where
  ng := ⟨0, 0, 0, 0, 0⟩
  gbits := 0
  nComp := 1
  prog := {
    steps := []
    prods := [(0, 0, 0)]
    comps := [[(1, [], 0)]] }

/-- int1e_drinv: src/autocode/intor1.c:3671-3700 (`CINTgout1e_int1e_drinv`) and 3705 ff -/
def int1e_drinv : Gen1e where
  ng := ⟨1, 1, 0, 0, 0⟩
  gbits := 1
  nComp := 3
  prog := {
    steps := [⟨.d, 1, 1, 0, ![0, 0, 0, 0]⟩,
      ⟨.d, 0, 2, 0, ![0, 0, 0, 0]⟩]
    more := [(⟨1, 2, ![0, 0, 0, 0]⟩, [])]
    prods := [(1, 0, 0), (0, 1, 0), (0, 0, 1)]
    comps := [[(1, [], 0)],
      [(1, [], 1)],
      [(1, [], 2)]] }

/-- int1e_inuc_rcxp: src/autocode/intor2.c:1009-1049 (`CINTgout1e_int1e_inuc_rcxp`) and 1054 ff -/
def int1e_inuc_rcxp : Gen1e where
  ng := ⟨0, 2, 0, 0, 0⟩
  gbits := 2
  nComp := 3
  prog := {
    steps := [⟨.d, 1, 1, 0, ![0, 0, 0, 0]⟩,
      ⟨.xc, 1, 2, 0, ![0, 1, 0, 0]⟩,
      ⟨.d, 1, 3, 2, ![0, 0, 0, 0]⟩]
    prods := [(3, 0, 0), (2, 1, 0), (2, 0, 1), (1, 2, 0), (0, 3, 0), (0, 2, 1), (1, 0, 2), (0, 1, 2), (0, 0, 3)]
    comps := [[(1, [], 5), (-1, [], 7)],
      [(1, [], 6), (-1, [], 2)],
      [(1, [], 1), (-1, [], 3)]] }

/-- int1e_inuc_rxp: src/autocode/intor2.c:1081-1117 (`CINTgout1e_int1e_inuc_rxp`) and 1122 ff -/
def int1e_inuc_rxp : Gen1e where
  ng := ⟨0, 2, 0, 0, 0⟩
  gbits := 2
  nComp := 3
  prog := {
    steps := [⟨.d, 1, 1, 0, ![0, 0, 0, 0]⟩,
      ⟨.own, 1, 2, 0, ![0, 1, 0, 0]⟩,
      ⟨.d, 1, 3, 2, ![0, 0, 0, 0]⟩]
    prods := [(3, 0, 0), (2, 1, 0), (2, 0, 1), (1, 2, 0), (0, 3, 0), (0, 2, 1), (1, 0, 2), (0, 1, 2), (0, 0, 3)]
    comps := [[(1, [], 5), (-1, [], 7)],
      [(1, [], 6), (-1, [], 2)],
      [(1, [], 1), (-1, [], 3)]] }

/-- int1e_spnucsp: src/autocode/intor3.c:472-510 (`CINTgout1e_int1e_spnucsp`) and 515 ff -/
def int1e_spnucsp : Gen1e where
  ng := ⟨1, 1, 0, 0, 0⟩
  gbits := 2
  nComp := 4
  prog := {
    steps := [⟨.d, 1, 1, 0, ![1, 0, 0, 0]⟩,
      ⟨.d, 0, 2, 0, ![0, 0, 0, 0]⟩,
      ⟨.d, 0, 3, 1, ![0, 0, 0, 0]⟩]
    prods := [(3, 0, 0), (2, 1, 0), (2, 0, 1), (1, 2, 0), (0, 3, 0), (0, 2, 1), (1, 0, 2), (0, 1, 2), (0, 0, 3)]
    comps := [[(1, [], 5), (-1, [], 7)],
      [(1, [], 6), (-1, [], 2)],
      [(1, [], 1), (-1, [], 3)],
      [(1, [], 0), (1, [], 4), (1, [], 8)]] }

/-- int1e_sprinvsp: src/autocode/intor3.c:542-580 (`CINTgout1e_int1e_sprinvsp`) and 585 ff -/
def int1e_sprinvsp : Gen1e where
  ng := ⟨1, 1, 0, 0, 0⟩
  gbits := 2
  nComp := 4
  prog := {
    steps := [⟨.d, 1, 1, 0, ![1, 0, 0, 0]⟩,
      ⟨.d, 0, 2, 0, ![0, 0, 0, 0]⟩,
      ⟨.d, 0, 3, 1, ![0, 0, 0, 0]⟩]
    prods := [(3, 0, 0), (2, 1, 0), (2, 0, 1), (1, 2, 0), (0, 3, 0), (0, 2, 1), (1, 0, 2), (0, 1, 2), (0, 0, 3)]
    comps := [[(1, [], 5), (-1, [], 7)],
      [(1, [], 6), (-1, [], 2)],
      [(1, [], 1), (-1, [], 3)],
      [(1, [], 0), (1, [], 4), (1, [], 8)]] }

/-- int1e_srnucsr: src/autocode/intor3.c:612-650 (`CINTgout1e_int1e_srnucsr`) and 655 ff -/
def int1e_srnucsr : Gen1e where
  ng := ⟨1, 1, 0, 0, 0⟩
  gbits := 2
  nComp := 4
  prog := {
    steps := [⟨.own, 1, 1, 0, ![1, 0, 0, 0]⟩,
      ⟨.own, 0, 2, 0, ![0, 0, 0, 0]⟩,
      ⟨.own, 0, 3, 1, ![0, 0, 0, 0]⟩]
    prods := [(3, 0, 0), (2, 1, 0), (2, 0, 1), (1, 2, 0), (0, 3, 0), (0, 2, 1), (1, 0, 2), (0, 1, 2), (0, 0, 3)]
    comps := [[(1, [], 5), (-1, [], 7)],
      [(1, [], 6), (-1, [], 2)],
      [(1, [], 1), (-1, [], 3)],
      [(1, [], 0), (1, [], 4), (1, [], 8)]] }

/-- int1e_gnuc: src/autocode/intor3.c:894-927 (`CINTgout1e_int1e_gnuc`) and 932 ff -/
def int1e_gnuc : Gen1e where
  ng := ⟨1, 0, 0, 0, 0⟩
  gbits := 1
  nComp := 3
  num := 1
  den := 2
  prog := {
    steps := [⟨.x0, 0, 1, 0, ![0, 0, 0, 0]⟩]
    prods := [(1, 0, 0), (0, 1, 0), (0, 0, 1)]
    comps := [[(1, [1], 2), (-1, [2], 1)],
      [(1, [2], 0), (-1, [0], 2)],
      [(1, [0], 1), (-1, [1], 0)]] }

/-- int1e_cg_sa10sa01: src/autocode/intor3.c:998-1106 (`CINTgout1e_int1e_cg_sa10sa01`) and 1111 ff -/
def int1e_cg_sa10sa01 : Gen1e where
  ng := ⟨2, 1, 0, 0, 0⟩
  gbits := 2
  nComp := 36
  num := 1
  den := 2
  prog := {
    steps := [⟨.d, 1, 1, 0, ![1, 0, 0, 0]⟩,
      ⟨.d, 0, 2, 0, ![1, 0, 0, 0]⟩]
    more := [(⟨1, 2, ![1, 0, 0, 0]⟩, [⟨.xc, 0, 2, 0, ![0, 0, 0, 0]⟩, ⟨.xc, 0, 3, 1, ![0, 0, 0, 0]⟩])]
    prods := [(3, 0, 0), (2, 1, 0), (2, 0, 1), (1, 2, 0), (0, 3, 0), (0, 2, 1), (1, 0, 2), (0, 1, 2), (0, 0, 3)]
    comps := [[(-1, [], 7), (1, [], 5)],
      [],
      [],
      [(1, [], 8), (1, [], 4)],
      [(1, [], 6)],
      [(1, [], 5)],
      [(1, [], 8)],
      [(-1, [], 3)],
      [(-1, [], 3)],
      [(-1, [], 4)],
      [(-1, [], 7)],
      [(-1, [], 6)],
      [(-1, [], 2)],
      [(-1, [], 7)],
      [(-1, [], 8)],
      [(-1, [], 1)],
      [],
      [(-1, [], 2), (1, [], 6)],
      [],
      [(1, [], 8), (1, [], 0)],
      [(1, [], 0)],
      [(1, [], 1)],
      [(1, [], 6)],
      [(-1, [], 7)],
      [(1, [], 1)],
      [(1, [], 4)],
      [(1, [], 5)],
      [(-1, [], 2)],
      [(-1, [], 0)],
      [(-1, [], 3)],
      [(-1, [], 2)],
      [(-1, [], 5)],
      [],
      [],
      [(-1, [], 3), (1, [], 1)],
      [(1, [], 4), (1, [], 0)]] }

/-- int1e_cg_sa10nucsp: src/autocode/intor3.c:1230-1288 (`CINTgout1e_int1e_cg_sa10nucsp`) and 1293 ff -/
def int1e_cg_sa10nucsp : Gen1e where
  ng := ⟨1, 1, 0, 0, 0⟩
  gbits := 2
  nComp := 12
  num := 1
  den := 2
  prog := {
    steps := [⟨.d, 1, 1, 0, ![1, 0, 0, 0]⟩,
      ⟨.xc, 0, 2, 0, ![0, 0, 0, 0]⟩,
      ⟨.xc, 0, 3, 1, ![0, 0, 0, 0]⟩]
    prods := [(3, 0, 0), (2, 1, 0), (2, 0, 1), (1, 2, 0), (0, 3, 0), (0, 2, 1), (1, 0, 2), (0, 1, 2), (0, 0, 3)]
    comps := [[(1, [], 8), (1, [], 4)],
      [(-1, [], 3)],
      [(-1, [], 6)],
      [(1, [], 7), (-1, [], 5)],
      [(-1, [], 1)],
      [(1, [], 0), (1, [], 8)],
      [(-1, [], 7)],
      [(-1, [], 6), (1, [], 2)],
      [(-1, [], 2)],
      [(-1, [], 5)],
      [(1, [], 4), (1, [], 0)],
      [(1, [], 3), (-1, [], 1)]] }

/-- int1e_giao_sa10sa01: src/autocode/intor3.c:1323-1427 (`CINTgout1e_int1e_giao_sa10sa01`) and 1432 ff -/
def int1e_giao_sa10sa01 : Gen1e where
  ng := ⟨2, 1, 0, 0, 0⟩
  gbits := 2
  nComp := 36
  num := 1
  den := 2
  prog := {
    steps := [⟨.d, 1, 1, 0, ![1, 0, 0, 0]⟩,
      ⟨.d, 0, 2, 0, ![1, 0, 0, 0]⟩]
    more := [(⟨1, 2, ![1, 0, 0, 0]⟩, [⟨.own, 0, 2, 0, ![0, 0, 0, 0]⟩, ⟨.own, 0, 3, 1, ![0, 0, 0, 0]⟩])]
    prods := [(3, 0, 0), (2, 1, 0), (2, 0, 1), (1, 2, 0), (0, 3, 0), (0, 2, 1), (1, 0, 2), (0, 1, 2), (0, 0, 3)]
    comps := [[(-1, [], 7), (1, [], 5)],
      [],
      [],
      [(1, [], 8), (1, [], 4)],
      [(1, [], 6)],
      [(1, [], 5)],
      [(1, [], 8)],
      [(-1, [], 3)],
      [(-1, [], 3)],
      [(-1, [], 4)],
      [(-1, [], 7)],
      [(-1, [], 6)],
      [(-1, [], 2)],
      [(-1, [], 7)],
      [(-1, [], 8)],
      [(-1, [], 1)],
      [],
      [(-1, [], 2), (1, [], 6)],
      [],
      [(1, [], 8), (1, [], 0)],
      [(1, [], 0)],
      [(1, [], 1)],
      [(1, [], 6)],
      [(-1, [], 7)],
      [(1, [], 1)],
      [(1, [], 4)],
      [(1, [], 5)],
      [(-1, [], 2)],
      [(-1, [], 0)],
      [(-1, [], 3)],
      [(-1, [], 2)],
      [(-1, [], 5)],
      [],
      [],
      [(-1, [], 3), (1, [], 1)],
      [(1, [], 4), (1, [], 0)]] }

/-- int1e_giao_sa10nucsp: src/autocode/intor3.c:1547-1601 (`CINTgout1e_int1e_giao_sa10nucsp`) and 1606 ff -/
def int1e_giao_sa10nucsp : Gen1e where
  ng := ⟨1, 1, 0, 0, 0⟩
  gbits := 2
  nComp := 12
  num := 1
  den := 2
  prog := {
    steps := [⟨.d, 1, 1, 0, ![1, 0, 0, 0]⟩,
      ⟨.own, 0, 2, 0, ![0, 0, 0, 0]⟩,
      ⟨.own, 0, 3, 1, ![0, 0, 0, 0]⟩]
    prods := [(3, 0, 0), (2, 1, 0), (2, 0, 1), (1, 2, 0), (0, 3, 0), (0, 2, 1), (1, 0, 2), (0, 1, 2), (0, 0, 3)]
    comps := [[(1, [], 8), (1, [], 4)],
      [(-1, [], 3)],
      [(-1, [], 6)],
      [(1, [], 7), (-1, [], 5)],
      [(-1, [], 1)],
      [(1, [], 0), (1, [], 8)],
      [(-1, [], 7)],
      [(-1, [], 6), (1, [], 2)],
      [(-1, [], 2)],
      [(-1, [], 5)],
      [(1, [], 4), (1, [], 0)],
      [(1, [], 3), (-1, [], 1)]] }

/-- int1e_sa01sp: src/autocode/intor3.c:1636-1692 (`CINTgout1e_int1e_sa01sp`) and 1697 ff -/
def int1e_sa01sp : Gen1e where
  ng := ⟨1, 2, 0, 0, 0⟩
  gbits := 2
  nComp := 12
  prog := {
    steps := [⟨.d, 1, 1, 0, ![0, 0, 0, 0]⟩,
      ⟨.d, 1, 2, 0, ![0, 1, 0, 0]⟩,
      ⟨.d, 0, 3, 0, ![0, 1, 0, 0]⟩]
    more := [(⟨2, 3, ![0, 1, 0, 0]⟩, [⟨.d, 1, 3, 2, ![0, 0, 0, 0]⟩])]
    prods := [(3, 0, 0), (2, 1, 0), (2, 0, 1), (1, 2, 0), (0, 3, 0), (0, 2, 1), (1, 0, 2), (0, 1, 2), (0, 0, 3)]
    comps := [[(1, [], 8), (1, [], 4)],
      [(-1, [], 3)],
      [(-1, [], 6)],
      [(1, [], 7), (-1, [], 5)],
      [(-1, [], 1)],
      [(1, [], 0), (1, [], 8)],
      [(-1, [], 7)],
      [(-1, [], 6), (1, [], 2)],
      [(-1, [], 2)],
      [(-1, [], 5)],
      [(1, [], 4), (1, [], 0)],
      [(1, [], 3), (-1, [], 1)]] }

/-- int1e_spgnucsp: src/autocode/intor3.c:1878-1965 (`CINTgout1e_int1e_spgnucsp`) and 1970 ff -/
def int1e_spgnucsp : Gen1e where
  ng := ⟨2, 1, 0, 0, 0⟩
  gbits := 3
  nComp := 12
  num := 1
  den := 2
  prog := {
    steps := [⟨.d, 1, 1, 0, ![2, 0, 0, 0]⟩,
      ⟨.x0, 0, 2, 0, ![1, 0, 0, 0]⟩,
      ⟨.x0, 0, 3, 1, ![1, 0, 0, 0]⟩,
      ⟨.d, 0, 4, 0, ![0, 0, 0, 0]⟩,
      ⟨.d, 0, 5, 1, ![0, 0, 0, 0]⟩,
      ⟨.d, 0, 6, 2, ![0, 0, 0, 0]⟩,
      ⟨.d, 0, 7, 3, ![0, 0, 0, 0]⟩]
    prods := [(7, 0, 0), (6, 1, 0), (6, 0, 1), (5, 2, 0), (4, 3, 0), (4, 2, 1), (5, 0, 2), (4, 1, 2), (4, 0, 3),
      (3, 4, 0), (2, 5, 0), (2, 4, 1), (1, 6, 0), (0, 7, 0), (0, 6, 1), (1, 4, 2), (0, 5, 2), (0, 4, 3),
      (3, 0, 4), (2, 1, 4), (2, 0, 5), (1, 2, 4), (0, 3, 4), (0, 2, 5), (1, 0, 6), (0, 1, 6), (0, 0, 7)]
    comps := [[(1, [1], 17), (-1, [2], 14), (-1, [1], 25), (1, [2], 22)],
      [(1, [1], 24), (-1, [2], 21), (-1, [1], 8), (1, [2], 5)],
      [(1, [1], 7), (-1, [2], 4), (-1, [1], 15), (1, [2], 12)],
      [(1, [1], 6), (-1, [2], 3), (1, [1], 16), (-1, [2], 13), (1, [1], 26), (-1, [2], 23)],
      [(1, [2], 11), (-1, [0], 17), (-1, [2], 19), (1, [0], 25)],
      [(1, [2], 18), (-1, [0], 24), (-1, [2], 2), (1, [0], 8)],
      [(1, [2], 1), (-1, [0], 7), (-1, [2], 9), (1, [0], 15)],
      [(1, [2], 0), (-1, [0], 6), (1, [2], 10), (-1, [0], 16), (1, [2], 20), (-1, [0], 26)],
      [(1, [0], 14), (-1, [1], 11), (-1, [0], 22), (1, [1], 19)],
      [(1, [0], 21), (-1, [1], 18), (-1, [0], 5), (1, [1], 2)],
      [(1, [0], 4), (-1, [1], 1), (-1, [0], 12), (1, [1], 9)],
      [(1, [0], 3), (-1, [1], 0), (1, [0], 13), (-1, [1], 10), (1, [0], 23), (-1, [1], 20)]] }

/-- int1e_spgsa01: src/autocode/intor3.c:2036-2173 (`CINTgout1e_int1e_spgsa01`) and 2178 ff -/
def int1e_spgsa01 : Gen1e where
  ng := ⟨3, 1, 0, 0, 0⟩
  gbits := 3
  nComp := 36
  num := 1
  den := 2
  prog := {
    steps := [⟨.d, 1, 1, 0, ![2, 0, 0, 0]⟩,
      ⟨.d, 0, 2, 0, ![2, 0, 0, 0]⟩]
    more := [(⟨1, 2, ![2, 0, 0, 0]⟩, [⟨.x0, 0, 2, 0, ![1, 0, 0, 0]⟩, ⟨.x0, 0, 3, 1, ![1, 0, 0, 0]⟩, ⟨.d, 0, 4, 0, ![0, 0, 0, 0]⟩, ⟨.d, 0, 5, 1, ![0, 0, 0, 0]⟩, ⟨.d, 0, 6, 2, ![0, 0, 0, 0]⟩, ⟨.d, 0, 7, 3, ![0, 0, 0, 0]⟩])]
    prods := [(7, 0, 0), (6, 1, 0), (6, 0, 1), (5, 2, 0), (4, 3, 0), (4, 2, 1), (5, 0, 2), (4, 1, 2), (4, 0, 3),
      (3, 4, 0), (2, 5, 0), (2, 4, 1), (1, 6, 0), (0, 7, 0), (0, 6, 1), (1, 4, 2), (0, 5, 2), (0, 4, 3),
      (3, 0, 4), (2, 1, 4), (2, 0, 5), (1, 2, 4), (0, 3, 4), (0, 2, 5), (1, 0, 6), (0, 1, 6), (0, 0, 7)]
    comps := [[(-1, [1], 16), (1, [2], 13), (-1, [1], 26), (1, [2], 23)],
      [(1, [1], 7), (-1, [2], 4)],
      [(1, [1], 8), (-1, [2], 5)],
      [(1, [1], 17), (-1, [2], 14), (-1, [1], 25), (1, [2], 22)],
      [(1, [1], 15), (-1, [2], 12)],
      [(-1, [1], 26), (1, [2], 23), (-1, [1], 6), (1, [2], 3)],
      [(1, [1], 17), (-1, [2], 14)],
      [(-1, [1], 8), (1, [2], 5), (1, [1], 24), (-1, [2], 21)],
      [(1, [1], 24), (-1, [2], 21)],
      [(1, [1], 25), (-1, [2], 22)],
      [(-1, [1], 6), (1, [2], 3), (-1, [1], 16), (1, [2], 13)],
      [(1, [1], 7), (-1, [2], 4), (-1, [1], 15), (1, [2], 12)],
      [(-1, [2], 10), (1, [0], 16), (-1, [2], 20), (1, [0], 26)],
      [(1, [2], 1), (-1, [0], 7)],
      [(1, [2], 2), (-1, [0], 8)],
      [(1, [2], 11), (-1, [0], 17), (-1, [2], 19), (1, [0], 25)],
      [(1, [2], 9), (-1, [0], 15)],
      [(-1, [2], 20), (1, [0], 26), (-1, [2], 0), (1, [0], 6)],
      [(1, [2], 11), (-1, [0], 17)],
      [(-1, [2], 2), (1, [0], 8), (1, [2], 18), (-1, [0], 24)],
      [(1, [2], 18), (-1, [0], 24)],
      [(1, [2], 19), (-1, [0], 25)],
      [(-1, [2], 0), (1, [0], 6), (-1, [2], 10), (1, [0], 16)],
      [(1, [2], 1), (-1, [0], 7), (-1, [2], 9), (1, [0], 15)],
      [(-1, [0], 13), (1, [1], 10), (-1, [0], 23), (1, [1], 20)],
      [(1, [0], 4), (-1, [1], 1)],
      [(1, [0], 5), (-1, [1], 2)],
      [(1, [0], 14), (-1, [1], 11), (-1, [0], 22), (1, [1], 19)],
      [(1, [0], 12), (-1, [1], 9)],
      [(-1, [0], 23), (1, [1], 20), (-1, [0], 3), (1, [1], 0)],
      [(1, [0], 14), (-1, [1], 11)],
      [(-1, [0], 5), (1, [1], 2), (1, [0], 21), (-1, [1], 18)],
      [(1, [0], 21), (-1, [1], 18)],
      [(1, [0], 22), (-1, [1], 19)],
      [(-1, [0], 3), (1, [1], 0), (-1, [0], 13), (1, [1], 10)],
      [(1, [0], 4), (-1, [1], 1), (-1, [0], 12), (1, [1], 9)]] }

/-- int1e_iprinvr: src/autocode/lresc.c:18-66 (`CINTgout1e_int1e_iprinvr`) and 71 ff -/
def int1e_iprinvr : Gen1e where
  ng := ⟨1, 1, 0, 0, 0⟩
  gbits := 2
  nComp := 9
  prog := {
    steps := [⟨.own, 1, 1, 0, ![1, 0, 0, 0]⟩,
      ⟨.d, 0, 2, 0, ![0, 0, 0, 0]⟩,
      ⟨.d, 0, 3, 1, ![0, 0, 0, 0]⟩]
    prods := [(3, 0, 0), (2, 1, 0), (2, 0, 1), (1, 2, 0), (0, 3, 0), (0, 2, 1), (1, 0, 2), (0, 1, 2), (0, 0, 3)]
    comps := [[(1, [], 0)],
      [(1, [], 1)],
      [(1, [], 2)],
      [(1, [], 3)],
      [(1, [], 4)],
      [(1, [], 5)],
      [(1, [], 6)],
      [(1, [], 7)],
      [(1, [], 8)]] }

/-- int1e_iprinviprip: src/autocode/lresc.c:98-386 (`CINTgout1e_int1e_iprinviprip`) and 391 ff -/
def int1e_iprinviprip : Gen1e where
  ng := ⟨1, 3, 0, 0, 0⟩
  gbits := 4
  nComp := 81
  prog := {
    steps := [⟨.d, 1, 1, 0, ![1, 0, 0, 0]⟩,
      ⟨.own, 1, 2, 0, ![1, 1, 0, 0]⟩,
      ⟨.d, 1, 3, 2, ![1, 0, 0, 0]⟩,
      ⟨.d, 1, 4, 0, ![1, 2, 0, 0]⟩,
      ⟨.d, 1, 5, 4, ![1, 0, 0, 0]⟩,
      ⟨.own, 1, 6, 4, ![1, 1, 0, 0]⟩,
      ⟨.d, 1, 7, 6, ![1, 0, 0, 0]⟩,
      ⟨.d, 0, 8, 0, ![0, 0, 0, 0]⟩,
      ⟨.d, 0, 9, 1, ![0, 0, 0, 0]⟩,
      ⟨.d, 0, 10, 2, ![0, 0, 0, 0]⟩,
      ⟨.d, 0, 11, 3, ![0, 0, 0, 0]⟩,
      ⟨.d, 0, 12, 4, ![0, 0, 0, 0]⟩,
      ⟨.d, 0, 13, 5, ![0, 0, 0, 0]⟩,
      ⟨.d, 0, 14, 6, ![0, 0, 0, 0]⟩,
      ⟨.d, 0, 15, 7, ![0, 0, 0, 0]⟩]
    prods := [(15, 0, 0), (14, 1, 0), (14, 0, 1), (13, 2, 0), (12, 3, 0), (12, 2, 1), (13, 0, 2), (12, 1, 2), (12, 0, 3),
      (11, 4, 0), (10, 5, 0), (10, 4, 1), (9, 6, 0), (8, 7, 0), (8, 6, 1), (9, 4, 2), (8, 5, 2), (8, 4, 3),
      (11, 0, 4), (10, 1, 4), (10, 0, 5), (9, 2, 4), (8, 3, 4), (8, 2, 5), (9, 0, 6), (8, 1, 6), (8, 0, 7),
      (7, 8, 0), (6, 9, 0), (6, 8, 1), (5, 10, 0), (4, 11, 0), (4, 10, 1), (5, 8, 2), (4, 9, 2), (4, 8, 3),
      (3, 12, 0), (2, 13, 0), (2, 12, 1), (1, 14, 0), (0, 15, 0), (0, 14, 1), (1, 12, 2), (0, 13, 2), (0, 12, 3),
      (3, 8, 4), (2, 9, 4), (2, 8, 5), (1, 10, 4), (0, 11, 4), (0, 10, 5), (1, 8, 6), (0, 9, 6), (0, 8, 7),
      (7, 0, 8), (6, 1, 8), (6, 0, 9), (5, 2, 8), (4, 3, 8), (4, 2, 9), (5, 0, 10), (4, 1, 10), (4, 0, 11),
      (3, 4, 8), (2, 5, 8), (2, 4, 9), (1, 6, 8), (0, 7, 8), (0, 6, 9), (1, 4, 10), (0, 5, 10), (0, 4, 11),
      (3, 0, 12), (2, 1, 12), (2, 0, 13), (1, 2, 12), (0, 3, 12), (0, 2, 13), (1, 0, 14), (0, 1, 14), (0, 0, 15)]
    comps := [[(1, [], 0)],
      [(1, [], 1)],
      [(1, [], 2)],
      [(1, [], 3)],
      [(1, [], 4)],
      [(1, [], 5)],
      [(1, [], 6)],
      [(1, [], 7)],
      [(1, [], 8)],
      [(1, [], 9)],
      [(1, [], 10)],
      [(1, [], 11)],
      [(1, [], 12)],
      [(1, [], 13)],
      [(1, [], 14)],
      [(1, [], 15)],
      [(1, [], 16)],
      [(1, [], 17)],
      [(1, [], 18)],
      [(1, [], 19)],
      [(1, [], 20)],
      [(1, [], 21)],
      [(1, [], 22)],
      [(1, [], 23)],
      [(1, [], 24)],
      [(1, [], 25)],
      [(1, [], 26)],
      [(1, [], 27)],
      [(1, [], 28)],
      [(1, [], 29)],
      [(1, [], 30)],
      [(1, [], 31)],
      [(1, [], 32)],
      [(1, [], 33)],
      [(1, [], 34)],
      [(1, [], 35)],
      [(1, [], 36)],
      [(1, [], 37)],
      [(1, [], 38)],
      [(1, [], 39)],
      [(1, [], 40)],
      [(1, [], 41)],
      [(1, [], 42)],
      [(1, [], 43)],
      [(1, [], 44)],
      [(1, [], 45)],
      [(1, [], 46)],
      [(1, [], 47)],
      [(1, [], 48)],
      [(1, [], 49)],
      [(1, [], 50)],
      [(1, [], 51)],
      [(1, [], 52)],
      [(1, [], 53)],
      [(1, [], 54)],
      [(1, [], 55)],
      [(1, [], 56)],
      [(1, [], 57)],
      [(1, [], 58)],
      [(1, [], 59)],
      [(1, [], 60)],
      [(1, [], 61)],
      [(1, [], 62)],
      [(1, [], 63)],
      [(1, [], 64)],
      [(1, [], 65)],
      [(1, [], 66)],
      [(1, [], 67)],
      [(1, [], 68)],
      [(1, [], 69)],
      [(1, [], 70)],
      [(1, [], 71)],
      [(1, [], 72)],
      [(1, [], 73)],
      [(1, [], 74)],
      [(1, [], 75)],
      [(1, [], 76)],
      [(1, [], 77)],
      [(1, [], 78)],
      [(1, [], 79)],
      [(1, [], 80)]] }

/-- int1e_rinvipiprip: src/autocode/lresc.c:418-706 (`CINTgout1e_int1e_rinvipiprip`) and 711 ff -/
def int1e_rinvipiprip : Gen1e where
  ng := ⟨0, 4, 0, 0, 0⟩
  gbits := 4
  nComp := 81
  prog := {
    steps := [⟨.d, 1, 1, 0, ![0, 0, 0, 0]⟩,
      ⟨.own, 1, 2, 0, ![0, 1, 0, 0]⟩,
      ⟨.d, 1, 3, 2, ![0, 0, 0, 0]⟩,
      ⟨.d, 1, 4, 0, ![0, 2, 0, 0]⟩,
      ⟨.d, 1, 5, 4, ![0, 0, 0, 0]⟩,
      ⟨.own, 1, 6, 4, ![0, 1, 0, 0]⟩,
      ⟨.d, 1, 7, 6, ![0, 0, 0, 0]⟩,
      ⟨.d, 1, 8, 0, ![0, 3, 0, 0]⟩,
      ⟨.d, 1, 9, 8, ![0, 0, 0, 0]⟩,
      ⟨.own, 1, 10, 8, ![0, 1, 0, 0]⟩,
      ⟨.d, 1, 11, 10, ![0, 0, 0, 0]⟩,
      ⟨.d, 1, 12, 8, ![0, 2, 0, 0]⟩,
      ⟨.d, 1, 13, 12, ![0, 0, 0, 0]⟩,
      ⟨.own, 1, 14, 12, ![0, 1, 0, 0]⟩,
      ⟨.d, 1, 15, 14, ![0, 0, 0, 0]⟩]
    prods := [(15, 0, 0), (14, 1, 0), (14, 0, 1), (13, 2, 0), (12, 3, 0), (12, 2, 1), (13, 0, 2), (12, 1, 2), (12, 0, 3),
      (11, 4, 0), (10, 5, 0), (10, 4, 1), (9, 6, 0), (8, 7, 0), (8, 6, 1), (9, 4, 2), (8, 5, 2), (8, 4, 3),
      (11, 0, 4), (10, 1, 4), (10, 0, 5), (9, 2, 4), (8, 3, 4), (8, 2, 5), (9, 0, 6), (8, 1, 6), (8, 0, 7),
      (7, 8, 0), (6, 9, 0), (6, 8, 1), (5, 10, 0), (4, 11, 0), (4, 10, 1), (5, 8, 2), (4, 9, 2), (4, 8, 3),
      (3, 12, 0), (2, 13, 0), (2, 12, 1), (1, 14, 0), (0, 15, 0), (0, 14, 1), (1, 12, 2), (0, 13, 2), (0, 12, 3),
      (3, 8, 4), (2, 9, 4), (2, 8, 5), (1, 10, 4), (0, 11, 4), (0, 10, 5), (1, 8, 6), (0, 9, 6), (0, 8, 7),
      (7, 0, 8), (6, 1, 8), (6, 0, 9), (5, 2, 8), (4, 3, 8), (4, 2, 9), (5, 0, 10), (4, 1, 10), (4, 0, 11),
      (3, 4, 8), (2, 5, 8), (2, 4, 9), (1, 6, 8), (0, 7, 8), (0, 6, 9), (1, 4, 10), (0, 5, 10), (0, 4, 11),
      (3, 0, 12), (2, 1, 12), (2, 0, 13), (1, 2, 12), (0, 3, 12), (0, 2, 13), (1, 0, 14), (0, 1, 14), (0, 0, 15)]
    comps := [[(1, [], 0)],
      [(1, [], 1)],
      [(1, [], 2)],
      [(1, [], 3)],
      [(1, [], 4)],
      [(1, [], 5)],
      [(1, [], 6)],
      [(1, [], 7)],
      [(1, [], 8)],
      [(1, [], 9)],
      [(1, [], 10)],
      [(1, [], 11)],
      [(1, [], 12)],
      [(1, [], 13)],
      [(1, [], 14)],
      [(1, [], 15)],
      [(1, [], 16)],
      [(1, [], 17)],
      [(1, [], 18)],
      [(1, [], 19)],
      [(1, [], 20)],
      [(1, [], 21)],
      [(1, [], 22)],
      [(1, [], 23)],
      [(1, [], 24)],
      [(1, [], 25)],
      [(1, [], 26)],
      [(1, [], 27)],
      [(1, [], 28)],
      [(1, [], 29)],
      [(1, [], 30)],
      [(1, [], 31)],
      [(1, [], 32)],
      [(1, [], 33)],
      [(1, [], 34)],
      [(1, [], 35)],
      [(1, [], 36)],
      [(1, [], 37)],
      [(1, [], 38)],
      [(1, [], 39)],
      [(1, [], 40)],
      [(1, [], 41)],
      [(1, [], 42)],
      [(1, [], 43)],
      [(1, [], 44)],
      [(1, [], 45)],
      [(1, [], 46)],
      [(1, [], 47)],
      [(1, [], 48)],
      [(1, [], 49)],
      [(1, [], 50)],
      [(1, [], 51)],
      [(1, [], 52)],
      [(1, [], 53)],
      [(1, [], 54)],
      [(1, [], 55)],
      [(1, [], 56)],
      [(1, [], 57)],
      [(1, [], 58)],
      [(1, [], 59)],
      [(1, [], 60)],
      [(1, [], 61)],
      [(1, [], 62)],
      [(1, [], 63)],
      [(1, [], 64)],
      [(1, [], 65)],
      [(1, [], 66)],
      [(1, [], 67)],
      [(1, [], 68)],
      [(1, [], 69)],
      [(1, [], 70)],
      [(1, [], 71)],
      [(1, [], 72)],
      [(1, [], 73)],
      [(1, [], 74)],
      [(1, [], 75)],
      [(1, [], 76)],
      [(1, [], 77)],
      [(1, [], 78)],
      [(1, [], 79)],
      [(1, [], 80)]] }

/-- int1e_ipiprinvrip: src/autocode/lresc.c:738-1026 (`CINTgout1e_int1e_ipiprinvrip`) and 1031 ff -/
def int1e_ipiprinvrip : Gen1e where
  ng := ⟨2, 2, 0, 0, 0⟩
  gbits := 4
  nComp := 81
  prog := {
    steps := [⟨.d, 1, 1, 0, ![2, 0, 0, 0]⟩,
      ⟨.own, 1, 2, 0, ![2, 1, 0, 0]⟩,
      ⟨.d, 1, 3, 2, ![2, 0, 0, 0]⟩,
      ⟨.d, 0, 4, 0, ![1, 0, 0, 0]⟩,
      ⟨.d, 0, 5, 1, ![1, 0, 0, 0]⟩,
      ⟨.d, 0, 6, 2, ![1, 0, 0, 0]⟩,
      ⟨.d, 0, 7, 3, ![1, 0, 0, 0]⟩,
      ⟨.d, 0, 8, 0, ![0, 0, 0, 0]⟩,
      ⟨.d, 0, 9, 1, ![0, 0, 0, 0]⟩,
      ⟨.d, 0, 10, 2, ![0, 0, 0, 0]⟩,
      ⟨.d, 0, 11, 3, ![0, 0, 0, 0]⟩,
      ⟨.d, 0, 12, 4, ![0, 0, 0, 0]⟩,
      ⟨.d, 0, 13, 5, ![0, 0, 0, 0]⟩,
      ⟨.d, 0, 14, 6, ![0, 0, 0, 0]⟩,
      ⟨.d, 0, 15, 7, ![0, 0, 0, 0]⟩]
    prods := [(15, 0, 0), (14, 1, 0), (14, 0, 1), (13, 2, 0), (12, 3, 0), (12, 2, 1), (13, 0, 2), (12, 1, 2), (12, 0, 3),
      (11, 4, 0), (10, 5, 0), (10, 4, 1), (9, 6, 0), (8, 7, 0), (8, 6, 1), (9, 4, 2), (8, 5, 2), (8, 4, 3),
      (11, 0, 4), (10, 1, 4), (10, 0, 5), (9, 2, 4), (8, 3, 4), (8, 2, 5), (9, 0, 6), (8, 1, 6), (8, 0, 7),
      (7, 8, 0), (6, 9, 0), (6, 8, 1), (5, 10, 0), (4, 11, 0), (4, 10, 1), (5, 8, 2), (4, 9, 2), (4, 8, 3),
      (3, 12, 0), (2, 13, 0), (2, 12, 1), (1, 14, 0), (0, 15, 0), (0, 14, 1), (1, 12, 2), (0, 13, 2), (0, 12, 3),
      (3, 8, 4), (2, 9, 4), (2, 8, 5), (1, 10, 4), (0, 11, 4), (0, 10, 5), (1, 8, 6), (0, 9, 6), (0, 8, 7),
      (7, 0, 8), (6, 1, 8), (6, 0, 9), (5, 2, 8), (4, 3, 8), (4, 2, 9), (5, 0, 10), (4, 1, 10), (4, 0, 11),
      (3, 4, 8), (2, 5, 8), (2, 4, 9), (1, 6, 8), (0, 7, 8), (0, 6, 9), (1, 4, 10), (0, 5, 10), (0, 4, 11),
      (3, 0, 12), (2, 1, 12), (2, 0, 13), (1, 2, 12), (0, 3, 12), (0, 2, 13), (1, 0, 14), (0, 1, 14), (0, 0, 15)]
    comps := [[(1, [], 0)],
      [(1, [], 1)],
      [(1, [], 2)],
      [(1, [], 3)],
      [(1, [], 4)],
      [(1, [], 5)],
      [(1, [], 6)],
      [(1, [], 7)],
      [(1, [], 8)],
      [(1, [], 27)],
      [(1, [], 28)],
      [(1, [], 29)],
      [(1, [], 30)],
      [(1, [], 31)],
      [(1, [], 32)],
      [(1, [], 33)],
      [(1, [], 34)],
      [(1, [], 35)],
      [(1, [], 54)],
      [(1, [], 55)],
      [(1, [], 56)],
      [(1, [], 57)],
      [(1, [], 58)],
      [(1, [], 59)],
      [(1, [], 60)],
      [(1, [], 61)],
      [(1, [], 62)],
      [(1, [], 9)],
      [(1, [], 10)],
      [(1, [], 11)],
      [(1, [], 12)],
      [(1, [], 13)],
      [(1, [], 14)],
      [(1, [], 15)],
      [(1, [], 16)],
      [(1, [], 17)],
      [(1, [], 36)],
      [(1, [], 37)],
      [(1, [], 38)],
      [(1, [], 39)],
      [(1, [], 40)],
      [(1, [], 41)],
      [(1, [], 42)],
      [(1, [], 43)],
      [(1, [], 44)],
      [(1, [], 63)],
      [(1, [], 64)],
      [(1, [], 65)],
      [(1, [], 66)],
      [(1, [], 67)],
      [(1, [], 68)],
      [(1, [], 69)],
      [(1, [], 70)],
      [(1, [], 71)],
      [(1, [], 18)],
      [(1, [], 19)],
      [(1, [], 20)],
      [(1, [], 21)],
      [(1, [], 22)],
      [(1, [], 23)],
      [(1, [], 24)],
      [(1, [], 25)],
      [(1, [], 26)],
      [(1, [], 45)],
      [(1, [], 46)],
      [(1, [], 47)],
      [(1, [], 48)],
      [(1, [], 49)],
      [(1, [], 50)],
      [(1, [], 51)],
      [(1, [], 52)],
      [(1, [], 53)],
      [(1, [], 72)],
      [(1, [], 73)],
      [(1, [], 74)],
      [(1, [], 75)],
      [(1, [], 76)],
      [(1, [], 77)],
      [(1, [], 78)],
      [(1, [], 79)],
      [(1, [], 80)]] }

/-- all of them: name, whether the potential is that of the nuclei (`int1e_type` 2), the integral -/
def allV : List (String × Bool × Gen1e) := [
  ("int1e_ipipipnuc", true, int1e_ipipipnuc),
  ("int1e_ipipiprinv", false, int1e_ipipiprinv),
  ("int1e_ipipnucip", true, int1e_ipipnucip),
  ("int1e_ipiprinvip", false, int1e_ipiprinvip),
  ("int1e_ipiprinvipip", false, int1e_ipiprinvipip),
  ("int1e_ipipiprinvip", false, int1e_ipipiprinvip),
  ("int1e_ipipipiprinv", false, int1e_ipipipiprinv),
  ("int1e_spnuc", true, int1e_spnuc),
  ("int1e_ipnuc", true, int1e_ipnuc),
  ("int1e_iprinv", false, int1e_iprinv),
  ("int1e_ipspnucsp", true, int1e_ipspnucsp),
  ("int1e_ipsprinvsp", false, int1e_ipsprinvsp),
  ("int1e_ippnucp", true, int1e_ippnucp),
  ("int1e_ipprinvp", false, int1e_ipprinvp),
  ("int1e_ipipnuc", true, int1e_ipipnuc),
  ("int1e_ipnucip", true, int1e_ipnucip),
  ("int1e_ipiprinv", false, int1e_ipiprinv),
  ("int1e_iprinvip", false, int1e_iprinvip),
  ("int1e_ipippnucp", true, int1e_ipippnucp),
  ("int1e_ippnucpip", true, int1e_ippnucpip),
  ("int1e_ipipprinvp", false, int1e_ipipprinvp),
  ("int1e_ipprinvpip", false, int1e_ipprinvpip),
  ("int1e_ipipspnucsp", true, int1e_ipipspnucsp),
  ("int1e_ipspnucspip", true, int1e_ipspnucspip),
  ("int1e_ipipsprinvsp", false, int1e_ipipsprinvsp),
  ("int1e_ipsprinvspip", false, int1e_ipsprinvspip),
  ("int1e_ia01p", false, int1e_ia01p),
  ("int1e_giao_a11part", false, int1e_giao_a11part),
  ("int1e_cg_a11part", false, int1e_cg_a11part),
  ("int1e_ignuc", true, int1e_ignuc),
  ("int1e_pnucp", true, int1e_pnucp),
  ("int1e_prinvp", false, int1e_prinvp),
  ("int1e_prinvxp", false, int1e_prinvxp),
  ("int1e_pnucxp", true, int1e_pnucxp),
  ("int1e_ggnuc", true, int1e_ggnuc),
  ("int1e_rinv", false, int1e_rinv),
  ("int1e_drinv", false, int1e_drinv),
  ("int1e_inuc_rcxp", true, int1e_inuc_rcxp),
  ("int1e_inuc_rxp", true, int1e_inuc_rxp),
  ("int1e_spnucsp", true, int1e_spnucsp),
  ("int1e_sprinvsp", false, int1e_sprinvsp),
  ("int1e_srnucsr", true, int1e_srnucsr),
  ("int1e_gnuc", true, int1e_gnuc),
  ("int1e_cg_sa10sa01", false, int1e_cg_sa10sa01),
  ("int1e_cg_sa10nucsp", true, int1e_cg_sa10nucsp),
  ("int1e_giao_sa10sa01", false, int1e_giao_sa10sa01),
  ("int1e_giao_sa10nucsp", true, int1e_giao_sa10nucsp),
  ("int1e_sa01sp", false, int1e_sa01sp),
  ("int1e_spgnucsp", true, int1e_spgnucsp),
  ("int1e_spgsa01", false, int1e_spgsa01),
  ("int1e_iprinvr", false, int1e_iprinvr),
  ("int1e_iprinviprip", false, int1e_iprinviprip),
  ("int1e_rinvipiprip", false, int1e_rinvipiprip),
  ("int1e_ipiprinvrip", false, int1e_ipiprinvrip)]

/-- those whose wrapper returns zeros when both shells are the same (`envs.shls[0] == envs.shls[1]`) -/
def shortcutV : List String := ["int1e_ignuc", "int1e_gnuc", "int1e_spgnucsp", "int1e_spgsa01"]

end Verif.Model.AutoNuc
