import Verif.Model.Oper2

/-! Generated by tools/autocode.py from src/autocode/int3c1e.c and src/cint3c1e_a.c: the one-electron integrals over three
functions.  As in Auto1e.lean; the intermediates also run over the powers of the third function.  The entry `rys` of `ng` is
not used by these integrals. -/
namespace Verif.Model.Auto3c1e
open Verif.Model

/-- int3c1e_p2: src/autocode/int3c1e.c:17-46 (`CINTgout1e_int3c1e_p2`) and 51 ff -/
def int3c1e_p2 : Gen2e where
  ng := ⟨0, 0, 2, 0, 0⟩
  gbits := 2
  nComp := 1
  prog := {
    steps := [⟨.d, 2, 1, 0, ![0, 0, 1, 0]⟩,
      ⟨.d, 2, 2, 0, ![0, 0, 0, 0]⟩,
      ⟨.d, 2, 3, 1, ![0, 0, 0, 0]⟩]
    prods := [(3, 0, 0), (2, 1, 0), (2, 0, 1), (1, 2, 0), (0, 3, 0), (0, 2, 1), (1, 0, 2), (0, 1, 2), (0, 0, 3)]
    comps := [[(-1, [], 0), (-1, [], 4), (-1, [], 8)]] }

/-- int3c1e_iprinv: src/autocode/int3c1e.c:78-101 (`CINTgout1e_int3c1e_iprinv`) and 106 ff -/
def int3c1e_iprinv : Gen2e where
  ng := ⟨1, 0, 0, 0, 0⟩
  gbits := 1
  nComp := 3
  prog := {
    steps := [⟨.d, 0, 1, 0, ![0, 0, 0, 0]⟩]
    prods := [(1, 0, 0), (0, 1, 0), (0, 0, 1)]
    comps := [[(1, [], 0)],
      [(1, [], 1)],
      [(1, [], 2)]] }

/-- int3c1e_ip1: src/autocode/int3c1e.c:133-156 (`CINTgout1e_int3c1e_ip1`) and 161 ff -/
def int3c1e_ip1 : Gen2e where
  ng := ⟨1, 0, 0, 0, 0⟩
  gbits := 1
  nComp := 3
  prog := {
    steps := [⟨.d, 0, 1, 0, ![0, 0, 0, 0]⟩]
    prods := [(1, 0, 0), (0, 1, 0), (0, 0, 1)]
    comps := [[(1, [], 0)],
      [(1, [], 1)],
      [(1, [], 2)]] }

/-- int3c1e_r2_origk: src/cint3c1e_a.c:18-42 (`CINTgout1e_int3c1e_r2_origk`) and 47 ff -/
def int3c1e_r2_origk : Gen2e where
  ng := ⟨0, 0, 2, 0, 0⟩
  gbits := 2
  nComp := 1
  prog := {
    steps := [⟨.own, 2, 1, 0, ![0, 0, 1, 0]⟩,
      ⟨.own, 2, 3, 1, ![0, 0, 0, 0]⟩]
    prods := [(3, 0, 0), (0, 3, 0), (0, 0, 3)]
    comps := [[(1, [], 0), (1, [], 1), (1, [], 2)]] }

/-- int3c1e_r4_origk: src/cint3c1e_a.c:77-120 (`CINTgout1e_int3c1e_r4_origk`) and 125 ff -/
def int3c1e_r4_origk : Gen2e where
  ng := ⟨0, 0, 4, 0, 0⟩
  gbits := 4
  nComp := 1
  prog := {
    steps := [⟨.own, 2, 1, 0, ![0, 0, 3, 0]⟩,
      ⟨.own, 2, 3, 1, ![0, 0, 2, 0]⟩,
      ⟨.own, 2, 4, 0, ![0, 0, 1, 0]⟩,
      ⟨.own, 2, 7, 3, ![0, 0, 1, 0]⟩,
      ⟨.own, 2, 12, 4, ![0, 0, 0, 0]⟩,
      ⟨.own, 2, 15, 7, ![0, 0, 0, 0]⟩]
    prods := [(15, 0, 0), (12, 3, 0), (12, 0, 3), (0, 15, 0), (0, 12, 3), (0, 0, 15)]
    comps := [[(1, [], 0), (2, [], 1), (2, [], 2), (1, [], 3), (2, [], 4), (1, [], 5)]] }

/-- int3c1e_r6_origk: src/cint3c1e_a.c:155-256 (`CINTgout1e_int3c1e_r6_origk`) and 261 ff -/
def int3c1e_r6_origk : Gen2e where
  ng := ⟨0, 0, 6, 0, 0⟩
  gbits := 6
  nComp := 1
  prog := {
    steps := [⟨.own, 2, 1, 0, ![0, 0, 5, 0]⟩,
      ⟨.own, 2, 3, 1, ![0, 0, 4, 0]⟩,
      ⟨.own, 2, 4, 0, ![0, 0, 3, 0]⟩,
      ⟨.own, 2, 7, 3, ![0, 0, 3, 0]⟩,
      ⟨.own, 2, 12, 4, ![0, 0, 2, 0]⟩,
      ⟨.own, 2, 15, 7, ![0, 0, 2, 0]⟩,
      ⟨.own, 2, 16, 0, ![0, 0, 1, 0]⟩,
      ⟨.own, 2, 28, 12, ![0, 0, 1, 0]⟩,
      ⟨.own, 2, 31, 15, ![0, 0, 1, 0]⟩,
      ⟨.own, 2, 48, 16, ![0, 0, 0, 0]⟩,
      ⟨.own, 2, 60, 28, ![0, 0, 0, 0]⟩,
      ⟨.own, 2, 63, 31, ![0, 0, 0, 0]⟩]
    prods := [(63, 0, 0), (60, 3, 0), (60, 0, 3), (48, 15, 0), (48, 12, 3), (48, 0, 15), (0, 63, 0), (0, 60, 3), (0, 48, 15),
      (0, 0, 63)]
    comps := [[(1, [], 0), (3, [], 1), (3, [], 2), (3, [], 3), (6, [], 4), (3, [], 5), (1, [], 6), (3, [], 7), (3, [], 8), (1, [], 9)]] }

/-- int3c1e_ip1_r2_origk: src/cint3c1e_a.c:291-328 (`CINTgout1e_int3c1e_ip1_r2_origk`) and 333 ff -/
def int3c1e_ip1_r2_origk : Gen2e where
  ng := ⟨1, 0, 2, 0, 0⟩
  gbits := 3
  nComp := 3
  prog := {
    steps := [⟨.own, 2, 1, 0, ![1, 0, 1, 0]⟩,
      ⟨.own, 2, 3, 1, ![1, 0, 0, 0]⟩,
      ⟨.d, 0, 4, 0, ![0, 0, 0, 0]⟩,
      ⟨.d, 0, 7, 3, ![0, 0, 0, 0]⟩]
    prods := [(7, 0, 0), (4, 3, 0), (4, 0, 3), (3, 4, 0), (0, 7, 0), (0, 4, 3), (3, 0, 4), (0, 3, 4), (0, 0, 7)]
    comps := [[(1, [], 0), (1, [], 1), (1, [], 2)],
      [(1, [], 3), (1, [], 4), (1, [], 5)],
      [(1, [], 6), (1, [], 7), (1, [], 8)]] }

/-- int3c1e_ip1_r4_origk: src/cint3c1e_a.c:364-431 (`CINTgout1e_int3c1e_ip1_r4_origk`) and 436 ff -/
def int3c1e_ip1_r4_origk : Gen2e where
  ng := ⟨1, 0, 4, 0, 0⟩
  gbits := 5
  nComp := 3
  prog := {
    steps := [⟨.own, 2, 1, 0, ![1, 0, 3, 0]⟩,
      ⟨.own, 2, 3, 1, ![1, 0, 2, 0]⟩,
      ⟨.own, 2, 4, 0, ![1, 0, 1, 0]⟩,
      ⟨.own, 2, 7, 3, ![1, 0, 1, 0]⟩,
      ⟨.own, 2, 12, 4, ![1, 0, 0, 0]⟩,
      ⟨.own, 2, 15, 7, ![1, 0, 0, 0]⟩,
      ⟨.d, 0, 16, 0, ![0, 0, 0, 0]⟩,
      ⟨.d, 0, 19, 3, ![0, 0, 0, 0]⟩,
      ⟨.d, 0, 28, 12, ![0, 0, 0, 0]⟩,
      ⟨.d, 0, 31, 15, ![0, 0, 0, 0]⟩]
    prods := [(31, 0, 0), (28, 3, 0), (28, 0, 3), (16, 15, 0), (16, 12, 3), (16, 0, 15), (15, 16, 0), (12, 19, 0), (12, 16, 3),
      (0, 31, 0), (0, 28, 3), (0, 16, 15), (15, 0, 16), (12, 3, 16), (12, 0, 19), (0, 15, 16), (0, 12, 19), (0, 0, 31)]
    comps := [[(1, [], 0), (2, [], 1), (2, [], 2), (1, [], 3), (2, [], 4), (1, [], 5)],
      [(1, [], 6), (2, [], 7), (2, [], 8), (1, [], 9), (2, [], 10), (1, [], 11)],
      [(1, [], 12), (2, [], 13), (2, [], 14), (1, [], 15), (2, [], 16), (1, [], 17)]] }

/-- int3c1e_ip1_r6_origk: src/cint3c1e_a.c:467-644 (`CINTgout1e_int3c1e_ip1_r6_origk`) and 649 ff -/
def int3c1e_ip1_r6_origk : Gen2e where
  ng := ⟨1, 0, 6, 0, 0⟩
  gbits := 7
  nComp := 3
  prog := {
    steps := [⟨.own, 2, 1, 0, ![1, 0, 5, 0]⟩,
      ⟨.own, 2, 3, 1, ![1, 0, 4, 0]⟩,
      ⟨.own, 2, 4, 0, ![1, 0, 3, 0]⟩,
      ⟨.own, 2, 7, 3, ![1, 0, 3, 0]⟩,
      ⟨.own, 2, 12, 4, ![1, 0, 2, 0]⟩,
      ⟨.own, 2, 15, 7, ![1, 0, 2, 0]⟩,
      ⟨.own, 2, 16, 0, ![1, 0, 1, 0]⟩,
      ⟨.own, 2, 28, 12, ![1, 0, 1, 0]⟩,
      ⟨.own, 2, 31, 15, ![1, 0, 1, 0]⟩,
      ⟨.own, 2, 48, 16, ![1, 0, 0, 0]⟩,
      ⟨.own, 2, 60, 28, ![1, 0, 0, 0]⟩,
      ⟨.own, 2, 63, 31, ![1, 0, 0, 0]⟩,
      ⟨.d, 0, 64, 0, ![0, 0, 0, 0]⟩,
      ⟨.d, 0, 67, 3, ![0, 0, 0, 0]⟩,
      ⟨.d, 0, 79, 15, ![0, 0, 0, 0]⟩,
      ⟨.d, 0, 112, 48, ![0, 0, 0, 0]⟩,
      ⟨.d, 0, 124, 60, ![0, 0, 0, 0]⟩,
      ⟨.d, 0, 127, 63, ![0, 0, 0, 0]⟩]
    prods := [(127, 0, 0), (124, 3, 0), (124, 0, 3), (112, 15, 0), (112, 12, 3), (112, 0, 15), (64, 63, 0), (64, 60, 3), (64, 48, 15),
      (64, 0, 63), (63, 64, 0), (60, 67, 0), (60, 64, 3), (48, 79, 0), (48, 76, 3), (48, 64, 15), (0, 127, 0), (0, 124, 3),
      (0, 112, 15), (0, 64, 63), (63, 0, 64), (60, 3, 64), (60, 0, 67), (48, 15, 64), (48, 12, 67), (48, 0, 79), (0, 63, 64),
      (0, 60, 67), (0, 48, 79), (0, 0, 127)]
    comps := [[(1, [], 0), (3, [], 1), (3, [], 2), (3, [], 3), (6, [], 4), (3, [], 5), (1, [], 6), (3, [], 7), (3, [], 8), (1, [], 9)],
      [(1, [], 10), (3, [], 11), (3, [], 12), (3, [], 13), (6, [], 14), (3, [], 15), (1, [], 16), (3, [], 17), (3, [], 18), (1, [], 19)],
      [(1, [], 20), (3, [], 21), (3, [], 22), (3, [], 23), (6, [], 24), (3, [], 25), (1, [], 26), (3, [], 27), (3, [], 28), (1, [], 29)]] }

/-- all of them: name, whether `int_type` of the wrappers is INT1E_TYPE_RINV (otherwise INT1E_TYPE_OVLP), the integral -/
def all31 : List (String × Bool × Gen2e) := [
  ("int3c1e_p2", false, int3c1e_p2),
  ("int3c1e_iprinv", true, int3c1e_iprinv),
  ("int3c1e_ip1", false, int3c1e_ip1),
  ("int3c1e_r2_origk", false, int3c1e_r2_origk),
  ("int3c1e_r4_origk", false, int3c1e_r4_origk),
  ("int3c1e_r6_origk", false, int3c1e_r6_origk),
  ("int3c1e_ip1_r2_origk", false, int3c1e_ip1_r2_origk),
  ("int3c1e_ip1_r4_origk", false, int3c1e_ip1_r4_origk),
  ("int3c1e_ip1_r6_origk", false, int3c1e_ip1_r6_origk)]

end Verif.Model.Auto3c1e
