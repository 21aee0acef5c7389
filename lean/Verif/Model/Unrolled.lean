import Verif.Model.G2eExpr

/-!
Generated by tools/unrolled.py from src/g2e.c: the unrolled two-electron kernels.  Each function is the list of
its assignments `g[n] = e`, in order.
-/
namespace Verif.Model.Unrolled
open Verif.Model

/-- _g0_2d4d_0000, src/g2e.c:695-700 -/
def g0_2d4d_0000 : List (Nat × UExpr) := [
  (0, .num 1),
  (1, .num 1)]

/-- _g0_2d4d_0001, src/g2e.c:702-713 -/
def g0_2d4d_0001 : List (Nat × UExpr) := [
  (0, .num 1),
  (1, .cp 0 0),
  (2, .num 1),
  (3, .cp 1 0),
  (5, .mul (.cp 2 0) (.g 4))]

/-- _g0_2d4d_0002, src/g2e.c:715-739 -/
def g0_2d4d_0002 : List (Nat × UExpr) := [
  (0, .num 1),
  (1, .num 1),
  (2, .cp 0 0),
  (3, .cp 0 1),
  (4, .add (.mul (.cp 0 0) (.cp 0 0)) (.b01 0)),
  (5, .add (.mul (.cp 0 1) (.cp 0 1)) (.b01 1)),
  (6, .num 1),
  (7, .num 1),
  (8, .cp 1 0),
  (9, .cp 1 1),
  (10, .add (.mul (.cp 1 0) (.cp 1 0)) (.b01 0)),
  (11, .add (.mul (.cp 1 1) (.cp 1 1)) (.b01 1)),
  (14, .mul (.cp 2 0) (.g 12)),
  (15, .mul (.cp 2 1) (.g 13)),
  (16, .add (.mul (.cp 2 0) (.g 14)) (.mul (.b01 0) (.g 12))),
  (17, .add (.mul (.cp 2 1) (.g 15)) (.mul (.b01 1) (.g 13)))]

/-- _g0_2d4d_0003, src/g2e.c:741-771 -/
def g0_2d4d_0003 : List (Nat × UExpr) := [
  (0, .num 1),
  (1, .num 1),
  (2, .cp 0 0),
  (3, .cp 0 1),
  (4, .add (.mul (.cp 0 0) (.cp 0 0)) (.b01 0)),
  (5, .add (.mul (.cp 0 1) (.cp 0 1)) (.b01 1)),
  (6, .mul (.cp 0 0) (.add (.g 4) (.mul (.num 2) (.b01 0)))),
  (7, .mul (.cp 0 1) (.add (.g 5) (.mul (.num 2) (.b01 1)))),
  (8, .num 1),
  (9, .num 1),
  (10, .cp 1 0),
  (11, .cp 1 1),
  (12, .add (.mul (.cp 1 0) (.cp 1 0)) (.b01 0)),
  (13, .add (.mul (.cp 1 1) (.cp 1 1)) (.b01 1)),
  (14, .mul (.cp 1 0) (.add (.g 12) (.mul (.num 2) (.b01 0)))),
  (15, .mul (.cp 1 1) (.add (.g 13) (.mul (.num 2) (.b01 1)))),
  (18, .mul (.cp 2 0) (.g 16)),
  (19, .mul (.cp 2 1) (.g 17)),
  (20, .add (.mul (.cp 2 0) (.g 18)) (.mul (.b01 0) (.g 16))),
  (21, .add (.mul (.cp 2 1) (.g 19)) (.mul (.b01 1) (.g 17))),
  (22, .add (.mul (.cp 2 0) (.g 20)) (.mul (.mul (.num 2) (.b01 0)) (.g 18))),
  (23, .add (.mul (.cp 2 1) (.g 21)) (.mul (.mul (.num 2) (.b01 1)) (.g 19)))]

/-- _g0_2d4d_0010, src/g2e.c:773-784 -/
def g0_2d4d_0010 : List (Nat × UExpr) := [
  (0, .num 1),
  (1, .cp 0 0),
  (2, .num 1),
  (3, .cp 1 0),
  (5, .mul (.cp 2 0) (.g 4))]

/-- _g0_2d4d_0011, src/g2e.c:786-819 -/
def g0_2d4d_0011 : List (Nat × UExpr) := [
  (0, .num 1),
  (1, .num 1),
  (4, .cp 0 0),
  (5, .cp 0 1),
  (6, .add (.mul (.cp 0 0) (.add (.rkl 0) (.cp 0 0))) (.b01 0)),
  (7, .add (.mul (.cp 0 1) (.add (.rkl 0) (.cp 0 1))) (.b01 1)),
  (2, .add (.rkl 0) (.cp 0 0)),
  (3, .add (.rkl 0) (.cp 0 1)),
  (12, .num 1),
  (13, .num 1),
  (16, .cp 1 0),
  (17, .cp 1 1),
  (18, .add (.mul (.cp 1 0) (.add (.rkl 1) (.cp 1 0))) (.b01 0)),
  (19, .add (.mul (.cp 1 1) (.add (.rkl 1) (.cp 1 1))) (.b01 1)),
  (14, .add (.rkl 1) (.cp 1 0)),
  (15, .add (.rkl 1) (.cp 1 1)),
  (28, .mul (.cp 2 0) (.g 24)),
  (29, .mul (.cp 2 1) (.g 25)),
  (30, .add (.mul (.g 28) (.add (.rkl 2) (.cp 2 0))) (.mul (.b01 0) (.g 24))),
  (31, .add (.mul (.g 29) (.add (.rkl 2) (.cp 2 1))) (.mul (.b01 1) (.g 25))),
  (26, .mul (.g 24) (.add (.rkl 2) (.cp 2 0))),
  (27, .mul (.g 25) (.add (.rkl 2) (.cp 2 1)))]

/-- _g0_2d4d_0012, src/g2e.c:821-866 -/
def g0_2d4d_0012 : List (Nat × UExpr) := [
  (0, .num 1),
  (1, .num 1),
  (4, .cp 0 0),
  (5, .cp 0 1),
  (8, .add (.mul (.cp 0 0) (.cp 0 0)) (.b01 0)),
  (9, .add (.mul (.cp 0 1) (.cp 0 1)) (.b01 1)),
  (10, .add (.mul (.g 8) (.add (.rkl 0) (.cp 0 0))) (.mul (.mul (.cp 0 0) (.num 2)) (.b01 0))),
  (11, .add (.mul (.g 9) (.add (.rkl 0) (.cp 0 1))) (.mul (.mul (.cp 0 1) (.num 2)) (.b01 1))),
  (6, .add (.mul (.cp 0 0) (.add (.rkl 0) (.cp 0 0))) (.b01 0)),
  (7, .add (.mul (.cp 0 1) (.add (.rkl 0) (.cp 0 1))) (.b01 1)),
  (2, .add (.rkl 0) (.cp 0 0)),
  (3, .add (.rkl 0) (.cp 0 1)),
  (16, .num 1),
  (17, .num 1),
  (20, .cp 1 0),
  (21, .cp 1 1),
  (24, .add (.mul (.cp 1 0) (.cp 1 0)) (.b01 0)),
  (25, .add (.mul (.cp 1 1) (.cp 1 1)) (.b01 1)),
  (26, .add (.mul (.g 24) (.add (.rkl 1) (.cp 1 0))) (.mul (.mul (.cp 1 0) (.num 2)) (.b01 0))),
  (27, .add (.mul (.g 25) (.add (.rkl 1) (.cp 1 1))) (.mul (.mul (.cp 1 1) (.num 2)) (.b01 1))),
  (22, .add (.mul (.cp 1 0) (.add (.rkl 1) (.cp 1 0))) (.b01 0)),
  (23, .add (.mul (.cp 1 1) (.add (.rkl 1) (.cp 1 1))) (.b01 1)),
  (18, .add (.rkl 1) (.cp 1 0)),
  (19, .add (.rkl 1) (.cp 1 1)),
  (36, .mul (.cp 2 0) (.g 32)),
  (37, .mul (.cp 2 1) (.g 33)),
  (40, .add (.mul (.cp 2 0) (.g 36)) (.mul (.b01 0) (.g 32))),
  (41, .add (.mul (.cp 2 1) (.g 37)) (.mul (.b01 1) (.g 33))),
  (42, .add (.mul (.g 40) (.add (.rkl 2) (.cp 2 0))) (.mul (.mul (.num 2) (.b01 0)) (.g 36))),
  (43, .add (.mul (.g 41) (.add (.rkl 2) (.cp 2 1))) (.mul (.mul (.num 2) (.b01 1)) (.g 37))),
  (38, .add (.mul (.g 36) (.add (.rkl 2) (.cp 2 0))) (.mul (.b01 0) (.g 32))),
  (39, .add (.mul (.g 37) (.add (.rkl 2) (.cp 2 1))) (.mul (.b01 1) (.g 33))),
  (34, .mul (.g 32) (.add (.rkl 2) (.cp 2 0))),
  (35, .mul (.g 33) (.add (.rkl 2) (.cp 2 1)))]

/-- _g0_2d4d_0020, src/g2e.c:868-892 -/
def g0_2d4d_0020 : List (Nat × UExpr) := [
  (0, .num 1),
  (1, .num 1),
  (2, .cp 0 0),
  (3, .cp 0 1),
  (4, .add (.mul (.cp 0 0) (.cp 0 0)) (.b01 0)),
  (5, .add (.mul (.cp 0 1) (.cp 0 1)) (.b01 1)),
  (6, .num 1),
  (7, .num 1),
  (8, .cp 1 0),
  (9, .cp 1 1),
  (10, .add (.mul (.cp 1 0) (.cp 1 0)) (.b01 0)),
  (11, .add (.mul (.cp 1 1) (.cp 1 1)) (.b01 1)),
  (14, .mul (.cp 2 0) (.g 12)),
  (15, .mul (.cp 2 1) (.g 13)),
  (16, .add (.mul (.cp 2 0) (.g 14)) (.mul (.b01 0) (.g 12))),
  (17, .add (.mul (.cp 2 1) (.g 15)) (.mul (.b01 1) (.g 13)))]

/-- _g0_2d4d_0021, src/g2e.c:894-939 -/
def g0_2d4d_0021 : List (Nat × UExpr) := [
  (0, .num 1),
  (1, .num 1),
  (2, .cp 0 0),
  (3, .cp 0 1),
  (4, .add (.mul (.cp 0 0) (.cp 0 0)) (.b01 0)),
  (5, .add (.mul (.cp 0 1) (.cp 0 1)) (.b01 1)),
  (8, .add (.rkl 0) (.cp 0 0)),
  (9, .add (.rkl 0) (.cp 0 1)),
  (10, .add (.mul (.cp 0 0) (.add (.rkl 0) (.cp 0 0))) (.b01 0)),
  (11, .add (.mul (.cp 0 1) (.add (.rkl 0) (.cp 0 1))) (.b01 1)),
  (12, .add (.mul (.g 4) (.add (.rkl 0) (.cp 0 0))) (.mul (.mul (.cp 0 0) (.num 2)) (.b01 0))),
  (13, .add (.mul (.g 5) (.add (.rkl 0) (.cp 0 1))) (.mul (.mul (.cp 0 1) (.num 2)) (.b01 1))),
  (16, .num 1),
  (17, .num 1),
  (18, .cp 1 0),
  (19, .cp 1 1),
  (20, .add (.mul (.cp 1 0) (.cp 1 0)) (.b01 0)),
  (21, .add (.mul (.cp 1 1) (.cp 1 1)) (.b01 1)),
  (24, .add (.rkl 1) (.cp 1 0)),
  (25, .add (.rkl 1) (.cp 1 1)),
  (26, .add (.mul (.cp 1 0) (.add (.rkl 1) (.cp 1 0))) (.b01 0)),
  (27, .add (.mul (.cp 1 1) (.add (.rkl 1) (.cp 1 1))) (.b01 1)),
  (28, .add (.mul (.g 20) (.add (.rkl 1) (.cp 1 0))) (.mul (.mul (.cp 1 0) (.num 2)) (.b01 0))),
  (29, .add (.mul (.g 21) (.add (.rkl 1) (.cp 1 1))) (.mul (.mul (.cp 1 1) (.num 2)) (.b01 1))),
  (34, .mul (.cp 2 0) (.g 32)),
  (35, .mul (.cp 2 1) (.g 33)),
  (36, .add (.mul (.cp 2 0) (.g 34)) (.mul (.b01 0) (.g 32))),
  (37, .add (.mul (.cp 2 1) (.g 35)) (.mul (.b01 1) (.g 33))),
  (40, .mul (.g 32) (.add (.rkl 2) (.cp 2 0))),
  (41, .mul (.g 33) (.add (.rkl 2) (.cp 2 1))),
  (42, .add (.mul (.g 34) (.add (.rkl 2) (.cp 2 0))) (.mul (.b01 0) (.g 32))),
  (43, .add (.mul (.g 35) (.add (.rkl 2) (.cp 2 1))) (.mul (.b01 1) (.g 33))),
  (44, .add (.mul (.g 36) (.add (.rkl 2) (.cp 2 0))) (.mul (.mul (.num 2) (.b01 0)) (.g 34))),
  (45, .add (.mul (.g 37) (.add (.rkl 2) (.cp 2 1))) (.mul (.mul (.num 2) (.b01 1)) (.g 35)))]

/-- _g0_2d4d_0030, src/g2e.c:941-971 -/
def g0_2d4d_0030 : List (Nat × UExpr) := [
  (0, .num 1),
  (1, .num 1),
  (2, .cp 0 0),
  (3, .cp 0 1),
  (4, .add (.mul (.cp 0 0) (.cp 0 0)) (.b01 0)),
  (5, .add (.mul (.cp 0 1) (.cp 0 1)) (.b01 1)),
  (6, .mul (.cp 0 0) (.add (.g 4) (.mul (.num 2) (.b01 0)))),
  (7, .mul (.cp 0 1) (.add (.g 5) (.mul (.num 2) (.b01 1)))),
  (8, .num 1),
  (9, .num 1),
  (10, .cp 1 0),
  (11, .cp 1 1),
  (12, .add (.mul (.cp 1 0) (.cp 1 0)) (.b01 0)),
  (13, .add (.mul (.cp 1 1) (.cp 1 1)) (.b01 1)),
  (14, .mul (.cp 1 0) (.add (.g 12) (.mul (.num 2) (.b01 0)))),
  (15, .mul (.cp 1 1) (.add (.g 13) (.mul (.num 2) (.b01 1)))),
  (18, .mul (.cp 2 0) (.g 16)),
  (19, .mul (.cp 2 1) (.g 17)),
  (20, .add (.mul (.cp 2 0) (.g 18)) (.mul (.b01 0) (.g 16))),
  (21, .add (.mul (.cp 2 1) (.g 19)) (.mul (.b01 1) (.g 17))),
  (22, .add (.mul (.cp 2 0) (.g 20)) (.mul (.mul (.num 2) (.b01 0)) (.g 18))),
  (23, .add (.mul (.cp 2 1) (.g 21)) (.mul (.mul (.num 2) (.b01 1)) (.g 19)))]

/-- _g0_2d4d_0100, src/g2e.c:973-984 -/
def g0_2d4d_0100 : List (Nat × UExpr) := [
  (0, .num 1),
  (1, .c0 0 0),
  (2, .num 1),
  (3, .c0 1 0),
  (5, .mul (.c0 2 0) (.g 4))]

/-- _g0_2d4d_0101, src/g2e.c:986-1019 -/
def g0_2d4d_0101 : List (Nat × UExpr) := [
  (0, .num 1),
  (1, .num 1),
  (2, .cp 0 0),
  (3, .cp 0 1),
  (4, .c0 0 0),
  (5, .c0 0 1),
  (6, .add (.mul (.cp 0 0) (.c0 0 0)) (.b00 0)),
  (7, .add (.mul (.cp 0 1) (.c0 0 1)) (.b00 1)),
  (8, .num 1),
  (9, .num 1),
  (10, .cp 1 0),
  (11, .cp 1 1),
  (12, .c0 1 0),
  (13, .c0 1 1),
  (14, .add (.mul (.cp 1 0) (.c0 1 0)) (.b00 0)),
  (15, .add (.mul (.cp 1 1) (.c0 1 1)) (.b00 1)),
  (18, .mul (.cp 2 0) (.g 16)),
  (19, .mul (.cp 2 1) (.g 17)),
  (20, .mul (.c0 2 0) (.g 16)),
  (21, .mul (.c0 2 1) (.g 17)),
  (22, .add (.mul (.cp 2 0) (.g 20)) (.mul (.b00 0) (.g 16))),
  (23, .add (.mul (.cp 2 1) (.g 21)) (.mul (.b00 1) (.g 17)))]

/-- _g0_2d4d_0102, src/g2e.c:1021-1067 -/
def g0_2d4d_0102 : List (Nat × UExpr) := [
  (0, .num 1),
  (1, .num 1),
  (2, .cp 0 0),
  (3, .cp 0 1),
  (6, .c0 0 0),
  (7, .c0 0 1),
  (4, .add (.mul (.cp 0 0) (.cp 0 0)) (.b01 0)),
  (5, .add (.mul (.cp 0 1) (.cp 0 1)) (.b01 1)),
  (8, .add (.mul (.cp 0 0) (.c0 0 0)) (.b00 0)),
  (9, .add (.mul (.cp 0 1) (.c0 0 1)) (.b00 1)),
  (10, .add (.mul (.cp 0 0) (.add (.g 8) (.b00 0))) (.mul (.b01 0) (.c0 0 0))),
  (11, .add (.mul (.cp 0 1) (.add (.g 9) (.b00 1))) (.mul (.b01 1) (.c0 0 1))),
  (12, .num 1),
  (13, .num 1),
  (14, .cp 1 0),
  (15, .cp 1 1),
  (18, .c0 1 0),
  (19, .c0 1 1),
  (16, .add (.mul (.cp 1 0) (.cp 1 0)) (.b01 0)),
  (17, .add (.mul (.cp 1 1) (.cp 1 1)) (.b01 1)),
  (20, .add (.mul (.cp 1 0) (.c0 1 0)) (.b00 0)),
  (21, .add (.mul (.cp 1 1) (.c0 1 1)) (.b00 1)),
  (22, .add (.mul (.cp 1 0) (.add (.g 20) (.b00 0))) (.mul (.b01 0) (.c0 1 0))),
  (23, .add (.mul (.cp 1 1) (.add (.g 21) (.b00 1))) (.mul (.b01 1) (.c0 1 1))),
  (26, .mul (.cp 2 0) (.g 24)),
  (27, .mul (.cp 2 1) (.g 25)),
  (30, .mul (.c0 2 0) (.g 24)),
  (31, .mul (.c0 2 1) (.g 25)),
  (28, .add (.mul (.cp 2 0) (.g 26)) (.mul (.b01 0) (.g 24))),
  (29, .add (.mul (.cp 2 1) (.g 27)) (.mul (.b01 1) (.g 25))),
  (32, .add (.mul (.cp 2 0) (.g 30)) (.mul (.b00 0) (.g 24))),
  (33, .add (.mul (.cp 2 1) (.g 31)) (.mul (.b00 1) (.g 25))),
  (34, .add (.add (.mul (.cp 2 0) (.g 32)) (.mul (.b01 0) (.g 30))) (.mul (.b00 0) (.g 26))),
  (35, .add (.add (.mul (.cp 2 1) (.g 33)) (.mul (.b01 1) (.g 31))) (.mul (.b00 1) (.g 27)))]

/-- _g0_2d4d_0110, src/g2e.c:1069-1102 -/
def g0_2d4d_0110 : List (Nat × UExpr) := [
  (0, .num 1),
  (1, .num 1),
  (2, .cp 0 0),
  (3, .cp 0 1),
  (4, .c0 0 0),
  (5, .c0 0 1),
  (6, .add (.mul (.cp 0 0) (.c0 0 0)) (.b00 0)),
  (7, .add (.mul (.cp 0 1) (.c0 0 1)) (.b00 1)),
  (8, .num 1),
  (9, .num 1),
  (10, .cp 1 0),
  (11, .cp 1 1),
  (12, .c0 1 0),
  (13, .c0 1 1),
  (14, .add (.mul (.cp 1 0) (.c0 1 0)) (.b00 0)),
  (15, .add (.mul (.cp 1 1) (.c0 1 1)) (.b00 1)),
  (18, .mul (.cp 2 0) (.g 16)),
  (19, .mul (.cp 2 1) (.g 17)),
  (20, .mul (.c0 2 0) (.g 16)),
  (21, .mul (.c0 2 1) (.g 17)),
  (22, .add (.mul (.cp 2 0) (.g 20)) (.mul (.b00 0) (.g 16))),
  (23, .add (.mul (.cp 2 1) (.g 21)) (.mul (.b00 1) (.g 17)))]

/-- _g0_2d4d_0111, src/g2e.c:1104-1165 -/
def g0_2d4d_0111 : List (Nat × UExpr) := [
  (0, .num 1),
  (1, .num 1),
  (12, .c0 0 0),
  (13, .c0 0 1),
  (4, .cp 0 0),
  (5, .cp 0 1),
  (16, .add (.mul (.cp 0 0) (.c0 0 0)) (.b00 0)),
  (17, .add (.mul (.cp 0 1) (.c0 0 1)) (.b00 1)),
  (6, .add (.mul (.cp 0 0) (.add (.rkl 0) (.cp 0 0))) (.b01 0)),
  (7, .add (.mul (.cp 0 1) (.add (.rkl 0) (.cp 0 1))) (.b01 1)),
  (18, .add (.add (.mul (.g 16) (.add (.rkl 0) (.cp 0 0))) (.mul (.cp 0 0) (.b00 0))) (.mul (.b01 0) (.c0 0 0))),
  (19, .add (.add (.mul (.g 17) (.add (.rkl 0) (.cp 0 1))) (.mul (.cp 0 1) (.b00 1))) (.mul (.b01 1) (.c0 0 1))),
  (2, .add (.rkl 0) (.cp 0 0)),
  (3, .add (.rkl 0) (.cp 0 1)),
  (14, .add (.mul (.c0 0 0) (.add (.rkl 0) (.cp 0 0))) (.b00 0)),
  (15, .add (.mul (.c0 0 1) (.add (.rkl 0) (.cp 0 1))) (.b00 1)),
  (24, .num 1),
  (25, .num 1),
  (36, .c0 1 0),
  (37, .c0 1 1),
  (28, .cp 1 0),
  (29, .cp 1 1),
  (40, .add (.mul (.cp 1 0) (.c0 1 0)) (.b00 0)),
  (41, .add (.mul (.cp 1 1) (.c0 1 1)) (.b00 1)),
  (30, .add (.mul (.cp 1 0) (.add (.rkl 1) (.cp 1 0))) (.b01 0)),
  (31, .add (.mul (.cp 1 1) (.add (.rkl 1) (.cp 1 1))) (.b01 1)),
  (42, .add (.add (.mul (.g 40) (.add (.rkl 1) (.cp 1 0))) (.mul (.cp 1 0) (.b00 0))) (.mul (.b01 0) (.c0 1 0))),
  (43, .add (.add (.mul (.g 41) (.add (.rkl 1) (.cp 1 1))) (.mul (.cp 1 1) (.b00 1))) (.mul (.b01 1) (.c0 1 1))),
  (26, .add (.rkl 1) (.cp 1 0)),
  (27, .add (.rkl 1) (.cp 1 1)),
  (38, .add (.mul (.c0 1 0) (.add (.rkl 1) (.cp 1 0))) (.b00 0)),
  (39, .add (.mul (.c0 1 1) (.add (.rkl 1) (.cp 1 1))) (.b00 1)),
  (60, .mul (.c0 2 0) (.g 48)),
  (61, .mul (.c0 2 1) (.g 49)),
  (52, .mul (.cp 2 0) (.g 48)),
  (53, .mul (.cp 2 1) (.g 49)),
  (64, .add (.mul (.cp 2 0) (.g 60)) (.mul (.b00 0) (.g 48))),
  (65, .add (.mul (.cp 2 1) (.g 61)) (.mul (.b00 1) (.g 49))),
  (54, .add (.mul (.g 52) (.add (.rkl 2) (.cp 2 0))) (.mul (.b01 0) (.g 48))),
  (55, .add (.mul (.g 53) (.add (.rkl 2) (.cp 2 1))) (.mul (.b01 1) (.g 49))),
  (66, .add (.add (.mul (.g 64) (.add (.rkl 2) (.cp 2 0))) (.mul (.b01 0) (.g 60))) (.mul (.b00 0) (.g 52))),
  (67, .add (.add (.mul (.g 65) (.add (.rkl 2) (.cp 2 1))) (.mul (.b01 1) (.g 61))) (.mul (.b00 1) (.g 53))),
  (50, .mul (.g 48) (.add (.rkl 2) (.cp 2 0))),
  (51, .mul (.g 49) (.add (.rkl 2) (.cp 2 1))),
  (62, .add (.mul (.g 60) (.add (.rkl 2) (.cp 2 0))) (.mul (.b00 0) (.g 48))),
  (63, .add (.mul (.g 61) (.add (.rkl 2) (.cp 2 1))) (.mul (.b00 1) (.g 49)))]

/-- _g0_2d4d_0120, src/g2e.c:1167-1213 -/
def g0_2d4d_0120 : List (Nat × UExpr) := [
  (0, .num 1),
  (1, .num 1),
  (2, .cp 0 0),
  (3, .cp 0 1),
  (6, .c0 0 0),
  (7, .c0 0 1),
  (4, .add (.mul (.cp 0 0) (.cp 0 0)) (.b01 0)),
  (5, .add (.mul (.cp 0 1) (.cp 0 1)) (.b01 1)),
  (8, .add (.mul (.cp 0 0) (.c0 0 0)) (.b00 0)),
  (9, .add (.mul (.cp 0 1) (.c0 0 1)) (.b00 1)),
  (10, .add (.mul (.cp 0 0) (.add (.g 8) (.b00 0))) (.mul (.b01 0) (.c0 0 0))),
  (11, .add (.mul (.cp 0 1) (.add (.g 9) (.b00 1))) (.mul (.b01 1) (.c0 0 1))),
  (12, .num 1),
  (13, .num 1),
  (14, .cp 1 0),
  (15, .cp 1 1),
  (18, .c0 1 0),
  (19, .c0 1 1),
  (16, .add (.mul (.cp 1 0) (.cp 1 0)) (.b01 0)),
  (17, .add (.mul (.cp 1 1) (.cp 1 1)) (.b01 1)),
  (20, .add (.mul (.cp 1 0) (.c0 1 0)) (.b00 0)),
  (21, .add (.mul (.cp 1 1) (.c0 1 1)) (.b00 1)),
  (22, .add (.mul (.cp 1 0) (.add (.g 20) (.b00 0))) (.mul (.b01 0) (.c0 1 0))),
  (23, .add (.mul (.cp 1 1) (.add (.g 21) (.b00 1))) (.mul (.b01 1) (.c0 1 1))),
  (26, .mul (.cp 2 0) (.g 24)),
  (27, .mul (.cp 2 1) (.g 25)),
  (30, .mul (.c0 2 0) (.g 24)),
  (31, .mul (.c0 2 1) (.g 25)),
  (28, .add (.mul (.cp 2 0) (.g 26)) (.mul (.b01 0) (.g 24))),
  (29, .add (.mul (.cp 2 1) (.g 27)) (.mul (.b01 1) (.g 25))),
  (32, .add (.mul (.cp 2 0) (.g 30)) (.mul (.b00 0) (.g 24))),
  (33, .add (.mul (.cp 2 1) (.g 31)) (.mul (.b00 1) (.g 25))),
  (34, .add (.add (.mul (.cp 2 0) (.g 32)) (.mul (.b01 0) (.g 30))) (.mul (.b00 0) (.g 26))),
  (35, .add (.add (.mul (.cp 2 1) (.g 33)) (.mul (.b01 1) (.g 31))) (.mul (.b00 1) (.g 27)))]

/-- _g0_2d4d_0200, src/g2e.c:1215-1239 -/
def g0_2d4d_0200 : List (Nat × UExpr) := [
  (0, .num 1),
  (1, .num 1),
  (2, .c0 0 0),
  (3, .c0 0 1),
  (4, .add (.mul (.c0 0 0) (.c0 0 0)) (.b10 0)),
  (5, .add (.mul (.c0 0 1) (.c0 0 1)) (.b10 1)),
  (6, .num 1),
  (7, .num 1),
  (8, .c0 1 0),
  (9, .c0 1 1),
  (10, .add (.mul (.c0 1 0) (.c0 1 0)) (.b10 0)),
  (11, .add (.mul (.c0 1 1) (.c0 1 1)) (.b10 1)),
  (14, .mul (.c0 2 0) (.g 12)),
  (15, .mul (.c0 2 1) (.g 13)),
  (16, .add (.mul (.c0 2 0) (.g 14)) (.mul (.b10 0) (.g 12))),
  (17, .add (.mul (.c0 2 1) (.g 15)) (.mul (.b10 1) (.g 13)))]

/-- _g0_2d4d_0201, src/g2e.c:1241-1287 -/
def g0_2d4d_0201 : List (Nat × UExpr) := [
  (0, .num 1),
  (1, .num 1),
  (4, .c0 0 0),
  (5, .c0 0 1),
  (8, .add (.mul (.c0 0 0) (.c0 0 0)) (.b10 0)),
  (9, .add (.mul (.c0 0 1) (.c0 0 1)) (.b10 1)),
  (2, .cp 0 0),
  (3, .cp 0 1),
  (6, .add (.mul (.cp 0 0) (.c0 0 0)) (.b00 0)),
  (7, .add (.mul (.cp 0 1) (.c0 0 1)) (.b00 1)),
  (10, .add (.mul (.c0 0 0) (.add (.g 6) (.b00 0))) (.mul (.b10 0) (.cp 0 0))),
  (11, .add (.mul (.c0 0 1) (.add (.g 7) (.b00 1))) (.mul (.b10 1) (.cp 0 1))),
  (12, .num 1),
  (13, .num 1),
  (16, .c0 1 0),
  (17, .c0 1 1),
  (20, .add (.mul (.c0 1 0) (.c0 1 0)) (.b10 0)),
  (21, .add (.mul (.c0 1 1) (.c0 1 1)) (.b10 1)),
  (14, .cp 1 0),
  (15, .cp 1 1),
  (18, .add (.mul (.cp 1 0) (.c0 1 0)) (.b00 0)),
  (19, .add (.mul (.cp 1 1) (.c0 1 1)) (.b00 1)),
  (22, .add (.mul (.c0 1 0) (.add (.g 18) (.b00 0))) (.mul (.b10 0) (.cp 1 0))),
  (23, .add (.mul (.c0 1 1) (.add (.g 19) (.b00 1))) (.mul (.b10 1) (.cp 1 1))),
  (28, .mul (.c0 2 0) (.g 24)),
  (29, .mul (.c0 2 1) (.g 25)),
  (32, .add (.mul (.c0 2 0) (.g 28)) (.mul (.b10 0) (.g 24))),
  (33, .add (.mul (.c0 2 1) (.g 29)) (.mul (.b10 1) (.g 25))),
  (26, .mul (.cp 2 0) (.g 24)),
  (27, .mul (.cp 2 1) (.g 25)),
  (30, .add (.mul (.cp 2 0) (.g 28)) (.mul (.b00 0) (.g 24))),
  (31, .add (.mul (.cp 2 1) (.g 29)) (.mul (.b00 1) (.g 25))),
  (34, .add (.add (.mul (.c0 2 0) (.g 30)) (.mul (.b10 0) (.g 26))) (.mul (.b00 0) (.g 28))),
  (35, .add (.add (.mul (.c0 2 1) (.g 31)) (.mul (.b10 1) (.g 27))) (.mul (.b00 1) (.g 29)))]

/-- _g0_2d4d_0210, src/g2e.c:1289-1335 -/
def g0_2d4d_0210 : List (Nat × UExpr) := [
  (0, .num 1),
  (1, .num 1),
  (2, .cp 0 0),
  (3, .cp 0 1),
  (4, .c0 0 0),
  (5, .c0 0 1),
  (6, .add (.mul (.cp 0 0) (.c0 0 0)) (.b00 0)),
  (7, .add (.mul (.cp 0 1) (.c0 0 1)) (.b00 1)),
  (8, .add (.mul (.c0 0 0) (.c0 0 0)) (.b10 0)),
  (9, .add (.mul (.c0 0 1) (.c0 0 1)) (.b10 1)),
  (10, .add (.mul (.c0 0 0) (.add (.g 6) (.b00 0))) (.mul (.b10 0) (.cp 0 0))),
  (11, .add (.mul (.c0 0 1) (.add (.g 7) (.b00 1))) (.mul (.b10 1) (.cp 0 1))),
  (12, .num 1),
  (13, .num 1),
  (14, .cp 1 0),
  (15, .cp 1 1),
  (16, .c0 1 0),
  (17, .c0 1 1),
  (18, .add (.mul (.cp 1 0) (.c0 1 0)) (.b00 0)),
  (19, .add (.mul (.cp 1 1) (.c0 1 1)) (.b00 1)),
  (20, .add (.mul (.c0 1 0) (.c0 1 0)) (.b10 0)),
  (21, .add (.mul (.c0 1 1) (.c0 1 1)) (.b10 1)),
  (22, .add (.mul (.c0 1 0) (.add (.g 18) (.b00 0))) (.mul (.b10 0) (.cp 1 0))),
  (23, .add (.mul (.c0 1 1) (.add (.g 19) (.b00 1))) (.mul (.b10 1) (.cp 1 1))),
  (26, .mul (.cp 2 0) (.g 24)),
  (27, .mul (.cp 2 1) (.g 25)),
  (28, .mul (.c0 2 0) (.g 24)),
  (29, .mul (.c0 2 1) (.g 25)),
  (30, .add (.mul (.cp 2 0) (.g 28)) (.mul (.b00 0) (.g 24))),
  (31, .add (.mul (.cp 2 1) (.g 29)) (.mul (.b00 1) (.g 25))),
  (32, .add (.mul (.c0 2 0) (.g 28)) (.mul (.b10 0) (.g 24))),
  (33, .add (.mul (.c0 2 1) (.g 29)) (.mul (.b10 1) (.g 25))),
  (34, .add (.add (.mul (.c0 2 0) (.g 30)) (.mul (.b10 0) (.g 26))) (.mul (.b00 0) (.g 28))),
  (35, .add (.add (.mul (.c0 2 1) (.g 31)) (.mul (.b10 1) (.g 27))) (.mul (.b00 1) (.g 29)))]

/-- _g0_2d4d_0300, src/g2e.c:1337-1367 -/
def g0_2d4d_0300 : List (Nat × UExpr) := [
  (0, .num 1),
  (1, .num 1),
  (2, .c0 0 0),
  (3, .c0 0 1),
  (4, .add (.mul (.c0 0 0) (.c0 0 0)) (.b10 0)),
  (5, .add (.mul (.c0 0 1) (.c0 0 1)) (.b10 1)),
  (6, .mul (.c0 0 0) (.add (.g 4) (.mul (.num 2) (.b10 0)))),
  (7, .mul (.c0 0 1) (.add (.g 5) (.mul (.num 2) (.b10 1)))),
  (8, .num 1),
  (9, .num 1),
  (10, .c0 1 0),
  (11, .c0 1 1),
  (12, .add (.mul (.c0 1 0) (.c0 1 0)) (.b10 0)),
  (13, .add (.mul (.c0 1 1) (.c0 1 1)) (.b10 1)),
  (14, .mul (.c0 1 0) (.add (.g 12) (.mul (.num 2) (.b10 0)))),
  (15, .mul (.c0 1 1) (.add (.g 13) (.mul (.num 2) (.b10 1)))),
  (18, .mul (.c0 2 0) (.g 16)),
  (19, .mul (.c0 2 1) (.g 17)),
  (20, .add (.mul (.c0 2 0) (.g 18)) (.mul (.b10 0) (.g 16))),
  (21, .add (.mul (.c0 2 1) (.g 19)) (.mul (.b10 1) (.g 17))),
  (22, .add (.mul (.c0 2 0) (.g 20)) (.mul (.mul (.num 2) (.b10 0)) (.g 18))),
  (23, .add (.mul (.c0 2 1) (.g 21)) (.mul (.mul (.num 2) (.b10 1)) (.g 19)))]

/-- _g0_2d4d_1000, src/g2e.c:1369-1380 -/
def g0_2d4d_1000 : List (Nat × UExpr) := [
  (0, .num 1),
  (1, .c0 0 0),
  (2, .num 1),
  (3, .c0 1 0),
  (5, .mul (.c0 2 0) (.g 4))]

/-- _g0_2d4d_1001, src/g2e.c:1382-1415 -/
def g0_2d4d_1001 : List (Nat × UExpr) := [
  (0, .num 1),
  (1, .num 1),
  (2, .c0 0 0),
  (3, .c0 0 1),
  (4, .cp 0 0),
  (5, .cp 0 1),
  (6, .add (.mul (.cp 0 0) (.c0 0 0)) (.b00 0)),
  (7, .add (.mul (.cp 0 1) (.c0 0 1)) (.b00 1)),
  (8, .num 1),
  (9, .num 1),
  (10, .c0 1 0),
  (11, .c0 1 1),
  (12, .cp 1 0),
  (13, .cp 1 1),
  (14, .add (.mul (.cp 1 0) (.c0 1 0)) (.b00 0)),
  (15, .add (.mul (.cp 1 1) (.c0 1 1)) (.b00 1)),
  (18, .mul (.c0 2 0) (.g 16)),
  (19, .mul (.c0 2 1) (.g 17)),
  (20, .mul (.cp 2 0) (.g 16)),
  (21, .mul (.cp 2 1) (.g 17)),
  (22, .add (.mul (.cp 2 0) (.g 18)) (.mul (.b00 0) (.g 16))),
  (23, .add (.mul (.cp 2 1) (.g 19)) (.mul (.b00 1) (.g 17)))]

/-- _g0_2d4d_1002, src/g2e.c:1417-1463 -/
def g0_2d4d_1002 : List (Nat × UExpr) := [
  (0, .num 1),
  (1, .num 1),
  (2, .c0 0 0),
  (3, .c0 0 1),
  (4, .cp 0 0),
  (5, .cp 0 1),
  (6, .add (.mul (.cp 0 0) (.c0 0 0)) (.b00 0)),
  (7, .add (.mul (.cp 0 1) (.c0 0 1)) (.b00 1)),
  (8, .add (.mul (.cp 0 0) (.cp 0 0)) (.b01 0)),
  (9, .add (.mul (.cp 0 1) (.cp 0 1)) (.b01 1)),
  (10, .add (.mul (.cp 0 0) (.add (.g 6) (.b00 0))) (.mul (.b01 0) (.c0 0 0))),
  (11, .add (.mul (.cp 0 1) (.add (.g 7) (.b00 1))) (.mul (.b01 1) (.c0 0 1))),
  (12, .num 1),
  (13, .num 1),
  (14, .c0 1 0),
  (15, .c0 1 1),
  (16, .cp 1 0),
  (17, .cp 1 1),
  (18, .add (.mul (.cp 1 0) (.c0 1 0)) (.b00 0)),
  (19, .add (.mul (.cp 1 1) (.c0 1 1)) (.b00 1)),
  (20, .add (.mul (.cp 1 0) (.cp 1 0)) (.b01 0)),
  (21, .add (.mul (.cp 1 1) (.cp 1 1)) (.b01 1)),
  (22, .add (.mul (.cp 1 0) (.add (.g 18) (.b00 0))) (.mul (.b01 0) (.c0 1 0))),
  (23, .add (.mul (.cp 1 1) (.add (.g 19) (.b00 1))) (.mul (.b01 1) (.c0 1 1))),
  (26, .mul (.c0 2 0) (.g 24)),
  (27, .mul (.c0 2 1) (.g 25)),
  (28, .mul (.cp 2 0) (.g 24)),
  (29, .mul (.cp 2 1) (.g 25)),
  (30, .add (.mul (.cp 2 0) (.g 26)) (.mul (.b00 0) (.g 24))),
  (31, .add (.mul (.cp 2 1) (.g 27)) (.mul (.b00 1) (.g 25))),
  (32, .add (.mul (.cp 2 0) (.g 28)) (.mul (.b01 0) (.g 24))),
  (33, .add (.mul (.cp 2 1) (.g 29)) (.mul (.b01 1) (.g 25))),
  (34, .add (.add (.mul (.cp 2 0) (.g 30)) (.mul (.b01 0) (.g 26))) (.mul (.b00 0) (.g 28))),
  (35, .add (.add (.mul (.cp 2 1) (.g 31)) (.mul (.b01 1) (.g 27))) (.mul (.b00 1) (.g 29)))]

/-- _g0_2d4d_1010, src/g2e.c:1465-1498 -/
def g0_2d4d_1010 : List (Nat × UExpr) := [
  (0, .num 1),
  (1, .num 1),
  (2, .c0 0 0),
  (3, .c0 0 1),
  (4, .cp 0 0),
  (5, .cp 0 1),
  (6, .add (.mul (.cp 0 0) (.c0 0 0)) (.b00 0)),
  (7, .add (.mul (.cp 0 1) (.c0 0 1)) (.b00 1)),
  (8, .num 1),
  (9, .num 1),
  (10, .c0 1 0),
  (11, .c0 1 1),
  (12, .cp 1 0),
  (13, .cp 1 1),
  (14, .add (.mul (.cp 1 0) (.c0 1 0)) (.b00 0)),
  (15, .add (.mul (.cp 1 1) (.c0 1 1)) (.b00 1)),
  (18, .mul (.c0 2 0) (.g 16)),
  (19, .mul (.c0 2 1) (.g 17)),
  (20, .mul (.cp 2 0) (.g 16)),
  (21, .mul (.cp 2 1) (.g 17)),
  (22, .add (.mul (.cp 2 0) (.g 18)) (.mul (.b00 0) (.g 16))),
  (23, .add (.mul (.cp 2 1) (.g 19)) (.mul (.b00 1) (.g 17)))]

/-- _g0_2d4d_1011, src/g2e.c:1500-1561 -/
def g0_2d4d_1011 : List (Nat × UExpr) := [
  (0, .num 1),
  (1, .num 1),
  (2, .c0 0 0),
  (3, .c0 0 1),
  (8, .cp 0 0),
  (9, .cp 0 1),
  (10, .add (.mul (.cp 0 0) (.c0 0 0)) (.b00 0)),
  (11, .add (.mul (.cp 0 1) (.c0 0 1)) (.b00 1)),
  (12, .add (.mul (.cp 0 0) (.add (.rkl 0) (.cp 0 0))) (.b01 0)),
  (13, .add (.mul (.cp 0 1) (.add (.rkl 0) (.cp 0 1))) (.b01 1)),
  (14, .add (.add (.mul (.g 10) (.add (.rkl 0) (.cp 0 0))) (.mul (.cp 0 0) (.b00 0))) (.mul (.b01 0) (.c0 0 0))),
  (15, .add (.add (.mul (.g 11) (.add (.rkl 0) (.cp 0 1))) (.mul (.cp 0 1) (.b00 1))) (.mul (.b01 1) (.c0 0 1))),
  (4, .add (.rkl 0) (.cp 0 0)),
  (5, .add (.rkl 0) (.cp 0 1)),
  (6, .add (.mul (.c0 0 0) (.add (.rkl 0) (.cp 0 0))) (.b00 0)),
  (7, .add (.mul (.c0 0 1) (.add (.rkl 0) (.cp 0 1))) (.b00 1)),
  (24, .num 1),
  (25, .num 1),
  (26, .c0 1 0),
  (27, .c0 1 1),
  (32, .cp 1 0),
  (33, .cp 1 1),
  (34, .add (.mul (.cp 1 0) (.c0 1 0)) (.b00 0)),
  (35, .add (.mul (.cp 1 1) (.c0 1 1)) (.b00 1)),
  (36, .add (.mul (.cp 1 0) (.add (.rkl 1) (.cp 1 0))) (.b01 0)),
  (37, .add (.mul (.cp 1 1) (.add (.rkl 1) (.cp 1 1))) (.b01 1)),
  (38, .add (.add (.mul (.g 34) (.add (.rkl 1) (.cp 1 0))) (.mul (.cp 1 0) (.b00 0))) (.mul (.b01 0) (.c0 1 0))),
  (39, .add (.add (.mul (.g 35) (.add (.rkl 1) (.cp 1 1))) (.mul (.cp 1 1) (.b00 1))) (.mul (.b01 1) (.c0 1 1))),
  (28, .add (.rkl 1) (.cp 1 0)),
  (29, .add (.rkl 1) (.cp 1 1)),
  (30, .add (.mul (.c0 1 0) (.add (.rkl 1) (.cp 1 0))) (.b00 0)),
  (31, .add (.mul (.c0 1 1) (.add (.rkl 1) (.cp 1 1))) (.b00 1)),
  (50, .mul (.c0 2 0) (.g 48)),
  (51, .mul (.c0 2 1) (.g 49)),
  (56, .mul (.cp 2 0) (.g 48)),
  (57, .mul (.cp 2 1) (.g 49)),
  (58, .add (.mul (.cp 2 0) (.g 50)) (.mul (.b00 0) (.g 48))),
  (59, .add (.mul (.cp 2 1) (.g 51)) (.mul (.b00 1) (.g 49))),
  (60, .add (.mul (.g 56) (.add (.rkl 2) (.cp 2 0))) (.mul (.b01 0) (.g 48))),
  (61, .add (.mul (.g 57) (.add (.rkl 2) (.cp 2 1))) (.mul (.b01 1) (.g 49))),
  (62, .add (.add (.mul (.g 58) (.add (.rkl 2) (.cp 2 0))) (.mul (.b01 0) (.g 50))) (.mul (.b00 0) (.g 56))),
  (63, .add (.add (.mul (.g 59) (.add (.rkl 2) (.cp 2 1))) (.mul (.b01 1) (.g 51))) (.mul (.b00 1) (.g 57))),
  (52, .mul (.g 48) (.add (.rkl 2) (.cp 2 0))),
  (53, .mul (.g 49) (.add (.rkl 2) (.cp 2 1))),
  (54, .add (.mul (.g 50) (.add (.rkl 2) (.cp 2 0))) (.mul (.b00 0) (.g 48))),
  (55, .add (.mul (.g 51) (.add (.rkl 2) (.cp 2 1))) (.mul (.b00 1) (.g 49)))]

/-- _g0_2d4d_1020, src/g2e.c:1563-1609 -/
def g0_2d4d_1020 : List (Nat × UExpr) := [
  (0, .num 1),
  (1, .num 1),
  (2, .c0 0 0),
  (3, .c0 0 1),
  (4, .cp 0 0),
  (5, .cp 0 1),
  (6, .add (.mul (.cp 0 0) (.c0 0 0)) (.b00 0)),
  (7, .add (.mul (.cp 0 1) (.c0 0 1)) (.b00 1)),
  (8, .add (.mul (.cp 0 0) (.cp 0 0)) (.b01 0)),
  (9, .add (.mul (.cp 0 1) (.cp 0 1)) (.b01 1)),
  (10, .add (.mul (.cp 0 0) (.add (.g 6) (.b00 0))) (.mul (.b01 0) (.c0 0 0))),
  (11, .add (.mul (.cp 0 1) (.add (.g 7) (.b00 1))) (.mul (.b01 1) (.c0 0 1))),
  (12, .num 1),
  (13, .num 1),
  (14, .c0 1 0),
  (15, .c0 1 1),
  (16, .cp 1 0),
  (17, .cp 1 1),
  (18, .add (.mul (.cp 1 0) (.c0 1 0)) (.b00 0)),
  (19, .add (.mul (.cp 1 1) (.c0 1 1)) (.b00 1)),
  (20, .add (.mul (.cp 1 0) (.cp 1 0)) (.b01 0)),
  (21, .add (.mul (.cp 1 1) (.cp 1 1)) (.b01 1)),
  (22, .add (.mul (.cp 1 0) (.add (.g 18) (.b00 0))) (.mul (.b01 0) (.c0 1 0))),
  (23, .add (.mul (.cp 1 1) (.add (.g 19) (.b00 1))) (.mul (.b01 1) (.c0 1 1))),
  (26, .mul (.c0 2 0) (.g 24)),
  (27, .mul (.c0 2 1) (.g 25)),
  (28, .mul (.cp 2 0) (.g 24)),
  (29, .mul (.cp 2 1) (.g 25)),
  (30, .add (.mul (.cp 2 0) (.g 26)) (.mul (.b00 0) (.g 24))),
  (31, .add (.mul (.cp 2 1) (.g 27)) (.mul (.b00 1) (.g 25))),
  (32, .add (.mul (.cp 2 0) (.g 28)) (.mul (.b01 0) (.g 24))),
  (33, .add (.mul (.cp 2 1) (.g 29)) (.mul (.b01 1) (.g 25))),
  (34, .add (.add (.mul (.cp 2 0) (.g 30)) (.mul (.b01 0) (.g 26))) (.mul (.b00 0) (.g 28))),
  (35, .add (.add (.mul (.cp 2 1) (.g 31)) (.mul (.b01 1) (.g 27))) (.mul (.b00 1) (.g 29)))]

/-- _g0_2d4d_1100, src/g2e.c:1611-1644 -/
def g0_2d4d_1100 : List (Nat × UExpr) := [
  (0, .num 1),
  (1, .num 1),
  (4, .c0 0 0),
  (5, .c0 0 1),
  (6, .add (.mul (.c0 0 0) (.add (.rij 0) (.c0 0 0))) (.b10 0)),
  (7, .add (.mul (.c0 0 1) (.add (.rij 0) (.c0 0 1))) (.b10 1)),
  (2, .add (.rij 0) (.c0 0 0)),
  (3, .add (.rij 0) (.c0 0 1)),
  (12, .num 1),
  (13, .num 1),
  (16, .c0 1 0),
  (17, .c0 1 1),
  (18, .add (.mul (.c0 1 0) (.add (.rij 1) (.c0 1 0))) (.b10 0)),
  (19, .add (.mul (.c0 1 1) (.add (.rij 1) (.c0 1 1))) (.b10 1)),
  (14, .add (.rij 1) (.c0 1 0)),
  (15, .add (.rij 1) (.c0 1 1)),
  (28, .mul (.c0 2 0) (.g 24)),
  (29, .mul (.c0 2 1) (.g 25)),
  (30, .add (.mul (.g 28) (.add (.rij 2) (.c0 2 0))) (.mul (.b10 0) (.g 24))),
  (31, .add (.mul (.g 29) (.add (.rij 2) (.c0 2 1))) (.mul (.b10 1) (.g 25))),
  (26, .mul (.g 24) (.add (.rij 2) (.c0 2 0))),
  (27, .mul (.g 25) (.add (.rij 2) (.c0 2 1)))]

/-- _g0_2d4d_1101, src/g2e.c:1646-1707 -/
def g0_2d4d_1101 : List (Nat × UExpr) := [
  (0, .num 1),
  (1, .num 1),
  (8, .c0 0 0),
  (9, .c0 0 1),
  (4, .cp 0 0),
  (5, .cp 0 1),
  (12, .add (.mul (.cp 0 0) (.c0 0 0)) (.b00 0)),
  (13, .add (.mul (.cp 0 1) (.c0 0 1)) (.b00 1)),
  (10, .add (.mul (.c0 0 0) (.add (.rij 0) (.c0 0 0))) (.b10 0)),
  (11, .add (.mul (.c0 0 1) (.add (.rij 0) (.c0 0 1))) (.b10 1)),
  (2, .add (.rij 0) (.c0 0 0)),
  (3, .add (.rij 0) (.c0 0 1)),
  (14, .add (.add (.mul (.g 12) (.add (.rij 0) (.c0 0 0))) (.mul (.c0 0 0) (.b00 0))) (.mul (.b10 0) (.cp 0 0))),
  (15, .add (.add (.mul (.g 13) (.add (.rij 0) (.c0 0 1))) (.mul (.c0 0 1) (.b00 1))) (.mul (.b10 1) (.cp 0 1))),
  (6, .add (.mul (.cp 0 0) (.add (.rij 0) (.c0 0 0))) (.b00 0)),
  (7, .add (.mul (.cp 0 1) (.add (.rij 0) (.c0 0 1))) (.b00 1)),
  (24, .num 1),
  (25, .num 1),
  (32, .c0 1 0),
  (33, .c0 1 1),
  (28, .cp 1 0),
  (29, .cp 1 1),
  (36, .add (.mul (.cp 1 0) (.c0 1 0)) (.b00 0)),
  (37, .add (.mul (.cp 1 1) (.c0 1 1)) (.b00 1)),
  (34, .add (.mul (.c0 1 0) (.add (.rij 1) (.c0 1 0))) (.b10 0)),
  (35, .add (.mul (.c0 1 1) (.add (.rij 1) (.c0 1 1))) (.b10 1)),
  (26, .add (.rij 1) (.c0 1 0)),
  (27, .add (.rij 1) (.c0 1 1)),
  (38, .add (.add (.mul (.g 36) (.add (.rij 1) (.c0 1 0))) (.mul (.c0 1 0) (.b00 0))) (.mul (.b10 0) (.cp 1 0))),
  (39, .add (.add (.mul (.g 37) (.add (.rij 1) (.c0 1 1))) (.mul (.c0 1 1) (.b00 1))) (.mul (.b10 1) (.cp 1 1))),
  (30, .add (.mul (.cp 1 0) (.add (.rij 1) (.c0 1 0))) (.b00 0)),
  (31, .add (.mul (.cp 1 1) (.add (.rij 1) (.c0 1 1))) (.b00 1)),
  (56, .mul (.c0 2 0) (.g 48)),
  (57, .mul (.c0 2 1) (.g 49)),
  (52, .mul (.cp 2 0) (.g 48)),
  (53, .mul (.cp 2 1) (.g 49)),
  (60, .add (.mul (.cp 2 0) (.g 56)) (.mul (.b00 0) (.g 48))),
  (61, .add (.mul (.cp 2 1) (.g 57)) (.mul (.b00 1) (.g 49))),
  (58, .add (.mul (.g 56) (.add (.rij 2) (.c0 2 0))) (.mul (.b10 0) (.g 48))),
  (59, .add (.mul (.g 57) (.add (.rij 2) (.c0 2 1))) (.mul (.b10 1) (.g 49))),
  (50, .mul (.g 48) (.add (.rij 2) (.c0 2 0))),
  (51, .mul (.g 49) (.add (.rij 2) (.c0 2 1))),
  (62, .add (.add (.mul (.g 60) (.add (.rij 2) (.c0 2 0))) (.mul (.b10 0) (.g 52))) (.mul (.b00 0) (.g 56))),
  (63, .add (.add (.mul (.g 61) (.add (.rij 2) (.c0 2 1))) (.mul (.b10 1) (.g 53))) (.mul (.b00 1) (.g 57))),
  (54, .add (.add (.mul (.rij 2) (.g 52)) (.mul (.cp 2 0) (.g 56))) (.mul (.b00 0) (.g 48))),
  (55, .add (.add (.mul (.rij 2) (.g 53)) (.mul (.cp 2 1) (.g 57))) (.mul (.b00 1) (.g 49)))]

/-- _g0_2d4d_1110, src/g2e.c:1709-1770 -/
def g0_2d4d_1110 : List (Nat × UExpr) := [
  (0, .num 1),
  (1, .num 1),
  (8, .c0 0 0),
  (9, .c0 0 1),
  (4, .cp 0 0),
  (5, .cp 0 1),
  (12, .add (.mul (.cp 0 0) (.c0 0 0)) (.b00 0)),
  (13, .add (.mul (.cp 0 1) (.c0 0 1)) (.b00 1)),
  (10, .add (.mul (.c0 0 0) (.add (.rij 0) (.c0 0 0))) (.b10 0)),
  (11, .add (.mul (.c0 0 1) (.add (.rij 0) (.c0 0 1))) (.b10 1)),
  (2, .add (.rij 0) (.c0 0 0)),
  (3, .add (.rij 0) (.c0 0 1)),
  (14, .add (.add (.mul (.g 12) (.add (.rij 0) (.c0 0 0))) (.mul (.c0 0 0) (.b00 0))) (.mul (.b10 0) (.cp 0 0))),
  (15, .add (.add (.mul (.g 13) (.add (.rij 0) (.c0 0 1))) (.mul (.c0 0 1) (.b00 1))) (.mul (.b10 1) (.cp 0 1))),
  (6, .add (.mul (.cp 0 0) (.add (.rij 0) (.c0 0 0))) (.b00 0)),
  (7, .add (.mul (.cp 0 1) (.add (.rij 0) (.c0 0 1))) (.b00 1)),
  (24, .num 1),
  (25, .num 1),
  (32, .c0 1 0),
  (33, .c0 1 1),
  (28, .cp 1 0),
  (29, .cp 1 1),
  (36, .add (.mul (.cp 1 0) (.c0 1 0)) (.b00 0)),
  (37, .add (.mul (.cp 1 1) (.c0 1 1)) (.b00 1)),
  (34, .add (.mul (.c0 1 0) (.add (.rij 1) (.c0 1 0))) (.b10 0)),
  (35, .add (.mul (.c0 1 1) (.add (.rij 1) (.c0 1 1))) (.b10 1)),
  (26, .add (.rij 1) (.c0 1 0)),
  (27, .add (.rij 1) (.c0 1 1)),
  (38, .add (.add (.mul (.g 36) (.add (.rij 1) (.c0 1 0))) (.mul (.c0 1 0) (.b00 0))) (.mul (.b10 0) (.cp 1 0))),
  (39, .add (.add (.mul (.g 37) (.add (.rij 1) (.c0 1 1))) (.mul (.c0 1 1) (.b00 1))) (.mul (.b10 1) (.cp 1 1))),
  (30, .add (.mul (.cp 1 0) (.add (.rij 1) (.c0 1 0))) (.b00 0)),
  (31, .add (.mul (.cp 1 1) (.add (.rij 1) (.c0 1 1))) (.b00 1)),
  (56, .mul (.c0 2 0) (.g 48)),
  (57, .mul (.c0 2 1) (.g 49)),
  (52, .mul (.cp 2 0) (.g 48)),
  (53, .mul (.cp 2 1) (.g 49)),
  (60, .add (.mul (.cp 2 0) (.g 56)) (.mul (.b00 0) (.g 48))),
  (61, .add (.mul (.cp 2 1) (.g 57)) (.mul (.b00 1) (.g 49))),
  (58, .add (.mul (.g 56) (.add (.rij 2) (.c0 2 0))) (.mul (.b10 0) (.g 48))),
  (59, .add (.mul (.g 57) (.add (.rij 2) (.c0 2 1))) (.mul (.b10 1) (.g 49))),
  (50, .mul (.g 48) (.add (.rij 2) (.c0 2 0))),
  (51, .mul (.g 49) (.add (.rij 2) (.c0 2 1))),
  (62, .add (.add (.mul (.g 60) (.add (.rij 2) (.c0 2 0))) (.mul (.b10 0) (.g 52))) (.mul (.b00 0) (.g 56))),
  (63, .add (.add (.mul (.g 61) (.add (.rij 2) (.c0 2 1))) (.mul (.b10 1) (.g 53))) (.mul (.b00 1) (.g 57))),
  (54, .add (.add (.mul (.rij 2) (.g 52)) (.mul (.cp 2 0) (.g 56))) (.mul (.b00 0) (.g 48))),
  (55, .add (.add (.mul (.rij 2) (.g 53)) (.mul (.cp 2 1) (.g 57))) (.mul (.b00 1) (.g 49)))]

/-- _g0_2d4d_1200, src/g2e.c:1772-1817 -/
def g0_2d4d_1200 : List (Nat × UExpr) := [
  (0, .num 1),
  (1, .num 1),
  (4, .c0 0 0),
  (5, .c0 0 1),
  (8, .add (.mul (.c0 0 0) (.c0 0 0)) (.b10 0)),
  (9, .add (.mul (.c0 0 1) (.c0 0 1)) (.b10 1)),
  (10, .add (.mul (.g 8) (.add (.rij 0) (.c0 0 0))) (.mul (.mul (.c0 0 0) (.num 2)) (.b10 0))),
  (11, .add (.mul (.g 9) (.add (.rij 0) (.c0 0 1))) (.mul (.mul (.c0 0 1) (.num 2)) (.b10 1))),
  (6, .add (.mul (.c0 0 0) (.add (.rij 0) (.c0 0 0))) (.b10 0)),
  (7, .add (.mul (.c0 0 1) (.add (.rij 0) (.c0 0 1))) (.b10 1)),
  (2, .add (.rij 0) (.c0 0 0)),
  (3, .add (.rij 0) (.c0 0 1)),
  (16, .num 1),
  (17, .num 1),
  (20, .c0 1 0),
  (21, .c0 1 1),
  (24, .add (.mul (.c0 1 0) (.c0 1 0)) (.b10 0)),
  (25, .add (.mul (.c0 1 1) (.c0 1 1)) (.b10 1)),
  (26, .add (.mul (.g 24) (.add (.rij 1) (.c0 1 0))) (.mul (.mul (.c0 1 0) (.num 2)) (.b10 0))),
  (27, .add (.mul (.g 25) (.add (.rij 1) (.c0 1 1))) (.mul (.mul (.c0 1 1) (.num 2)) (.b10 1))),
  (22, .add (.mul (.c0 1 0) (.add (.rij 1) (.c0 1 0))) (.b10 0)),
  (23, .add (.mul (.c0 1 1) (.add (.rij 1) (.c0 1 1))) (.b10 1)),
  (18, .add (.rij 1) (.c0 1 0)),
  (19, .add (.rij 1) (.c0 1 1)),
  (36, .mul (.c0 2 0) (.g 32)),
  (37, .mul (.c0 2 1) (.g 33)),
  (40, .add (.mul (.c0 2 0) (.g 36)) (.mul (.b10 0) (.g 32))),
  (41, .add (.mul (.c0 2 1) (.g 37)) (.mul (.b10 1) (.g 33))),
  (42, .add (.mul (.g 40) (.add (.rij 2) (.c0 2 0))) (.mul (.mul (.num 2) (.b10 0)) (.g 36))),
  (43, .add (.mul (.g 41) (.add (.rij 2) (.c0 2 1))) (.mul (.mul (.num 2) (.b10 1)) (.g 37))),
  (38, .add (.mul (.g 36) (.add (.rij 2) (.c0 2 0))) (.mul (.b10 0) (.g 32))),
  (39, .add (.mul (.g 37) (.add (.rij 2) (.c0 2 1))) (.mul (.b10 1) (.g 33))),
  (34, .mul (.g 32) (.add (.rij 2) (.c0 2 0))),
  (35, .mul (.g 33) (.add (.rij 2) (.c0 2 1)))]

/-- _g0_2d4d_2000, src/g2e.c:1819-1843 -/
def g0_2d4d_2000 : List (Nat × UExpr) := [
  (0, .num 1),
  (1, .num 1),
  (2, .c0 0 0),
  (3, .c0 0 1),
  (4, .add (.mul (.c0 0 0) (.c0 0 0)) (.b10 0)),
  (5, .add (.mul (.c0 0 1) (.c0 0 1)) (.b10 1)),
  (6, .num 1),
  (7, .num 1),
  (8, .c0 1 0),
  (9, .c0 1 1),
  (10, .add (.mul (.c0 1 0) (.c0 1 0)) (.b10 0)),
  (11, .add (.mul (.c0 1 1) (.c0 1 1)) (.b10 1)),
  (14, .mul (.c0 2 0) (.g 12)),
  (15, .mul (.c0 2 1) (.g 13)),
  (16, .add (.mul (.c0 2 0) (.g 14)) (.mul (.b10 0) (.g 12))),
  (17, .add (.mul (.c0 2 1) (.g 15)) (.mul (.b10 1) (.g 13)))]

/-- _g0_2d4d_2001, src/g2e.c:1845-1891 -/
def g0_2d4d_2001 : List (Nat × UExpr) := [
  (0, .num 1),
  (1, .num 1),
  (2, .c0 0 0),
  (3, .c0 0 1),
  (4, .add (.mul (.c0 0 0) (.c0 0 0)) (.b10 0)),
  (5, .add (.mul (.c0 0 1) (.c0 0 1)) (.b10 1)),
  (6, .cp 0 0),
  (7, .cp 0 1),
  (8, .add (.mul (.cp 0 0) (.c0 0 0)) (.b00 0)),
  (9, .add (.mul (.cp 0 1) (.c0 0 1)) (.b00 1)),
  (10, .add (.mul (.c0 0 0) (.add (.g 8) (.b00 0))) (.mul (.b10 0) (.cp 0 0))),
  (11, .add (.mul (.c0 0 1) (.add (.g 9) (.b00 1))) (.mul (.b10 1) (.cp 0 1))),
  (12, .num 1),
  (13, .num 1),
  (14, .c0 1 0),
  (15, .c0 1 1),
  (16, .add (.mul (.c0 1 0) (.c0 1 0)) (.b10 0)),
  (17, .add (.mul (.c0 1 1) (.c0 1 1)) (.b10 1)),
  (18, .cp 1 0),
  (19, .cp 1 1),
  (20, .add (.mul (.cp 1 0) (.c0 1 0)) (.b00 0)),
  (21, .add (.mul (.cp 1 1) (.c0 1 1)) (.b00 1)),
  (22, .add (.mul (.c0 1 0) (.add (.g 20) (.b00 0))) (.mul (.b10 0) (.cp 1 0))),
  (23, .add (.mul (.c0 1 1) (.add (.g 21) (.b00 1))) (.mul (.b10 1) (.cp 1 1))),
  (26, .mul (.c0 2 0) (.g 24)),
  (27, .mul (.c0 2 1) (.g 25)),
  (28, .add (.mul (.c0 2 0) (.g 26)) (.mul (.b10 0) (.g 24))),
  (29, .add (.mul (.c0 2 1) (.g 27)) (.mul (.b10 1) (.g 25))),
  (30, .mul (.cp 2 0) (.g 24)),
  (31, .mul (.cp 2 1) (.g 25)),
  (32, .add (.mul (.cp 2 0) (.g 26)) (.mul (.b00 0) (.g 24))),
  (33, .add (.mul (.cp 2 1) (.g 27)) (.mul (.b00 1) (.g 25))),
  (34, .add (.add (.mul (.c0 2 0) (.g 32)) (.mul (.b10 0) (.g 30))) (.mul (.b00 0) (.g 26))),
  (35, .add (.add (.mul (.c0 2 1) (.g 33)) (.mul (.b10 1) (.g 31))) (.mul (.b00 1) (.g 27)))]

/-- _g0_2d4d_2010, src/g2e.c:1893-1939 -/
def g0_2d4d_2010 : List (Nat × UExpr) := [
  (0, .num 1),
  (1, .num 1),
  (2, .c0 0 0),
  (3, .c0 0 1),
  (4, .add (.mul (.c0 0 0) (.c0 0 0)) (.b10 0)),
  (5, .add (.mul (.c0 0 1) (.c0 0 1)) (.b10 1)),
  (6, .cp 0 0),
  (7, .cp 0 1),
  (8, .add (.mul (.cp 0 0) (.c0 0 0)) (.b00 0)),
  (9, .add (.mul (.cp 0 1) (.c0 0 1)) (.b00 1)),
  (10, .add (.mul (.c0 0 0) (.add (.g 8) (.b00 0))) (.mul (.b10 0) (.cp 0 0))),
  (11, .add (.mul (.c0 0 1) (.add (.g 9) (.b00 1))) (.mul (.b10 1) (.cp 0 1))),
  (12, .num 1),
  (13, .num 1),
  (14, .c0 1 0),
  (15, .c0 1 1),
  (16, .add (.mul (.c0 1 0) (.c0 1 0)) (.b10 0)),
  (17, .add (.mul (.c0 1 1) (.c0 1 1)) (.b10 1)),
  (18, .cp 1 0),
  (19, .cp 1 1),
  (20, .add (.mul (.cp 1 0) (.c0 1 0)) (.b00 0)),
  (21, .add (.mul (.cp 1 1) (.c0 1 1)) (.b00 1)),
  (22, .add (.mul (.c0 1 0) (.add (.g 20) (.b00 0))) (.mul (.b10 0) (.cp 1 0))),
  (23, .add (.mul (.c0 1 1) (.add (.g 21) (.b00 1))) (.mul (.b10 1) (.cp 1 1))),
  (26, .mul (.c0 2 0) (.g 24)),
  (27, .mul (.c0 2 1) (.g 25)),
  (28, .add (.mul (.c0 2 0) (.g 26)) (.mul (.b10 0) (.g 24))),
  (29, .add (.mul (.c0 2 1) (.g 27)) (.mul (.b10 1) (.g 25))),
  (30, .mul (.cp 2 0) (.g 24)),
  (31, .mul (.cp 2 1) (.g 25)),
  (32, .add (.mul (.cp 2 0) (.g 26)) (.mul (.b00 0) (.g 24))),
  (33, .add (.mul (.cp 2 1) (.g 27)) (.mul (.b00 1) (.g 25))),
  (34, .add (.add (.mul (.c0 2 0) (.g 32)) (.mul (.b10 0) (.g 30))) (.mul (.b00 0) (.g 26))),
  (35, .add (.add (.mul (.c0 2 1) (.g 33)) (.mul (.b10 1) (.g 31))) (.mul (.b00 1) (.g 27)))]

/-- _g0_2d4d_2100, src/g2e.c:1941-1986 -/
def g0_2d4d_2100 : List (Nat × UExpr) := [
  (0, .num 1),
  (1, .num 1),
  (2, .c0 0 0),
  (3, .c0 0 1),
  (4, .add (.mul (.c0 0 0) (.c0 0 0)) (.b10 0)),
  (5, .add (.mul (.c0 0 1) (.c0 0 1)) (.b10 1)),
  (12, .add (.mul (.g 4) (.add (.rij 0) (.c0 0 0))) (.mul (.mul (.c0 0 0) (.num 2)) (.b10 0))),
  (13, .add (.mul (.g 5) (.add (.rij 0) (.c0 0 1))) (.mul (.mul (.c0 0 1) (.num 2)) (.b10 1))),
  (10, .add (.mul (.c0 0 0) (.add (.rij 0) (.c0 0 0))) (.b10 0)),
  (11, .add (.mul (.c0 0 1) (.add (.rij 0) (.c0 0 1))) (.b10 1)),
  (8, .add (.rij 0) (.c0 0 0)),
  (9, .add (.rij 0) (.c0 0 1)),
  (16, .num 1),
  (17, .num 1),
  (18, .c0 1 0),
  (19, .c0 1 1),
  (20, .add (.mul (.c0 1 0) (.c0 1 0)) (.b10 0)),
  (21, .add (.mul (.c0 1 1) (.c0 1 1)) (.b10 1)),
  (28, .add (.mul (.g 20) (.add (.rij 1) (.c0 1 0))) (.mul (.mul (.c0 1 0) (.num 2)) (.b10 0))),
  (29, .add (.mul (.g 21) (.add (.rij 1) (.c0 1 1))) (.mul (.mul (.c0 1 1) (.num 2)) (.b10 1))),
  (26, .add (.mul (.c0 1 0) (.add (.rij 1) (.c0 1 0))) (.b10 0)),
  (27, .add (.mul (.c0 1 1) (.add (.rij 1) (.c0 1 1))) (.b10 1)),
  (24, .add (.rij 1) (.c0 1 0)),
  (25, .add (.rij 1) (.c0 1 1)),
  (34, .mul (.c0 2 0) (.g 32)),
  (35, .mul (.c0 2 1) (.g 33)),
  (36, .add (.mul (.c0 2 0) (.g 34)) (.mul (.b10 0) (.g 32))),
  (37, .add (.mul (.c0 2 1) (.g 35)) (.mul (.b10 1) (.g 33))),
  (44, .add (.mul (.g 36) (.add (.rij 2) (.c0 2 0))) (.mul (.mul (.num 2) (.b10 0)) (.g 34))),
  (45, .add (.mul (.g 37) (.add (.rij 2) (.c0 2 1))) (.mul (.mul (.num 2) (.b10 1)) (.g 35))),
  (42, .add (.mul (.g 34) (.add (.rij 2) (.c0 2 0))) (.mul (.b10 0) (.g 32))),
  (43, .add (.mul (.g 35) (.add (.rij 2) (.c0 2 1))) (.mul (.b10 1) (.g 33))),
  (40, .mul (.g 32) (.add (.rij 2) (.c0 2 0))),
  (41, .mul (.g 33) (.add (.rij 2) (.c0 2 1)))]

/-- _g0_2d4d_3000, src/g2e.c:1988-2018 -/
def g0_2d4d_3000 : List (Nat × UExpr) := [
  (0, .num 1),
  (1, .num 1),
  (2, .c0 0 0),
  (3, .c0 0 1),
  (4, .add (.mul (.c0 0 0) (.c0 0 0)) (.b10 0)),
  (5, .add (.mul (.c0 0 1) (.c0 0 1)) (.b10 1)),
  (6, .mul (.c0 0 0) (.add (.g 4) (.mul (.num 2) (.b10 0)))),
  (7, .mul (.c0 0 1) (.add (.g 5) (.mul (.num 2) (.b10 1)))),
  (8, .num 1),
  (9, .num 1),
  (10, .c0 1 0),
  (11, .c0 1 1),
  (12, .add (.mul (.c0 1 0) (.c0 1 0)) (.b10 0)),
  (13, .add (.mul (.c0 1 1) (.c0 1 1)) (.b10 1)),
  (14, .mul (.c0 1 0) (.add (.g 12) (.mul (.num 2) (.b10 0)))),
  (15, .mul (.c0 1 1) (.add (.g 13) (.mul (.num 2) (.b10 1)))),
  (18, .mul (.c0 2 0) (.g 16)),
  (19, .mul (.c0 2 1) (.g 17)),
  (20, .add (.mul (.c0 2 0) (.g 18)) (.mul (.b10 0) (.g 16))),
  (21, .add (.mul (.c0 2 1) (.g 19)) (.mul (.b10 1) (.g 17))),
  (22, .add (.mul (.c0 2 0) (.g 20)) (.mul (.mul (.num 2) (.b10 0)) (.g 18))),
  (23, .add (.mul (.c0 2 1) (.g 21)) (.mul (.mul (.num 2) (.b10 1)) (.g 19)))]

/-- _srg0_2d4d_0000, src/g2e.c:2066-2074 -/
def srg0_2d4d_0000 : List (Nat × UExpr) := [
  (0, .num 1),
  (1, .num 1),
  (2, .num 1),
  (3, .num 1)]

/-- _srg0_2d4d_0001, src/g2e.c:2076-2093 -/
def srg0_2d4d_0001 : List (Nat × UExpr) := [
  (0, .num 1),
  (1, .num 1),
  (2, .cp 0 0),
  (3, .cp 0 1),
  (4, .num 1),
  (5, .num 1),
  (6, .cp 1 0),
  (7, .cp 1 1),
  (10, .mul (.cp 2 0) (.g 8)),
  (11, .mul (.cp 2 1) (.g 9))]

/-- _srg0_2d4d_0002, src/g2e.c:2095-2137 -/
def srg0_2d4d_0002 : List (Nat × UExpr) := [
  (0, .num 1),
  (1, .num 1),
  (2, .num 1),
  (3, .num 1),
  (4, .cp 0 0),
  (5, .cp 0 1),
  (6, .cp 0 2),
  (7, .cp 0 3),
  (8, .add (.mul (.cp 0 0) (.cp 0 0)) (.b01 0)),
  (9, .add (.mul (.cp 0 1) (.cp 0 1)) (.b01 1)),
  (10, .add (.mul (.cp 0 2) (.cp 0 2)) (.b01 2)),
  (11, .add (.mul (.cp 0 3) (.cp 0 3)) (.b01 3)),
  (12, .num 1),
  (13, .num 1),
  (14, .num 1),
  (15, .num 1),
  (16, .cp 1 0),
  (17, .cp 1 1),
  (18, .cp 1 2),
  (19, .cp 1 3),
  (20, .add (.mul (.cp 1 0) (.cp 1 0)) (.b01 0)),
  (21, .add (.mul (.cp 1 1) (.cp 1 1)) (.b01 1)),
  (22, .add (.mul (.cp 1 2) (.cp 1 2)) (.b01 2)),
  (23, .add (.mul (.cp 1 3) (.cp 1 3)) (.b01 3)),
  (28, .mul (.cp 2 0) (.g 24)),
  (29, .mul (.cp 2 1) (.g 25)),
  (30, .mul (.cp 2 2) (.g 26)),
  (31, .mul (.cp 2 3) (.g 27)),
  (32, .add (.mul (.cp 2 0) (.g 28)) (.mul (.b01 0) (.g 24))),
  (33, .add (.mul (.cp 2 1) (.g 29)) (.mul (.b01 1) (.g 25))),
  (34, .add (.mul (.cp 2 2) (.g 30)) (.mul (.b01 2) (.g 26))),
  (35, .add (.mul (.cp 2 3) (.g 31)) (.mul (.b01 3) (.g 27)))]

/-- _srg0_2d4d_0003, src/g2e.c:2139-2193 -/
def srg0_2d4d_0003 : List (Nat × UExpr) := [
  (0, .num 1),
  (1, .num 1),
  (2, .num 1),
  (3, .num 1),
  (4, .cp 0 0),
  (5, .cp 0 1),
  (6, .cp 0 2),
  (7, .cp 0 3),
  (8, .add (.mul (.cp 0 0) (.cp 0 0)) (.b01 0)),
  (9, .add (.mul (.cp 0 1) (.cp 0 1)) (.b01 1)),
  (10, .add (.mul (.cp 0 2) (.cp 0 2)) (.b01 2)),
  (11, .add (.mul (.cp 0 3) (.cp 0 3)) (.b01 3)),
  (12, .mul (.cp 0 0) (.add (.g 8) (.mul (.num 2) (.b01 0)))),
  (13, .mul (.cp 0 1) (.add (.g 9) (.mul (.num 2) (.b01 1)))),
  (14, .mul (.cp 0 2) (.add (.g 10) (.mul (.num 2) (.b01 2)))),
  (15, .mul (.cp 0 3) (.add (.g 11) (.mul (.num 2) (.b01 3)))),
  (16, .num 1),
  (17, .num 1),
  (18, .num 1),
  (19, .num 1),
  (20, .cp 1 0),
  (21, .cp 1 1),
  (22, .cp 1 2),
  (23, .cp 1 3),
  (24, .add (.mul (.cp 1 0) (.cp 1 0)) (.b01 0)),
  (25, .add (.mul (.cp 1 1) (.cp 1 1)) (.b01 1)),
  (26, .add (.mul (.cp 1 2) (.cp 1 2)) (.b01 2)),
  (27, .add (.mul (.cp 1 3) (.cp 1 3)) (.b01 3)),
  (28, .mul (.cp 1 0) (.add (.g 24) (.mul (.num 2) (.b01 0)))),
  (29, .mul (.cp 1 1) (.add (.g 25) (.mul (.num 2) (.b01 1)))),
  (30, .mul (.cp 1 2) (.add (.g 26) (.mul (.num 2) (.b01 2)))),
  (31, .mul (.cp 1 3) (.add (.g 27) (.mul (.num 2) (.b01 3)))),
  (36, .mul (.cp 2 0) (.g 32)),
  (37, .mul (.cp 2 1) (.g 33)),
  (38, .mul (.cp 2 2) (.g 34)),
  (39, .mul (.cp 2 3) (.g 35)),
  (40, .add (.mul (.cp 2 0) (.g 36)) (.mul (.b01 0) (.g 32))),
  (41, .add (.mul (.cp 2 1) (.g 37)) (.mul (.b01 1) (.g 33))),
  (42, .add (.mul (.cp 2 2) (.g 38)) (.mul (.b01 2) (.g 34))),
  (43, .add (.mul (.cp 2 3) (.g 39)) (.mul (.b01 3) (.g 35))),
  (44, .add (.mul (.cp 2 0) (.g 40)) (.mul (.mul (.num 2) (.b01 0)) (.g 36))),
  (45, .add (.mul (.cp 2 1) (.g 41)) (.mul (.mul (.num 2) (.b01 1)) (.g 37))),
  (46, .add (.mul (.cp 2 2) (.g 42)) (.mul (.mul (.num 2) (.b01 2)) (.g 38))),
  (47, .add (.mul (.cp 2 3) (.g 43)) (.mul (.mul (.num 2) (.b01 3)) (.g 39)))]

/-- _srg0_2d4d_0010, src/g2e.c:2195-2212 -/
def srg0_2d4d_0010 : List (Nat × UExpr) := [
  (0, .num 1),
  (1, .num 1),
  (2, .cp 0 0),
  (3, .cp 0 1),
  (4, .num 1),
  (5, .num 1),
  (6, .cp 1 0),
  (7, .cp 1 1),
  (10, .mul (.cp 2 0) (.g 8)),
  (11, .mul (.cp 2 1) (.g 9))]

/-- _srg0_2d4d_0011, src/g2e.c:2214-2271 -/
def srg0_2d4d_0011 : List (Nat × UExpr) := [
  (0, .num 1),
  (1, .num 1),
  (2, .num 1),
  (3, .num 1),
  (8, .cp 0 0),
  (9, .cp 0 1),
  (10, .cp 0 2),
  (11, .cp 0 3),
  (12, .add (.mul (.cp 0 0) (.add (.rkl 0) (.cp 0 0))) (.b01 0)),
  (13, .add (.mul (.cp 0 1) (.add (.rkl 0) (.cp 0 1))) (.b01 1)),
  (14, .add (.mul (.cp 0 2) (.add (.rkl 0) (.cp 0 2))) (.b01 2)),
  (15, .add (.mul (.cp 0 3) (.add (.rkl 0) (.cp 0 3))) (.b01 3)),
  (4, .add (.rkl 0) (.cp 0 0)),
  (5, .add (.rkl 0) (.cp 0 1)),
  (6, .add (.rkl 0) (.cp 0 2)),
  (7, .add (.rkl 0) (.cp 0 3)),
  (24, .num 1),
  (25, .num 1),
  (26, .num 1),
  (27, .num 1),
  (32, .cp 1 0),
  (33, .cp 1 1),
  (34, .cp 1 2),
  (35, .cp 1 3),
  (36, .add (.mul (.cp 1 0) (.add (.rkl 1) (.cp 1 0))) (.b01 0)),
  (37, .add (.mul (.cp 1 1) (.add (.rkl 1) (.cp 1 1))) (.b01 1)),
  (38, .add (.mul (.cp 1 2) (.add (.rkl 1) (.cp 1 2))) (.b01 2)),
  (39, .add (.mul (.cp 1 3) (.add (.rkl 1) (.cp 1 3))) (.b01 3)),
  (28, .add (.rkl 1) (.cp 1 0)),
  (29, .add (.rkl 1) (.cp 1 1)),
  (30, .add (.rkl 1) (.cp 1 2)),
  (31, .add (.rkl 1) (.cp 1 3)),
  (56, .mul (.cp 2 0) (.g 48)),
  (57, .mul (.cp 2 1) (.g 49)),
  (58, .mul (.cp 2 2) (.g 50)),
  (59, .mul (.cp 2 3) (.g 51)),
  (60, .add (.mul (.g 56) (.add (.rkl 2) (.cp 2 0))) (.mul (.b01 0) (.g 48))),
  (61, .add (.mul (.g 57) (.add (.rkl 2) (.cp 2 1))) (.mul (.b01 1) (.g 49))),
  (62, .add (.mul (.g 58) (.add (.rkl 2) (.cp 2 2))) (.mul (.b01 2) (.g 50))),
  (63, .add (.mul (.g 59) (.add (.rkl 2) (.cp 2 3))) (.mul (.b01 3) (.g 51))),
  (52, .mul (.g 48) (.add (.rkl 2) (.cp 2 0))),
  (53, .mul (.g 49) (.add (.rkl 2) (.cp 2 1))),
  (54, .mul (.g 50) (.add (.rkl 2) (.cp 2 2))),
  (55, .mul (.g 51) (.add (.rkl 2) (.cp 2 3)))]

/-- _srg0_2d4d_0012, src/g2e.c:2273-2354 -/
def srg0_2d4d_0012 : List (Nat × UExpr) := [
  (0, .num 1),
  (1, .num 1),
  (2, .num 1),
  (3, .num 1),
  (8, .cp 0 0),
  (9, .cp 0 1),
  (10, .cp 0 2),
  (11, .cp 0 3),
  (16, .add (.mul (.cp 0 0) (.cp 0 0)) (.b01 0)),
  (17, .add (.mul (.cp 0 1) (.cp 0 1)) (.b01 1)),
  (18, .add (.mul (.cp 0 2) (.cp 0 2)) (.b01 2)),
  (19, .add (.mul (.cp 0 3) (.cp 0 3)) (.b01 3)),
  (20, .add (.mul (.g 16) (.add (.rkl 0) (.cp 0 0))) (.mul (.mul (.cp 0 0) (.num 2)) (.b01 0))),
  (21, .add (.mul (.g 17) (.add (.rkl 0) (.cp 0 1))) (.mul (.mul (.cp 0 1) (.num 2)) (.b01 1))),
  (22, .add (.mul (.g 18) (.add (.rkl 0) (.cp 0 2))) (.mul (.mul (.cp 0 2) (.num 2)) (.b01 2))),
  (23, .add (.mul (.g 19) (.add (.rkl 0) (.cp 0 3))) (.mul (.mul (.cp 0 3) (.num 2)) (.b01 3))),
  (12, .add (.mul (.cp 0 0) (.add (.rkl 0) (.cp 0 0))) (.b01 0)),
  (13, .add (.mul (.cp 0 1) (.add (.rkl 0) (.cp 0 1))) (.b01 1)),
  (14, .add (.mul (.cp 0 2) (.add (.rkl 0) (.cp 0 2))) (.b01 2)),
  (15, .add (.mul (.cp 0 3) (.add (.rkl 0) (.cp 0 3))) (.b01 3)),
  (4, .add (.rkl 0) (.cp 0 0)),
  (5, .add (.rkl 0) (.cp 0 1)),
  (6, .add (.rkl 0) (.cp 0 2)),
  (7, .add (.rkl 0) (.cp 0 3)),
  (32, .num 1),
  (33, .num 1),
  (34, .num 1),
  (35, .num 1),
  (40, .cp 1 0),
  (41, .cp 1 1),
  (42, .cp 1 2),
  (43, .cp 1 3),
  (48, .add (.mul (.cp 1 0) (.cp 1 0)) (.b01 0)),
  (49, .add (.mul (.cp 1 1) (.cp 1 1)) (.b01 1)),
  (50, .add (.mul (.cp 1 2) (.cp 1 2)) (.b01 2)),
  (51, .add (.mul (.cp 1 3) (.cp 1 3)) (.b01 3)),
  (52, .add (.mul (.g 48) (.add (.rkl 1) (.cp 1 0))) (.mul (.mul (.cp 1 0) (.num 2)) (.b01 0))),
  (53, .add (.mul (.g 49) (.add (.rkl 1) (.cp 1 1))) (.mul (.mul (.cp 1 1) (.num 2)) (.b01 1))),
  (54, .add (.mul (.g 50) (.add (.rkl 1) (.cp 1 2))) (.mul (.mul (.cp 1 2) (.num 2)) (.b01 2))),
  (55, .add (.mul (.g 51) (.add (.rkl 1) (.cp 1 3))) (.mul (.mul (.cp 1 3) (.num 2)) (.b01 3))),
  (44, .add (.mul (.cp 1 0) (.add (.rkl 1) (.cp 1 0))) (.b01 0)),
  (45, .add (.mul (.cp 1 1) (.add (.rkl 1) (.cp 1 1))) (.b01 1)),
  (46, .add (.mul (.cp 1 2) (.add (.rkl 1) (.cp 1 2))) (.b01 2)),
  (47, .add (.mul (.cp 1 3) (.add (.rkl 1) (.cp 1 3))) (.b01 3)),
  (36, .add (.rkl 1) (.cp 1 0)),
  (37, .add (.rkl 1) (.cp 1 1)),
  (38, .add (.rkl 1) (.cp 1 2)),
  (39, .add (.rkl 1) (.cp 1 3)),
  (72, .mul (.cp 2 0) (.g 64)),
  (73, .mul (.cp 2 1) (.g 65)),
  (74, .mul (.cp 2 2) (.g 66)),
  (75, .mul (.cp 2 3) (.g 67)),
  (80, .add (.mul (.cp 2 0) (.g 72)) (.mul (.b01 0) (.g 64))),
  (81, .add (.mul (.cp 2 1) (.g 73)) (.mul (.b01 1) (.g 65))),
  (82, .add (.mul (.cp 2 2) (.g 74)) (.mul (.b01 2) (.g 66))),
  (83, .add (.mul (.cp 2 3) (.g 75)) (.mul (.b01 3) (.g 67))),
  (84, .add (.mul (.g 80) (.add (.rkl 2) (.cp 2 0))) (.mul (.mul (.num 2) (.b01 0)) (.g 72))),
  (85, .add (.mul (.g 81) (.add (.rkl 2) (.cp 2 1))) (.mul (.mul (.num 2) (.b01 1)) (.g 73))),
  (86, .add (.mul (.g 82) (.add (.rkl 2) (.cp 2 2))) (.mul (.mul (.num 2) (.b01 2)) (.g 74))),
  (87, .add (.mul (.g 83) (.add (.rkl 2) (.cp 2 3))) (.mul (.mul (.num 2) (.b01 3)) (.g 75))),
  (76, .add (.mul (.g 72) (.add (.rkl 2) (.cp 2 0))) (.mul (.b01 0) (.g 64))),
  (77, .add (.mul (.g 73) (.add (.rkl 2) (.cp 2 1))) (.mul (.b01 1) (.g 65))),
  (78, .add (.mul (.g 74) (.add (.rkl 2) (.cp 2 2))) (.mul (.b01 2) (.g 66))),
  (79, .add (.mul (.g 75) (.add (.rkl 2) (.cp 2 3))) (.mul (.b01 3) (.g 67))),
  (68, .mul (.g 64) (.add (.rkl 2) (.cp 2 0))),
  (69, .mul (.g 65) (.add (.rkl 2) (.cp 2 1))),
  (70, .mul (.g 66) (.add (.rkl 2) (.cp 2 2))),
  (71, .mul (.g 67) (.add (.rkl 2) (.cp 2 3)))]

/-- _srg0_2d4d_0020, src/g2e.c:2356-2398 -/
def srg0_2d4d_0020 : List (Nat × UExpr) := [
  (0, .num 1),
  (1, .num 1),
  (2, .num 1),
  (3, .num 1),
  (4, .cp 0 0),
  (5, .cp 0 1),
  (6, .cp 0 2),
  (7, .cp 0 3),
  (8, .add (.mul (.cp 0 0) (.cp 0 0)) (.b01 0)),
  (9, .add (.mul (.cp 0 1) (.cp 0 1)) (.b01 1)),
  (10, .add (.mul (.cp 0 2) (.cp 0 2)) (.b01 2)),
  (11, .add (.mul (.cp 0 3) (.cp 0 3)) (.b01 3)),
  (12, .num 1),
  (13, .num 1),
  (14, .num 1),
  (15, .num 1),
  (16, .cp 1 0),
  (17, .cp 1 1),
  (18, .cp 1 2),
  (19, .cp 1 3),
  (20, .add (.mul (.cp 1 0) (.cp 1 0)) (.b01 0)),
  (21, .add (.mul (.cp 1 1) (.cp 1 1)) (.b01 1)),
  (22, .add (.mul (.cp 1 2) (.cp 1 2)) (.b01 2)),
  (23, .add (.mul (.cp 1 3) (.cp 1 3)) (.b01 3)),
  (28, .mul (.cp 2 0) (.g 24)),
  (29, .mul (.cp 2 1) (.g 25)),
  (30, .mul (.cp 2 2) (.g 26)),
  (31, .mul (.cp 2 3) (.g 27)),
  (32, .add (.mul (.cp 2 0) (.g 28)) (.mul (.b01 0) (.g 24))),
  (33, .add (.mul (.cp 2 1) (.g 29)) (.mul (.b01 1) (.g 25))),
  (34, .add (.mul (.cp 2 2) (.g 30)) (.mul (.b01 2) (.g 26))),
  (35, .add (.mul (.cp 2 3) (.g 31)) (.mul (.b01 3) (.g 27)))]

/-- _srg0_2d4d_0021, src/g2e.c:2400-2481 -/
def srg0_2d4d_0021 : List (Nat × UExpr) := [
  (0, .num 1),
  (1, .num 1),
  (2, .num 1),
  (3, .num 1),
  (4, .cp 0 0),
  (5, .cp 0 1),
  (6, .cp 0 2),
  (7, .cp 0 3),
  (8, .add (.mul (.cp 0 0) (.cp 0 0)) (.b01 0)),
  (9, .add (.mul (.cp 0 1) (.cp 0 1)) (.b01 1)),
  (10, .add (.mul (.cp 0 2) (.cp 0 2)) (.b01 2)),
  (11, .add (.mul (.cp 0 3) (.cp 0 3)) (.b01 3)),
  (16, .add (.rkl 0) (.cp 0 0)),
  (17, .add (.rkl 0) (.cp 0 1)),
  (18, .add (.rkl 0) (.cp 0 2)),
  (19, .add (.rkl 0) (.cp 0 3)),
  (20, .add (.mul (.cp 0 0) (.add (.rkl 0) (.cp 0 0))) (.b01 0)),
  (21, .add (.mul (.cp 0 1) (.add (.rkl 0) (.cp 0 1))) (.b01 1)),
  (22, .add (.mul (.cp 0 2) (.add (.rkl 0) (.cp 0 2))) (.b01 2)),
  (23, .add (.mul (.cp 0 3) (.add (.rkl 0) (.cp 0 3))) (.b01 3)),
  (24, .add (.mul (.g 8) (.add (.rkl 0) (.cp 0 0))) (.mul (.mul (.cp 0 0) (.num 2)) (.b01 0))),
  (25, .add (.mul (.g 9) (.add (.rkl 0) (.cp 0 1))) (.mul (.mul (.cp 0 1) (.num 2)) (.b01 1))),
  (26, .add (.mul (.g 10) (.add (.rkl 0) (.cp 0 2))) (.mul (.mul (.cp 0 2) (.num 2)) (.b01 2))),
  (27, .add (.mul (.g 11) (.add (.rkl 0) (.cp 0 3))) (.mul (.mul (.cp 0 3) (.num 2)) (.b01 3))),
  (32, .num 1),
  (33, .num 1),
  (34, .num 1),
  (35, .num 1),
  (36, .cp 1 0),
  (37, .cp 1 1),
  (38, .cp 1 2),
  (39, .cp 1 3),
  (40, .add (.mul (.cp 1 0) (.cp 1 0)) (.b01 0)),
  (41, .add (.mul (.cp 1 1) (.cp 1 1)) (.b01 1)),
  (42, .add (.mul (.cp 1 2) (.cp 1 2)) (.b01 2)),
  (43, .add (.mul (.cp 1 3) (.cp 1 3)) (.b01 3)),
  (48, .add (.rkl 1) (.cp 1 0)),
  (49, .add (.rkl 1) (.cp 1 1)),
  (50, .add (.rkl 1) (.cp 1 2)),
  (51, .add (.rkl 1) (.cp 1 3)),
  (52, .add (.mul (.cp 1 0) (.add (.rkl 1) (.cp 1 0))) (.b01 0)),
  (53, .add (.mul (.cp 1 1) (.add (.rkl 1) (.cp 1 1))) (.b01 1)),
  (54, .add (.mul (.cp 1 2) (.add (.rkl 1) (.cp 1 2))) (.b01 2)),
  (55, .add (.mul (.cp 1 3) (.add (.rkl 1) (.cp 1 3))) (.b01 3)),
  (56, .add (.mul (.g 40) (.add (.rkl 1) (.cp 1 0))) (.mul (.mul (.cp 1 0) (.num 2)) (.b01 0))),
  (57, .add (.mul (.g 41) (.add (.rkl 1) (.cp 1 1))) (.mul (.mul (.cp 1 1) (.num 2)) (.b01 1))),
  (58, .add (.mul (.g 42) (.add (.rkl 1) (.cp 1 2))) (.mul (.mul (.cp 1 2) (.num 2)) (.b01 2))),
  (59, .add (.mul (.g 43) (.add (.rkl 1) (.cp 1 3))) (.mul (.mul (.cp 1 3) (.num 2)) (.b01 3))),
  (68, .mul (.cp 2 0) (.g 64)),
  (69, .mul (.cp 2 1) (.g 65)),
  (70, .mul (.cp 2 2) (.g 66)),
  (71, .mul (.cp 2 3) (.g 67)),
  (72, .add (.mul (.cp 2 0) (.g 68)) (.mul (.b01 0) (.g 64))),
  (73, .add (.mul (.cp 2 1) (.g 69)) (.mul (.b01 1) (.g 65))),
  (74, .add (.mul (.cp 2 2) (.g 70)) (.mul (.b01 2) (.g 66))),
  (75, .add (.mul (.cp 2 3) (.g 71)) (.mul (.b01 3) (.g 67))),
  (80, .mul (.g 64) (.add (.rkl 2) (.cp 2 0))),
  (81, .mul (.g 65) (.add (.rkl 2) (.cp 2 1))),
  (82, .mul (.g 66) (.add (.rkl 2) (.cp 2 2))),
  (83, .mul (.g 67) (.add (.rkl 2) (.cp 2 3))),
  (84, .add (.mul (.g 68) (.add (.rkl 2) (.cp 2 0))) (.mul (.b01 0) (.g 64))),
  (85, .add (.mul (.g 69) (.add (.rkl 2) (.cp 2 1))) (.mul (.b01 1) (.g 65))),
  (86, .add (.mul (.g 70) (.add (.rkl 2) (.cp 2 2))) (.mul (.b01 2) (.g 66))),
  (87, .add (.mul (.g 71) (.add (.rkl 2) (.cp 2 3))) (.mul (.b01 3) (.g 67))),
  (88, .add (.mul (.g 72) (.add (.rkl 2) (.cp 2 0))) (.mul (.mul (.num 2) (.b01 0)) (.g 68))),
  (89, .add (.mul (.g 73) (.add (.rkl 2) (.cp 2 1))) (.mul (.mul (.num 2) (.b01 1)) (.g 69))),
  (90, .add (.mul (.g 74) (.add (.rkl 2) (.cp 2 2))) (.mul (.mul (.num 2) (.b01 2)) (.g 70))),
  (91, .add (.mul (.g 75) (.add (.rkl 2) (.cp 2 3))) (.mul (.mul (.num 2) (.b01 3)) (.g 71)))]

/-- _srg0_2d4d_0030, src/g2e.c:2483-2537 -/
def srg0_2d4d_0030 : List (Nat × UExpr) := [
  (0, .num 1),
  (1, .num 1),
  (2, .num 1),
  (3, .num 1),
  (4, .cp 0 0),
  (5, .cp 0 1),
  (6, .cp 0 2),
  (7, .cp 0 3),
  (8, .add (.mul (.cp 0 0) (.cp 0 0)) (.b01 0)),
  (9, .add (.mul (.cp 0 1) (.cp 0 1)) (.b01 1)),
  (10, .add (.mul (.cp 0 2) (.cp 0 2)) (.b01 2)),
  (11, .add (.mul (.cp 0 3) (.cp 0 3)) (.b01 3)),
  (12, .mul (.cp 0 0) (.add (.g 8) (.mul (.num 2) (.b01 0)))),
  (13, .mul (.cp 0 1) (.add (.g 9) (.mul (.num 2) (.b01 1)))),
  (14, .mul (.cp 0 2) (.add (.g 10) (.mul (.num 2) (.b01 2)))),
  (15, .mul (.cp 0 3) (.add (.g 11) (.mul (.num 2) (.b01 3)))),
  (16, .num 1),
  (17, .num 1),
  (18, .num 1),
  (19, .num 1),
  (20, .cp 1 0),
  (21, .cp 1 1),
  (22, .cp 1 2),
  (23, .cp 1 3),
  (24, .add (.mul (.cp 1 0) (.cp 1 0)) (.b01 0)),
  (25, .add (.mul (.cp 1 1) (.cp 1 1)) (.b01 1)),
  (26, .add (.mul (.cp 1 2) (.cp 1 2)) (.b01 2)),
  (27, .add (.mul (.cp 1 3) (.cp 1 3)) (.b01 3)),
  (28, .mul (.cp 1 0) (.add (.g 24) (.mul (.num 2) (.b01 0)))),
  (29, .mul (.cp 1 1) (.add (.g 25) (.mul (.num 2) (.b01 1)))),
  (30, .mul (.cp 1 2) (.add (.g 26) (.mul (.num 2) (.b01 2)))),
  (31, .mul (.cp 1 3) (.add (.g 27) (.mul (.num 2) (.b01 3)))),
  (36, .mul (.cp 2 0) (.g 32)),
  (37, .mul (.cp 2 1) (.g 33)),
  (38, .mul (.cp 2 2) (.g 34)),
  (39, .mul (.cp 2 3) (.g 35)),
  (40, .add (.mul (.cp 2 0) (.g 36)) (.mul (.b01 0) (.g 32))),
  (41, .add (.mul (.cp 2 1) (.g 37)) (.mul (.b01 1) (.g 33))),
  (42, .add (.mul (.cp 2 2) (.g 38)) (.mul (.b01 2) (.g 34))),
  (43, .add (.mul (.cp 2 3) (.g 39)) (.mul (.b01 3) (.g 35))),
  (44, .add (.mul (.cp 2 0) (.g 40)) (.mul (.mul (.num 2) (.b01 0)) (.g 36))),
  (45, .add (.mul (.cp 2 1) (.g 41)) (.mul (.mul (.num 2) (.b01 1)) (.g 37))),
  (46, .add (.mul (.cp 2 2) (.g 42)) (.mul (.mul (.num 2) (.b01 2)) (.g 38))),
  (47, .add (.mul (.cp 2 3) (.g 43)) (.mul (.mul (.num 2) (.b01 3)) (.g 39)))]

/-- _srg0_2d4d_0100, src/g2e.c:2539-2556 -/
def srg0_2d4d_0100 : List (Nat × UExpr) := [
  (0, .num 1),
  (1, .num 1),
  (2, .c0 0 0),
  (3, .c0 0 1),
  (4, .num 1),
  (5, .num 1),
  (6, .c0 1 0),
  (7, .c0 1 1),
  (10, .mul (.c0 2 0) (.g 8)),
  (11, .mul (.c0 2 1) (.g 9))]

/-- _srg0_2d4d_0101, src/g2e.c:2558-2615 -/
def srg0_2d4d_0101 : List (Nat × UExpr) := [
  (0, .num 1),
  (1, .num 1),
  (2, .num 1),
  (3, .num 1),
  (4, .cp 0 0),
  (5, .cp 0 1),
  (6, .cp 0 2),
  (7, .cp 0 3),
  (8, .c0 0 0),
  (9, .c0 0 1),
  (10, .c0 0 2),
  (11, .c0 0 3),
  (12, .add (.mul (.cp 0 0) (.c0 0 0)) (.b00 0)),
  (13, .add (.mul (.cp 0 1) (.c0 0 1)) (.b00 1)),
  (14, .add (.mul (.cp 0 2) (.c0 0 2)) (.b00 2)),
  (15, .add (.mul (.cp 0 3) (.c0 0 3)) (.b00 3)),
  (16, .num 1),
  (17, .num 1),
  (18, .num 1),
  (19, .num 1),
  (20, .cp 1 0),
  (21, .cp 1 1),
  (22, .cp 1 2),
  (23, .cp 1 3),
  (24, .c0 1 0),
  (25, .c0 1 1),
  (26, .c0 1 2),
  (27, .c0 1 3),
  (28, .add (.mul (.cp 1 0) (.c0 1 0)) (.b00 0)),
  (29, .add (.mul (.cp 1 1) (.c0 1 1)) (.b00 1)),
  (30, .add (.mul (.cp 1 2) (.c0 1 2)) (.b00 2)),
  (31, .add (.mul (.cp 1 3) (.c0 1 3)) (.b00 3)),
  (36, .mul (.cp 2 0) (.g 32)),
  (37, .mul (.cp 2 1) (.g 33)),
  (38, .mul (.cp 2 2) (.g 34)),
  (39, .mul (.cp 2 3) (.g 35)),
  (40, .mul (.c0 2 0) (.g 32)),
  (41, .mul (.c0 2 1) (.g 33)),
  (42, .mul (.c0 2 2) (.g 34)),
  (43, .mul (.c0 2 3) (.g 35)),
  (44, .add (.mul (.cp 2 0) (.g 40)) (.mul (.b00 0) (.g 32))),
  (45, .add (.mul (.cp 2 1) (.g 41)) (.mul (.b00 1) (.g 33))),
  (46, .add (.mul (.cp 2 2) (.g 42)) (.mul (.b00 2) (.g 34))),
  (47, .add (.mul (.cp 2 3) (.g 43)) (.mul (.b00 3) (.g 35)))]

/-- _srg0_2d4d_0102, src/g2e.c:2617-2699 -/
def srg0_2d4d_0102 : List (Nat × UExpr) := [
  (0, .num 1),
  (1, .num 1),
  (2, .num 1),
  (3, .num 1),
  (4, .cp 0 0),
  (5, .cp 0 1),
  (6, .cp 0 2),
  (7, .cp 0 3),
  (12, .c0 0 0),
  (13, .c0 0 1),
  (14, .c0 0 2),
  (15, .c0 0 3),
  (8, .add (.mul (.cp 0 0) (.cp 0 0)) (.b01 0)),
  (9, .add (.mul (.cp 0 1) (.cp 0 1)) (.b01 1)),
  (10, .add (.mul (.cp 0 2) (.cp 0 2)) (.b01 2)),
  (11, .add (.mul (.cp 0 3) (.cp 0 3)) (.b01 3)),
  (16, .add (.mul (.cp 0 0) (.c0 0 0)) (.b00 0)),
  (17, .add (.mul (.cp 0 1) (.c0 0 1)) (.b00 1)),
  (18, .add (.mul (.cp 0 2) (.c0 0 2)) (.b00 2)),
  (19, .add (.mul (.cp 0 3) (.c0 0 3)) (.b00 3)),
  (20, .add (.mul (.cp 0 0) (.add (.g 16) (.b00 0))) (.mul (.b01 0) (.c0 0 0))),
  (21, .add (.mul (.cp 0 1) (.add (.g 17) (.b00 1))) (.mul (.b01 1) (.c0 0 1))),
  (22, .add (.mul (.cp 0 2) (.add (.g 18) (.b00 2))) (.mul (.b01 2) (.c0 0 2))),
  (23, .add (.mul (.cp 0 3) (.add (.g 19) (.b00 3))) (.mul (.b01 3) (.c0 0 3))),
  (24, .num 1),
  (25, .num 1),
  (26, .num 1),
  (27, .num 1),
  (28, .cp 1 0),
  (29, .cp 1 1),
  (30, .cp 1 2),
  (31, .cp 1 3),
  (36, .c0 1 0),
  (37, .c0 1 1),
  (38, .c0 1 2),
  (39, .c0 1 3),
  (32, .add (.mul (.cp 1 0) (.cp 1 0)) (.b01 0)),
  (33, .add (.mul (.cp 1 1) (.cp 1 1)) (.b01 1)),
  (34, .add (.mul (.cp 1 2) (.cp 1 2)) (.b01 2)),
  (35, .add (.mul (.cp 1 3) (.cp 1 3)) (.b01 3)),
  (40, .add (.mul (.cp 1 0) (.c0 1 0)) (.b00 0)),
  (41, .add (.mul (.cp 1 1) (.c0 1 1)) (.b00 1)),
  (42, .add (.mul (.cp 1 2) (.c0 1 2)) (.b00 2)),
  (43, .add (.mul (.cp 1 3) (.c0 1 3)) (.b00 3)),
  (44, .add (.mul (.cp 1 0) (.add (.g 40) (.b00 0))) (.mul (.b01 0) (.c0 1 0))),
  (45, .add (.mul (.cp 1 1) (.add (.g 41) (.b00 1))) (.mul (.b01 1) (.c0 1 1))),
  (46, .add (.mul (.cp 1 2) (.add (.g 42) (.b00 2))) (.mul (.b01 2) (.c0 1 2))),
  (47, .add (.mul (.cp 1 3) (.add (.g 43) (.b00 3))) (.mul (.b01 3) (.c0 1 3))),
  (52, .mul (.cp 2 0) (.g 48)),
  (53, .mul (.cp 2 1) (.g 49)),
  (54, .mul (.cp 2 2) (.g 50)),
  (55, .mul (.cp 2 3) (.g 51)),
  (60, .mul (.c0 2 0) (.g 48)),
  (61, .mul (.c0 2 1) (.g 49)),
  (62, .mul (.c0 2 2) (.g 50)),
  (63, .mul (.c0 2 3) (.g 51)),
  (56, .add (.mul (.cp 2 0) (.g 52)) (.mul (.b01 0) (.g 48))),
  (57, .add (.mul (.cp 2 1) (.g 53)) (.mul (.b01 1) (.g 49))),
  (58, .add (.mul (.cp 2 2) (.g 54)) (.mul (.b01 2) (.g 50))),
  (59, .add (.mul (.cp 2 3) (.g 55)) (.mul (.b01 3) (.g 51))),
  (64, .add (.mul (.cp 2 0) (.g 60)) (.mul (.b00 0) (.g 48))),
  (65, .add (.mul (.cp 2 1) (.g 61)) (.mul (.b00 1) (.g 49))),
  (66, .add (.mul (.cp 2 2) (.g 62)) (.mul (.b00 2) (.g 50))),
  (67, .add (.mul (.cp 2 3) (.g 63)) (.mul (.b00 3) (.g 51))),
  (68, .add (.add (.mul (.cp 2 0) (.g 64)) (.mul (.b01 0) (.g 60))) (.mul (.b00 0) (.g 52))),
  (69, .add (.add (.mul (.cp 2 1) (.g 65)) (.mul (.b01 1) (.g 61))) (.mul (.b00 1) (.g 53))),
  (70, .add (.add (.mul (.cp 2 2) (.g 66)) (.mul (.b01 2) (.g 62))) (.mul (.b00 2) (.g 54))),
  (71, .add (.add (.mul (.cp 2 3) (.g 67)) (.mul (.b01 3) (.g 63))) (.mul (.b00 3) (.g 55)))]

/-- _srg0_2d4d_0110, src/g2e.c:2701-2758 -/
def srg0_2d4d_0110 : List (Nat × UExpr) := [
  (0, .num 1),
  (1, .num 1),
  (2, .num 1),
  (3, .num 1),
  (4, .cp 0 0),
  (5, .cp 0 1),
  (6, .cp 0 2),
  (7, .cp 0 3),
  (8, .c0 0 0),
  (9, .c0 0 1),
  (10, .c0 0 2),
  (11, .c0 0 3),
  (12, .add (.mul (.cp 0 0) (.c0 0 0)) (.b00 0)),
  (13, .add (.mul (.cp 0 1) (.c0 0 1)) (.b00 1)),
  (14, .add (.mul (.cp 0 2) (.c0 0 2)) (.b00 2)),
  (15, .add (.mul (.cp 0 3) (.c0 0 3)) (.b00 3)),
  (16, .num 1),
  (17, .num 1),
  (18, .num 1),
  (19, .num 1),
  (20, .cp 1 0),
  (21, .cp 1 1),
  (22, .cp 1 2),
  (23, .cp 1 3),
  (24, .c0 1 0),
  (25, .c0 1 1),
  (26, .c0 1 2),
  (27, .c0 1 3),
  (28, .add (.mul (.cp 1 0) (.c0 1 0)) (.b00 0)),
  (29, .add (.mul (.cp 1 1) (.c0 1 1)) (.b00 1)),
  (30, .add (.mul (.cp 1 2) (.c0 1 2)) (.b00 2)),
  (31, .add (.mul (.cp 1 3) (.c0 1 3)) (.b00 3)),
  (36, .mul (.cp 2 0) (.g 32)),
  (37, .mul (.cp 2 1) (.g 33)),
  (38, .mul (.cp 2 2) (.g 34)),
  (39, .mul (.cp 2 3) (.g 35)),
  (40, .mul (.c0 2 0) (.g 32)),
  (41, .mul (.c0 2 1) (.g 33)),
  (42, .mul (.c0 2 2) (.g 34)),
  (43, .mul (.c0 2 3) (.g 35)),
  (44, .add (.mul (.cp 2 0) (.g 40)) (.mul (.b00 0) (.g 32))),
  (45, .add (.mul (.cp 2 1) (.g 41)) (.mul (.b00 1) (.g 33))),
  (46, .add (.mul (.cp 2 2) (.g 42)) (.mul (.b00 2) (.g 34))),
  (47, .add (.mul (.cp 2 3) (.g 43)) (.mul (.b00 3) (.g 35)))]

/-- _srg0_2d4d_0111, src/g2e.c:2760-2869 -/
def srg0_2d4d_0111 : List (Nat × UExpr) := [
  (0, .num 1),
  (1, .num 1),
  (2, .num 1),
  (3, .num 1),
  (24, .c0 0 0),
  (25, .c0 0 1),
  (26, .c0 0 2),
  (27, .c0 0 3),
  (8, .cp 0 0),
  (9, .cp 0 1),
  (10, .cp 0 2),
  (11, .cp 0 3),
  (32, .add (.mul (.cp 0 0) (.c0 0 0)) (.b00 0)),
  (33, .add (.mul (.cp 0 1) (.c0 0 1)) (.b00 1)),
  (34, .add (.mul (.cp 0 2) (.c0 0 2)) (.b00 2)),
  (35, .add (.mul (.cp 0 3) (.c0 0 3)) (.b00 3)),
  (12, .add (.mul (.cp 0 0) (.add (.rkl 0) (.cp 0 0))) (.b01 0)),
  (13, .add (.mul (.cp 0 1) (.add (.rkl 0) (.cp 0 1))) (.b01 1)),
  (14, .add (.mul (.cp 0 2) (.add (.rkl 0) (.cp 0 2))) (.b01 2)),
  (15, .add (.mul (.cp 0 3) (.add (.rkl 0) (.cp 0 3))) (.b01 3)),
  (36, .add (.add (.mul (.g 32) (.add (.rkl 0) (.cp 0 0))) (.mul (.cp 0 0) (.b00 0))) (.mul (.b01 0) (.c0 0 0))),
  (37, .add (.add (.mul (.g 33) (.add (.rkl 0) (.cp 0 1))) (.mul (.cp 0 1) (.b00 1))) (.mul (.b01 1) (.c0 0 1))),
  (38, .add (.add (.mul (.g 34) (.add (.rkl 0) (.cp 0 2))) (.mul (.cp 0 2) (.b00 2))) (.mul (.b01 2) (.c0 0 2))),
  (39, .add (.add (.mul (.g 35) (.add (.rkl 0) (.cp 0 3))) (.mul (.cp 0 3) (.b00 3))) (.mul (.b01 3) (.c0 0 3))),
  (4, .add (.rkl 0) (.cp 0 0)),
  (5, .add (.rkl 0) (.cp 0 1)),
  (6, .add (.rkl 0) (.cp 0 2)),
  (7, .add (.rkl 0) (.cp 0 3)),
  (28, .add (.mul (.c0 0 0) (.add (.rkl 0) (.cp 0 0))) (.b00 0)),
  (29, .add (.mul (.c0 0 1) (.add (.rkl 0) (.cp 0 1))) (.b00 1)),
  (30, .add (.mul (.c0 0 2) (.add (.rkl 0) (.cp 0 2))) (.b00 2)),
  (31, .add (.mul (.c0 0 3) (.add (.rkl 0) (.cp 0 3))) (.b00 3)),
  (48, .num 1),
  (49, .num 1),
  (50, .num 1),
  (51, .num 1),
  (72, .c0 1 0),
  (73, .c0 1 1),
  (74, .c0 1 2),
  (75, .c0 1 3),
  (56, .cp 1 0),
  (57, .cp 1 1),
  (58, .cp 1 2),
  (59, .cp 1 3),
  (80, .add (.mul (.cp 1 0) (.c0 1 0)) (.b00 0)),
  (81, .add (.mul (.cp 1 1) (.c0 1 1)) (.b00 1)),
  (82, .add (.mul (.cp 1 2) (.c0 1 2)) (.b00 2)),
  (83, .add (.mul (.cp 1 3) (.c0 1 3)) (.b00 3)),
  (60, .add (.mul (.cp 1 0) (.add (.rkl 1) (.cp 1 0))) (.b01 0)),
  (61, .add (.mul (.cp 1 1) (.add (.rkl 1) (.cp 1 1))) (.b01 1)),
  (62, .add (.mul (.cp 1 2) (.add (.rkl 1) (.cp 1 2))) (.b01 2)),
  (63, .add (.mul (.cp 1 3) (.add (.rkl 1) (.cp 1 3))) (.b01 3)),
  (84, .add (.add (.mul (.g 80) (.add (.rkl 1) (.cp 1 0))) (.mul (.cp 1 0) (.b00 0))) (.mul (.b01 0) (.c0 1 0))),
  (85, .add (.add (.mul (.g 81) (.add (.rkl 1) (.cp 1 1))) (.mul (.cp 1 1) (.b00 1))) (.mul (.b01 1) (.c0 1 1))),
  (86, .add (.add (.mul (.g 82) (.add (.rkl 1) (.cp 1 2))) (.mul (.cp 1 2) (.b00 2))) (.mul (.b01 2) (.c0 1 2))),
  (87, .add (.add (.mul (.g 83) (.add (.rkl 1) (.cp 1 3))) (.mul (.cp 1 3) (.b00 3))) (.mul (.b01 3) (.c0 1 3))),
  (52, .add (.rkl 1) (.cp 1 0)),
  (53, .add (.rkl 1) (.cp 1 1)),
  (54, .add (.rkl 1) (.cp 1 2)),
  (55, .add (.rkl 1) (.cp 1 3)),
  (76, .add (.mul (.c0 1 0) (.add (.rkl 1) (.cp 1 0))) (.b00 0)),
  (77, .add (.mul (.c0 1 1) (.add (.rkl 1) (.cp 1 1))) (.b00 1)),
  (78, .add (.mul (.c0 1 2) (.add (.rkl 1) (.cp 1 2))) (.b00 2)),
  (79, .add (.mul (.c0 1 3) (.add (.rkl 1) (.cp 1 3))) (.b00 3)),
  (120, .mul (.c0 2 0) (.g 96)),
  (121, .mul (.c0 2 1) (.g 97)),
  (122, .mul (.c0 2 2) (.g 98)),
  (123, .mul (.c0 2 3) (.g 99)),
  (104, .mul (.cp 2 0) (.g 96)),
  (105, .mul (.cp 2 1) (.g 97)),
  (106, .mul (.cp 2 2) (.g 98)),
  (107, .mul (.cp 2 3) (.g 99)),
  (128, .add (.mul (.cp 2 0) (.g 120)) (.mul (.b00 0) (.g 96))),
  (129, .add (.mul (.cp 2 1) (.g 121)) (.mul (.b00 1) (.g 97))),
  (130, .add (.mul (.cp 2 2) (.g 122)) (.mul (.b00 2) (.g 98))),
  (131, .add (.mul (.cp 2 3) (.g 123)) (.mul (.b00 3) (.g 99))),
  (108, .add (.mul (.g 104) (.add (.rkl 2) (.cp 2 0))) (.mul (.b01 0) (.g 96))),
  (109, .add (.mul (.g 105) (.add (.rkl 2) (.cp 2 1))) (.mul (.b01 1) (.g 97))),
  (110, .add (.mul (.g 106) (.add (.rkl 2) (.cp 2 2))) (.mul (.b01 2) (.g 98))),
  (111, .add (.mul (.g 107) (.add (.rkl 2) (.cp 2 3))) (.mul (.b01 3) (.g 99))),
  (132, .add (.add (.mul (.g 128) (.add (.rkl 2) (.cp 2 0))) (.mul (.b01 0) (.g 120))) (.mul (.b00 0) (.g 104))),
  (133, .add (.add (.mul (.g 129) (.add (.rkl 2) (.cp 2 1))) (.mul (.b01 1) (.g 121))) (.mul (.b00 1) (.g 105))),
  (134, .add (.add (.mul (.g 130) (.add (.rkl 2) (.cp 2 2))) (.mul (.b01 2) (.g 122))) (.mul (.b00 2) (.g 106))),
  (135, .add (.add (.mul (.g 131) (.add (.rkl 2) (.cp 2 3))) (.mul (.b01 3) (.g 123))) (.mul (.b00 3) (.g 107))),
  (100, .mul (.g 96) (.add (.rkl 2) (.cp 2 0))),
  (101, .mul (.g 97) (.add (.rkl 2) (.cp 2 1))),
  (102, .mul (.g 98) (.add (.rkl 2) (.cp 2 2))),
  (103, .mul (.g 99) (.add (.rkl 2) (.cp 2 3))),
  (124, .add (.mul (.g 120) (.add (.rkl 2) (.cp 2 0))) (.mul (.b00 0) (.g 96))),
  (125, .add (.mul (.g 121) (.add (.rkl 2) (.cp 2 1))) (.mul (.b00 1) (.g 97))),
  (126, .add (.mul (.g 122) (.add (.rkl 2) (.cp 2 2))) (.mul (.b00 2) (.g 98))),
  (127, .add (.mul (.g 123) (.add (.rkl 2) (.cp 2 3))) (.mul (.b00 3) (.g 99)))]

/-- _srg0_2d4d_0120, src/g2e.c:2871-2953 -/
def srg0_2d4d_0120 : List (Nat × UExpr) := [
  (0, .num 1),
  (1, .num 1),
  (2, .num 1),
  (3, .num 1),
  (4, .cp 0 0),
  (5, .cp 0 1),
  (6, .cp 0 2),
  (7, .cp 0 3),
  (12, .c0 0 0),
  (13, .c0 0 1),
  (14, .c0 0 2),
  (15, .c0 0 3),
  (8, .add (.mul (.cp 0 0) (.cp 0 0)) (.b01 0)),
  (9, .add (.mul (.cp 0 1) (.cp 0 1)) (.b01 1)),
  (10, .add (.mul (.cp 0 2) (.cp 0 2)) (.b01 2)),
  (11, .add (.mul (.cp 0 3) (.cp 0 3)) (.b01 3)),
  (16, .add (.mul (.cp 0 0) (.c0 0 0)) (.b00 0)),
  (17, .add (.mul (.cp 0 1) (.c0 0 1)) (.b00 1)),
  (18, .add (.mul (.cp 0 2) (.c0 0 2)) (.b00 2)),
  (19, .add (.mul (.cp 0 3) (.c0 0 3)) (.b00 3)),
  (20, .add (.mul (.cp 0 0) (.add (.g 16) (.b00 0))) (.mul (.b01 0) (.c0 0 0))),
  (21, .add (.mul (.cp 0 1) (.add (.g 17) (.b00 1))) (.mul (.b01 1) (.c0 0 1))),
  (22, .add (.mul (.cp 0 2) (.add (.g 18) (.b00 2))) (.mul (.b01 2) (.c0 0 2))),
  (23, .add (.mul (.cp 0 3) (.add (.g 19) (.b00 3))) (.mul (.b01 3) (.c0 0 3))),
  (24, .num 1),
  (25, .num 1),
  (26, .num 1),
  (27, .num 1),
  (28, .cp 1 0),
  (29, .cp 1 1),
  (30, .cp 1 2),
  (31, .cp 1 3),
  (36, .c0 1 0),
  (37, .c0 1 1),
  (38, .c0 1 2),
  (39, .c0 1 3),
  (32, .add (.mul (.cp 1 0) (.cp 1 0)) (.b01 0)),
  (33, .add (.mul (.cp 1 1) (.cp 1 1)) (.b01 1)),
  (34, .add (.mul (.cp 1 2) (.cp 1 2)) (.b01 2)),
  (35, .add (.mul (.cp 1 3) (.cp 1 3)) (.b01 3)),
  (40, .add (.mul (.cp 1 0) (.c0 1 0)) (.b00 0)),
  (41, .add (.mul (.cp 1 1) (.c0 1 1)) (.b00 1)),
  (42, .add (.mul (.cp 1 2) (.c0 1 2)) (.b00 2)),
  (43, .add (.mul (.cp 1 3) (.c0 1 3)) (.b00 3)),
  (44, .add (.mul (.cp 1 0) (.add (.g 40) (.b00 0))) (.mul (.b01 0) (.c0 1 0))),
  (45, .add (.mul (.cp 1 1) (.add (.g 41) (.b00 1))) (.mul (.b01 1) (.c0 1 1))),
  (46, .add (.mul (.cp 1 2) (.add (.g 42) (.b00 2))) (.mul (.b01 2) (.c0 1 2))),
  (47, .add (.mul (.cp 1 3) (.add (.g 43) (.b00 3))) (.mul (.b01 3) (.c0 1 3))),
  (52, .mul (.cp 2 0) (.g 48)),
  (53, .mul (.cp 2 1) (.g 49)),
  (54, .mul (.cp 2 2) (.g 50)),
  (55, .mul (.cp 2 3) (.g 51)),
  (60, .mul (.c0 2 0) (.g 48)),
  (61, .mul (.c0 2 1) (.g 49)),
  (62, .mul (.c0 2 2) (.g 50)),
  (63, .mul (.c0 2 3) (.g 51)),
  (56, .add (.mul (.cp 2 0) (.g 52)) (.mul (.b01 0) (.g 48))),
  (57, .add (.mul (.cp 2 1) (.g 53)) (.mul (.b01 1) (.g 49))),
  (58, .add (.mul (.cp 2 2) (.g 54)) (.mul (.b01 2) (.g 50))),
  (59, .add (.mul (.cp 2 3) (.g 55)) (.mul (.b01 3) (.g 51))),
  (64, .add (.mul (.cp 2 0) (.g 60)) (.mul (.b00 0) (.g 48))),
  (65, .add (.mul (.cp 2 1) (.g 61)) (.mul (.b00 1) (.g 49))),
  (66, .add (.mul (.cp 2 2) (.g 62)) (.mul (.b00 2) (.g 50))),
  (67, .add (.mul (.cp 2 3) (.g 63)) (.mul (.b00 3) (.g 51))),
  (68, .add (.add (.mul (.cp 2 0) (.g 64)) (.mul (.b01 0) (.g 60))) (.mul (.b00 0) (.g 52))),
  (69, .add (.add (.mul (.cp 2 1) (.g 65)) (.mul (.b01 1) (.g 61))) (.mul (.b00 1) (.g 53))),
  (70, .add (.add (.mul (.cp 2 2) (.g 66)) (.mul (.b01 2) (.g 62))) (.mul (.b00 2) (.g 54))),
  (71, .add (.add (.mul (.cp 2 3) (.g 67)) (.mul (.b01 3) (.g 63))) (.mul (.b00 3) (.g 55)))]

/-- _srg0_2d4d_0200, src/g2e.c:2955-2997 -/
def srg0_2d4d_0200 : List (Nat × UExpr) := [
  (0, .num 1),
  (1, .num 1),
  (2, .num 1),
  (3, .num 1),
  (4, .c0 0 0),
  (5, .c0 0 1),
  (6, .c0 0 2),
  (7, .c0 0 3),
  (8, .add (.mul (.c0 0 0) (.c0 0 0)) (.b10 0)),
  (9, .add (.mul (.c0 0 1) (.c0 0 1)) (.b10 1)),
  (10, .add (.mul (.c0 0 2) (.c0 0 2)) (.b10 2)),
  (11, .add (.mul (.c0 0 3) (.c0 0 3)) (.b10 3)),
  (12, .num 1),
  (13, .num 1),
  (14, .num 1),
  (15, .num 1),
  (16, .c0 1 0),
  (17, .c0 1 1),
  (18, .c0 1 2),
  (19, .c0 1 3),
  (20, .add (.mul (.c0 1 0) (.c0 1 0)) (.b10 0)),
  (21, .add (.mul (.c0 1 1) (.c0 1 1)) (.b10 1)),
  (22, .add (.mul (.c0 1 2) (.c0 1 2)) (.b10 2)),
  (23, .add (.mul (.c0 1 3) (.c0 1 3)) (.b10 3)),
  (28, .mul (.c0 2 0) (.g 24)),
  (29, .mul (.c0 2 1) (.g 25)),
  (30, .mul (.c0 2 2) (.g 26)),
  (31, .mul (.c0 2 3) (.g 27)),
  (32, .add (.mul (.c0 2 0) (.g 28)) (.mul (.b10 0) (.g 24))),
  (33, .add (.mul (.c0 2 1) (.g 29)) (.mul (.b10 1) (.g 25))),
  (34, .add (.mul (.c0 2 2) (.g 30)) (.mul (.b10 2) (.g 26))),
  (35, .add (.mul (.c0 2 3) (.g 31)) (.mul (.b10 3) (.g 27)))]

/-- _srg0_2d4d_0201, src/g2e.c:2999-3081 -/
def srg0_2d4d_0201 : List (Nat × UExpr) := [
  (0, .num 1),
  (1, .num 1),
  (2, .num 1),
  (3, .num 1),
  (8, .c0 0 0),
  (9, .c0 0 1),
  (10, .c0 0 2),
  (11, .c0 0 3),
  (16, .add (.mul (.c0 0 0) (.c0 0 0)) (.b10 0)),
  (17, .add (.mul (.c0 0 1) (.c0 0 1)) (.b10 1)),
  (18, .add (.mul (.c0 0 2) (.c0 0 2)) (.b10 2)),
  (19, .add (.mul (.c0 0 3) (.c0 0 3)) (.b10 3)),
  (4, .cp 0 0),
  (5, .cp 0 1),
  (6, .cp 0 2),
  (7, .cp 0 3),
  (12, .add (.mul (.cp 0 0) (.c0 0 0)) (.b00 0)),
  (13, .add (.mul (.cp 0 1) (.c0 0 1)) (.b00 1)),
  (14, .add (.mul (.cp 0 2) (.c0 0 2)) (.b00 2)),
  (15, .add (.mul (.cp 0 3) (.c0 0 3)) (.b00 3)),
  (20, .add (.mul (.c0 0 0) (.add (.g 12) (.b00 0))) (.mul (.b10 0) (.cp 0 0))),
  (21, .add (.mul (.c0 0 1) (.add (.g 13) (.b00 1))) (.mul (.b10 1) (.cp 0 1))),
  (22, .add (.mul (.c0 0 2) (.add (.g 14) (.b00 2))) (.mul (.b10 2) (.cp 0 2))),
  (23, .add (.mul (.c0 0 3) (.add (.g 15) (.b00 3))) (.mul (.b10 3) (.cp 0 3))),
  (24, .num 1),
  (25, .num 1),
  (26, .num 1),
  (27, .num 1),
  (32, .c0 1 0),
  (33, .c0 1 1),
  (34, .c0 1 2),
  (35, .c0 1 3),
  (40, .add (.mul (.c0 1 0) (.c0 1 0)) (.b10 0)),
  (41, .add (.mul (.c0 1 1) (.c0 1 1)) (.b10 1)),
  (42, .add (.mul (.c0 1 2) (.c0 1 2)) (.b10 2)),
  (43, .add (.mul (.c0 1 3) (.c0 1 3)) (.b10 3)),
  (28, .cp 1 0),
  (29, .cp 1 1),
  (30, .cp 1 2),
  (31, .cp 1 3),
  (36, .add (.mul (.cp 1 0) (.c0 1 0)) (.b00 0)),
  (37, .add (.mul (.cp 1 1) (.c0 1 1)) (.b00 1)),
  (38, .add (.mul (.cp 1 2) (.c0 1 2)) (.b00 2)),
  (39, .add (.mul (.cp 1 3) (.c0 1 3)) (.b00 3)),
  (44, .add (.mul (.c0 1 0) (.add (.g 36) (.b00 0))) (.mul (.b10 0) (.cp 1 0))),
  (45, .add (.mul (.c0 1 1) (.add (.g 37) (.b00 1))) (.mul (.b10 1) (.cp 1 1))),
  (46, .add (.mul (.c0 1 2) (.add (.g 38) (.b00 2))) (.mul (.b10 2) (.cp 1 2))),
  (47, .add (.mul (.c0 1 3) (.add (.g 39) (.b00 3))) (.mul (.b10 3) (.cp 1 3))),
  (56, .mul (.c0 2 0) (.g 48)),
  (57, .mul (.c0 2 1) (.g 49)),
  (58, .mul (.c0 2 2) (.g 50)),
  (59, .mul (.c0 2 3) (.g 51)),
  (64, .add (.mul (.c0 2 0) (.g 56)) (.mul (.b10 0) (.g 48))),
  (65, .add (.mul (.c0 2 1) (.g 57)) (.mul (.b10 1) (.g 49))),
  (66, .add (.mul (.c0 2 2) (.g 58)) (.mul (.b10 2) (.g 50))),
  (67, .add (.mul (.c0 2 3) (.g 59)) (.mul (.b10 3) (.g 51))),
  (52, .mul (.cp 2 0) (.g 48)),
  (53, .mul (.cp 2 1) (.g 49)),
  (54, .mul (.cp 2 2) (.g 50)),
  (55, .mul (.cp 2 3) (.g 51)),
  (60, .add (.mul (.cp 2 0) (.g 56)) (.mul (.b00 0) (.g 48))),
  (61, .add (.mul (.cp 2 1) (.g 57)) (.mul (.b00 1) (.g 49))),
  (62, .add (.mul (.cp 2 2) (.g 58)) (.mul (.b00 2) (.g 50))),
  (63, .add (.mul (.cp 2 3) (.g 59)) (.mul (.b00 3) (.g 51))),
  (68, .add (.add (.mul (.c0 2 0) (.g 60)) (.mul (.b10 0) (.g 52))) (.mul (.b00 0) (.g 56))),
  (69, .add (.add (.mul (.c0 2 1) (.g 61)) (.mul (.b10 1) (.g 53))) (.mul (.b00 1) (.g 57))),
  (70, .add (.add (.mul (.c0 2 2) (.g 62)) (.mul (.b10 2) (.g 54))) (.mul (.b00 2) (.g 58))),
  (71, .add (.add (.mul (.c0 2 3) (.g 63)) (.mul (.b10 3) (.g 55))) (.mul (.b00 3) (.g 59)))]

/-- _srg0_2d4d_0210, src/g2e.c:3083-3165 -/
def srg0_2d4d_0210 : List (Nat × UExpr) := [
  (0, .num 1),
  (1, .num 1),
  (2, .num 1),
  (3, .num 1),
  (4, .cp 0 0),
  (5, .cp 0 1),
  (6, .cp 0 2),
  (7, .cp 0 3),
  (8, .c0 0 0),
  (9, .c0 0 1),
  (10, .c0 0 2),
  (11, .c0 0 3),
  (12, .add (.mul (.cp 0 0) (.c0 0 0)) (.b00 0)),
  (13, .add (.mul (.cp 0 1) (.c0 0 1)) (.b00 1)),
  (14, .add (.mul (.cp 0 2) (.c0 0 2)) (.b00 2)),
  (15, .add (.mul (.cp 0 3) (.c0 0 3)) (.b00 3)),
  (16, .add (.mul (.c0 0 0) (.c0 0 0)) (.b10 0)),
  (17, .add (.mul (.c0 0 1) (.c0 0 1)) (.b10 1)),
  (18, .add (.mul (.c0 0 2) (.c0 0 2)) (.b10 2)),
  (19, .add (.mul (.c0 0 3) (.c0 0 3)) (.b10 3)),
  (20, .add (.mul (.c0 0 0) (.add (.g 12) (.b00 0))) (.mul (.b10 0) (.cp 0 0))),
  (21, .add (.mul (.c0 0 1) (.add (.g 13) (.b00 1))) (.mul (.b10 1) (.cp 0 1))),
  (22, .add (.mul (.c0 0 2) (.add (.g 14) (.b00 2))) (.mul (.b10 2) (.cp 0 2))),
  (23, .add (.mul (.c0 0 3) (.add (.g 15) (.b00 3))) (.mul (.b10 3) (.cp 0 3))),
  (24, .num 1),
  (25, .num 1),
  (26, .num 1),
  (27, .num 1),
  (28, .cp 1 0),
  (29, .cp 1 1),
  (30, .cp 1 2),
  (31, .cp 1 3),
  (32, .c0 1 0),
  (33, .c0 1 1),
  (34, .c0 1 2),
  (35, .c0 1 3),
  (36, .add (.mul (.cp 1 0) (.c0 1 0)) (.b00 0)),
  (37, .add (.mul (.cp 1 1) (.c0 1 1)) (.b00 1)),
  (38, .add (.mul (.cp 1 2) (.c0 1 2)) (.b00 2)),
  (39, .add (.mul (.cp 1 3) (.c0 1 3)) (.b00 3)),
  (40, .add (.mul (.c0 1 0) (.c0 1 0)) (.b10 0)),
  (41, .add (.mul (.c0 1 1) (.c0 1 1)) (.b10 1)),
  (42, .add (.mul (.c0 1 2) (.c0 1 2)) (.b10 2)),
  (43, .add (.mul (.c0 1 3) (.c0 1 3)) (.b10 3)),
  (44, .add (.mul (.c0 1 0) (.add (.g 36) (.b00 0))) (.mul (.b10 0) (.cp 1 0))),
  (45, .add (.mul (.c0 1 1) (.add (.g 37) (.b00 1))) (.mul (.b10 1) (.cp 1 1))),
  (46, .add (.mul (.c0 1 2) (.add (.g 38) (.b00 2))) (.mul (.b10 2) (.cp 1 2))),
  (47, .add (.mul (.c0 1 3) (.add (.g 39) (.b00 3))) (.mul (.b10 3) (.cp 1 3))),
  (52, .mul (.cp 2 0) (.g 48)),
  (53, .mul (.cp 2 1) (.g 49)),
  (54, .mul (.cp 2 2) (.g 50)),
  (55, .mul (.cp 2 3) (.g 51)),
  (56, .mul (.c0 2 0) (.g 48)),
  (57, .mul (.c0 2 1) (.g 49)),
  (58, .mul (.c0 2 2) (.g 50)),
  (59, .mul (.c0 2 3) (.g 51)),
  (60, .add (.mul (.cp 2 0) (.g 56)) (.mul (.b00 0) (.g 48))),
  (61, .add (.mul (.cp 2 1) (.g 57)) (.mul (.b00 1) (.g 49))),
  (62, .add (.mul (.cp 2 2) (.g 58)) (.mul (.b00 2) (.g 50))),
  (63, .add (.mul (.cp 2 3) (.g 59)) (.mul (.b00 3) (.g 51))),
  (64, .add (.mul (.c0 2 0) (.g 56)) (.mul (.b10 0) (.g 48))),
  (65, .add (.mul (.c0 2 1) (.g 57)) (.mul (.b10 1) (.g 49))),
  (66, .add (.mul (.c0 2 2) (.g 58)) (.mul (.b10 2) (.g 50))),
  (67, .add (.mul (.c0 2 3) (.g 59)) (.mul (.b10 3) (.g 51))),
  (68, .add (.add (.mul (.c0 2 0) (.g 60)) (.mul (.b10 0) (.g 52))) (.mul (.b00 0) (.g 56))),
  (69, .add (.add (.mul (.c0 2 1) (.g 61)) (.mul (.b10 1) (.g 53))) (.mul (.b00 1) (.g 57))),
  (70, .add (.add (.mul (.c0 2 2) (.g 62)) (.mul (.b10 2) (.g 54))) (.mul (.b00 2) (.g 58))),
  (71, .add (.add (.mul (.c0 2 3) (.g 63)) (.mul (.b10 3) (.g 55))) (.mul (.b00 3) (.g 59)))]

/-- _srg0_2d4d_0300, src/g2e.c:3167-3221 -/
def srg0_2d4d_0300 : List (Nat × UExpr) := [
  (0, .num 1),
  (1, .num 1),
  (2, .num 1),
  (3, .num 1),
  (4, .c0 0 0),
  (5, .c0 0 1),
  (6, .c0 0 2),
  (7, .c0 0 3),
  (8, .add (.mul (.c0 0 0) (.c0 0 0)) (.b10 0)),
  (9, .add (.mul (.c0 0 1) (.c0 0 1)) (.b10 1)),
  (10, .add (.mul (.c0 0 2) (.c0 0 2)) (.b10 2)),
  (11, .add (.mul (.c0 0 3) (.c0 0 3)) (.b10 3)),
  (12, .mul (.c0 0 0) (.add (.g 8) (.mul (.num 2) (.b10 0)))),
  (13, .mul (.c0 0 1) (.add (.g 9) (.mul (.num 2) (.b10 1)))),
  (14, .mul (.c0 0 2) (.add (.g 10) (.mul (.num 2) (.b10 2)))),
  (15, .mul (.c0 0 3) (.add (.g 11) (.mul (.num 2) (.b10 3)))),
  (16, .num 1),
  (17, .num 1),
  (18, .num 1),
  (19, .num 1),
  (20, .c0 1 0),
  (21, .c0 1 1),
  (22, .c0 1 2),
  (23, .c0 1 3),
  (24, .add (.mul (.c0 1 0) (.c0 1 0)) (.b10 0)),
  (25, .add (.mul (.c0 1 1) (.c0 1 1)) (.b10 1)),
  (26, .add (.mul (.c0 1 2) (.c0 1 2)) (.b10 2)),
  (27, .add (.mul (.c0 1 3) (.c0 1 3)) (.b10 3)),
  (28, .mul (.c0 1 0) (.add (.g 24) (.mul (.num 2) (.b10 0)))),
  (29, .mul (.c0 1 1) (.add (.g 25) (.mul (.num 2) (.b10 1)))),
  (30, .mul (.c0 1 2) (.add (.g 26) (.mul (.num 2) (.b10 2)))),
  (31, .mul (.c0 1 3) (.add (.g 27) (.mul (.num 2) (.b10 3)))),
  (36, .mul (.c0 2 0) (.g 32)),
  (37, .mul (.c0 2 1) (.g 33)),
  (38, .mul (.c0 2 2) (.g 34)),
  (39, .mul (.c0 2 3) (.g 35)),
  (40, .add (.mul (.c0 2 0) (.g 36)) (.mul (.b10 0) (.g 32))),
  (41, .add (.mul (.c0 2 1) (.g 37)) (.mul (.b10 1) (.g 33))),
  (42, .add (.mul (.c0 2 2) (.g 38)) (.mul (.b10 2) (.g 34))),
  (43, .add (.mul (.c0 2 3) (.g 39)) (.mul (.b10 3) (.g 35))),
  (44, .add (.mul (.c0 2 0) (.g 40)) (.mul (.mul (.num 2) (.b10 0)) (.g 36))),
  (45, .add (.mul (.c0 2 1) (.g 41)) (.mul (.mul (.num 2) (.b10 1)) (.g 37))),
  (46, .add (.mul (.c0 2 2) (.g 42)) (.mul (.mul (.num 2) (.b10 2)) (.g 38))),
  (47, .add (.mul (.c0 2 3) (.g 43)) (.mul (.mul (.num 2) (.b10 3)) (.g 39)))]

/-- _srg0_2d4d_1000, src/g2e.c:3223-3240 -/
def srg0_2d4d_1000 : List (Nat × UExpr) := [
  (0, .num 1),
  (1, .num 1),
  (2, .c0 0 0),
  (3, .c0 0 1),
  (4, .num 1),
  (5, .num 1),
  (6, .c0 1 0),
  (7, .c0 1 1),
  (10, .mul (.c0 2 0) (.g 8)),
  (11, .mul (.c0 2 1) (.g 9))]

/-- _srg0_2d4d_1001, src/g2e.c:3242-3299 -/
def srg0_2d4d_1001 : List (Nat × UExpr) := [
  (0, .num 1),
  (1, .num 1),
  (2, .num 1),
  (3, .num 1),
  (4, .c0 0 0),
  (5, .c0 0 1),
  (6, .c0 0 2),
  (7, .c0 0 3),
  (8, .cp 0 0),
  (9, .cp 0 1),
  (10, .cp 0 2),
  (11, .cp 0 3),
  (12, .add (.mul (.cp 0 0) (.c0 0 0)) (.b00 0)),
  (13, .add (.mul (.cp 0 1) (.c0 0 1)) (.b00 1)),
  (14, .add (.mul (.cp 0 2) (.c0 0 2)) (.b00 2)),
  (15, .add (.mul (.cp 0 3) (.c0 0 3)) (.b00 3)),
  (16, .num 1),
  (17, .num 1),
  (18, .num 1),
  (19, .num 1),
  (20, .c0 1 0),
  (21, .c0 1 1),
  (22, .c0 1 2),
  (23, .c0 1 3),
  (24, .cp 1 0),
  (25, .cp 1 1),
  (26, .cp 1 2),
  (27, .cp 1 3),
  (28, .add (.mul (.cp 1 0) (.c0 1 0)) (.b00 0)),
  (29, .add (.mul (.cp 1 1) (.c0 1 1)) (.b00 1)),
  (30, .add (.mul (.cp 1 2) (.c0 1 2)) (.b00 2)),
  (31, .add (.mul (.cp 1 3) (.c0 1 3)) (.b00 3)),
  (36, .mul (.c0 2 0) (.g 32)),
  (37, .mul (.c0 2 1) (.g 33)),
  (38, .mul (.c0 2 2) (.g 34)),
  (39, .mul (.c0 2 3) (.g 35)),
  (40, .mul (.cp 2 0) (.g 32)),
  (41, .mul (.cp 2 1) (.g 33)),
  (42, .mul (.cp 2 2) (.g 34)),
  (43, .mul (.cp 2 3) (.g 35)),
  (44, .add (.mul (.cp 2 0) (.g 36)) (.mul (.b00 0) (.g 32))),
  (45, .add (.mul (.cp 2 1) (.g 37)) (.mul (.b00 1) (.g 33))),
  (46, .add (.mul (.cp 2 2) (.g 38)) (.mul (.b00 2) (.g 34))),
  (47, .add (.mul (.cp 2 3) (.g 39)) (.mul (.b00 3) (.g 35)))]

/-- _srg0_2d4d_1002, src/g2e.c:3301-3383 -/
def srg0_2d4d_1002 : List (Nat × UExpr) := [
  (0, .num 1),
  (1, .num 1),
  (2, .num 1),
  (3, .num 1),
  (4, .c0 0 0),
  (5, .c0 0 1),
  (6, .c0 0 2),
  (7, .c0 0 3),
  (8, .cp 0 0),
  (9, .cp 0 1),
  (10, .cp 0 2),
  (11, .cp 0 3),
  (12, .add (.mul (.cp 0 0) (.c0 0 0)) (.b00 0)),
  (13, .add (.mul (.cp 0 1) (.c0 0 1)) (.b00 1)),
  (14, .add (.mul (.cp 0 2) (.c0 0 2)) (.b00 2)),
  (15, .add (.mul (.cp 0 3) (.c0 0 3)) (.b00 3)),
  (16, .add (.mul (.cp 0 0) (.cp 0 0)) (.b01 0)),
  (17, .add (.mul (.cp 0 1) (.cp 0 1)) (.b01 1)),
  (18, .add (.mul (.cp 0 2) (.cp 0 2)) (.b01 2)),
  (19, .add (.mul (.cp 0 3) (.cp 0 3)) (.b01 3)),
  (20, .add (.mul (.cp 0 0) (.add (.g 12) (.b00 0))) (.mul (.b01 0) (.c0 0 0))),
  (21, .add (.mul (.cp 0 1) (.add (.g 13) (.b00 1))) (.mul (.b01 1) (.c0 0 1))),
  (22, .add (.mul (.cp 0 2) (.add (.g 14) (.b00 2))) (.mul (.b01 2) (.c0 0 2))),
  (23, .add (.mul (.cp 0 3) (.add (.g 15) (.b00 3))) (.mul (.b01 3) (.c0 0 3))),
  (24, .num 1),
  (25, .num 1),
  (26, .num 1),
  (27, .num 1),
  (28, .c0 1 0),
  (29, .c0 1 1),
  (30, .c0 1 2),
  (31, .c0 1 3),
  (32, .cp 1 0),
  (33, .cp 1 1),
  (34, .cp 1 2),
  (35, .cp 1 3),
  (36, .add (.mul (.cp 1 0) (.c0 1 0)) (.b00 0)),
  (37, .add (.mul (.cp 1 1) (.c0 1 1)) (.b00 1)),
  (38, .add (.mul (.cp 1 2) (.c0 1 2)) (.b00 2)),
  (39, .add (.mul (.cp 1 3) (.c0 1 3)) (.b00 3)),
  (40, .add (.mul (.cp 1 0) (.cp 1 0)) (.b01 0)),
  (41, .add (.mul (.cp 1 1) (.cp 1 1)) (.b01 1)),
  (42, .add (.mul (.cp 1 2) (.cp 1 2)) (.b01 2)),
  (43, .add (.mul (.cp 1 3) (.cp 1 3)) (.b01 3)),
  (44, .add (.mul (.cp 1 0) (.add (.g 36) (.b00 0))) (.mul (.b01 0) (.c0 1 0))),
  (45, .add (.mul (.cp 1 1) (.add (.g 37) (.b00 1))) (.mul (.b01 1) (.c0 1 1))),
  (46, .add (.mul (.cp 1 2) (.add (.g 38) (.b00 2))) (.mul (.b01 2) (.c0 1 2))),
  (47, .add (.mul (.cp 1 3) (.add (.g 39) (.b00 3))) (.mul (.b01 3) (.c0 1 3))),
  (52, .mul (.c0 2 0) (.g 48)),
  (53, .mul (.c0 2 1) (.g 49)),
  (54, .mul (.c0 2 2) (.g 50)),
  (55, .mul (.c0 2 3) (.g 51)),
  (56, .mul (.cp 2 0) (.g 48)),
  (57, .mul (.cp 2 1) (.g 49)),
  (58, .mul (.cp 2 2) (.g 50)),
  (59, .mul (.cp 2 3) (.g 51)),
  (60, .add (.mul (.cp 2 0) (.g 52)) (.mul (.b00 0) (.g 48))),
  (61, .add (.mul (.cp 2 1) (.g 53)) (.mul (.b00 1) (.g 49))),
  (62, .add (.mul (.cp 2 2) (.g 54)) (.mul (.b00 2) (.g 50))),
  (63, .add (.mul (.cp 2 3) (.g 55)) (.mul (.b00 3) (.g 51))),
  (64, .add (.mul (.cp 2 0) (.g 56)) (.mul (.b01 0) (.g 48))),
  (65, .add (.mul (.cp 2 1) (.g 57)) (.mul (.b01 1) (.g 49))),
  (66, .add (.mul (.cp 2 2) (.g 58)) (.mul (.b01 2) (.g 50))),
  (67, .add (.mul (.cp 2 3) (.g 59)) (.mul (.b01 3) (.g 51))),
  (68, .add (.add (.mul (.cp 2 0) (.g 60)) (.mul (.b01 0) (.g 52))) (.mul (.b00 0) (.g 56))),
  (69, .add (.add (.mul (.cp 2 1) (.g 61)) (.mul (.b01 1) (.g 53))) (.mul (.b00 1) (.g 57))),
  (70, .add (.add (.mul (.cp 2 2) (.g 62)) (.mul (.b01 2) (.g 54))) (.mul (.b00 2) (.g 58))),
  (71, .add (.add (.mul (.cp 2 3) (.g 63)) (.mul (.b01 3) (.g 55))) (.mul (.b00 3) (.g 59)))]

/-- _srg0_2d4d_1010, src/g2e.c:3385-3442 -/
def srg0_2d4d_1010 : List (Nat × UExpr) := [
  (0, .num 1),
  (1, .num 1),
  (2, .num 1),
  (3, .num 1),
  (4, .c0 0 0),
  (5, .c0 0 1),
  (6, .c0 0 2),
  (7, .c0 0 3),
  (8, .cp 0 0),
  (9, .cp 0 1),
  (10, .cp 0 2),
  (11, .cp 0 3),
  (12, .add (.mul (.cp 0 0) (.c0 0 0)) (.b00 0)),
  (13, .add (.mul (.cp 0 1) (.c0 0 1)) (.b00 1)),
  (14, .add (.mul (.cp 0 2) (.c0 0 2)) (.b00 2)),
  (15, .add (.mul (.cp 0 3) (.c0 0 3)) (.b00 3)),
  (16, .num 1),
  (17, .num 1),
  (18, .num 1),
  (19, .num 1),
  (20, .c0 1 0),
  (21, .c0 1 1),
  (22, .c0 1 2),
  (23, .c0 1 3),
  (24, .cp 1 0),
  (25, .cp 1 1),
  (26, .cp 1 2),
  (27, .cp 1 3),
  (28, .add (.mul (.cp 1 0) (.c0 1 0)) (.b00 0)),
  (29, .add (.mul (.cp 1 1) (.c0 1 1)) (.b00 1)),
  (30, .add (.mul (.cp 1 2) (.c0 1 2)) (.b00 2)),
  (31, .add (.mul (.cp 1 3) (.c0 1 3)) (.b00 3)),
  (36, .mul (.c0 2 0) (.g 32)),
  (37, .mul (.c0 2 1) (.g 33)),
  (38, .mul (.c0 2 2) (.g 34)),
  (39, .mul (.c0 2 3) (.g 35)),
  (40, .mul (.cp 2 0) (.g 32)),
  (41, .mul (.cp 2 1) (.g 33)),
  (42, .mul (.cp 2 2) (.g 34)),
  (43, .mul (.cp 2 3) (.g 35)),
  (44, .add (.mul (.cp 2 0) (.g 36)) (.mul (.b00 0) (.g 32))),
  (45, .add (.mul (.cp 2 1) (.g 37)) (.mul (.b00 1) (.g 33))),
  (46, .add (.mul (.cp 2 2) (.g 38)) (.mul (.b00 2) (.g 34))),
  (47, .add (.mul (.cp 2 3) (.g 39)) (.mul (.b00 3) (.g 35)))]

/-- _srg0_2d4d_1011, src/g2e.c:3444-3553 -/
def srg0_2d4d_1011 : List (Nat × UExpr) := [
  (0, .num 1),
  (1, .num 1),
  (2, .num 1),
  (3, .num 1),
  (4, .c0 0 0),
  (5, .c0 0 1),
  (6, .c0 0 2),
  (7, .c0 0 3),
  (16, .cp 0 0),
  (17, .cp 0 1),
  (18, .cp 0 2),
  (19, .cp 0 3),
  (20, .add (.mul (.cp 0 0) (.c0 0 0)) (.b00 0)),
  (21, .add (.mul (.cp 0 1) (.c0 0 1)) (.b00 1)),
  (22, .add (.mul (.cp 0 2) (.c0 0 2)) (.b00 2)),
  (23, .add (.mul (.cp 0 3) (.c0 0 3)) (.b00 3)),
  (24, .add (.mul (.cp 0 0) (.add (.rkl 0) (.cp 0 0))) (.b01 0)),
  (25, .add (.mul (.cp 0 1) (.add (.rkl 0) (.cp 0 1))) (.b01 1)),
  (26, .add (.mul (.cp 0 2) (.add (.rkl 0) (.cp 0 2))) (.b01 2)),
  (27, .add (.mul (.cp 0 3) (.add (.rkl 0) (.cp 0 3))) (.b01 3)),
  (28, .add (.add (.mul (.g 20) (.add (.rkl 0) (.cp 0 0))) (.mul (.cp 0 0) (.b00 0))) (.mul (.b01 0) (.c0 0 0))),
  (29, .add (.add (.mul (.g 21) (.add (.rkl 0) (.cp 0 1))) (.mul (.cp 0 1) (.b00 1))) (.mul (.b01 1) (.c0 0 1))),
  (30, .add (.add (.mul (.g 22) (.add (.rkl 0) (.cp 0 2))) (.mul (.cp 0 2) (.b00 2))) (.mul (.b01 2) (.c0 0 2))),
  (31, .add (.add (.mul (.g 23) (.add (.rkl 0) (.cp 0 3))) (.mul (.cp 0 3) (.b00 3))) (.mul (.b01 3) (.c0 0 3))),
  (8, .add (.rkl 0) (.cp 0 0)),
  (9, .add (.rkl 0) (.cp 0 1)),
  (10, .add (.rkl 0) (.cp 0 2)),
  (11, .add (.rkl 0) (.cp 0 3)),
  (12, .add (.mul (.c0 0 0) (.add (.rkl 0) (.cp 0 0))) (.b00 0)),
  (13, .add (.mul (.c0 0 1) (.add (.rkl 0) (.cp 0 1))) (.b00 1)),
  (14, .add (.mul (.c0 0 2) (.add (.rkl 0) (.cp 0 2))) (.b00 2)),
  (15, .add (.mul (.c0 0 3) (.add (.rkl 0) (.cp 0 3))) (.b00 3)),
  (48, .num 1),
  (49, .num 1),
  (50, .num 1),
  (51, .num 1),
  (52, .c0 1 0),
  (53, .c0 1 1),
  (54, .c0 1 2),
  (55, .c0 1 3),
  (64, .cp 1 0),
  (65, .cp 1 1),
  (66, .cp 1 2),
  (67, .cp 1 3),
  (68, .add (.mul (.cp 1 0) (.c0 1 0)) (.b00 0)),
  (69, .add (.mul (.cp 1 1) (.c0 1 1)) (.b00 1)),
  (70, .add (.mul (.cp 1 2) (.c0 1 2)) (.b00 2)),
  (71, .add (.mul (.cp 1 3) (.c0 1 3)) (.b00 3)),
  (72, .add (.mul (.cp 1 0) (.add (.rkl 1) (.cp 1 0))) (.b01 0)),
  (73, .add (.mul (.cp 1 1) (.add (.rkl 1) (.cp 1 1))) (.b01 1)),
  (74, .add (.mul (.cp 1 2) (.add (.rkl 1) (.cp 1 2))) (.b01 2)),
  (75, .add (.mul (.cp 1 3) (.add (.rkl 1) (.cp 1 3))) (.b01 3)),
  (76, .add (.add (.mul (.g 68) (.add (.rkl 1) (.cp 1 0))) (.mul (.cp 1 0) (.b00 0))) (.mul (.b01 0) (.c0 1 0))),
  (77, .add (.add (.mul (.g 69) (.add (.rkl 1) (.cp 1 1))) (.mul (.cp 1 1) (.b00 1))) (.mul (.b01 1) (.c0 1 1))),
  (78, .add (.add (.mul (.g 70) (.add (.rkl 1) (.cp 1 2))) (.mul (.cp 1 2) (.b00 2))) (.mul (.b01 2) (.c0 1 2))),
  (79, .add (.add (.mul (.g 71) (.add (.rkl 1) (.cp 1 3))) (.mul (.cp 1 3) (.b00 3))) (.mul (.b01 3) (.c0 1 3))),
  (56, .add (.rkl 1) (.cp 1 0)),
  (57, .add (.rkl 1) (.cp 1 1)),
  (58, .add (.rkl 1) (.cp 1 2)),
  (59, .add (.rkl 1) (.cp 1 3)),
  (60, .add (.mul (.c0 1 0) (.add (.rkl 1) (.cp 1 0))) (.b00 0)),
  (61, .add (.mul (.c0 1 1) (.add (.rkl 1) (.cp 1 1))) (.b00 1)),
  (62, .add (.mul (.c0 1 2) (.add (.rkl 1) (.cp 1 2))) (.b00 2)),
  (63, .add (.mul (.c0 1 3) (.add (.rkl 1) (.cp 1 3))) (.b00 3)),
  (100, .mul (.c0 2 0) (.g 96)),
  (101, .mul (.c0 2 1) (.g 97)),
  (102, .mul (.c0 2 2) (.g 98)),
  (103, .mul (.c0 2 3) (.g 99)),
  (112, .mul (.cp 2 0) (.g 96)),
  (113, .mul (.cp 2 1) (.g 97)),
  (114, .mul (.cp 2 2) (.g 98)),
  (115, .mul (.cp 2 3) (.g 99)),
  (116, .add (.mul (.cp 2 0) (.g 100)) (.mul (.b00 0) (.g 96))),
  (117, .add (.mul (.cp 2 1) (.g 101)) (.mul (.b00 1) (.g 97))),
  (118, .add (.mul (.cp 2 2) (.g 102)) (.mul (.b00 2) (.g 98))),
  (119, .add (.mul (.cp 2 3) (.g 103)) (.mul (.b00 3) (.g 99))),
  (120, .add (.mul (.g 112) (.add (.rkl 2) (.cp 2 0))) (.mul (.b01 0) (.g 96))),
  (121, .add (.mul (.g 113) (.add (.rkl 2) (.cp 2 1))) (.mul (.b01 1) (.g 97))),
  (122, .add (.mul (.g 114) (.add (.rkl 2) (.cp 2 2))) (.mul (.b01 2) (.g 98))),
  (123, .add (.mul (.g 115) (.add (.rkl 2) (.cp 2 3))) (.mul (.b01 3) (.g 99))),
  (124, .add (.add (.mul (.g 116) (.add (.rkl 2) (.cp 2 0))) (.mul (.b01 0) (.g 100))) (.mul (.b00 0) (.g 112))),
  (125, .add (.add (.mul (.g 117) (.add (.rkl 2) (.cp 2 1))) (.mul (.b01 1) (.g 101))) (.mul (.b00 1) (.g 113))),
  (126, .add (.add (.mul (.g 118) (.add (.rkl 2) (.cp 2 2))) (.mul (.b01 2) (.g 102))) (.mul (.b00 2) (.g 114))),
  (127, .add (.add (.mul (.g 119) (.add (.rkl 2) (.cp 2 3))) (.mul (.b01 3) (.g 103))) (.mul (.b00 3) (.g 115))),
  (104, .mul (.g 96) (.add (.rkl 2) (.cp 2 0))),
  (105, .mul (.g 97) (.add (.rkl 2) (.cp 2 1))),
  (106, .mul (.g 98) (.add (.rkl 2) (.cp 2 2))),
  (107, .mul (.g 99) (.add (.rkl 2) (.cp 2 3))),
  (108, .add (.mul (.g 100) (.add (.rkl 2) (.cp 2 0))) (.mul (.b00 0) (.g 96))),
  (109, .add (.mul (.g 101) (.add (.rkl 2) (.cp 2 1))) (.mul (.b00 1) (.g 97))),
  (110, .add (.mul (.g 102) (.add (.rkl 2) (.cp 2 2))) (.mul (.b00 2) (.g 98))),
  (111, .add (.mul (.g 103) (.add (.rkl 2) (.cp 2 3))) (.mul (.b00 3) (.g 99)))]

/-- _srg0_2d4d_1020, src/g2e.c:3555-3637 -/
def srg0_2d4d_1020 : List (Nat × UExpr) := [
  (0, .num 1),
  (1, .num 1),
  (2, .num 1),
  (3, .num 1),
  (4, .c0 0 0),
  (5, .c0 0 1),
  (6, .c0 0 2),
  (7, .c0 0 3),
  (8, .cp 0 0),
  (9, .cp 0 1),
  (10, .cp 0 2),
  (11, .cp 0 3),
  (12, .add (.mul (.cp 0 0) (.c0 0 0)) (.b00 0)),
  (13, .add (.mul (.cp 0 1) (.c0 0 1)) (.b00 1)),
  (14, .add (.mul (.cp 0 2) (.c0 0 2)) (.b00 2)),
  (15, .add (.mul (.cp 0 3) (.c0 0 3)) (.b00 3)),
  (16, .add (.mul (.cp 0 0) (.cp 0 0)) (.b01 0)),
  (17, .add (.mul (.cp 0 1) (.cp 0 1)) (.b01 1)),
  (18, .add (.mul (.cp 0 2) (.cp 0 2)) (.b01 2)),
  (19, .add (.mul (.cp 0 3) (.cp 0 3)) (.b01 3)),
  (20, .add (.mul (.cp 0 0) (.add (.g 12) (.b00 0))) (.mul (.b01 0) (.c0 0 0))),
  (21, .add (.mul (.cp 0 1) (.add (.g 13) (.b00 1))) (.mul (.b01 1) (.c0 0 1))),
  (22, .add (.mul (.cp 0 2) (.add (.g 14) (.b00 2))) (.mul (.b01 2) (.c0 0 2))),
  (23, .add (.mul (.cp 0 3) (.add (.g 15) (.b00 3))) (.mul (.b01 3) (.c0 0 3))),
  (24, .num 1),
  (25, .num 1),
  (26, .num 1),
  (27, .num 1),
  (28, .c0 1 0),
  (29, .c0 1 1),
  (30, .c0 1 2),
  (31, .c0 1 3),
  (32, .cp 1 0),
  (33, .cp 1 1),
  (34, .cp 1 2),
  (35, .cp 1 3),
  (36, .add (.mul (.cp 1 0) (.c0 1 0)) (.b00 0)),
  (37, .add (.mul (.cp 1 1) (.c0 1 1)) (.b00 1)),
  (38, .add (.mul (.cp 1 2) (.c0 1 2)) (.b00 2)),
  (39, .add (.mul (.cp 1 3) (.c0 1 3)) (.b00 3)),
  (40, .add (.mul (.cp 1 0) (.cp 1 0)) (.b01 0)),
  (41, .add (.mul (.cp 1 1) (.cp 1 1)) (.b01 1)),
  (42, .add (.mul (.cp 1 2) (.cp 1 2)) (.b01 2)),
  (43, .add (.mul (.cp 1 3) (.cp 1 3)) (.b01 3)),
  (44, .add (.mul (.cp 1 0) (.add (.g 36) (.b00 0))) (.mul (.b01 0) (.c0 1 0))),
  (45, .add (.mul (.cp 1 1) (.add (.g 37) (.b00 1))) (.mul (.b01 1) (.c0 1 1))),
  (46, .add (.mul (.cp 1 2) (.add (.g 38) (.b00 2))) (.mul (.b01 2) (.c0 1 2))),
  (47, .add (.mul (.cp 1 3) (.add (.g 39) (.b00 3))) (.mul (.b01 3) (.c0 1 3))),
  (52, .mul (.c0 2 0) (.g 48)),
  (53, .mul (.c0 2 1) (.g 49)),
  (54, .mul (.c0 2 2) (.g 50)),
  (55, .mul (.c0 2 3) (.g 51)),
  (56, .mul (.cp 2 0) (.g 48)),
  (57, .mul (.cp 2 1) (.g 49)),
  (58, .mul (.cp 2 2) (.g 50)),
  (59, .mul (.cp 2 3) (.g 51)),
  (60, .add (.mul (.cp 2 0) (.g 52)) (.mul (.b00 0) (.g 48))),
  (61, .add (.mul (.cp 2 1) (.g 53)) (.mul (.b00 1) (.g 49))),
  (62, .add (.mul (.cp 2 2) (.g 54)) (.mul (.b00 2) (.g 50))),
  (63, .add (.mul (.cp 2 3) (.g 55)) (.mul (.b00 3) (.g 51))),
  (64, .add (.mul (.cp 2 0) (.g 56)) (.mul (.b01 0) (.g 48))),
  (65, .add (.mul (.cp 2 1) (.g 57)) (.mul (.b01 1) (.g 49))),
  (66, .add (.mul (.cp 2 2) (.g 58)) (.mul (.b01 2) (.g 50))),
  (67, .add (.mul (.cp 2 3) (.g 59)) (.mul (.b01 3) (.g 51))),
  (68, .add (.add (.mul (.cp 2 0) (.g 60)) (.mul (.b01 0) (.g 52))) (.mul (.b00 0) (.g 56))),
  (69, .add (.add (.mul (.cp 2 1) (.g 61)) (.mul (.b01 1) (.g 53))) (.mul (.b00 1) (.g 57))),
  (70, .add (.add (.mul (.cp 2 2) (.g 62)) (.mul (.b01 2) (.g 54))) (.mul (.b00 2) (.g 58))),
  (71, .add (.add (.mul (.cp 2 3) (.g 63)) (.mul (.b01 3) (.g 55))) (.mul (.b00 3) (.g 59)))]

/-- _srg0_2d4d_1100, src/g2e.c:3639-3696 -/
def srg0_2d4d_1100 : List (Nat × UExpr) := [
  (0, .num 1),
  (1, .num 1),
  (2, .num 1),
  (3, .num 1),
  (8, .c0 0 0),
  (9, .c0 0 1),
  (10, .c0 0 2),
  (11, .c0 0 3),
  (12, .add (.mul (.c0 0 0) (.add (.rij 0) (.c0 0 0))) (.b10 0)),
  (13, .add (.mul (.c0 0 1) (.add (.rij 0) (.c0 0 1))) (.b10 1)),
  (14, .add (.mul (.c0 0 2) (.add (.rij 0) (.c0 0 2))) (.b10 2)),
  (15, .add (.mul (.c0 0 3) (.add (.rij 0) (.c0 0 3))) (.b10 3)),
  (4, .add (.rij 0) (.c0 0 0)),
  (5, .add (.rij 0) (.c0 0 1)),
  (6, .add (.rij 0) (.c0 0 2)),
  (7, .add (.rij 0) (.c0 0 3)),
  (24, .num 1),
  (25, .num 1),
  (26, .num 1),
  (27, .num 1),
  (32, .c0 1 0),
  (33, .c0 1 1),
  (34, .c0 1 2),
  (35, .c0 1 3),
  (36, .add (.mul (.c0 1 0) (.add (.rij 1) (.c0 1 0))) (.b10 0)),
  (37, .add (.mul (.c0 1 1) (.add (.rij 1) (.c0 1 1))) (.b10 1)),
  (38, .add (.mul (.c0 1 2) (.add (.rij 1) (.c0 1 2))) (.b10 2)),
  (39, .add (.mul (.c0 1 3) (.add (.rij 1) (.c0 1 3))) (.b10 3)),
  (28, .add (.rij 1) (.c0 1 0)),
  (29, .add (.rij 1) (.c0 1 1)),
  (30, .add (.rij 1) (.c0 1 2)),
  (31, .add (.rij 1) (.c0 1 3)),
  (56, .mul (.c0 2 0) (.g 48)),
  (57, .mul (.c0 2 1) (.g 49)),
  (58, .mul (.c0 2 2) (.g 50)),
  (59, .mul (.c0 2 3) (.g 51)),
  (60, .add (.mul (.g 56) (.add (.rij 2) (.c0 2 0))) (.mul (.b10 0) (.g 48))),
  (61, .add (.mul (.g 57) (.add (.rij 2) (.c0 2 1))) (.mul (.b10 1) (.g 49))),
  (62, .add (.mul (.g 58) (.add (.rij 2) (.c0 2 2))) (.mul (.b10 2) (.g 50))),
  (63, .add (.mul (.g 59) (.add (.rij 2) (.c0 2 3))) (.mul (.b10 3) (.g 51))),
  (52, .mul (.g 48) (.add (.rij 2) (.c0 2 0))),
  (53, .mul (.g 49) (.add (.rij 2) (.c0 2 1))),
  (54, .mul (.g 50) (.add (.rij 2) (.c0 2 2))),
  (55, .mul (.g 51) (.add (.rij 2) (.c0 2 3)))]

/-- _srg0_2d4d_1101, src/g2e.c:3698-3807 -/
def srg0_2d4d_1101 : List (Nat × UExpr) := [
  (0, .num 1),
  (1, .num 1),
  (2, .num 1),
  (3, .num 1),
  (16, .c0 0 0),
  (17, .c0 0 1),
  (18, .c0 0 2),
  (19, .c0 0 3),
  (8, .cp 0 0),
  (9, .cp 0 1),
  (10, .cp 0 2),
  (11, .cp 0 3),
  (24, .add (.mul (.cp 0 0) (.c0 0 0)) (.b00 0)),
  (25, .add (.mul (.cp 0 1) (.c0 0 1)) (.b00 1)),
  (26, .add (.mul (.cp 0 2) (.c0 0 2)) (.b00 2)),
  (27, .add (.mul (.cp 0 3) (.c0 0 3)) (.b00 3)),
  (20, .add (.mul (.c0 0 0) (.add (.rij 0) (.c0 0 0))) (.b10 0)),
  (21, .add (.mul (.c0 0 1) (.add (.rij 0) (.c0 0 1))) (.b10 1)),
  (22, .add (.mul (.c0 0 2) (.add (.rij 0) (.c0 0 2))) (.b10 2)),
  (23, .add (.mul (.c0 0 3) (.add (.rij 0) (.c0 0 3))) (.b10 3)),
  (4, .add (.rij 0) (.c0 0 0)),
  (5, .add (.rij 0) (.c0 0 1)),
  (6, .add (.rij 0) (.c0 0 2)),
  (7, .add (.rij 0) (.c0 0 3)),
  (28, .add (.add (.mul (.g 24) (.add (.rij 0) (.c0 0 0))) (.mul (.c0 0 0) (.b00 0))) (.mul (.b10 0) (.cp 0 0))),
  (29, .add (.add (.mul (.g 25) (.add (.rij 0) (.c0 0 1))) (.mul (.c0 0 1) (.b00 1))) (.mul (.b10 1) (.cp 0 1))),
  (30, .add (.add (.mul (.g 26) (.add (.rij 0) (.c0 0 2))) (.mul (.c0 0 2) (.b00 2))) (.mul (.b10 2) (.cp 0 2))),
  (31, .add (.add (.mul (.g 27) (.add (.rij 0) (.c0 0 3))) (.mul (.c0 0 3) (.b00 3))) (.mul (.b10 3) (.cp 0 3))),
  (12, .add (.mul (.cp 0 0) (.add (.rij 0) (.c0 0 0))) (.b00 0)),
  (13, .add (.mul (.cp 0 1) (.add (.rij 0) (.c0 0 1))) (.b00 1)),
  (14, .add (.mul (.cp 0 2) (.add (.rij 0) (.c0 0 2))) (.b00 2)),
  (15, .add (.mul (.cp 0 3) (.add (.rij 0) (.c0 0 3))) (.b00 3)),
  (48, .num 1),
  (49, .num 1),
  (50, .num 1),
  (51, .num 1),
  (64, .c0 1 0),
  (65, .c0 1 1),
  (66, .c0 1 2),
  (67, .c0 1 3),
  (56, .cp 1 0),
  (57, .cp 1 1),
  (58, .cp 1 2),
  (59, .cp 1 3),
  (72, .add (.mul (.cp 1 0) (.c0 1 0)) (.b00 0)),
  (73, .add (.mul (.cp 1 1) (.c0 1 1)) (.b00 1)),
  (74, .add (.mul (.cp 1 2) (.c0 1 2)) (.b00 2)),
  (75, .add (.mul (.cp 1 3) (.c0 1 3)) (.b00 3)),
  (68, .add (.mul (.c0 1 0) (.add (.rij 1) (.c0 1 0))) (.b10 0)),
  (69, .add (.mul (.c0 1 1) (.add (.rij 1) (.c0 1 1))) (.b10 1)),
  (70, .add (.mul (.c0 1 2) (.add (.rij 1) (.c0 1 2))) (.b10 2)),
  (71, .add (.mul (.c0 1 3) (.add (.rij 1) (.c0 1 3))) (.b10 3)),
  (52, .add (.rij 1) (.c0 1 0)),
  (53, .add (.rij 1) (.c0 1 1)),
  (54, .add (.rij 1) (.c0 1 2)),
  (55, .add (.rij 1) (.c0 1 3)),
  (76, .add (.add (.mul (.g 72) (.add (.rij 1) (.c0 1 0))) (.mul (.c0 1 0) (.b00 0))) (.mul (.b10 0) (.cp 1 0))),
  (77, .add (.add (.mul (.g 73) (.add (.rij 1) (.c0 1 1))) (.mul (.c0 1 1) (.b00 1))) (.mul (.b10 1) (.cp 1 1))),
  (78, .add (.add (.mul (.g 74) (.add (.rij 1) (.c0 1 2))) (.mul (.c0 1 2) (.b00 2))) (.mul (.b10 2) (.cp 1 2))),
  (79, .add (.add (.mul (.g 75) (.add (.rij 1) (.c0 1 3))) (.mul (.c0 1 3) (.b00 3))) (.mul (.b10 3) (.cp 1 3))),
  (60, .add (.mul (.cp 1 0) (.add (.rij 1) (.c0 1 0))) (.b00 0)),
  (61, .add (.mul (.cp 1 1) (.add (.rij 1) (.c0 1 1))) (.b00 1)),
  (62, .add (.mul (.cp 1 2) (.add (.rij 1) (.c0 1 2))) (.b00 2)),
  (63, .add (.mul (.cp 1 3) (.add (.rij 1) (.c0 1 3))) (.b00 3)),
  (112, .mul (.c0 2 0) (.g 96)),
  (113, .mul (.c0 2 1) (.g 97)),
  (114, .mul (.c0 2 2) (.g 98)),
  (115, .mul (.c0 2 3) (.g 99)),
  (104, .mul (.cp 2 0) (.g 96)),
  (105, .mul (.cp 2 1) (.g 97)),
  (106, .mul (.cp 2 2) (.g 98)),
  (107, .mul (.cp 2 3) (.g 99)),
  (120, .add (.mul (.cp 2 0) (.g 112)) (.mul (.b00 0) (.g 96))),
  (121, .add (.mul (.cp 2 1) (.g 113)) (.mul (.b00 1) (.g 97))),
  (122, .add (.mul (.cp 2 2) (.g 114)) (.mul (.b00 2) (.g 98))),
  (123, .add (.mul (.cp 2 3) (.g 115)) (.mul (.b00 3) (.g 99))),
  (116, .add (.mul (.g 112) (.add (.rij 2) (.c0 2 0))) (.mul (.b10 0) (.g 96))),
  (117, .add (.mul (.g 113) (.add (.rij 2) (.c0 2 1))) (.mul (.b10 1) (.g 97))),
  (118, .add (.mul (.g 114) (.add (.rij 2) (.c0 2 2))) (.mul (.b10 2) (.g 98))),
  (119, .add (.mul (.g 115) (.add (.rij 2) (.c0 2 3))) (.mul (.b10 3) (.g 99))),
  (100, .mul (.g 96) (.add (.rij 2) (.c0 2 0))),
  (101, .mul (.g 97) (.add (.rij 2) (.c0 2 1))),
  (102, .mul (.g 98) (.add (.rij 2) (.c0 2 2))),
  (103, .mul (.g 99) (.add (.rij 2) (.c0 2 3))),
  (124, .add (.add (.mul (.g 120) (.add (.rij 2) (.c0 2 0))) (.mul (.b10 0) (.g 104))) (.mul (.b00 0) (.g 112))),
  (125, .add (.add (.mul (.g 121) (.add (.rij 2) (.c0 2 1))) (.mul (.b10 1) (.g 105))) (.mul (.b00 1) (.g 113))),
  (126, .add (.add (.mul (.g 122) (.add (.rij 2) (.c0 2 2))) (.mul (.b10 2) (.g 106))) (.mul (.b00 2) (.g 114))),
  (127, .add (.add (.mul (.g 123) (.add (.rij 2) (.c0 2 3))) (.mul (.b10 3) (.g 107))) (.mul (.b00 3) (.g 115))),
  (108, .add (.add (.mul (.rij 2) (.g 104)) (.mul (.cp 2 0) (.g 112))) (.mul (.b00 0) (.g 96))),
  (109, .add (.add (.mul (.rij 2) (.g 105)) (.mul (.cp 2 1) (.g 113))) (.mul (.b00 1) (.g 97))),
  (110, .add (.add (.mul (.rij 2) (.g 106)) (.mul (.cp 2 2) (.g 114))) (.mul (.b00 2) (.g 98))),
  (111, .add (.add (.mul (.rij 2) (.g 107)) (.mul (.cp 2 3) (.g 115))) (.mul (.b00 3) (.g 99)))]

/-- _srg0_2d4d_1110, src/g2e.c:3809-3918 -/
def srg0_2d4d_1110 : List (Nat × UExpr) := [
  (0, .num 1),
  (1, .num 1),
  (2, .num 1),
  (3, .num 1),
  (16, .c0 0 0),
  (17, .c0 0 1),
  (18, .c0 0 2),
  (19, .c0 0 3),
  (8, .cp 0 0),
  (9, .cp 0 1),
  (10, .cp 0 2),
  (11, .cp 0 3),
  (24, .add (.mul (.cp 0 0) (.c0 0 0)) (.b00 0)),
  (25, .add (.mul (.cp 0 1) (.c0 0 1)) (.b00 1)),
  (26, .add (.mul (.cp 0 2) (.c0 0 2)) (.b00 2)),
  (27, .add (.mul (.cp 0 3) (.c0 0 3)) (.b00 3)),
  (20, .add (.mul (.c0 0 0) (.add (.rij 0) (.c0 0 0))) (.b10 0)),
  (21, .add (.mul (.c0 0 1) (.add (.rij 0) (.c0 0 1))) (.b10 1)),
  (22, .add (.mul (.c0 0 2) (.add (.rij 0) (.c0 0 2))) (.b10 2)),
  (23, .add (.mul (.c0 0 3) (.add (.rij 0) (.c0 0 3))) (.b10 3)),
  (4, .add (.rij 0) (.c0 0 0)),
  (5, .add (.rij 0) (.c0 0 1)),
  (6, .add (.rij 0) (.c0 0 2)),
  (7, .add (.rij 0) (.c0 0 3)),
  (28, .add (.add (.mul (.g 24) (.add (.rij 0) (.c0 0 0))) (.mul (.c0 0 0) (.b00 0))) (.mul (.b10 0) (.cp 0 0))),
  (29, .add (.add (.mul (.g 25) (.add (.rij 0) (.c0 0 1))) (.mul (.c0 0 1) (.b00 1))) (.mul (.b10 1) (.cp 0 1))),
  (30, .add (.add (.mul (.g 26) (.add (.rij 0) (.c0 0 2))) (.mul (.c0 0 2) (.b00 2))) (.mul (.b10 2) (.cp 0 2))),
  (31, .add (.add (.mul (.g 27) (.add (.rij 0) (.c0 0 3))) (.mul (.c0 0 3) (.b00 3))) (.mul (.b10 3) (.cp 0 3))),
  (12, .add (.mul (.cp 0 0) (.add (.rij 0) (.c0 0 0))) (.b00 0)),
  (13, .add (.mul (.cp 0 1) (.add (.rij 0) (.c0 0 1))) (.b00 1)),
  (14, .add (.mul (.cp 0 2) (.add (.rij 0) (.c0 0 2))) (.b00 2)),
  (15, .add (.mul (.cp 0 3) (.add (.rij 0) (.c0 0 3))) (.b00 3)),
  (48, .num 1),
  (49, .num 1),
  (50, .num 1),
  (51, .num 1),
  (64, .c0 1 0),
  (65, .c0 1 1),
  (66, .c0 1 2),
  (67, .c0 1 3),
  (56, .cp 1 0),
  (57, .cp 1 1),
  (58, .cp 1 2),
  (59, .cp 1 3),
  (72, .add (.mul (.cp 1 0) (.c0 1 0)) (.b00 0)),
  (73, .add (.mul (.cp 1 1) (.c0 1 1)) (.b00 1)),
  (74, .add (.mul (.cp 1 2) (.c0 1 2)) (.b00 2)),
  (75, .add (.mul (.cp 1 3) (.c0 1 3)) (.b00 3)),
  (68, .add (.mul (.c0 1 0) (.add (.rij 1) (.c0 1 0))) (.b10 0)),
  (69, .add (.mul (.c0 1 1) (.add (.rij 1) (.c0 1 1))) (.b10 1)),
  (70, .add (.mul (.c0 1 2) (.add (.rij 1) (.c0 1 2))) (.b10 2)),
  (71, .add (.mul (.c0 1 3) (.add (.rij 1) (.c0 1 3))) (.b10 3)),
  (52, .add (.rij 1) (.c0 1 0)),
  (53, .add (.rij 1) (.c0 1 1)),
  (54, .add (.rij 1) (.c0 1 2)),
  (55, .add (.rij 1) (.c0 1 3)),
  (76, .add (.add (.mul (.g 72) (.add (.rij 1) (.c0 1 0))) (.mul (.c0 1 0) (.b00 0))) (.mul (.b10 0) (.cp 1 0))),
  (77, .add (.add (.mul (.g 73) (.add (.rij 1) (.c0 1 1))) (.mul (.c0 1 1) (.b00 1))) (.mul (.b10 1) (.cp 1 1))),
  (78, .add (.add (.mul (.g 74) (.add (.rij 1) (.c0 1 2))) (.mul (.c0 1 2) (.b00 2))) (.mul (.b10 2) (.cp 1 2))),
  (79, .add (.add (.mul (.g 75) (.add (.rij 1) (.c0 1 3))) (.mul (.c0 1 3) (.b00 3))) (.mul (.b10 3) (.cp 1 3))),
  (60, .add (.mul (.cp 1 0) (.add (.rij 1) (.c0 1 0))) (.b00 0)),
  (61, .add (.mul (.cp 1 1) (.add (.rij 1) (.c0 1 1))) (.b00 1)),
  (62, .add (.mul (.cp 1 2) (.add (.rij 1) (.c0 1 2))) (.b00 2)),
  (63, .add (.mul (.cp 1 3) (.add (.rij 1) (.c0 1 3))) (.b00 3)),
  (112, .mul (.c0 2 0) (.g 96)),
  (113, .mul (.c0 2 1) (.g 97)),
  (114, .mul (.c0 2 2) (.g 98)),
  (115, .mul (.c0 2 3) (.g 99)),
  (104, .mul (.cp 2 0) (.g 96)),
  (105, .mul (.cp 2 1) (.g 97)),
  (106, .mul (.cp 2 2) (.g 98)),
  (107, .mul (.cp 2 3) (.g 99)),
  (120, .add (.mul (.cp 2 0) (.g 112)) (.mul (.b00 0) (.g 96))),
  (121, .add (.mul (.cp 2 1) (.g 113)) (.mul (.b00 1) (.g 97))),
  (122, .add (.mul (.cp 2 2) (.g 114)) (.mul (.b00 2) (.g 98))),
  (123, .add (.mul (.cp 2 3) (.g 115)) (.mul (.b00 3) (.g 99))),
  (116, .add (.mul (.g 112) (.add (.rij 2) (.c0 2 0))) (.mul (.b10 0) (.g 96))),
  (117, .add (.mul (.g 113) (.add (.rij 2) (.c0 2 1))) (.mul (.b10 1) (.g 97))),
  (118, .add (.mul (.g 114) (.add (.rij 2) (.c0 2 2))) (.mul (.b10 2) (.g 98))),
  (119, .add (.mul (.g 115) (.add (.rij 2) (.c0 2 3))) (.mul (.b10 3) (.g 99))),
  (100, .mul (.g 96) (.add (.rij 2) (.c0 2 0))),
  (101, .mul (.g 97) (.add (.rij 2) (.c0 2 1))),
  (102, .mul (.g 98) (.add (.rij 2) (.c0 2 2))),
  (103, .mul (.g 99) (.add (.rij 2) (.c0 2 3))),
  (124, .add (.add (.mul (.g 120) (.add (.rij 2) (.c0 2 0))) (.mul (.b10 0) (.g 104))) (.mul (.b00 0) (.g 112))),
  (125, .add (.add (.mul (.g 121) (.add (.rij 2) (.c0 2 1))) (.mul (.b10 1) (.g 105))) (.mul (.b00 1) (.g 113))),
  (126, .add (.add (.mul (.g 122) (.add (.rij 2) (.c0 2 2))) (.mul (.b10 2) (.g 106))) (.mul (.b00 2) (.g 114))),
  (127, .add (.add (.mul (.g 123) (.add (.rij 2) (.c0 2 3))) (.mul (.b10 3) (.g 107))) (.mul (.b00 3) (.g 115))),
  (108, .add (.add (.mul (.rij 2) (.g 104)) (.mul (.cp 2 0) (.g 112))) (.mul (.b00 0) (.g 96))),
  (109, .add (.add (.mul (.rij 2) (.g 105)) (.mul (.cp 2 1) (.g 113))) (.mul (.b00 1) (.g 97))),
  (110, .add (.add (.mul (.rij 2) (.g 106)) (.mul (.cp 2 2) (.g 114))) (.mul (.b00 2) (.g 98))),
  (111, .add (.add (.mul (.rij 2) (.g 107)) (.mul (.cp 2 3) (.g 115))) (.mul (.b00 3) (.g 99)))]

/-- _srg0_2d4d_1200, src/g2e.c:3920-4001 -/
def srg0_2d4d_1200 : List (Nat × UExpr) := [
  (0, .num 1),
  (1, .num 1),
  (2, .num 1),
  (3, .num 1),
  (8, .c0 0 0),
  (9, .c0 0 1),
  (10, .c0 0 2),
  (11, .c0 0 3),
  (16, .add (.mul (.c0 0 0) (.c0 0 0)) (.b10 0)),
  (17, .add (.mul (.c0 0 1) (.c0 0 1)) (.b10 1)),
  (18, .add (.mul (.c0 0 2) (.c0 0 2)) (.b10 2)),
  (19, .add (.mul (.c0 0 3) (.c0 0 3)) (.b10 3)),
  (20, .add (.mul (.g 16) (.add (.rij 0) (.c0 0 0))) (.mul (.mul (.c0 0 0) (.num 2)) (.b10 0))),
  (21, .add (.mul (.g 17) (.add (.rij 0) (.c0 0 1))) (.mul (.mul (.c0 0 1) (.num 2)) (.b10 1))),
  (22, .add (.mul (.g 18) (.add (.rij 0) (.c0 0 2))) (.mul (.mul (.c0 0 2) (.num 2)) (.b10 2))),
  (23, .add (.mul (.g 19) (.add (.rij 0) (.c0 0 3))) (.mul (.mul (.c0 0 3) (.num 2)) (.b10 3))),
  (12, .add (.mul (.c0 0 0) (.add (.rij 0) (.c0 0 0))) (.b10 0)),
  (13, .add (.mul (.c0 0 1) (.add (.rij 0) (.c0 0 1))) (.b10 1)),
  (14, .add (.mul (.c0 0 2) (.add (.rij 0) (.c0 0 2))) (.b10 2)),
  (15, .add (.mul (.c0 0 3) (.add (.rij 0) (.c0 0 3))) (.b10 3)),
  (4, .add (.rij 0) (.c0 0 0)),
  (5, .add (.rij 0) (.c0 0 1)),
  (6, .add (.rij 0) (.c0 0 2)),
  (7, .add (.rij 0) (.c0 0 3)),
  (32, .num 1),
  (33, .num 1),
  (34, .num 1),
  (35, .num 1),
  (40, .c0 1 0),
  (41, .c0 1 1),
  (42, .c0 1 2),
  (43, .c0 1 3),
  (48, .add (.mul (.c0 1 0) (.c0 1 0)) (.b10 0)),
  (49, .add (.mul (.c0 1 1) (.c0 1 1)) (.b10 1)),
  (50, .add (.mul (.c0 1 2) (.c0 1 2)) (.b10 2)),
  (51, .add (.mul (.c0 1 3) (.c0 1 3)) (.b10 3)),
  (52, .add (.mul (.g 48) (.add (.rij 1) (.c0 1 0))) (.mul (.mul (.c0 1 0) (.num 2)) (.b10 0))),
  (53, .add (.mul (.g 49) (.add (.rij 1) (.c0 1 1))) (.mul (.mul (.c0 1 1) (.num 2)) (.b10 1))),
  (54, .add (.mul (.g 50) (.add (.rij 1) (.c0 1 2))) (.mul (.mul (.c0 1 2) (.num 2)) (.b10 2))),
  (55, .add (.mul (.g 51) (.add (.rij 1) (.c0 1 3))) (.mul (.mul (.c0 1 3) (.num 2)) (.b10 3))),
  (44, .add (.mul (.c0 1 0) (.add (.rij 1) (.c0 1 0))) (.b10 0)),
  (45, .add (.mul (.c0 1 1) (.add (.rij 1) (.c0 1 1))) (.b10 1)),
  (46, .add (.mul (.c0 1 2) (.add (.rij 1) (.c0 1 2))) (.b10 2)),
  (47, .add (.mul (.c0 1 3) (.add (.rij 1) (.c0 1 3))) (.b10 3)),
  (36, .add (.rij 1) (.c0 1 0)),
  (37, .add (.rij 1) (.c0 1 1)),
  (38, .add (.rij 1) (.c0 1 2)),
  (39, .add (.rij 1) (.c0 1 3)),
  (72, .mul (.c0 2 0) (.g 64)),
  (73, .mul (.c0 2 1) (.g 65)),
  (74, .mul (.c0 2 2) (.g 66)),
  (75, .mul (.c0 2 3) (.g 67)),
  (80, .add (.mul (.c0 2 0) (.g 72)) (.mul (.b10 0) (.g 64))),
  (81, .add (.mul (.c0 2 1) (.g 73)) (.mul (.b10 1) (.g 65))),
  (82, .add (.mul (.c0 2 2) (.g 74)) (.mul (.b10 2) (.g 66))),
  (83, .add (.mul (.c0 2 3) (.g 75)) (.mul (.b10 3) (.g 67))),
  (84, .add (.mul (.g 80) (.add (.rij 2) (.c0 2 0))) (.mul (.mul (.num 2) (.b10 0)) (.g 72))),
  (85, .add (.mul (.g 81) (.add (.rij 2) (.c0 2 1))) (.mul (.mul (.num 2) (.b10 1)) (.g 73))),
  (86, .add (.mul (.g 82) (.add (.rij 2) (.c0 2 2))) (.mul (.mul (.num 2) (.b10 2)) (.g 74))),
  (87, .add (.mul (.g 83) (.add (.rij 2) (.c0 2 3))) (.mul (.mul (.num 2) (.b10 3)) (.g 75))),
  (76, .add (.mul (.g 72) (.add (.rij 2) (.c0 2 0))) (.mul (.b10 0) (.g 64))),
  (77, .add (.mul (.g 73) (.add (.rij 2) (.c0 2 1))) (.mul (.b10 1) (.g 65))),
  (78, .add (.mul (.g 74) (.add (.rij 2) (.c0 2 2))) (.mul (.b10 2) (.g 66))),
  (79, .add (.mul (.g 75) (.add (.rij 2) (.c0 2 3))) (.mul (.b10 3) (.g 67))),
  (68, .mul (.g 64) (.add (.rij 2) (.c0 2 0))),
  (69, .mul (.g 65) (.add (.rij 2) (.c0 2 1))),
  (70, .mul (.g 66) (.add (.rij 2) (.c0 2 2))),
  (71, .mul (.g 67) (.add (.rij 2) (.c0 2 3)))]

/-- _srg0_2d4d_2000, src/g2e.c:4003-4045 -/
def srg0_2d4d_2000 : List (Nat × UExpr) := [
  (0, .num 1),
  (1, .num 1),
  (2, .num 1),
  (3, .num 1),
  (4, .c0 0 0),
  (5, .c0 0 1),
  (6, .c0 0 2),
  (7, .c0 0 3),
  (8, .add (.mul (.c0 0 0) (.c0 0 0)) (.b10 0)),
  (9, .add (.mul (.c0 0 1) (.c0 0 1)) (.b10 1)),
  (10, .add (.mul (.c0 0 2) (.c0 0 2)) (.b10 2)),
  (11, .add (.mul (.c0 0 3) (.c0 0 3)) (.b10 3)),
  (12, .num 1),
  (13, .num 1),
  (14, .num 1),
  (15, .num 1),
  (16, .c0 1 0),
  (17, .c0 1 1),
  (18, .c0 1 2),
  (19, .c0 1 3),
  (20, .add (.mul (.c0 1 0) (.c0 1 0)) (.b10 0)),
  (21, .add (.mul (.c0 1 1) (.c0 1 1)) (.b10 1)),
  (22, .add (.mul (.c0 1 2) (.c0 1 2)) (.b10 2)),
  (23, .add (.mul (.c0 1 3) (.c0 1 3)) (.b10 3)),
  (28, .mul (.c0 2 0) (.g 24)),
  (29, .mul (.c0 2 1) (.g 25)),
  (30, .mul (.c0 2 2) (.g 26)),
  (31, .mul (.c0 2 3) (.g 27)),
  (32, .add (.mul (.c0 2 0) (.g 28)) (.mul (.b10 0) (.g 24))),
  (33, .add (.mul (.c0 2 1) (.g 29)) (.mul (.b10 1) (.g 25))),
  (34, .add (.mul (.c0 2 2) (.g 30)) (.mul (.b10 2) (.g 26))),
  (35, .add (.mul (.c0 2 3) (.g 31)) (.mul (.b10 3) (.g 27)))]

/-- _srg0_2d4d_2001, src/g2e.c:4047-4129 -/
def srg0_2d4d_2001 : List (Nat × UExpr) := [
  (0, .num 1),
  (1, .num 1),
  (2, .num 1),
  (3, .num 1),
  (4, .c0 0 0),
  (5, .c0 0 1),
  (6, .c0 0 2),
  (7, .c0 0 3),
  (8, .add (.mul (.c0 0 0) (.c0 0 0)) (.b10 0)),
  (9, .add (.mul (.c0 0 1) (.c0 0 1)) (.b10 1)),
  (10, .add (.mul (.c0 0 2) (.c0 0 2)) (.b10 2)),
  (11, .add (.mul (.c0 0 3) (.c0 0 3)) (.b10 3)),
  (12, .cp 0 0),
  (13, .cp 0 1),
  (14, .cp 0 2),
  (15, .cp 0 3),
  (16, .add (.mul (.cp 0 0) (.c0 0 0)) (.b00 0)),
  (17, .add (.mul (.cp 0 1) (.c0 0 1)) (.b00 1)),
  (18, .add (.mul (.cp 0 2) (.c0 0 2)) (.b00 2)),
  (19, .add (.mul (.cp 0 3) (.c0 0 3)) (.b00 3)),
  (20, .add (.mul (.c0 0 0) (.add (.g 16) (.b00 0))) (.mul (.b10 0) (.cp 0 0))),
  (21, .add (.mul (.c0 0 1) (.add (.g 17) (.b00 1))) (.mul (.b10 1) (.cp 0 1))),
  (22, .add (.mul (.c0 0 2) (.add (.g 18) (.b00 2))) (.mul (.b10 2) (.cp 0 2))),
  (23, .add (.mul (.c0 0 3) (.add (.g 19) (.b00 3))) (.mul (.b10 3) (.cp 0 3))),
  (24, .num 1),
  (25, .num 1),
  (26, .num 1),
  (27, .num 1),
  (28, .c0 1 0),
  (29, .c0 1 1),
  (30, .c0 1 2),
  (31, .c0 1 3),
  (32, .add (.mul (.c0 1 0) (.c0 1 0)) (.b10 0)),
  (33, .add (.mul (.c0 1 1) (.c0 1 1)) (.b10 1)),
  (34, .add (.mul (.c0 1 2) (.c0 1 2)) (.b10 2)),
  (35, .add (.mul (.c0 1 3) (.c0 1 3)) (.b10 3)),
  (36, .cp 1 0),
  (37, .cp 1 1),
  (38, .cp 1 2),
  (39, .cp 1 3),
  (40, .add (.mul (.cp 1 0) (.c0 1 0)) (.b00 0)),
  (41, .add (.mul (.cp 1 1) (.c0 1 1)) (.b00 1)),
  (42, .add (.mul (.cp 1 2) (.c0 1 2)) (.b00 2)),
  (43, .add (.mul (.cp 1 3) (.c0 1 3)) (.b00 3)),
  (44, .add (.mul (.c0 1 0) (.add (.g 40) (.b00 0))) (.mul (.b10 0) (.cp 1 0))),
  (45, .add (.mul (.c0 1 1) (.add (.g 41) (.b00 1))) (.mul (.b10 1) (.cp 1 1))),
  (46, .add (.mul (.c0 1 2) (.add (.g 42) (.b00 2))) (.mul (.b10 2) (.cp 1 2))),
  (47, .add (.mul (.c0 1 3) (.add (.g 43) (.b00 3))) (.mul (.b10 3) (.cp 1 3))),
  (52, .mul (.c0 2 0) (.g 48)),
  (53, .mul (.c0 2 1) (.g 49)),
  (54, .mul (.c0 2 2) (.g 50)),
  (55, .mul (.c0 2 3) (.g 51)),
  (56, .add (.mul (.c0 2 0) (.g 52)) (.mul (.b10 0) (.g 48))),
  (57, .add (.mul (.c0 2 1) (.g 53)) (.mul (.b10 1) (.g 49))),
  (58, .add (.mul (.c0 2 2) (.g 54)) (.mul (.b10 2) (.g 50))),
  (59, .add (.mul (.c0 2 3) (.g 55)) (.mul (.b10 3) (.g 51))),
  (60, .mul (.cp 2 0) (.g 48)),
  (61, .mul (.cp 2 1) (.g 49)),
  (62, .mul (.cp 2 2) (.g 50)),
  (63, .mul (.cp 2 3) (.g 51)),
  (64, .add (.mul (.cp 2 0) (.g 52)) (.mul (.b00 0) (.g 48))),
  (65, .add (.mul (.cp 2 1) (.g 53)) (.mul (.b00 1) (.g 49))),
  (66, .add (.mul (.cp 2 2) (.g 54)) (.mul (.b00 2) (.g 50))),
  (67, .add (.mul (.cp 2 3) (.g 55)) (.mul (.b00 3) (.g 51))),
  (68, .add (.add (.mul (.c0 2 0) (.g 64)) (.mul (.b10 0) (.g 60))) (.mul (.b00 0) (.g 52))),
  (69, .add (.add (.mul (.c0 2 1) (.g 65)) (.mul (.b10 1) (.g 61))) (.mul (.b00 1) (.g 53))),
  (70, .add (.add (.mul (.c0 2 2) (.g 66)) (.mul (.b10 2) (.g 62))) (.mul (.b00 2) (.g 54))),
  (71, .add (.add (.mul (.c0 2 3) (.g 67)) (.mul (.b10 3) (.g 63))) (.mul (.b00 3) (.g 55)))]

/-- _srg0_2d4d_2010, src/g2e.c:4131-4213 -/
def srg0_2d4d_2010 : List (Nat × UExpr) := [
  (0, .num 1),
  (1, .num 1),
  (2, .num 1),
  (3, .num 1),
  (4, .c0 0 0),
  (5, .c0 0 1),
  (6, .c0 0 2),
  (7, .c0 0 3),
  (8, .add (.mul (.c0 0 0) (.c0 0 0)) (.b10 0)),
  (9, .add (.mul (.c0 0 1) (.c0 0 1)) (.b10 1)),
  (10, .add (.mul (.c0 0 2) (.c0 0 2)) (.b10 2)),
  (11, .add (.mul (.c0 0 3) (.c0 0 3)) (.b10 3)),
  (12, .cp 0 0),
  (13, .cp 0 1),
  (14, .cp 0 2),
  (15, .cp 0 3),
  (16, .add (.mul (.cp 0 0) (.c0 0 0)) (.b00 0)),
  (17, .add (.mul (.cp 0 1) (.c0 0 1)) (.b00 1)),
  (18, .add (.mul (.cp 0 2) (.c0 0 2)) (.b00 2)),
  (19, .add (.mul (.cp 0 3) (.c0 0 3)) (.b00 3)),
  (20, .add (.mul (.c0 0 0) (.add (.g 16) (.b00 0))) (.mul (.b10 0) (.cp 0 0))),
  (21, .add (.mul (.c0 0 1) (.add (.g 17) (.b00 1))) (.mul (.b10 1) (.cp 0 1))),
  (22, .add (.mul (.c0 0 2) (.add (.g 18) (.b00 2))) (.mul (.b10 2) (.cp 0 2))),
  (23, .add (.mul (.c0 0 3) (.add (.g 19) (.b00 3))) (.mul (.b10 3) (.cp 0 3))),
  (24, .num 1),
  (25, .num 1),
  (26, .num 1),
  (27, .num 1),
  (28, .c0 1 0),
  (29, .c0 1 1),
  (30, .c0 1 2),
  (31, .c0 1 3),
  (32, .add (.mul (.c0 1 0) (.c0 1 0)) (.b10 0)),
  (33, .add (.mul (.c0 1 1) (.c0 1 1)) (.b10 1)),
  (34, .add (.mul (.c0 1 2) (.c0 1 2)) (.b10 2)),
  (35, .add (.mul (.c0 1 3) (.c0 1 3)) (.b10 3)),
  (36, .cp 1 0),
  (37, .cp 1 1),
  (38, .cp 1 2),
  (39, .cp 1 3),
  (40, .add (.mul (.cp 1 0) (.c0 1 0)) (.b00 0)),
  (41, .add (.mul (.cp 1 1) (.c0 1 1)) (.b00 1)),
  (42, .add (.mul (.cp 1 2) (.c0 1 2)) (.b00 2)),
  (43, .add (.mul (.cp 1 3) (.c0 1 3)) (.b00 3)),
  (44, .add (.mul (.c0 1 0) (.add (.g 40) (.b00 0))) (.mul (.b10 0) (.cp 1 0))),
  (45, .add (.mul (.c0 1 1) (.add (.g 41) (.b00 1))) (.mul (.b10 1) (.cp 1 1))),
  (46, .add (.mul (.c0 1 2) (.add (.g 42) (.b00 2))) (.mul (.b10 2) (.cp 1 2))),
  (47, .add (.mul (.c0 1 3) (.add (.g 43) (.b00 3))) (.mul (.b10 3) (.cp 1 3))),
  (52, .mul (.c0 2 0) (.g 48)),
  (53, .mul (.c0 2 1) (.g 49)),
  (54, .mul (.c0 2 2) (.g 50)),
  (55, .mul (.c0 2 3) (.g 51)),
  (56, .add (.mul (.c0 2 0) (.g 52)) (.mul (.b10 0) (.g 48))),
  (57, .add (.mul (.c0 2 1) (.g 53)) (.mul (.b10 1) (.g 49))),
  (58, .add (.mul (.c0 2 2) (.g 54)) (.mul (.b10 2) (.g 50))),
  (59, .add (.mul (.c0 2 3) (.g 55)) (.mul (.b10 3) (.g 51))),
  (60, .mul (.cp 2 0) (.g 48)),
  (61, .mul (.cp 2 1) (.g 49)),
  (62, .mul (.cp 2 2) (.g 50)),
  (63, .mul (.cp 2 3) (.g 51)),
  (64, .add (.mul (.cp 2 0) (.g 52)) (.mul (.b00 0) (.g 48))),
  (65, .add (.mul (.cp 2 1) (.g 53)) (.mul (.b00 1) (.g 49))),
  (66, .add (.mul (.cp 2 2) (.g 54)) (.mul (.b00 2) (.g 50))),
  (67, .add (.mul (.cp 2 3) (.g 55)) (.mul (.b00 3) (.g 51))),
  (68, .add (.add (.mul (.c0 2 0) (.g 64)) (.mul (.b10 0) (.g 60))) (.mul (.b00 0) (.g 52))),
  (69, .add (.add (.mul (.c0 2 1) (.g 65)) (.mul (.b10 1) (.g 61))) (.mul (.b00 1) (.g 53))),
  (70, .add (.add (.mul (.c0 2 2) (.g 66)) (.mul (.b10 2) (.g 62))) (.mul (.b00 2) (.g 54))),
  (71, .add (.add (.mul (.c0 2 3) (.g 67)) (.mul (.b10 3) (.g 63))) (.mul (.b00 3) (.g 55)))]

/-- _srg0_2d4d_2100, src/g2e.c:4215-4296 -/
def srg0_2d4d_2100 : List (Nat × UExpr) := [
  (0, .num 1),
  (1, .num 1),
  (2, .num 1),
  (3, .num 1),
  (4, .c0 0 0),
  (5, .c0 0 1),
  (6, .c0 0 2),
  (7, .c0 0 3),
  (8, .add (.mul (.c0 0 0) (.c0 0 0)) (.b10 0)),
  (9, .add (.mul (.c0 0 1) (.c0 0 1)) (.b10 1)),
  (10, .add (.mul (.c0 0 2) (.c0 0 2)) (.b10 2)),
  (11, .add (.mul (.c0 0 3) (.c0 0 3)) (.b10 3)),
  (24, .add (.mul (.g 8) (.add (.rij 0) (.c0 0 0))) (.mul (.mul (.c0 0 0) (.num 2)) (.b10 0))),
  (25, .add (.mul (.g 9) (.add (.rij 0) (.c0 0 1))) (.mul (.mul (.c0 0 1) (.num 2)) (.b10 1))),
  (26, .add (.mul (.g 10) (.add (.rij 0) (.c0 0 2))) (.mul (.mul (.c0 0 2) (.num 2)) (.b10 2))),
  (27, .add (.mul (.g 11) (.add (.rij 0) (.c0 0 3))) (.mul (.mul (.c0 0 3) (.num 2)) (.b10 3))),
  (20, .add (.mul (.c0 0 0) (.add (.rij 0) (.c0 0 0))) (.b10 0)),
  (21, .add (.mul (.c0 0 1) (.add (.rij 0) (.c0 0 1))) (.b10 1)),
  (22, .add (.mul (.c0 0 2) (.add (.rij 0) (.c0 0 2))) (.b10 2)),
  (23, .add (.mul (.c0 0 3) (.add (.rij 0) (.c0 0 3))) (.b10 3)),
  (16, .add (.rij 0) (.c0 0 0)),
  (17, .add (.rij 0) (.c0 0 1)),
  (18, .add (.rij 0) (.c0 0 2)),
  (19, .add (.rij 0) (.c0 0 3)),
  (32, .num 1),
  (33, .num 1),
  (34, .num 1),
  (35, .num 1),
  (36, .c0 1 0),
  (37, .c0 1 1),
  (38, .c0 1 2),
  (39, .c0 1 3),
  (40, .add (.mul (.c0 1 0) (.c0 1 0)) (.b10 0)),
  (41, .add (.mul (.c0 1 1) (.c0 1 1)) (.b10 1)),
  (42, .add (.mul (.c0 1 2) (.c0 1 2)) (.b10 2)),
  (43, .add (.mul (.c0 1 3) (.c0 1 3)) (.b10 3)),
  (56, .add (.mul (.g 40) (.add (.rij 1) (.c0 1 0))) (.mul (.mul (.c0 1 0) (.num 2)) (.b10 0))),
  (57, .add (.mul (.g 41) (.add (.rij 1) (.c0 1 1))) (.mul (.mul (.c0 1 1) (.num 2)) (.b10 1))),
  (58, .add (.mul (.g 42) (.add (.rij 1) (.c0 1 2))) (.mul (.mul (.c0 1 2) (.num 2)) (.b10 2))),
  (59, .add (.mul (.g 43) (.add (.rij 1) (.c0 1 3))) (.mul (.mul (.c0 1 3) (.num 2)) (.b10 3))),
  (52, .add (.mul (.c0 1 0) (.add (.rij 1) (.c0 1 0))) (.b10 0)),
  (53, .add (.mul (.c0 1 1) (.add (.rij 1) (.c0 1 1))) (.b10 1)),
  (54, .add (.mul (.c0 1 2) (.add (.rij 1) (.c0 1 2))) (.b10 2)),
  (55, .add (.mul (.c0 1 3) (.add (.rij 1) (.c0 1 3))) (.b10 3)),
  (48, .add (.rij 1) (.c0 1 0)),
  (49, .add (.rij 1) (.c0 1 1)),
  (50, .add (.rij 1) (.c0 1 2)),
  (51, .add (.rij 1) (.c0 1 3)),
  (68, .mul (.c0 2 0) (.g 64)),
  (69, .mul (.c0 2 1) (.g 65)),
  (70, .mul (.c0 2 2) (.g 66)),
  (71, .mul (.c0 2 3) (.g 67)),
  (72, .add (.mul (.c0 2 0) (.g 68)) (.mul (.b10 0) (.g 64))),
  (73, .add (.mul (.c0 2 1) (.g 69)) (.mul (.b10 1) (.g 65))),
  (74, .add (.mul (.c0 2 2) (.g 70)) (.mul (.b10 2) (.g 66))),
  (75, .add (.mul (.c0 2 3) (.g 71)) (.mul (.b10 3) (.g 67))),
  (88, .add (.mul (.g 72) (.add (.rij 2) (.c0 2 0))) (.mul (.mul (.num 2) (.b10 0)) (.g 68))),
  (89, .add (.mul (.g 73) (.add (.rij 2) (.c0 2 1))) (.mul (.mul (.num 2) (.b10 1)) (.g 69))),
  (90, .add (.mul (.g 74) (.add (.rij 2) (.c0 2 2))) (.mul (.mul (.num 2) (.b10 2)) (.g 70))),
  (91, .add (.mul (.g 75) (.add (.rij 2) (.c0 2 3))) (.mul (.mul (.num 2) (.b10 3)) (.g 71))),
  (84, .add (.mul (.g 68) (.add (.rij 2) (.c0 2 0))) (.mul (.b10 0) (.g 64))),
  (85, .add (.mul (.g 69) (.add (.rij 2) (.c0 2 1))) (.mul (.b10 1) (.g 65))),
  (86, .add (.mul (.g 70) (.add (.rij 2) (.c0 2 2))) (.mul (.b10 2) (.g 66))),
  (87, .add (.mul (.g 71) (.add (.rij 2) (.c0 2 3))) (.mul (.b10 3) (.g 67))),
  (80, .mul (.g 64) (.add (.rij 2) (.c0 2 0))),
  (81, .mul (.g 65) (.add (.rij 2) (.c0 2 1))),
  (82, .mul (.g 66) (.add (.rij 2) (.c0 2 2))),
  (83, .mul (.g 67) (.add (.rij 2) (.c0 2 3)))]

/-- _srg0_2d4d_3000, src/g2e.c:4298-4352 -/
def srg0_2d4d_3000 : List (Nat × UExpr) := [
  (0, .num 1),
  (1, .num 1),
  (2, .num 1),
  (3, .num 1),
  (4, .c0 0 0),
  (5, .c0 0 1),
  (6, .c0 0 2),
  (7, .c0 0 3),
  (8, .add (.mul (.c0 0 0) (.c0 0 0)) (.b10 0)),
  (9, .add (.mul (.c0 0 1) (.c0 0 1)) (.b10 1)),
  (10, .add (.mul (.c0 0 2) (.c0 0 2)) (.b10 2)),
  (11, .add (.mul (.c0 0 3) (.c0 0 3)) (.b10 3)),
  (12, .mul (.c0 0 0) (.add (.g 8) (.mul (.num 2) (.b10 0)))),
  (13, .mul (.c0 0 1) (.add (.g 9) (.mul (.num 2) (.b10 1)))),
  (14, .mul (.c0 0 2) (.add (.g 10) (.mul (.num 2) (.b10 2)))),
  (15, .mul (.c0 0 3) (.add (.g 11) (.mul (.num 2) (.b10 3)))),
  (16, .num 1),
  (17, .num 1),
  (18, .num 1),
  (19, .num 1),
  (20, .c0 1 0),
  (21, .c0 1 1),
  (22, .c0 1 2),
  (23, .c0 1 3),
  (24, .add (.mul (.c0 1 0) (.c0 1 0)) (.b10 0)),
  (25, .add (.mul (.c0 1 1) (.c0 1 1)) (.b10 1)),
  (26, .add (.mul (.c0 1 2) (.c0 1 2)) (.b10 2)),
  (27, .add (.mul (.c0 1 3) (.c0 1 3)) (.b10 3)),
  (28, .mul (.c0 1 0) (.add (.g 24) (.mul (.num 2) (.b10 0)))),
  (29, .mul (.c0 1 1) (.add (.g 25) (.mul (.num 2) (.b10 1)))),
  (30, .mul (.c0 1 2) (.add (.g 26) (.mul (.num 2) (.b10 2)))),
  (31, .mul (.c0 1 3) (.add (.g 27) (.mul (.num 2) (.b10 3)))),
  (36, .mul (.c0 2 0) (.g 32)),
  (37, .mul (.c0 2 1) (.g 33)),
  (38, .mul (.c0 2 2) (.g 34)),
  (39, .mul (.c0 2 3) (.g 35)),
  (40, .add (.mul (.c0 2 0) (.g 36)) (.mul (.b10 0) (.g 32))),
  (41, .add (.mul (.c0 2 1) (.g 37)) (.mul (.b10 1) (.g 33))),
  (42, .add (.mul (.c0 2 2) (.g 38)) (.mul (.b10 2) (.g 34))),
  (43, .add (.mul (.c0 2 3) (.g 39)) (.mul (.b10 3) (.g 35))),
  (44, .add (.mul (.c0 2 0) (.g 40)) (.mul (.mul (.num 2) (.b10 0)) (.g 36))),
  (45, .add (.mul (.c0 2 1) (.g 41)) (.mul (.mul (.num 2) (.b10 1)) (.g 37))),
  (46, .add (.mul (.c0 2 2) (.g 42)) (.mul (.mul (.num 2) (.b10 2)) (.g 38))),
  (47, .add (.mul (.c0 2 3) (.g 43)) (.mul (.mul (.num 2) (.b10 3)) (.g 39)))]

/-- the cases of CINTg0_2e_2d4d_unrolled, src/g2e.c:2020-2064, by `type_ijkl` -/
def unrolled : List (Nat × List (Nat × UExpr)) := [
  (0, g0_2d4d_0000),
  (1, g0_2d4d_0001),
  (2, g0_2d4d_0002),
  (3, g0_2d4d_0003),
  (4, g0_2d4d_0010),
  (5, g0_2d4d_0011),
  (6, g0_2d4d_0012),
  (8, g0_2d4d_0020),
  (9, g0_2d4d_0021),
  (12, g0_2d4d_0030),
  (16, g0_2d4d_0100),
  (17, g0_2d4d_0101),
  (18, g0_2d4d_0102),
  (20, g0_2d4d_0110),
  (21, g0_2d4d_0111),
  (24, g0_2d4d_0120),
  (32, g0_2d4d_0200),
  (33, g0_2d4d_0201),
  (36, g0_2d4d_0210),
  (48, g0_2d4d_0300),
  (64, g0_2d4d_1000),
  (65, g0_2d4d_1001),
  (66, g0_2d4d_1002),
  (68, g0_2d4d_1010),
  (69, g0_2d4d_1011),
  (72, g0_2d4d_1020),
  (80, g0_2d4d_1100),
  (81, g0_2d4d_1101),
  (84, g0_2d4d_1110),
  (96, g0_2d4d_1200),
  (128, g0_2d4d_2000),
  (129, g0_2d4d_2001),
  (132, g0_2d4d_2010),
  (144, g0_2d4d_2100),
  (192, g0_2d4d_3000)]

/-- the cases of CINTsrg0_2e_2d4d_unrolled, src/g2e.c:4354-4398, by `type_ijkl` -/
def srUnrolled : List (Nat × List (Nat × UExpr)) := [
  (0, srg0_2d4d_0000),
  (1, srg0_2d4d_0001),
  (2, srg0_2d4d_0002),
  (3, srg0_2d4d_0003),
  (4, srg0_2d4d_0010),
  (5, srg0_2d4d_0011),
  (6, srg0_2d4d_0012),
  (8, srg0_2d4d_0020),
  (9, srg0_2d4d_0021),
  (12, srg0_2d4d_0030),
  (16, srg0_2d4d_0100),
  (17, srg0_2d4d_0101),
  (18, srg0_2d4d_0102),
  (20, srg0_2d4d_0110),
  (21, srg0_2d4d_0111),
  (24, srg0_2d4d_0120),
  (32, srg0_2d4d_0200),
  (33, srg0_2d4d_0201),
  (36, srg0_2d4d_0210),
  (48, srg0_2d4d_0300),
  (64, srg0_2d4d_1000),
  (65, srg0_2d4d_1001),
  (66, srg0_2d4d_1002),
  (68, srg0_2d4d_1010),
  (69, srg0_2d4d_1011),
  (72, srg0_2d4d_1020),
  (80, srg0_2d4d_1100),
  (81, srg0_2d4d_1101),
  (84, srg0_2d4d_1110),
  (96, srg0_2d4d_1200),
  (128, srg0_2d4d_2000),
  (129, srg0_2d4d_2001),
  (132, srg0_2d4d_2010),
  (144, srg0_2d4d_2100),
  (192, srg0_2d4d_3000)]

end Verif.Model.Unrolled
