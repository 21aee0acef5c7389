import Verif.Model.C2sTable

/-! Generated by tools/cj.py from src/cart2sph.c. -/
namespace Verif.Model

/-- the offsets of `cart2j_lt_lR` into g_trans_cart2jR and of `cart2j_lt_lI` into g_trans_cart2jI in g_c2s,
src/cart2sph.c:3561-3578; `none` is NULL -/
def cjLt : List (Option Nat) := [some 0, some 4, some 40, some 160, some 440, some 980, some 1904, some 3360, some 5520, some 8580, some 12760, some 18304, some 25480, none, none, none]
/-- the same for `cart2j_gt_lR` and `cart2j_gt_lI` -/
def cjGt : List (Option Nat) := [some 0, some 16, some 88, some 280, some 680, some 1400, some 2576, some 4368, some 6960, some 10560, some 15400, some 21736, some 29848, none, none, none]

/-- The part of g_trans_cart2jR (src/cart2sph.c:813-2172, PYPZPX not defined) for l = 0: for every row of
2 literals the nonzero ones with their column. -/
def cjRowsR0 : List (List (Nat × Dec)) := [
  [(1, ⟨1, 0⟩)],
  [(0, ⟨1, 0⟩)]]

/-- The part of g_trans_cart2jR (src/cart2sph.c:813-2172, PYPZPX not defined) for l = 1: for every row of
6 literals the nonzero ones with their column. -/
def cjRowsR1 : List (List (Nat × Dec)) := [
  [(0, ⟨-577350269189625764, 18⟩), (5, ⟨577350269189625764, 18⟩)],
  [(2, ⟨-577350269189625764, 18⟩), (3, ⟨-577350269189625764, 18⟩)],
  [(3, ⟨707106781186547524, 18⟩)],
  [(0, ⟨408248290463863016, 18⟩), (5, ⟨816496580927726033, 18⟩)],
  [(2, ⟨816496580927726033, 18⟩), (3, ⟨-408248290463863016, 18⟩)],
  [(0, ⟨-707106781186547524, 18⟩)]]

/-- The part of g_trans_cart2jR (src/cart2sph.c:813-2172, PYPZPX not defined) for l = 2: for every row of
12 literals the nonzero ones with their column. -/
def cjRowsR2 : List (List (Nat × Dec)) := [
  [(0, ⟨-345494149471335479, 18⟩), (3, ⟨345494149471335479, 18⟩), (8, ⟨345494149471335479, 18⟩)],
  [(2, ⟨-598413420602149016, 18⟩), (6, ⟨-199471140200716338, 18⟩), (9, ⟨-199471140200716338, 18⟩), (11, ⟨398942280401432677, 18⟩)],
  [(0, ⟨199471140200716338, 18⟩), (3, ⟨199471140200716338, 18⟩), (5, ⟨-398942280401432677, 18⟩), (8, ⟨-598413420602149016, 18⟩)],
  [(2, ⟨345494149471335479, 18⟩), (6, ⟨345494149471335479, 18⟩), (9, ⟨-345494149471335479, 18⟩)],
  [(6, ⟨386274202023189580, 18⟩), (9, ⟨-386274202023189580, 18⟩)],
  [(0, ⟨172747074735667739, 18⟩), (3, ⟨-172747074735667739, 18⟩), (8, ⟨690988298942670958, 18⟩)],
  [(2, ⟨488602511902919921, 18⟩), (6, ⟨-244301255951459960, 18⟩), (9, ⟨-244301255951459960, 18⟩), (11, ⟨488602511902919921, 18⟩)],
  [(0, ⟨-244301255951459960, 18⟩), (3, ⟨-244301255951459960, 18⟩), (5, ⟨488602511902919921, 18⟩), (8, ⟨-488602511902919921, 18⟩)],
  [(2, ⟨-690988298942670958, 18⟩), (6, ⟨172747074735667739, 18⟩), (9, ⟨-172747074735667739, 18⟩)],
  [(0, ⟨386274202023189580, 18⟩), (3, ⟨-386274202023189580, 18⟩)]]

/-- The part of g_trans_cart2jR (src/cart2sph.c:813-2172, PYPZPX not defined) for l = 3: for every row of
20 literals the nonzero ones with their column. -/
def cjRowsR3 : List (List (Nat × Dec)) := [
  [(0, ⟨-386274202023189580, 18⟩), (3, ⟨1158822606069568741, 18⟩), (12, ⟨386274202023189580, 18⟩), (17, ⟨-386274202023189580, 18⟩)],
  [(2, ⟨-863735373678338698, 18⟩), (7, ⟨863735373678338698, 18⟩), (10, ⟨-172747074735667739, 18⟩), (13, ⟨-172747074735667739, 18⟩), (15, ⟨690988298942670958, 18⟩)],
  [(0, ⟨244301255951459960, 18⟩), (3, ⟨244301255951459960, 18⟩), (5, ⟨-977205023805839843, 18⟩), (12, ⟨-732903767854379882, 18⟩), (17, ⟨-732903767854379882, 18⟩), (19, ⟨488602511902919921, 18⟩)],
  [(2, ⟨732903767854379882, 18⟩), (7, ⟨732903767854379882, 18⟩), (9, ⟨-488602511902919921, 18⟩), (10, ⟨244301255951459960, 18⟩), (13, ⟨244301255951459960, 18⟩), (15, ⟨-977205023805839843, 18⟩)],
  [(0, ⟨-172747074735667739, 18⟩), (3, ⟨-172747074735667739, 18⟩), (5, ⟨690988298942670958, 18⟩), (12, ⟨863735373678338698, 18⟩), (17, ⟨-863735373678338698, 18⟩)],
  [(2, ⟨-386274202023189580, 18⟩), (7, ⟨386274202023189580, 18⟩), (10, ⟨-386274202023189580, 18⟩), (13, ⟨1158822606069568741, 18⟩)],
  [(10, ⟨417223823632784089, 18⟩), (13, ⟨-1251671470898352269, 18⟩)],
  [(0, ⟨157695782626260003, 18⟩), (3, ⟨-473087347878780009, 18⟩), (12, ⟨946174695757560018, 18⟩), (17, ⟨-946174695757560018, 18⟩)],
  [(2, ⟨546274215296039535, 18⟩), (7, ⟨-546274215296039535, 18⟩), (10, ⟨-273137107648019767, 18⟩), (13, ⟨-273137107648019767, 18⟩), (15, ⟨1092548430592079070, 18⟩)],
  [(0, ⟨-211571093830408607, 18⟩), (3, ⟨-211571093830408607, 18⟩), (5, ⟨846284375321634430, 18⟩), (12, ⟨-846284375321634430, 18⟩), (17, ⟨-846284375321634430, 18⟩), (19, ⟨564189583547756286, 18⟩)],
  [(2, ⟨-846284375321634430, 18⟩), (7, ⟨-846284375321634430, 18⟩), (9, ⟨564189583547756286, 18⟩), (10, ⟨211571093830408607, 18⟩), (13, ⟨211571093830408607, 18⟩), (15, ⟨-846284375321634430, 18⟩)],
  [(0, ⟨273137107648019767, 18⟩), (3, ⟨273137107648019767, 18⟩), (5, ⟨-1092548430592079070, 18⟩), (12, ⟨546274215296039535, 18⟩), (17, ⟨-546274215296039535, 18⟩)],
  [(2, ⟨946174695757560018, 18⟩), (7, ⟨-946174695757560018, 18⟩), (10, ⟨-157695782626260003, 18⟩), (13, ⟨473087347878780009, 18⟩)],
  [(0, ⟨-417223823632784089, 18⟩), (3, ⟨1251671470898352269, 18⟩)]]

/-- The part of g_trans_cart2jR (src/cart2sph.c:813-2172, PYPZPX not defined) for l = 4: for every row of
30 literals the nonzero ones with their column. -/
def cjRowsR4 : List (List (Nat × Dec)) := [
  [(0, ⟨-417223823632784089, 18⟩), (3, ⟨2503342941796704538, 18⟩), (10, ⟨-417223823632784089, 18⟩), (17, ⟨417223823632784089, 18⟩), (22, ⟨-1251671470898352269, 18⟩)],
  [(2, ⟨-1103870478383820021, 18⟩), (7, ⟨3311611435151460063, 18⟩), (15, ⟨-157695782626260003, 18⟩), (20, ⟨946174695757560018, 18⟩), (25, ⟨157695782626260003, 18⟩), (27, ⟨-946174695757560018, 18⟩)],
  [(0, ⟨273137107648019767, 18⟩), (5, ⟨-1638822645888118605, 18⟩), (10, ⟨-273137107648019767, 18⟩), (12, ⟨1638822645888118605, 18⟩), (17, ⟨-819411322944059302, 18⟩), (22, ⟨-819411322944059302, 18⟩), (24, ⟨1092548430592079070, 18⟩)],
  [(2, ⟨1057855469152043038, 18⟩), (7, ⟨1057855469152043038, 18⟩), (9, ⟨-1410473958869390717, 18⟩), (15, ⟨211571093830408607, 18⟩), (18, ⟨423142187660817215, 18⟩), (20, ⟨-1692568750643268860, 18⟩), (25, ⟨211571093830408607, 18⟩), (27, ⟨-1692568750643268860, 18⟩), (29, ⟨564189583547756286, 18⟩)],
  [(0, ⟨-211571093830408607, 18⟩), (3, ⟨-423142187660817215, 18⟩), (5, ⟨1692568750643268860, 18⟩), (10, ⟨-211571093830408607, 18⟩), (12, ⟨1692568750643268860, 18⟩), (14, ⟨-564189583547756286, 18⟩), (17, ⟨1057855469152043038, 18⟩), (22, ⟨1057855469152043038, 18⟩), (24, ⟨-1410473958869390717, 18⟩)],
  [(2, ⟨-819411322944059302, 18⟩), (7, ⟨-819411322944059302, 18⟩), (9, ⟨1092548430592079070, 18⟩), (15, ⟨-273137107648019767, 18⟩), (20, ⟨1638822645888118605, 18⟩), (25, ⟨273137107648019767, 18⟩), (27, ⟨-1638822645888118605, 18⟩)],
  [(0, ⟨157695782626260003, 18⟩), (5, ⟨-946174695757560018, 18⟩), (10, ⟨-157695782626260003, 18⟩), (12, ⟨946174695757560018, 18⟩), (17, ⟨-1103870478383820021, 18⟩), (22, ⟨3311611435151460063, 18⟩)],
  [(2, ⟨417223823632784089, 18⟩), (7, ⟨-1251671470898352269, 18⟩), (15, ⟨417223823632784089, 18⟩), (18, ⟨-2503342941796704538, 18⟩), (25, ⟨417223823632784089, 18⟩)],
  [(15, ⟨442532692444982632, 18⟩), (18, ⟨-2655196154669895796, 18⟩), (25, ⟨442532692444982632, 18⟩)],
  [(0, ⟨147510897481660877, 18⟩), (3, ⟨-885065384889965265, 18⟩), (10, ⟨147510897481660877, 18⟩), (17, ⟨1180087179853287020, 18⟩), (22, ⟨-3540261539559861062, 18⟩)],
  [(2, ⟨590043589926643510, 18⟩), (7, ⟨-1770130769779930531, 18⟩), (15, ⟨-295021794963321755, 18⟩), (20, ⟨1770130769779930531, 18⟩), (25, ⟨295021794963321755, 18⟩), (27, ⟨-1770130769779930531, 18⟩)],
  [(0, ⟨-193137101011594790, 18⟩), (5, ⟨1158822606069568741, 18⟩), (10, ⟨193137101011594790, 18⟩), (12, ⟨-1158822606069568741, 18⟩), (17, ⟨-1158822606069568741, 18⟩), (22, ⟨-1158822606069568741, 18⟩), (24, ⟨1545096808092758321, 18⟩)],
  [(2, ⟨-946174695757560018, 18⟩), (7, ⟨-946174695757560018, 18⟩), (9, ⟨1261566261010080024, 18⟩), (15, ⟨236543673939390004, 18⟩), (18, ⟨473087347878780009, 18⟩), (20, ⟨-1892349391515120036, 18⟩), (25, ⟨236543673939390004, 18⟩), (27, ⟨-1892349391515120036, 18⟩), (29, ⟨630783130505040012, 18⟩)],
  [(0, ⟨236543673939390004, 18⟩), (3, ⟨473087347878780009, 18⟩), (5, ⟨-1892349391515120036, 18⟩), (10, ⟨236543673939390004, 18⟩), (12, ⟨-1892349391515120036, 18⟩), (14, ⟨630783130505040012, 18⟩), (17, ⟨946174695757560018, 18⟩), (22, ⟨946174695757560018, 18⟩), (24, ⟨-1261566261010080024, 18⟩)],
  [(2, ⟨1158822606069568741, 18⟩), (7, ⟨1158822606069568741, 18⟩), (9, ⟨-1545096808092758321, 18⟩), (15, ⟨-193137101011594790, 18⟩), (20, ⟨1158822606069568741, 18⟩), (25, ⟨193137101011594790, 18⟩), (27, ⟨-1158822606069568741, 18⟩)],
  [(0, ⟨-295021794963321755, 18⟩), (5, ⟨1770130769779930531, 18⟩), (10, ⟨295021794963321755, 18⟩), (12, ⟨-1770130769779930531, 18⟩), (17, ⟨-590043589926643510, 18⟩), (22, ⟨1770130769779930531, 18⟩)],
  [(2, ⟨-1180087179853287020, 18⟩), (7, ⟨3540261539559861062, 18⟩), (15, ⟨147510897481660877, 18⟩), (18, ⟨-885065384889965265, 18⟩), (25, ⟨147510897481660877, 18⟩)],
  [(0, ⟨442532692444982632, 18⟩), (3, ⟨-2655196154669895796, 18⟩), (10, ⟨442532692444982632, 18⟩)]]

/-- The part of g_trans_cart2jR (src/cart2sph.c:813-2172, PYPZPX not defined) for l = 5: for every row of
42 literals the nonzero ones with their column. -/
def cjRowsR5 : List (List (Nat × Dec)) := [
  [(0, ⟨-442532692444982632, 18⟩), (3, ⟨4425326924449826327, 18⟩), (10, ⟨-2212663462224913163, 18⟩), (23, ⟨442532692444982632, 18⟩), (28, ⟨-2655196154669895796, 18⟩), (37, ⟨442532692444982632, 18⟩)],
  [(2, ⟨-1327598077334947898, 18⟩), (7, ⟨7965588464009687389, 18⟩), (16, ⟨-1327598077334947898, 18⟩), (21, ⟨-147510897481660877, 18⟩), (24, ⟨295021794963321755, 18⟩), (26, ⟨1180087179853287020, 18⟩), (31, ⟨442532692444982632, 18⟩), (33, ⟨-3540261539559861062, 18⟩)],
  [(0, ⟨295021794963321755, 18⟩), (3, ⟨-590043589926643510, 18⟩), (5, ⟨-2360174359706574041, 18⟩), (10, ⟨-885065384889965265, 18⟩), (12, ⟨7080523079119722124, 18⟩), (23, ⟨-885065384889965265, 18⟩), (30, ⟨1770130769779930531, 18⟩), (37, ⟨885065384889965265, 18⟩), (39, ⟨-1770130769779930531, 18⟩)],
  [(2, ⟨1351959707081163531, 18⟩), (9, ⟨-2703919414162327062, 18⟩), (16, ⟨-1351959707081163531, 18⟩), (18, ⟨2703919414162327062, 18⟩), (21, ⟨193137101011594790, 18⟩), (24, ⟨386274202023189580, 18⟩), (26, ⟨-2317645212139137482, 18⟩), (31, ⟨193137101011594790, 18⟩), (33, ⟨-2317645212139137482, 18⟩), (35, ⟨1545096808092758321, 18⟩)],
  [(0, ⟨-236543673939390004, 18⟩), (3, ⟨-473087347878780009, 18⟩), (5, ⟨2838524087272680054, 18⟩), (10, ⟨-236543673939390004, 18⟩), (12, ⟨2838524087272680054, 18⟩), (14, ⟨-1892349391515120036, 18⟩), (23, ⟨1182718369696950022, 18⟩), (28, ⟨2365436739393900045, 18⟩), (30, ⟨-3153915652525200060, 18⟩), (37, ⟨1182718369696950022, 18⟩), (39, ⟨-3153915652525200060, 18⟩), (41, ⟨630783130505040012, 18⟩)],
  [(2, ⟨-1182718369696950022, 18⟩), (7, ⟨-2365436739393900045, 18⟩), (9, ⟨3153915652525200060, 18⟩), (16, ⟨-1182718369696950022, 18⟩), (18, ⟨3153915652525200060, 18⟩), (20, ⟨-630783130505040012, 18⟩), (21, ⟨-236543673939390004, 18⟩), (24, ⟨-473087347878780009, 18⟩), (26, ⟨2838524087272680054, 18⟩), (31, ⟨-236543673939390004, 18⟩), (33, ⟨2838524087272680054, 18⟩), (35, ⟨-1892349391515120036, 18⟩)],
  [(0, ⟨193137101011594790, 18⟩), (3, ⟨386274202023189580, 18⟩), (5, ⟨-2317645212139137482, 18⟩), (10, ⟨193137101011594790, 18⟩), (12, ⟨-2317645212139137482, 18⟩), (14, ⟨1545096808092758321, 18⟩), (23, ⟨-1351959707081163531, 18⟩), (30, ⟨2703919414162327062, 18⟩), (37, ⟨1351959707081163531, 18⟩), (39, ⟨-2703919414162327062, 18⟩)],
  [(2, ⟨885065384889965265, 18⟩), (9, ⟨-1770130769779930531, 18⟩), (16, ⟨-885065384889965265, 18⟩), (18, ⟨1770130769779930531, 18⟩), (21, ⟨295021794963321755, 18⟩), (24, ⟨-590043589926643510, 18⟩), (26, ⟨-2360174359706574041, 18⟩), (31, ⟨-885065384889965265, 18⟩), (33, ⟨7080523079119722124, 18⟩)],
  [(0, ⟨-147510897481660877, 18⟩), (3, ⟨295021794963321755, 18⟩), (5, ⟨1180087179853287020, 18⟩), (10, ⟨442532692444982632, 18⟩), (12, ⟨-3540261539559861062, 18⟩), (23, ⟨1327598077334947898, 18⟩), (28, ⟨-7965588464009687389, 18⟩), (37, ⟨1327598077334947898, 18⟩)],
  [(2, ⟨-442532692444982632, 18⟩), (7, ⟨2655196154669895796, 18⟩), (16, ⟨-442532692444982632, 18⟩), (21, ⟨-442532692444982632, 18⟩), (24, ⟨4425326924449826327, 18⟩), (31, ⟨-2212663462224913163, 18⟩)],
  [(21, ⟨464132203440858160, 18⟩), (24, ⟨-4641322034408581606, 18⟩), (31, ⟨2320661017204290803, 18⟩)],
  [(0, ⟨139941124721293271, 18⟩), (3, ⟨-1399411247212932717, 18⟩), (10, ⟨699705623606466358, 18⟩), (23, ⟨1399411247212932717, 18⟩), (28, ⟨-8396467483277596306, 18⟩), (37, ⟨1399411247212932717, 18⟩)],
  [(2, ⟨625835735449176134, 18⟩), (7, ⟨-3755014412695056807, 18⟩), (16, ⟨625835735449176134, 18⟩), (21, ⟨-312917867724588067, 18⟩), (24, ⟨625835735449176134, 18⟩), (26, ⟨2503342941796704538, 18⟩), (31, ⟨938753603173764201, 18⟩), (33, ⟨-7510028825390113615, 18⟩)],
  [(0, ⟨-180663215165034628, 18⟩), (3, ⟨361326430330069256, 18⟩), (5, ⟨1445305721320277027, 18⟩), (10, ⟨541989645495103885, 18⟩), (12, ⟨-4335917163960831083, 18⟩), (23, ⟨-1445305721320277027, 18⟩), (30, ⟨2890611442640554055, 18⟩), (37, ⟨1445305721320277027, 18⟩), (39, ⟨-2890611442640554055, 18⟩)],
  [(2, ⟨-1021985476433282363, 18⟩), (9, ⟨2043970952866564726, 18⟩), (16, ⟨1021985476433282363, 18⟩), (18, ⟨-2043970952866564726, 18⟩), (21, ⟨255496369108320590, 18⟩), (24, ⟨510992738216641181, 18⟩), (26, ⟨-3065956429299847090, 18⟩), (31, ⟨255496369108320590, 18⟩), (33, ⟨-3065956429299847090, 18⟩), (35, ⟨2043970952866564726, 18⟩)],
  [(0, ⟨215933843419584674, 18⟩), (3, ⟨431867686839169349, 18⟩), (5, ⟨-2591206121035016094, 18⟩), (10, ⟨215933843419584674, 18⟩), (12, ⟨-2591206121035016094, 18⟩), (14, ⟨1727470747356677396, 18⟩), (23, ⟨1295603060517508047, 18⟩), (28, ⟨2591206121035016094, 18⟩), (30, ⟨-3454941494713354792, 18⟩), (37, ⟨1295603060517508047, 18⟩), (39, ⟨-3454941494713354792, 18⟩), (41, ⟨690988298942670958, 18⟩)],
  [(2, ⟨1295603060517508047, 18⟩), (7, ⟨2591206121035016094, 18⟩), (9, ⟨-3454941494713354792, 18⟩), (16, ⟨1295603060517508047, 18⟩), (18, ⟨-3454941494713354792, 18⟩), (20, ⟨690988298942670958, 18⟩), (21, ⟨-215933843419584674, 18⟩), (24, ⟨-431867686839169349, 18⟩), (26, ⟨2591206121035016094, 18⟩), (31, ⟨-215933843419584674, 18⟩), (33, ⟨2591206121035016094, 18⟩), (35, ⟨-1727470747356677396, 18⟩)],
  [(0, ⟨-255496369108320590, 18⟩), (3, ⟨-510992738216641181, 18⟩), (5, ⟨3065956429299847090, 18⟩), (10, ⟨-255496369108320590, 18⟩), (12, ⟨3065956429299847090, 18⟩), (14, ⟨-2043970952866564726, 18⟩), (23, ⟨-1021985476433282363, 18⟩), (30, ⟨2043970952866564726, 18⟩), (37, ⟨1021985476433282363, 18⟩), (39, ⟨-2043970952866564726, 18⟩)],
  [(2, ⟨-1445305721320277027, 18⟩), (9, ⟨2890611442640554055, 18⟩), (16, ⟨1445305721320277027, 18⟩), (18, ⟨-2890611442640554055, 18⟩), (21, ⟨180663215165034628, 18⟩), (24, ⟨-361326430330069256, 18⟩), (26, ⟨-1445305721320277027, 18⟩), (31, ⟨-541989645495103885, 18⟩), (33, ⟨4335917163960831083, 18⟩)],
  [(0, ⟨312917867724588067, 18⟩), (3, ⟨-625835735449176134, 18⟩), (5, ⟨-2503342941796704538, 18⟩), (10, ⟨-938753603173764201, 18⟩), (12, ⟨7510028825390113615, 18⟩), (23, ⟨625835735449176134, 18⟩), (28, ⟨-3755014412695056807, 18⟩), (37, ⟨625835735449176134, 18⟩)],
  [(2, ⟨1399411247212932717, 18⟩), (7, ⟨-8396467483277596306, 18⟩), (16, ⟨1399411247212932717, 18⟩), (21, ⟨-139941124721293271, 18⟩), (24, ⟨1399411247212932717, 18⟩), (31, ⟨-699705623606466358, 18⟩)],
  [(0, ⟨-464132203440858160, 18⟩), (3, ⟨4641322034408581606, 18⟩), (10, ⟨-2320661017204290803, 18⟩)]]

/-- The part of g_trans_cart2jR (src/cart2sph.c:813-2172, PYPZPX not defined) for l = 6: for every row of
56 literals the nonzero ones with their column. -/
def cjRowsR6 : List (List (Nat × Dec)) := [
  [(0, ⟨-4641322034408583, 16⟩), (3, ⟨69619830516128740, 16⟩), (10, ⟨-69619830516128740, 16⟩), (21, ⟨4641322034408583, 16⟩), (30, ⟨4641322034408583, 16⟩), (35, ⟨-46413220344085833, 16⟩), (44, ⟨23206610172042916, 16⟩)],
  [(2, ⟨-15393523719342264, 16⟩), (7, ⟨153935237193422640, 16⟩), (16, ⟨-76967618596711320, 16⟩), (28, ⟨-1399411247212932, 16⟩), (31, ⟨6997056236064662, 16⟩), (33, ⟨13994112472129330, 16⟩), (38, ⟨6997056236064662, 16⟩), (40, ⟨-83964674832775970, 16⟩), (49, ⟨-1399411247212932, 16⟩), (51, ⟨13994112472129330, 16⟩)],
  [(0, ⟨3129178677245880, 16⟩), (3, ⟨-15645893386229399, 16⟩), (5, ⟨-31291786772458812, 16⟩), (10, ⟨-15645893386229399, 16⟩), (12, ⟨187750720634752852, 16⟩), (21, ⟨3129178677245880, 16⟩), (23, ⟨-31291786772458812, 16⟩), (30, ⟨-9387536031737643, 16⟩), (35, ⟨18775072063475287, 16⟩), (37, ⟨25033429417967050, 16⟩), (44, ⟨28162608095212929, 16⟩), (46, ⟨-75100288253901146, 16⟩)],
  [(2, ⟨16259689364853118, 16⟩), (7, ⟨-32519378729706236, 16⟩), (9, ⟨-43359171639608318, 16⟩), (16, ⟨-48779068094559346, 16⟩), (18, ⟨130077514918824946, 16⟩), (28, ⟨1806632151650347, 16⟩), (31, ⟨1806632151650347, 16⟩), (33, ⟨-28906114426405547, 16⟩), (38, ⟨-1806632151650347, 16⟩), (42, ⟨28906114426405547, 16⟩), (49, ⟨-1806632151650347, 16⟩), (51, ⟨28906114426405547, 16⟩), (53, ⟨-28906114426405547, 16⟩)],
  [(0, ⟨-2554963691083206, 16⟩), (3, ⟨-2554963691083206, 16⟩), (5, ⟨40879419057331301, 16⟩), (10, ⟨2554963691083206, 16⟩), (14, ⟨-40879419057331301, 16⟩), (21, ⟨2554963691083206, 16⟩), (23, ⟨-40879419057331301, 16⟩), (25, ⟨40879419057331301, 16⟩), (30, ⟨12774818455416030, 16⟩), (35, ⟨25549636910832061, 16⟩), (37, ⟨-51099273821664122, 16⟩), (44, ⟨12774818455416030, 16⟩), (46, ⟨-51099273821664122, 16⟩), (48, ⟨20439709528665646, 16⟩)],
  [(2, ⟨-15115369039370925, 16⟩), (7, ⟨-30230738078741850, 16⟩), (9, ⟨60461476157483700, 16⟩), (16, ⟨-15115369039370925, 16⟩), (18, ⟨60461476157483700, 16⟩), (20, ⟨-24184590462993478, 16⟩), (28, ⟨-2159338434195847, 16⟩), (31, ⟨-6478015302587540, 16⟩), (33, ⟨38868091815525241, 16⟩), (38, ⟨-6478015302587540, 16⟩), (40, ⟨77736183631050482, 16⟩), (42, ⟨-51824122420700318, 16⟩), (49, ⟨-2159338434195847, 16⟩), (51, ⟨38868091815525241, 16⟩), (53, ⟨-51824122420700318, 16⟩), (55, ⟨6909882989426709, 16⟩)],
  [(0, ⟨2159338434195847, 16⟩), (3, ⟨6478015302587540, 16⟩), (5, ⟨-38868091815525241, 16⟩), (10, ⟨6478015302587540, 16⟩), (12, ⟨-77736183631050482, 16⟩), (14, ⟨51824122420700318, 16⟩), (21, ⟨2159338434195847, 16⟩), (23, ⟨-38868091815525241, 16⟩), (25, ⟨51824122420700318, 16⟩), (27, ⟨-6909882989426709, 16⟩), (30, ⟨-15115369039370925, 16⟩), (35, ⟨-30230738078741850, 16⟩), (37, ⟨60461476157483700, 16⟩), (44, ⟨-15115369039370925, 16⟩), (46, ⟨60461476157483700, 16⟩), (48, ⟨-24184590462993478, 16⟩)],
  [(2, ⟨12774818455416030, 16⟩), (7, ⟨25549636910832061, 16⟩), (9, ⟨-51099273821664122, 16⟩), (16, ⟨12774818455416030, 16⟩), (18, ⟨-51099273821664122, 16⟩), (20, ⟨20439709528665646, 16⟩), (28, ⟨2554963691083206, 16⟩), (31, ⟨2554963691083206, 16⟩), (33, ⟨-40879419057331301, 16⟩), (38, ⟨-2554963691083206, 16⟩), (42, ⟨40879419057331301, 16⟩), (49, ⟨-2554963691083206, 16⟩), (51, ⟨40879419057331301, 16⟩), (53, ⟨-40879419057331301, 16⟩)],
  [(0, ⟨-1806632151650347, 16⟩), (3, ⟨-1806632151650347, 16⟩), (5, ⟨28906114426405547, 16⟩), (10, ⟨1806632151650347, 16⟩), (14, ⟨-28906114426405547, 16⟩), (21, ⟨1806632151650347, 16⟩), (23, ⟨-28906114426405547, 16⟩), (25, ⟨28906114426405547, 16⟩), (30, ⟨16259689364853118, 16⟩), (35, ⟨-32519378729706236, 16⟩), (37, ⟨-43359171639608318, 16⟩), (44, ⟨-48779068094559346, 16⟩), (46, ⟨130077514918824946, 16⟩)],
  [(2, ⟨-9387536031737643, 16⟩), (7, ⟨18775072063475287, 16⟩), (9, ⟨25033429417967050, 16⟩), (16, ⟨28162608095212929, 16⟩), (18, ⟨-75100288253901146, 16⟩), (28, ⟨-3129178677245880, 16⟩), (31, ⟨15645893386229399, 16⟩), (33, ⟨31291786772458812, 16⟩), (38, ⟨15645893386229399, 16⟩), (40, ⟨-187750720634752852, 16⟩), (49, ⟨-3129178677245880, 16⟩), (51, ⟨31291786772458812, 16⟩)],
  [(0, ⟨1399411247212932, 16⟩), (3, ⟨-6997056236064662, 16⟩), (5, ⟨-13994112472129330, 16⟩), (10, ⟨-6997056236064662, 16⟩), (12, ⟨83964674832775970, 16⟩), (21, ⟨1399411247212932, 16⟩), (23, ⟨-13994112472129330, 16⟩), (30, ⟨-15393523719342264, 16⟩), (35, ⟨153935237193422640, 16⟩), (44, ⟨-76967618596711320, 16⟩)],
  [(2, ⟨4641322034408583, 16⟩), (7, ⟨-46413220344085833, 16⟩), (16, ⟨23206610172042916, 16⟩), (28, ⟨4641322034408583, 16⟩), (31, ⟨-69619830516128740, 16⟩), (38, ⟨69619830516128740, 16⟩), (49, ⟨-4641322034408583, 16⟩)],
  [(28, ⟨4830841135800663, 16⟩), (31, ⟨-72462617037009949, 16⟩), (38, ⟨72462617037009949, 16⟩), (49, ⟨-4830841135800663, 16⟩)],
  [(0, ⟨1339834262980768, 16⟩), (3, ⟨-20097513944711523, 16⟩), (10, ⟨20097513944711523, 16⟩), (21, ⟨-1339834262980768, 16⟩), (30, ⟨16078011155769223, 16⟩), (35, ⟨-160780111557692216, 16⟩), (44, ⟨80390055778846108, 16⟩)],
  [(2, ⟨6563820568401703, 16⟩), (7, ⟨-65638205684017032, 16⟩), (16, ⟨32819102842008516, 16⟩), (28, ⟨-3281910284200850, 16⟩), (31, ⟨16409551421004249, 16⟩), (33, ⟨32819102842008507, 16⟩), (38, ⟨16409551421004249, 16⟩), (40, ⟨-196914617052051035, 16⟩), (49, ⟨-3281910284200850, 16⟩), (51, ⟨32819102842008507, 16⟩)],
  [(0, ⟨-1713921747991747, 16⟩), (3, ⟨8569608739958732, 16⟩), (5, ⟨17139217479917468, 16⟩), (10, ⟨8569608739958732, 16⟩), (12, ⟨-102835304879504807, 16⟩), (21, ⟨-1713921747991747, 16⟩), (23, ⟨17139217479917468, 16⟩), (30, ⟨-17139217479917466, 16⟩), (35, ⟨34278434959834931, 16⟩), (37, ⟨45704579946446584, 16⟩), (44, ⟨51417652439752395, 16⟩), (46, ⟨-137113739839339726, 16⟩)],
  [(2, ⟨-10839792909902080, 16⟩), (7, ⟨21679585819804159, 16⟩), (9, ⟨28906114426405547, 16⟩), (16, ⟨32519378729706232, 16⟩), (18, ⟨-86718343279216636, 16⟩), (28, ⟨2709948227475520, 16⟩), (31, ⟨2709948227475520, 16⟩), (33, ⟨-43359171639608318, 16⟩), (38, ⟨-2709948227475520, 16⟩), (42, ⟨43359171639608318, 16⟩), (49, ⟨-2709948227475520, 16⟩), (51, ⟨43359171639608318, 16⟩), (53, ⟨-43359171639608318, 16⟩)],
  [(0, ⟨2019876150713442, 16⟩), (3, ⟨2019876150713442, 16⟩), (5, ⟨-32318018411415070, 16⟩), (10, ⟨-2019876150713442, 16⟩), (14, ⟨32318018411415070, 16⟩), (21, ⟨-2019876150713442, 16⟩), (23, ⟨32318018411415070, 16⟩), (25, ⟨-32318018411415070, 16⟩), (30, ⟨16159009205707533, 16⟩), (35, ⟨32318018411415066, 16⟩), (37, ⟨-64636036822830132, 16⟩), (44, ⟨16159009205707533, 16⟩), (46, ⟨-64636036822830132, 16⟩), (48, ⟨25854414729132049, 16⟩)],
  [(2, ⟨13994112472129328, 16⟩), (7, ⟨27988224944258655, 16⟩), (9, ⟨-55976449888517310, 16⟩), (16, ⟨13994112472129328, 16⟩), (18, ⟨-55976449888517310, 16⟩), (20, ⟨22390579955406920, 16⟩), (28, ⟨-2332352078688221, 16⟩), (31, ⟨-6997056236064663, 16⟩), (33, ⟨41982337416387976, 16⟩), (38, ⟨-6997056236064663, 16⟩), (40, ⟨83964674832775952, 16⟩), (42, ⟨-55976449888517301, 16⟩), (49, ⟨-2332352078688221, 16⟩), (51, ⟨41982337416387976, 16⟩), (53, ⟨-55976449888517301, 16⟩), (55, ⟨7463526651802307, 16⟩)],
  [(0, ⟨-2332352078688221, 16⟩), (3, ⟨-6997056236064663, 16⟩), (5, ⟨41982337416387976, 16⟩), (10, ⟨-6997056236064663, 16⟩), (12, ⟨83964674832775952, 16⟩), (14, ⟨-55976449888517301, 16⟩), (21, ⟨-2332352078688221, 16⟩), (23, ⟨41982337416387976, 16⟩), (25, ⟨-55976449888517301, 16⟩), (27, ⟨7463526651802307, 16⟩), (30, ⟨-13994112472129328, 16⟩), (35, ⟨-27988224944258655, 16⟩), (37, ⟨55976449888517310, 16⟩), (44, ⟨-13994112472129328, 16⟩), (46, ⟨55976449888517310, 16⟩), (48, ⟨-22390579955406920, 16⟩)],
  [(2, ⟨-16159009205707533, 16⟩), (7, ⟨-32318018411415066, 16⟩), (9, ⟨64636036822830132, 16⟩), (16, ⟨-16159009205707533, 16⟩), (18, ⟨64636036822830132, 16⟩), (20, ⟨-25854414729132049, 16⟩), (28, ⟨2019876150713442, 16⟩), (31, ⟨2019876150713442, 16⟩), (33, ⟨-32318018411415070, 16⟩), (38, ⟨-2019876150713442, 16⟩), (42, ⟨32318018411415070, 16⟩), (49, ⟨-2019876150713442, 16⟩), (51, ⟨32318018411415070, 16⟩), (53, ⟨-32318018411415070, 16⟩)],
  [(0, ⟨2709948227475520, 16⟩), (3, ⟨2709948227475520, 16⟩), (5, ⟨-43359171639608318, 16⟩), (10, ⟨-2709948227475520, 16⟩), (14, ⟨43359171639608318, 16⟩), (21, ⟨-2709948227475520, 16⟩), (23, ⟨43359171639608318, 16⟩), (25, ⟨-43359171639608318, 16⟩), (30, ⟨10839792909902080, 16⟩), (35, ⟨-21679585819804159, 16⟩), (37, ⟨-28906114426405547, 16⟩), (44, ⟨-32519378729706232, 16⟩), (46, ⟨86718343279216636, 16⟩)],
  [(2, ⟨17139217479917466, 16⟩), (7, ⟨-34278434959834931, 16⟩), (9, ⟨-45704579946446584, 16⟩), (16, ⟨-51417652439752395, 16⟩), (18, ⟨137113739839339726, 16⟩), (28, ⟨-1713921747991747, 16⟩), (31, ⟨8569608739958732, 16⟩), (33, ⟨17139217479917468, 16⟩), (38, ⟨8569608739958732, 16⟩), (40, ⟨-102835304879504807, 16⟩), (49, ⟨-1713921747991747, 16⟩), (51, ⟨17139217479917468, 16⟩)],
  [(0, ⟨-3281910284200850, 16⟩), (3, ⟨16409551421004249, 16⟩), (5, ⟨32819102842008507, 16⟩), (10, ⟨16409551421004249, 16⟩), (12, ⟨-196914617052051035, 16⟩), (21, ⟨-3281910284200850, 16⟩), (23, ⟨32819102842008507, 16⟩), (30, ⟨-6563820568401703, 16⟩), (35, ⟨65638205684017032, 16⟩), (44, ⟨-32819102842008516, 16⟩)],
  [(2, ⟨-16078011155769223, 16⟩), (7, ⟨160780111557692216, 16⟩), (16, ⟨-80390055778846108, 16⟩), (28, ⟨1339834262980768, 16⟩), (31, ⟨-20097513944711523, 16⟩), (38, ⟨20097513944711523, 16⟩), (49, ⟨-1339834262980768, 16⟩)],
  [(0, ⟨4830841135800663, 16⟩), (3, ⟨-72462617037009949, 16⟩), (10, ⟨72462617037009949, 16⟩), (21, ⟨-4830841135800663, 16⟩)]]

/-- The part of g_trans_cart2jR (src/cart2sph.c:813-2172, PYPZPX not defined) for l = 7: for every row of
72 literals the nonzero ones with their column. -/
def cjRowsR7 : List (List (Nat × Dec)) := [
  [(0, ⟨-4830841135800663, 16⟩), (3, ⟨101447663851813932, 16⟩), (10, ⟨-169079439753023237, 16⟩), (21, ⟨33815887950604644, 16⟩), (38, ⟨4830841135800661, 16⟩), (43, ⟨-72462617037009922, 16⟩), (52, ⟨72462617037009922, 16⟩), (65, ⟨-4830841135800661, 16⟩)],
  [(2, ⟨-17417845418749984, 16⟩), (7, ⟨261267681281249757, 16⟩), (16, ⟨-261267681281249757, 16⟩), (29, ⟨17417845418749984, 16⟩), (36, ⟨-1339834262980768, 16⟩), (39, ⟨12058508366826914, 16⟩), (41, ⟨16078011155769216, 16⟩), (46, ⟨6699171314903840, 16⟩), (48, ⟨-160780111557692145, 16⟩), (57, ⟨-6699171314903840, 16⟩), (59, ⟨80390055778846072, 16⟩)],
  [(0, ⟨3281910284200851, 16⟩), (3, ⟨-29537192557807663, 16⟩), (5, ⟨-39382923410410213, 16⟩), (10, ⟨-16409551421004256, 16⟩), (12, ⟨393829234104102142, 16⟩), (21, ⟨16409551421004256, 16⟩), (23, ⟨-196914617052051071, 16⟩), (38, ⟨-9845730852602553, 16⟩), (43, ⟨49228654263012768, 16⟩), (45, ⟨32819102842008512, 16⟩), (52, ⟨49228654263012768, 16⟩), (54, ⟨-196914617052051071, 16⟩), (65, ⟨-9845730852602553, 16⟩), (67, ⟨32819102842008512, 16⟩)],
  [(2, ⟨18853139227909212, 16⟩), (7, ⟨-94265696139546051, 16⟩), (9, ⟨-62843797426364043, 16⟩), (16, ⟨-94265696139546051, 16⟩), (18, ⟨377062784558184205, 16⟩), (29, ⟨18853139227909212, 16⟩), (31, ⟨-62843797426364043, 16⟩), (36, ⟨1713921747991747, 16⟩), (39, ⟨-1713921747991747, 16⟩), (41, ⟨-34278434959834923, 16⟩), (46, ⟨-8569608739958733, 16⟩), (48, ⟨68556869919669845, 16⟩), (50, ⟨45704579946446575, 16⟩), (57, ⟨-5141765243975239, 16⟩), (59, ⟨102835304879504772, 16⟩), (61, ⟨-137113739839339726, 16⟩)],
  [(0, ⟨-2709948227475520, 16⟩), (3, ⟨2709948227475520, 16⟩), (5, ⟨54198964549510391, 16⟩), (10, ⟨13549741137377600, 16⟩), (12, ⟨-108397929099020782, 16⟩), (14, ⟨-72265286066013861, 16⟩), (21, ⟨8129844682426559, 16⟩), (23, ⟨-162596893648531164, 16⟩), (25, ⟨216795858198041600, 16⟩), (38, ⟨13549741137377600, 16⟩), (43, ⟨13549741137377600, 16⟩), (45, ⟨-72265286066013861, 16⟩), (52, ⟨-13549741137377600, 16⟩), (56, ⟨43359171639608327, 16⟩), (65, ⟨-13549741137377600, 16⟩), (67, ⟨72265286066013861, 16⟩), (69, ⟨-43359171639608327, 16⟩)],
  [(2, ⟨-18178885356420982, 16⟩), (7, ⟨-18178885356420982, 16⟩), (9, ⟨96954055234245224, 16⟩), (16, ⟨18178885356420982, 16⟩), (20, ⟨-58172433140547142, 16⟩), (29, ⟨18178885356420982, 16⟩), (31, ⟨-96954055234245224, 16⟩), (33, ⟨58172433140547142, 16⟩), (36, ⟨-2019876150713442, 16⟩), (39, ⟨-6059628452140327, 16⟩), (41, ⟨48477027617122603, 16⟩), (46, ⟨-6059628452140327, 16⟩), (48, ⟨96954055234245207, 16⟩), (50, ⟨-96954055234245207, 16⟩), (57, ⟨-2019876150713442, 16⟩), (59, ⟨48477027617122603, 16⟩), (61, ⟨-96954055234245207, 16⟩), (63, ⟨25854414729132063, 16⟩)],
  [(0, ⟨2332352078688221, 16⟩), (3, ⟨6997056236064664, 16⟩), (5, ⟨-55976449888517301, 16⟩), (10, ⟨6997056236064664, 16⟩), (12, ⟨-111952899777034602, 16⟩), (14, ⟨111952899777034602, 16⟩), (21, ⟨2332352078688221, 16⟩), (23, ⟨-55976449888517301, 16⟩), (25, ⟨111952899777034602, 16⟩), (27, ⟨-29854106607209236, 16⟩), (38, ⟨-16326464550817545, 16⟩), (43, ⟨-48979393652452643, 16⟩), (45, ⟨97958787304905268, 16⟩), (52, ⟨-48979393652452643, 16⟩), (54, ⟨195917574609810536, 16⟩), (56, ⟨-78367029843924216, 16⟩), (65, ⟨-16326464550817545, 16⟩), (67, ⟨97958787304905268, 16⟩), (69, ⟨-78367029843924216, 16⟩), (71, ⟨7463526651802307, 16⟩)],
  [(2, ⟨16326464550817545, 16⟩), (7, ⟨48979393652452643, 16⟩), (9, ⟨-97958787304905268, 16⟩), (16, ⟨48979393652452643, 16⟩), (18, ⟨-195917574609810536, 16⟩), (20, ⟨78367029843924216, 16⟩), (29, ⟨16326464550817545, 16⟩), (31, ⟨-97958787304905268, 16⟩), (33, ⟨78367029843924216, 16⟩), (35, ⟨-7463526651802307, 16⟩), (36, ⟨2332352078688221, 16⟩), (39, ⟨6997056236064664, 16⟩), (41, ⟨-55976449888517301, 16⟩), (46, ⟨6997056236064664, 16⟩), (48, ⟨-111952899777034602, 16⟩), (50, ⟨111952899777034602, 16⟩), (57, ⟨2332352078688221, 16⟩), (59, ⟨-55976449888517301, 16⟩), (61, ⟨111952899777034602, 16⟩), (63, ⟨-29854106607209236, 16⟩)],
  [(0, ⟨-2019876150713442, 16⟩), (3, ⟨-6059628452140327, 16⟩), (5, ⟨48477027617122603, 16⟩), (10, ⟨-6059628452140327, 16⟩), (12, ⟨96954055234245207, 16⟩), (14, ⟨-96954055234245207, 16⟩), (21, ⟨-2019876150713442, 16⟩), (23, ⟨48477027617122603, 16⟩), (25, ⟨-96954055234245207, 16⟩), (27, ⟨25854414729132063, 16⟩), (38, ⟨18178885356420982, 16⟩), (43, ⟨18178885356420982, 16⟩), (45, ⟨-96954055234245224, 16⟩), (52, ⟨-18178885356420982, 16⟩), (56, ⟨58172433140547142, 16⟩), (65, ⟨-18178885356420982, 16⟩), (67, ⟨96954055234245224, 16⟩), (69, ⟨-58172433140547142, 16⟩)],
  [(2, ⟨-13549741137377600, 16⟩), (7, ⟨-13549741137377600, 16⟩), (9, ⟨72265286066013861, 16⟩), (16, ⟨13549741137377600, 16⟩), (20, ⟨-43359171639608327, 16⟩), (29, ⟨13549741137377600, 16⟩), (31, ⟨-72265286066013861, 16⟩), (33, ⟨43359171639608327, 16⟩), (36, ⟨-2709948227475520, 16⟩), (39, ⟨2709948227475520, 16⟩), (41, ⟨54198964549510391, 16⟩), (46, ⟨13549741137377600, 16⟩), (48, ⟨-108397929099020782, 16⟩), (50, ⟨-72265286066013861, 16⟩), (57, ⟨8129844682426559, 16⟩), (59, ⟨-162596893648531164, 16⟩), (61, ⟨216795858198041600, 16⟩)],
  [(0, ⟨1713921747991747, 16⟩), (3, ⟨-1713921747991747, 16⟩), (5, ⟨-34278434959834923, 16⟩), (10, ⟨-8569608739958733, 16⟩), (12, ⟨68556869919669845, 16⟩), (14, ⟨45704579946446575, 16⟩), (21, ⟨-5141765243975239, 16⟩), (23, ⟨102835304879504772, 16⟩), (25, ⟨-137113739839339726, 16⟩), (38, ⟨-18853139227909212, 16⟩), (43, ⟨94265696139546051, 16⟩), (45, ⟨62843797426364043, 16⟩), (52, ⟨94265696139546051, 16⟩), (54, ⟨-377062784558184205, 16⟩), (65, ⟨-18853139227909212, 16⟩), (67, ⟨62843797426364043, 16⟩)],
  [(2, ⟨9845730852602553, 16⟩), (7, ⟨-49228654263012768, 16⟩), (9, ⟨-32819102842008512, 16⟩), (16, ⟨-49228654263012768, 16⟩), (18, ⟨196914617052051071, 16⟩), (29, ⟨9845730852602553, 16⟩), (31, ⟨-32819102842008512, 16⟩), (36, ⟨3281910284200851, 16⟩), (39, ⟨-29537192557807663, 16⟩), (41, ⟨-39382923410410213, 16⟩), (46, ⟨-16409551421004256, 16⟩), (48, ⟨393829234104102142, 16⟩), (57, ⟨16409551421004256, 16⟩), (59, ⟨-196914617052051071, 16⟩)],
  [(0, ⟨-1339834262980768, 16⟩), (3, ⟨12058508366826914, 16⟩), (5, ⟨16078011155769216, 16⟩), (10, ⟨6699171314903840, 16⟩), (12, ⟨-160780111557692145, 16⟩), (21, ⟨-6699171314903840, 16⟩), (23, ⟨80390055778846072, 16⟩), (38, ⟨17417845418749984, 16⟩), (43, ⟨-261267681281249757, 16⟩), (52, ⟨261267681281249757, 16⟩), (65, ⟨-17417845418749984, 16⟩)],
  [(2, ⟨-4830841135800661, 16⟩), (7, ⟨72462617037009922, 16⟩), (16, ⟨-72462617037009922, 16⟩), (29, ⟨4830841135800661, 16⟩), (36, ⟨-4830841135800663, 16⟩), (39, ⟨101447663851813932, 16⟩), (46, ⟨-169079439753023237, 16⟩), (57, ⟨33815887950604644, 16⟩)],
  [(36, ⟨5000395635705508, 16⟩), (39, ⟨-105008308349815653, 16⟩), (46, ⟨175013847249692773, 16⟩), (57, ⟨-35002769449938556, 16⟩)],
  [(0, ⟨1291096601435712, 16⟩), (3, ⟨-27113028630149949, 16⟩), (10, ⟨45188381050249919, 16⟩), (21, ⟨-9037676210049984, 16⟩), (38, ⟨18075352420099966, 16⟩), (43, ⟨-271130286301499481, 16⟩), (52, ⟨271130286301499481, 16⟩), (65, ⟨-18075352420099966, 16⟩)],
  [(2, ⟨6831841051919142, 16⟩), (7, ⟨-102477615778787126, 16⟩), (16, ⟨102477615778787126, 16⟩), (29, ⟨-6831841051919142, 16⟩), (36, ⟨-3415920525959572, 16⟩), (39, ⟨30743284733636154, 16⟩), (41, ⟨40991046311514863, 16⟩), (46, ⟨17079602629797861, 16⟩), (48, ⟨-409910463115148644, 16⟩), (57, ⟨-17079602629797861, 16⟩), (59, ⟨204955231557574322, 16⟩)],
  [(0, ⟨-1640955142100426, 16⟩), (3, ⟨14768596278903832, 16⟩), (5, ⟨19691461705205107, 16⟩), (10, ⟨8204775710502128, 16⟩), (12, ⟨-196914617052051071, 16⟩), (21, ⟨-8204775710502128, 16⟩), (23, ⟨98457308526025535, 16⟩), (38, ⟨-19691461705205107, 16⟩), (43, ⟨98457308526025535, 16⟩), (45, ⟨65638205684017024, 16⟩), (52, ⟨98457308526025535, 16⟩), (54, ⟨-393829234104102142, 16⟩), (65, ⟨-19691461705205107, 16⟩), (67, ⟨65638205684017024, 16⟩)],
  [(2, ⟨-11368870716237374, 16⟩), (7, ⟨56844353581186864, 16⟩), (9, ⟨37896235720791247, 16⟩), (16, ⟨56844353581186864, 16⟩), (18, ⟨-227377414324747456, 16⟩), (29, ⟨-11368870716237374, 16⟩), (31, ⟨37896235720791247, 16⟩), (36, ⟨2842217679059343, 16⟩), (39, ⟨-2842217679059343, 16⟩), (41, ⟨-56844353581186855, 16⟩), (46, ⟨-14211088395296716, 16⟩), (48, ⟨113688707162373710, 16⟩), (50, ⟨75792471441582485, 16⟩), (57, ⟨-8526653037178029, 16⟩), (59, ⟨170533060743560583, 16⟩), (61, ⟨-227377414324747456, 16⟩)],
  [(0, ⟨1916222768312404, 16⟩), (3, ⟨-1916222768312404, 16⟩), (5, ⟨-38324455366248085, 16⟩), (10, ⟨-9581113841562022, 16⟩), (12, ⟨76648910732496169, 16⟩), (14, ⟨51099273821664122, 16⟩), (21, ⟨-5748668304937213, 16⟩), (23, ⟨114973366098744254, 16⟩), (25, ⟨-153297821464992357, 16⟩), (38, ⟨19162227683124053, 16⟩), (43, ⟨19162227683124053, 16⟩), (45, ⟨-102198547643328261, 16⟩), (52, ⟨-19162227683124053, 16⟩), (56, ⟨61319128585996969, 16⟩), (65, ⟨-19162227683124053, 16⟩), (67, ⟨102198547643328261, 16⟩), (69, ⟨-61319128585996969, 16⟩)],
  [(2, ⟨14842997738594836, 16⟩), (7, ⟨14842997738594836, 16⟩), (9, ⟨-79162654605839124, 16⟩), (16, ⟨-14842997738594836, 16⟩), (20, ⟨47497592763503480, 16⟩), (29, ⟨-14842997738594836, 16⟩), (31, ⟨79162654605839124, 16⟩), (33, ⟨-47497592763503480, 16⟩), (36, ⟨-2473832956432473, 16⟩), (39, ⟨-7421498869297418, 16⟩), (41, ⟨59371990954379337, 16⟩), (46, ⟨-7421498869297418, 16⟩), (48, ⟨118743981908758673, 16⟩), (50, ⟨-118743981908758673, 16⟩), (57, ⟨-2473832956432473, 16⟩), (59, ⟨59371990954379337, 16⟩), (61, ⟨-118743981908758673, 16⟩), (63, ⟨31665061842335653, 16⟩)],
  [(0, ⟨-2181715595945335, 16⟩), (3, ⟨-6545146787836006, 16⟩), (5, ⟨52361174302688038, 16⟩), (10, ⟨-6545146787836006, 16⟩), (12, ⟨104722348605376077, 16⟩), (14, ⟨-104722348605376077, 16⟩), (21, ⟨-2181715595945335, 16⟩), (23, ⟨52361174302688038, 16⟩), (25, ⟨-104722348605376077, 16⟩), (27, ⟨27925959628100294, 16⟩), (38, ⟨-17453724767562677, 16⟩), (43, ⟨-52361174302688038, 16⟩), (45, ⟨104722348605376059, 16⟩), (52, ⟨-52361174302688038, 16⟩), (54, ⟨209444697210752118, 16⟩), (56, ⟨-83777878884300847, 16⟩), (65, ⟨-17453724767562677, 16⟩), (67, ⟨104722348605376059, 16⟩), (69, ⟨-83777878884300847, 16⟩), (71, ⟨7978845608028652, 16⟩)],
  [(2, ⟨-17453724767562677, 16⟩), (7, ⟨-52361174302688038, 16⟩), (9, ⟨104722348605376059, 16⟩), (16, ⟨-52361174302688038, 16⟩), (18, ⟨209444697210752118, 16⟩), (20, ⟨-83777878884300847, 16⟩), (29, ⟨-17453724767562677, 16⟩), (31, ⟨104722348605376059, 16⟩), (33, ⟨-83777878884300847, 16⟩), (35, ⟨7978845608028652, 16⟩), (36, ⟨2181715595945335, 16⟩), (39, ⟨6545146787836006, 16⟩), (41, ⟨-52361174302688038, 16⟩), (46, ⟨6545146787836006, 16⟩), (48, ⟨-104722348605376077, 16⟩), (50, ⟨104722348605376077, 16⟩), (57, ⟨2181715595945335, 16⟩), (59, ⟨-52361174302688038, 16⟩), (61, ⟨104722348605376077, 16⟩), (63, ⟨-27925959628100294, 16⟩)],
  [(0, ⟨2473832956432473, 16⟩), (3, ⟨7421498869297418, 16⟩), (5, ⟨-59371990954379337, 16⟩), (10, ⟨7421498869297418, 16⟩), (12, ⟨-118743981908758673, 16⟩), (14, ⟨118743981908758673, 16⟩), (21, ⟨2473832956432473, 16⟩), (23, ⟨-59371990954379337, 16⟩), (25, ⟨118743981908758673, 16⟩), (27, ⟨-31665061842335653, 16⟩), (38, ⟨14842997738594836, 16⟩), (43, ⟨14842997738594836, 16⟩), (45, ⟨-79162654605839124, 16⟩), (52, ⟨-14842997738594836, 16⟩), (56, ⟨47497592763503480, 16⟩), (65, ⟨-14842997738594836, 16⟩), (67, ⟨79162654605839124, 16⟩), (69, ⟨-47497592763503480, 16⟩)],
  [(2, ⟨19162227683124053, 16⟩), (7, ⟨19162227683124053, 16⟩), (9, ⟨-102198547643328261, 16⟩), (16, ⟨-19162227683124053, 16⟩), (20, ⟨61319128585996969, 16⟩), (29, ⟨-19162227683124053, 16⟩), (31, ⟨102198547643328261, 16⟩), (33, ⟨-61319128585996969, 16⟩), (36, ⟨-1916222768312404, 16⟩), (39, ⟨1916222768312404, 16⟩), (41, ⟨38324455366248085, 16⟩), (46, ⟨9581113841562022, 16⟩), (48, ⟨-76648910732496169, 16⟩), (50, ⟨-51099273821664122, 16⟩), (57, ⟨5748668304937213, 16⟩), (59, ⟨-114973366098744254, 16⟩), (61, ⟨153297821464992357, 16⟩)],
  [(0, ⟨-2842217679059343, 16⟩), (3, ⟨2842217679059343, 16⟩), (5, ⟨56844353581186855, 16⟩), (10, ⟨14211088395296716, 16⟩), (12, ⟨-113688707162373710, 16⟩), (14, ⟨-75792471441582485, 16⟩), (21, ⟨8526653037178029, 16⟩), (23, ⟨-170533060743560583, 16⟩), (25, ⟨227377414324747456, 16⟩), (38, ⟨-11368870716237374, 16⟩), (43, ⟨56844353581186864, 16⟩), (45, ⟨37896235720791247, 16⟩), (52, ⟨56844353581186864, 16⟩), (54, ⟨-227377414324747456, 16⟩), (65, ⟨-11368870716237374, 16⟩), (67, ⟨37896235720791247, 16⟩)],
  [(2, ⟨-19691461705205107, 16⟩), (7, ⟨98457308526025535, 16⟩), (9, ⟨65638205684017024, 16⟩), (16, ⟨98457308526025535, 16⟩), (18, ⟨-393829234104102142, 16⟩), (29, ⟨-19691461705205107, 16⟩), (31, ⟨65638205684017024, 16⟩), (36, ⟨1640955142100426, 16⟩), (39, ⟨-14768596278903832, 16⟩), (41, ⟨-19691461705205107, 16⟩), (46, ⟨-8204775710502128, 16⟩), (48, ⟨196914617052051071, 16⟩), (57, ⟨8204775710502128, 16⟩), (59, ⟨-98457308526025535, 16⟩)],
  [(0, ⟨3415920525959572, 16⟩), (3, ⟨-30743284733636154, 16⟩), (5, ⟨-40991046311514863, 16⟩), (10, ⟨-17079602629797861, 16⟩), (12, ⟨409910463115148644, 16⟩), (21, ⟨17079602629797861, 16⟩), (23, ⟨-204955231557574322, 16⟩), (38, ⟨6831841051919142, 16⟩), (43, ⟨-102477615778787126, 16⟩), (52, ⟨102477615778787126, 16⟩), (65, ⟨-6831841051919142, 16⟩)],
  [(2, ⟨18075352420099966, 16⟩), (7, ⟨-271130286301499481, 16⟩), (16, ⟨271130286301499481, 16⟩), (29, ⟨-18075352420099966, 16⟩), (36, ⟨-1291096601435712, 16⟩), (39, ⟨27113028630149949, 16⟩), (46, ⟨-45188381050249919, 16⟩), (57, ⟨9037676210049984, 16⟩)],
  [(0, ⟨-5000395635705508, 16⟩), (3, ⟨105008308349815653, 16⟩), (10, ⟨-175013847249692773, 16⟩), (21, ⟨35002769449938556, 16⟩)]]

/-- The part of g_trans_cart2jR (src/cart2sph.c:813-2172, PYPZPX not defined) for l = 8: for every row of
90 literals the nonzero ones with their column. -/
def cjRowsR8 : List (List (Nat × Dec)) := [
  [(0, ⟨-500039563570550664, 18⟩), (3, ⟨140011077799754186, 16⟩), (10, ⟨-350027694499385465, 16⟩), (21, ⟨140011077799754186, 16⟩), (36, ⟨-500039563570550664, 18⟩), (47, ⟨500039563570550664, 18⟩), (52, ⟨-105008308349815639, 16⟩), (61, ⟨175013847249692732, 16⟩), (74, ⟨-350027694499385465, 17⟩)],
  [(2, ⟨-193664490215356767, 17⟩), (7, ⟨40669542945224921, 15⟩), (16, ⟨-677825715753748683, 16⟩), (29, ⟨135565143150749737, 16⟩), (45, ⟨-129109660143571178, 18⟩), (48, ⟨180753524200999649, 17⟩), (50, ⟨180753524200999649, 17⟩), (57, ⟨-271130286301499473, 16⟩), (66, ⟨-180753524200999649, 17⟩), (68, ⟨271130286301499473, 16⟩), (81, ⟨129109660143571178, 18⟩), (83, ⟨-180753524200999649, 17⟩)],
  [(0, ⟨341592052595957161, 18⟩), (3, ⟨-478228873634340025, 17⟩), (5, ⟨-478228873634340025, 17⟩), (12, ⟨717343310451510038, 16⟩), (21, ⟨478228873634340025, 17⟩), (23, ⟨-717343310451510038, 16⟩), (36, ⟨-341592052595957161, 18⟩), (38, ⟨478228873634340025, 17⟩), (47, ⟨-102477615778787148, 17⟩), (52, ⟨922298542009084335, 17⟩), (54, ⟨409910463115148593, 17⟩), (61, ⟨512388078893935741, 17⟩), (63, ⟨-409910463115148593, 16⟩), (74, ⟨-512388078893935741, 17⟩), (76, ⟨204955231557574297, 16⟩)],
  [(2, ⟨213324168473055283, 17⟩), (7, ⟨-191991751625749755, 16⟩), (9, ⟨-853296673892221134, 17⟩), (16, ⟨-106662084236527642, 16⟩), (18, ⟨853296673892221134, 16⟩), (29, ⟨106662084236527642, 16⟩), (31, ⟨-426648336946110567, 16⟩), (45, ⟨164095514210042526, 18⟩), (48, ⟨-656382056840170103, 18⟩), (50, ⟨-393829234104102062, 17⟩), (55, ⟨-164095514210042526, 17⟩), (57, ⟨196914617052051031, 16⟩), (59, ⟨656382056840170103, 17⟩), (66, ⟨-656382056840170103, 18⟩), (68, ⟨196914617052051031, 16⟩), (70, ⟨-393829234104102062, 16⟩), (81, ⟨164095514210042526, 18⟩), (83, ⟨-393829234104102062, 17⟩), (85, ⟨656382056840170103, 17⟩)],
  [(0, ⟨-284221767905934336, 18⟩), (3, ⟨113688707162373734, 17⟩), (5, ⟨682132242974242407, 17⟩), (10, ⟨284221767905934336, 17⟩), (12, ⟨-341066121487121203, 16⟩), (14, ⟨-113688707162373734, 16⟩), (21, ⟨113688707162373734, 17⟩), (23, ⟨-341066121487121203, 16⟩), (25, ⟨682132242974242407, 16⟩), (36, ⟨-284221767905934336, 18⟩), (38, ⟨682132242974242407, 17⟩), (40, ⟨-113688707162373734, 16⟩), (47, ⟨142110883952967168, 17⟩), (52, ⟨-142110883952967168, 17⟩), (54, ⟨-947405893019781121, 17⟩), (61, ⟨-71055441976483584, 16⟩), (63, ⟨189481178603956224, 16⟩), (65, ⟨757924714415824896, 17⟩), (74, ⟨-426332651858901504, 17⟩), (76, ⟨284221767905934336, 16⟩), (78, ⟨-227377414324747469, 16⟩)],
  [(2, ⟨-210784504514364487, 17⟩), (7, ⟨210784504514364487, 17⟩), (9, ⟨140523003009576325, 16⟩), (16, ⟨105392252257182244, 16⟩), (18, ⟨-28104600601915265, 15⟩), (20, ⟨-11241840240766106, 15⟩), (29, ⟨632353513543093462, 17⟩), (31, ⟨-421569009028728975, 16⟩), (33, ⟨33725520722298318, 15⟩), (45, ⟨-191622276831240443, 18⟩), (48, ⟨-383244553662480886, 18⟩), (50, ⟨574866830493721329, 17⟩), (57, ⟨574866830493721329, 17⟩), (59, ⟨-153297821464992355, 16⟩), (66, ⟨383244553662480886, 18⟩), (68, ⟨-574866830493721329, 17⟩), (72, ⟨613191285859969418, 17⟩), (81, ⟨191622276831240443, 18⟩), (83, ⟨-574866830493721329, 17⟩), (85, ⟨153297821464992355, 16⟩), (87, ⟨-613191285859969418, 17⟩)],
  [(0, ⟨247383295643247195, 18⟩), (3, ⟨49476659128649439, 17⟩), (5, ⟨-742149886929741585, 17⟩), (12, ⟨-742149886929741585, 17⟩), (14, ⟨197906636514597756, 16⟩), (21, ⟨-49476659128649439, 17⟩), (23, ⟨742149886929741585, 17⟩), (27, ⟨-791626546058391024, 17⟩), (36, ⟨-247383295643247195, 18⟩), (38, ⟨742149886929741585, 17⟩), (40, ⟨-197906636514597756, 16⟩), (42, ⟨791626546058391024, 17⟩), (47, ⟨-173168306950273036, 17⟩), (52, ⟨-519504920850819109, 17⟩), (54, ⟨138534645560218429, 16⟩), (61, ⟨-519504920850819109, 17⟩), (63, ⟨277069291120436858, 16⟩), (65, ⟨-166241574672262115, 16⟩), (74, ⟨-173168306950273036, 17⟩), (76, ⟨138534645560218429, 16⟩), (78, ⟨-166241574672262115, 16⟩), (80, ⟨316650618423356409, 17⟩)],
  [(2, ⟨196354403635080146, 17⟩), (7, ⟨589063210905240439, 17⟩), (9, ⟨-157083522908064117, 16⟩), (16, ⟨589063210905240439, 17⟩), (18, ⟨-314167045816128234, 16⟩), (20, ⟨18850022748967694, 15⟩), (29, ⟨196354403635080146, 17⟩), (31, ⟨-157083522908064117, 16⟩), (33, ⟨18850022748967694, 15⟩), (35, ⟨-35904805236128941, 16⟩), (45, ⟨218171559594533496, 18⟩), (48, ⟨872686238378133983, 18⟩), (50, ⟨-698148990702507186, 17⟩), (55, ⟨130902935756720097, 17⟩), (57, ⟨-209444697210752156, 16⟩), (59, ⟨209444697210752156, 16⟩), (66, ⟨872686238378133983, 18⟩), (68, ⟨-209444697210752156, 16⟩), (70, ⟨418889394421504312, 16⟩), (72, ⟨-11170383851240115, 15⟩), (81, ⟨218171559594533496, 18⟩), (83, ⟨-698148990702507186, 17⟩), (85, ⟨209444697210752156, 16⟩), (87, ⟨-11170383851240115, 15⟩), (89, ⟨797884560802865356, 18⟩)],
  [(0, ⟨-218171559594533496, 18⟩), (3, ⟨-872686238378133983, 18⟩), (5, ⟨698148990702507186, 17⟩), (10, ⟨-130902935756720097, 17⟩), (12, ⟨209444697210752156, 16⟩), (14, ⟨-209444697210752156, 16⟩), (21, ⟨-872686238378133983, 18⟩), (23, ⟨209444697210752156, 16⟩), (25, ⟨-418889394421504312, 16⟩), (27, ⟨11170383851240115, 15⟩), (36, ⟨-218171559594533496, 18⟩), (38, ⟨698148990702507186, 17⟩), (40, ⟨-209444697210752156, 16⟩), (42, ⟨11170383851240115, 15⟩), (44, ⟨-797884560802865356, 18⟩), (47, ⟨196354403635080146, 17⟩), (52, ⟨589063210905240439, 17⟩), (54, ⟨-157083522908064117, 16⟩), (61, ⟨589063210905240439, 17⟩), (63, ⟨-314167045816128234, 16⟩), (65, ⟨18850022748967694, 15⟩), (74, ⟨196354403635080146, 17⟩), (76, ⟨-157083522908064117, 16⟩), (78, ⟨18850022748967694, 15⟩), (80, ⟨-35904805236128941, 16⟩)],
  [(2, ⟨-173168306950273036, 17⟩), (7, ⟨-519504920850819109, 17⟩), (9, ⟨138534645560218429, 16⟩), (16, ⟨-519504920850819109, 17⟩), (18, ⟨277069291120436858, 16⟩), (20, ⟨-166241574672262115, 16⟩), (29, ⟨-173168306950273036, 17⟩), (31, ⟨138534645560218429, 16⟩), (33, ⟨-166241574672262115, 16⟩), (35, ⟨316650618423356409, 17⟩), (45, ⟨-247383295643247195, 18⟩), (48, ⟨-49476659128649439, 17⟩), (50, ⟨742149886929741585, 17⟩), (57, ⟨742149886929741585, 17⟩), (59, ⟨-197906636514597756, 16⟩), (66, ⟨49476659128649439, 17⟩), (68, ⟨-742149886929741585, 17⟩), (72, ⟨791626546058391024, 17⟩), (81, ⟨247383295643247195, 18⟩), (83, ⟨-742149886929741585, 17⟩), (85, ⟨197906636514597756, 16⟩), (87, ⟨-791626546058391024, 17⟩)],
  [(0, ⟨191622276831240443, 18⟩), (3, ⟨383244553662480886, 18⟩), (5, ⟨-574866830493721329, 17⟩), (12, ⟨-574866830493721329, 17⟩), (14, ⟨153297821464992355, 16⟩), (21, ⟨-383244553662480886, 18⟩), (23, ⟨574866830493721329, 17⟩), (27, ⟨-613191285859969418, 17⟩), (36, ⟨-191622276831240443, 18⟩), (38, ⟨574866830493721329, 17⟩), (40, ⟨-153297821464992355, 16⟩), (42, ⟨613191285859969418, 17⟩), (47, ⟨-210784504514364487, 17⟩), (52, ⟨210784504514364487, 17⟩), (54, ⟨140523003009576325, 16⟩), (61, ⟨105392252257182244, 16⟩), (63, ⟨-28104600601915265, 15⟩), (65, ⟨-11241840240766106, 15⟩), (74, ⟨632353513543093462, 17⟩), (76, ⟨-421569009028728975, 16⟩), (78, ⟨33725520722298318, 15⟩)],
  [(2, ⟨142110883952967168, 17⟩), (7, ⟨-142110883952967168, 17⟩), (9, ⟨-947405893019781121, 17⟩), (16, ⟨-71055441976483584, 16⟩), (18, ⟨189481178603956224, 16⟩), (20, ⟨757924714415824896, 17⟩), (29, ⟨-426332651858901504, 17⟩), (31, ⟨284221767905934336, 16⟩), (33, ⟨-227377414324747469, 16⟩), (45, ⟨284221767905934336, 18⟩), (48, ⟨-113688707162373734, 17⟩), (50, ⟨-682132242974242407, 17⟩), (55, ⟨-284221767905934336, 17⟩), (57, ⟨341066121487121203, 16⟩), (59, ⟨113688707162373734, 16⟩), (66, ⟨-113688707162373734, 17⟩), (68, ⟨341066121487121203, 16⟩), (70, ⟨-682132242974242407, 16⟩), (81, ⟨284221767905934336, 18⟩), (83, ⟨-682132242974242407, 17⟩), (85, ⟨113688707162373734, 16⟩)],
  [(0, ⟨-164095514210042526, 18⟩), (3, ⟨656382056840170103, 18⟩), (5, ⟨393829234104102062, 17⟩), (10, ⟨164095514210042526, 17⟩), (12, ⟨-196914617052051031, 16⟩), (14, ⟨-656382056840170103, 17⟩), (21, ⟨656382056840170103, 18⟩), (23, ⟨-196914617052051031, 16⟩), (25, ⟨393829234104102062, 16⟩), (36, ⟨-164095514210042526, 18⟩), (38, ⟨393829234104102062, 17⟩), (40, ⟨-656382056840170103, 17⟩), (47, ⟨213324168473055283, 17⟩), (52, ⟨-191991751625749755, 16⟩), (54, ⟨-853296673892221134, 17⟩), (61, ⟨-106662084236527642, 16⟩), (63, ⟨853296673892221134, 16⟩), (74, ⟨106662084236527642, 16⟩), (76, ⟨-426648336946110567, 16⟩)],
  [(2, ⟨-102477615778787148, 17⟩), (7, ⟨922298542009084335, 17⟩), (9, ⟨409910463115148593, 17⟩), (16, ⟨512388078893935741, 17⟩), (18, ⟨-409910463115148593, 16⟩), (29, ⟨-512388078893935741, 17⟩), (31, ⟨204955231557574297, 16⟩), (45, ⟨-341592052595957161, 18⟩), (48, ⟨478228873634340025, 17⟩), (50, ⟨478228873634340025, 17⟩), (57, ⟨-717343310451510038, 16⟩), (66, ⟨-478228873634340025, 17⟩), (68, ⟨717343310451510038, 16⟩), (81, ⟨341592052595957161, 18⟩), (83, ⟨-478228873634340025, 17⟩)],
  [(0, ⟨129109660143571178, 18⟩), (3, ⟨-180753524200999649, 17⟩), (5, ⟨-180753524200999649, 17⟩), (12, ⟨271130286301499473, 16⟩), (21, ⟨180753524200999649, 17⟩), (23, ⟨-271130286301499473, 16⟩), (36, ⟨-129109660143571178, 18⟩), (38, ⟨180753524200999649, 17⟩), (47, ⟨-193664490215356767, 17⟩), (52, ⟨40669542945224921, 15⟩), (61, ⟨-677825715753748683, 16⟩), (74, ⟨135565143150749737, 16⟩)],
  [(2, ⟨500039563570550664, 18⟩), (7, ⟨-105008308349815639, 16⟩), (16, ⟨175013847249692732, 16⟩), (29, ⟨-350027694499385465, 17⟩), (45, ⟨500039563570550664, 18⟩), (48, ⟨-140011077799754186, 16⟩), (55, ⟨350027694499385465, 16⟩), (66, ⟨-140011077799754186, 16⟩), (81, ⟨500039563570550664, 18⟩)],
  [(45, ⟨51542898439728431, 17⟩), (48, ⟨-144320115631239607, 16⟩), (55, ⟨360800289078099017, 16⟩), (66, ⟨-144320115631239607, 16⟩), (81, ⟨51542898439728431, 17⟩)],
  [(0, ⟨125009890892637666, 18⟩), (3, ⟨-350027694499385465, 17⟩), (10, ⟨875069236248463662, 17⟩), (21, ⟨-350027694499385465, 17⟩), (36, ⟨125009890892637666, 18⟩), (47, ⟨200015825428220266, 17⟩), (52, ⟨-420033233399262558, 16⟩), (61, ⟨70005538899877093, 15⟩), (74, ⟨-140011077799754186, 16⟩)],
  [(2, ⟨707162732524596178, 18⟩), (7, ⟨-148504173830165197, 16⟩), (16, ⟨247506956383608662, 16⟩), (29, ⟨-495013912767217325, 17⟩), (45, ⟨-353581366262298089, 18⟩), (48, ⟨495013912767217325, 17⟩), (50, ⟨495013912767217325, 17⟩), (57, ⟨-742520869150825987, 16⟩), (66, ⟨-495013912767217325, 17⟩), (68, ⟨742520869150825987, 16⟩), (81, ⟨353581366262298089, 18⟩), (83, ⟨-495013912767217325, 17⟩)],
  [(0, ⟨-158126394107949853, 18⟩), (3, ⟨221376951751129794, 17⟩), (5, ⟨221376951751129794, 17⟩), (12, ⟨-332065427626694691, 16⟩), (21, ⟨-221376951751129794, 17⟩), (23, ⟨332065427626694691, 16⟩), (36, ⟨158126394107949853, 18⟩), (38, ⟨-221376951751129794, 17⟩), (47, ⟨-221376951751129794, 17⟩), (52, ⟨199239256576016814, 16⟩), (54, ⟨885507807004519175, 17⟩), (61, ⟨110688475875564897, 16⟩), (63, ⟨-885507807004519175, 16⟩), (74, ⟨-110688475875564897, 16⟩), (76, ⟨442753903502259587, 16⟩)],
  [(2, ⟨-118330958111587602, 17⟩), (7, ⟨106497862300428841, 16⟩), (9, ⟨473323832446350406, 17⟩), (16, ⟨591654790557938008, 17⟩), (18, ⟨-473323832446350406, 16⟩), (29, ⟨-591654790557938008, 17⟩), (31, ⟨236661916223175203, 16⟩), (45, ⟨295827395278969004, 18⟩), (48, ⟨-118330958111587602, 17⟩), (50, ⟨-70998574866952561, 16⟩), (55, ⟨-295827395278969004, 17⟩), (57, ⟨354992874334762805, 16⟩), (59, ⟨118330958111587602, 16⟩), (66, ⟨-118330958111587602, 17⟩), (68, ⟨354992874334762805, 16⟩), (70, ⟨-70998574866952561, 15⟩), (81, ⟨295827395278969004, 18⟩), (83, ⟨-70998574866952561, 16⟩), (85, ⟨118330958111587602, 16⟩)],
  [(0, ⟨183464362288218895, 18⟩), (3, ⟨-733857449152875582, 18⟩), (5, ⟨-440314469491725349, 17⟩), (10, ⟨-183464362288218895, 17⟩), (12, ⟨220157234745862674, 16⟩), (14, ⟨733857449152875582, 17⟩), (21, ⟨-733857449152875582, 18⟩), (23, ⟨220157234745862674, 16⟩), (25, ⟨-440314469491725349, 16⟩), (36, ⟨183464362288218895, 18⟩), (38, ⟨-440314469491725349, 17⟩), (40, ⟨733857449152875582, 17⟩), (47, ⟨220157234745862674, 17⟩), (52, ⟨-220157234745862674, 17⟩), (54, ⟨-146771489830575116, 16⟩), (61, ⟨-110078617372931337, 16⟩), (63, ⟨293542979661150233, 16⟩), (65, ⟨117417191864460093, 16⟩), (74, ⟨-660471704237588023, 17⟩), (76, ⟨440314469491725349, 16⟩), (78, ⟨-352251575593380279, 16⟩)],
  [(2, ⟨155674673616078096, 17⟩), (7, ⟨-155674673616078096, 17⟩), (9, ⟨-103783115744052064, 16⟩), (16, ⟨-77837336808039048, 16⟩), (18, ⟨207566231488104128, 16⟩), (20, ⟨830264925952416512, 17⟩), (29, ⟨-467024020848234288, 17⟩), (31, ⟨311349347232156192, 16⟩), (33, ⟨-249079477785724953, 16⟩), (45, ⟨-25945778936013016, 17⟩), (48, ⟨-51891557872026032, 17⟩), (50, ⟨77837336808039048, 16⟩), (57, ⟨77837336808039048, 16⟩), (59, ⟨-207566231488104128, 16⟩), (66, ⟨51891557872026032, 17⟩), (68, ⟨-77837336808039048, 16⟩), (72, ⟨830264925952416512, 17⟩), (81, ⟨25945778936013016, 17⟩), (83, ⟨-77837336808039048, 16⟩), (85, ⟨207566231488104128, 16⟩), (87, ⟨-830264925952416512, 17⟩)],
  [(0, ⟨-206975714696966254, 18⟩), (3, ⟨-413951429393932508, 18⟩), (5, ⟨620927144090898762, 17⟩), (12, ⟨620927144090898762, 17⟩), (14, ⟨-165580571757573003, 16⟩), (21, ⟨413951429393932508, 18⟩), (23, ⟨-620927144090898762, 17⟩), (27, ⟨662322287030292013, 17⟩), (36, ⟨206975714696966254, 18⟩), (38, ⟨-620927144090898762, 17⟩), (40, ⟨165580571757573003, 16⟩), (42, ⟨-662322287030292013, 17⟩), (47, ⟨-206975714696966254, 17⟩), (52, ⟨-620927144090898762, 17⟩), (54, ⟨165580571757573003, 16⟩), (61, ⟨-620927144090898762, 17⟩), (63, ⟨331161143515146006, 16⟩), (65, ⟨-198696686109087604, 16⟩), (74, ⟨-206975714696966254, 17⟩), (76, ⟨165580571757573003, 16⟩), (78, ⟨-198696686109087604, 16⟩), (80, ⟨378469878303024007, 17⟩)],
  [(2, ⟨-185124707101607532, 17⟩), (7, ⟨-555374121304822595, 17⟩), (9, ⟨148099765681286025, 16⟩), (16, ⟨-555374121304822595, 17⟩), (18, ⟨296199531362572051, 16⟩), (20, ⟨-17771971881754323, 15⟩), (29, ⟨-185124707101607532, 17⟩), (31, ⟨148099765681286025, 16⟩), (33, ⟨-17771971881754323, 15⟩), (35, ⟨338513750128653772, 17⟩), (45, ⟨231405883877009415, 18⟩), (48, ⟨925623535508037658, 18⟩), (50, ⟨-740498828406430127, 17⟩), (55, ⟨138843530326205649, 17⟩), (57, ⟨-222149648521929038, 16⟩), (59, ⟨222149648521929038, 16⟩), (66, ⟨925623535508037658, 18⟩), (68, ⟨-222149648521929038, 16⟩), (70, ⟨444299297043858076, 16⟩), (72, ⟨-11847981254502882, 15⟩), (81, ⟨231405883877009415, 18⟩), (83, ⟨-740498828406430127, 17⟩), (85, ⟨222149648521929038, 16⟩), (87, ⟨-11847981254502882, 15⟩), (89, ⟨84628437532163443, 17⟩)],
  [(0, ⟨231405883877009415, 18⟩), (3, ⟨925623535508037658, 18⟩), (5, ⟨-740498828406430127, 17⟩), (10, ⟨138843530326205649, 17⟩), (12, ⟨-222149648521929038, 16⟩), (14, ⟨222149648521929038, 16⟩), (21, ⟨925623535508037658, 18⟩), (23, ⟨-222149648521929038, 16⟩), (25, ⟨444299297043858076, 16⟩), (27, ⟨-11847981254502882, 15⟩), (36, ⟨231405883877009415, 18⟩), (38, ⟨-740498828406430127, 17⟩), (40, ⟨222149648521929038, 16⟩), (42, ⟨-11847981254502882, 15⟩), (44, ⟨84628437532163443, 17⟩), (47, ⟨185124707101607532, 17⟩), (52, ⟨555374121304822595, 17⟩), (54, ⟨-148099765681286025, 16⟩), (61, ⟨555374121304822595, 17⟩), (63, ⟨-296199531362572051, 16⟩), (65, ⟨17771971881754323, 15⟩), (74, ⟨185124707101607532, 17⟩), (76, ⟨-148099765681286025, 16⟩), (78, ⟨17771971881754323, 15⟩), (80, ⟨-338513750128653772, 17⟩)],
  [(2, ⟨206975714696966254, 17⟩), (7, ⟨620927144090898762, 17⟩), (9, ⟨-165580571757573003, 16⟩), (16, ⟨620927144090898762, 17⟩), (18, ⟨-331161143515146006, 16⟩), (20, ⟨198696686109087604, 16⟩), (29, ⟨206975714696966254, 17⟩), (31, ⟨-165580571757573003, 16⟩), (33, ⟨198696686109087604, 16⟩), (35, ⟨-378469878303024007, 17⟩), (45, ⟨-206975714696966254, 18⟩), (48, ⟨-413951429393932508, 18⟩), (50, ⟨620927144090898762, 17⟩), (57, ⟨620927144090898762, 17⟩), (59, ⟨-165580571757573003, 16⟩), (66, ⟨413951429393932508, 18⟩), (68, ⟨-620927144090898762, 17⟩), (72, ⟨662322287030292013, 17⟩), (81, ⟨206975714696966254, 18⟩), (83, ⟨-620927144090898762, 17⟩), (85, ⟨165580571757573003, 16⟩), (87, ⟨-662322287030292013, 17⟩)],
  [(0, ⟨-25945778936013016, 17⟩), (3, ⟨-51891557872026032, 17⟩), (5, ⟨77837336808039048, 16⟩), (12, ⟨77837336808039048, 16⟩), (14, ⟨-207566231488104128, 16⟩), (21, ⟨51891557872026032, 17⟩), (23, ⟨-77837336808039048, 16⟩), (27, ⟨830264925952416512, 17⟩), (36, ⟨25945778936013016, 17⟩), (38, ⟨-77837336808039048, 16⟩), (40, ⟨207566231488104128, 16⟩), (42, ⟨-830264925952416512, 17⟩), (47, ⟨-155674673616078096, 17⟩), (52, ⟨155674673616078096, 17⟩), (54, ⟨103783115744052064, 16⟩), (61, ⟨77837336808039048, 16⟩), (63, ⟨-207566231488104128, 16⟩), (65, ⟨-830264925952416512, 17⟩), (74, ⟨467024020848234288, 17⟩), (76, ⟨-311349347232156192, 16⟩), (78, ⟨249079477785724953, 16⟩)],
  [(2, ⟨-220157234745862674, 17⟩), (7, ⟨220157234745862674, 17⟩), (9, ⟨146771489830575116, 16⟩), (16, ⟨110078617372931337, 16⟩), (18, ⟨-293542979661150233, 16⟩), (20, ⟨-117417191864460093, 16⟩), (29, ⟨660471704237588023, 17⟩), (31, ⟨-440314469491725349, 16⟩), (33, ⟨352251575593380279, 16⟩), (45, ⟨183464362288218895, 18⟩), (48, ⟨-733857449152875582, 18⟩), (50, ⟨-440314469491725349, 17⟩), (55, ⟨-183464362288218895, 17⟩), (57, ⟨220157234745862674, 16⟩), (59, ⟨733857449152875582, 17⟩), (66, ⟨-733857449152875582, 18⟩), (68, ⟨220157234745862674, 16⟩), (70, ⟨-440314469491725349, 16⟩), (81, ⟨183464362288218895, 18⟩), (83, ⟨-440314469491725349, 17⟩), (85, ⟨733857449152875582, 17⟩)],
  [(0, ⟨295827395278969004, 18⟩), (3, ⟨-118330958111587602, 17⟩), (5, ⟨-70998574866952561, 16⟩), (10, ⟨-295827395278969004, 17⟩), (12, ⟨354992874334762805, 16⟩), (14, ⟨118330958111587602, 16⟩), (21, ⟨-118330958111587602, 17⟩), (23, ⟨354992874334762805, 16⟩), (25, ⟨-70998574866952561, 15⟩), (36, ⟨295827395278969004, 18⟩), (38, ⟨-70998574866952561, 16⟩), (40, ⟨118330958111587602, 16⟩), (47, ⟨118330958111587602, 17⟩), (52, ⟨-106497862300428841, 16⟩), (54, ⟨-473323832446350406, 17⟩), (61, ⟨-591654790557938008, 17⟩), (63, ⟨473323832446350406, 16⟩), (74, ⟨591654790557938008, 17⟩), (76, ⟨-236661916223175203, 16⟩)],
  [(2, ⟨221376951751129794, 17⟩), (7, ⟨-199239256576016814, 16⟩), (9, ⟨-885507807004519175, 17⟩), (16, ⟨-110688475875564897, 16⟩), (18, ⟨885507807004519175, 16⟩), (29, ⟨110688475875564897, 16⟩), (31, ⟨-442753903502259587, 16⟩), (45, ⟨-158126394107949853, 18⟩), (48, ⟨221376951751129794, 17⟩), (50, ⟨221376951751129794, 17⟩), (57, ⟨-332065427626694691, 16⟩), (66, ⟨-221376951751129794, 17⟩), (68, ⟨332065427626694691, 16⟩), (81, ⟨158126394107949853, 18⟩), (83, ⟨-221376951751129794, 17⟩)],
  [(0, ⟨-353581366262298089, 18⟩), (3, ⟨495013912767217325, 17⟩), (5, ⟨495013912767217325, 17⟩), (12, ⟨-742520869150825987, 16⟩), (21, ⟨-495013912767217325, 17⟩), (23, ⟨742520869150825987, 16⟩), (36, ⟨353581366262298089, 18⟩), (38, ⟨-495013912767217325, 17⟩), (47, ⟨-707162732524596178, 18⟩), (52, ⟨148504173830165197, 16⟩), (61, ⟨-247506956383608662, 16⟩), (74, ⟨495013912767217325, 17⟩)],
  [(2, ⟨-200015825428220266, 17⟩), (7, ⟨420033233399262558, 16⟩), (16, ⟨-70005538899877093, 15⟩), (29, ⟨140011077799754186, 16⟩), (45, ⟨125009890892637666, 18⟩), (48, ⟨-350027694499385465, 17⟩), (55, ⟨875069236248463662, 17⟩), (66, ⟨-350027694499385465, 17⟩), (81, ⟨125009890892637666, 18⟩)],
  [(0, ⟨51542898439728431, 17⟩), (3, ⟨-144320115631239607, 16⟩), (10, ⟨360800289078099017, 16⟩), (21, ⟨-144320115631239607, 16⟩), (36, ⟨51542898439728431, 17⟩)]]

/-- The part of g_trans_cart2jR (src/cart2sph.c:813-2172, PYPZPX not defined) for l = 9: for every row of
110 literals the nonzero ones with their column. -/
def cjRowsR9 : List (List (Nat × Dec)) := [
  [(0, ⟨-51542898439728431, 17⟩), (3, ⟨185554434383022352, 16⟩), (10, ⟨-64944052034057823, 15⟩), (21, ⟨43296034689371882, 15⟩), (36, ⟨-463886085957555879, 17⟩), (57, ⟨51542898439728431, 17⟩), (62, ⟨-144320115631239607, 16⟩), (71, ⟨360800289078099017, 16⟩), (84, ⟨-144320115631239607, 16⟩), (101, ⟨51542898439728431, 17⟩)],
  [(2, ⟨-212516814517484032, 17⟩), (7, ⟨59504708064895529, 15⟩), (16, ⟨-148761770162238823, 15⟩), (29, ⟨59504708064895529, 15⟩), (46, ⟨-212516814517484032, 17⟩), (55, ⟨-125009890892637666, 18⟩), (58, ⟨250019781785275332, 17⟩), (60, ⟨200015825428220266, 17⟩), (65, ⟨-175013847249692732, 17⟩), (67, ⟨-420033233399262558, 16⟩), (76, ⟨-350027694499385465, 17⟩), (78, ⟨70005538899877093, 15⟩), (91, ⟨875069236248463662, 18⟩), (93, ⟨-140011077799754186, 16⟩)],
  [(0, ⟨353581366262298089, 18⟩), (3, ⟨-707162732524596178, 17⟩), (5, ⟨-565730186019676943, 17⟩), (10, ⟨495013912767217325, 17⟩), (12, ⟨118803339064132158, 15⟩), (21, ⟨99002782553443465, 16⟩), (23, ⟨-19800556510688693, 14⟩), (36, ⟨-247506956383608662, 17⟩), (38, ⟨39601113021377386, 15⟩), (57, ⟨-106074409878689427, 17⟩), (62, ⟨148504173830165197, 16⟩), (64, ⟨495013912767217325, 17⟩), (73, ⟨-742520869150825987, 16⟩), (84, ⟨-148504173830165197, 16⟩), (86, ⟨742520869150825987, 16⟩), (101, ⟨106074409878689427, 17⟩), (103, ⟨-495013912767217325, 17⟩)],
  [(2, ⟨237189591161924779, 17⟩), (7, ⟨-332065427626694691, 16⟩), (9, ⟨-110688475875564897, 16⟩), (18, ⟨166032713813347345, 15⟩), (29, ⟨332065427626694691, 16⟩), (31, ⟨-166032713813347345, 15⟩), (46, ⟨-237189591161924779, 17⟩), (48, ⟨110688475875564897, 16⟩), (55, ⟨158126394107949853, 18⟩), (58, ⟨-126501115286359882, 17⟩), (60, ⟨-442753903502259587, 17⟩), (65, ⟨-221376951751129794, 17⟩), (67, ⟨398478513152033629, 16⟩), (69, ⟨885507807004519175, 17⟩), (78, ⟨221376951751129794, 16⟩), (80, ⟨-885507807004519175, 16⟩), (91, ⟨790631970539749263, 18⟩), (93, ⟨-221376951751129794, 16⟩), (95, ⟨442753903502259587, 16⟩)],
  [(0, ⟨-295827395278969004, 18⟩), (3, ⟨236661916223175203, 17⟩), (5, ⟨828316706781113211, 17⟩), (10, ⟨414158353390556606, 17⟩), (12, ⟨-74548503610300189, 15⟩), (14, ⟨-165663341356222642, 16⟩), (23, ⟨-414158353390556606, 16⟩), (25, ⟨165663341356222642, 15⟩), (36, ⟨-147913697639484502, 17⟩), (38, ⟨414158353390556606, 16⟩), (40, ⟨-828316706781113211, 16⟩), (57, ⟨147913697639484502, 17⟩), (62, ⟨-591654790557938008, 17⟩), (64, ⟨-118330958111587602, 16⟩), (71, ⟨-147913697639484502, 16⟩), (73, ⟨591654790557938008, 16⟩), (75, ⟨118330958111587602, 16⟩), (84, ⟨-591654790557938008, 17⟩), (86, ⟨591654790557938008, 16⟩), (88, ⟨-70998574866952561, 15⟩), (101, ⟨147913697639484502, 17⟩), (103, ⟨-118330958111587602, 16⟩), (105, ⟨118330958111587602, 16⟩)],
  [(2, ⟨-238503670974684564, 17⟩), (7, ⟨954014683898738256, 17⟩), (9, ⟨190802936779747651, 16⟩), (16, ⟨238503670974684564, 16⟩), (18, ⟨-954014683898738256, 16⟩), (20, ⟨-190802936779747651, 16⟩), (29, ⟨954014683898738256, 17⟩), (31, ⟨-954014683898738256, 16⟩), (33, ⟨114481762067848591, 15⟩), (46, ⟨-238503670974684564, 17⟩), (48, ⟨190802936779747651, 16⟩), (50, ⟨-190802936779747651, 16⟩), (55, ⟨-183464362288218895, 18⟩), (60, ⟨660471704237588023, 17⟩), (65, ⟨110078617372931337, 17⟩), (67, ⟨-660471704237588023, 17⟩), (69, ⟨-220157234745862674, 16⟩), (76, ⟨146771489830575116, 17⟩), (78, ⟨-330235852118794012, 16⟩), (80, ⟨440314469491725349, 16⟩), (82, ⟨117417191864460093, 16⟩), (91, ⟨550393086864656686, 18⟩), (93, ⟨-198141511271276407, 16⟩), (95, ⟨660471704237588023, 16⟩), (97, ⟨-352251575593380279, 16⟩)],
  [(0, ⟨25945778936013016, 17⟩), (5, ⟨-934048041696468576, 17⟩), (10, ⟨-155674673616078096, 17⟩), (12, ⟨934048041696468576, 17⟩), (14, ⟨311349347232156192, 16⟩), (21, ⟨-207566231488104128, 17⟩), (23, ⟨467024020848234288, 16⟩), (25, ⟨-622698694464312384, 16⟩), (27, ⟨-166052985190483302, 16⟩), (36, ⟨-77837336808039048, 17⟩), (38, ⟨280214412508940573, 16⟩), (40, ⟨-934048041696468576, 16⟩), (42, ⟨498158955571449907, 16⟩), (57, ⟨-181620452552091112, 17⟩), (62, ⟨-363240905104182224, 17⟩), (64, ⟨181620452552091112, 16⟩), (73, ⟨181620452552091112, 16⟩), (75, ⟨-290592724083345779, 16⟩), (84, ⟨363240905104182224, 17⟩), (86, ⟨-181620452552091112, 16⟩), (90, ⟨830264925952416512, 17⟩), (101, ⟨181620452552091112, 17⟩), (103, ⟨-181620452552091112, 16⟩), (105, ⟨290592724083345779, 16⟩), (107, ⟨-830264925952416512, 17⟩)],
  [(2, ⟨227673286166662879, 17⟩), (7, ⟨455346572333325759, 17⟩), (9, ⟨-227673286166662879, 16⟩), (18, ⟨-227673286166662879, 16⟩), (20, ⟨364277257866660607, 16⟩), (29, ⟨-455346572333325759, 17⟩), (31, ⟨227673286166662879, 16⟩), (35, ⟨-104079216533331602, 16⟩), (46, ⟨-227673286166662879, 17⟩), (48, ⟨227673286166662879, 16⟩), (50, ⟨-364277257866660607, 16⟩), (52, ⟨104079216533331602, 16⟩), (55, ⟨206975714696966254, 18⟩), (58, ⟨827902858787865016, 18⟩), (60, ⟨-827902858787865016, 17⟩), (65, ⟨124185428818179752, 17⟩), (67, ⟨-248370857636359505, 16⟩), (69, ⟨331161143515146006, 16⟩), (76, ⟨827902858787865016, 18⟩), (78, ⟨-248370857636359505, 16⟩), (80, ⟨662322287030292013, 16⟩), (82, ⟨-264928914812116805, 16⟩), (91, ⟨206975714696966254, 18⟩), (93, ⟨-827902858787865016, 17⟩), (95, ⟨331161143515146006, 16⟩), (97, ⟨-264928914812116805, 16⟩), (99, ⟨378469878303024007, 17⟩)],
  [(0, ⟨-231405883877009415, 18⟩), (3, ⟨-925623535508037658, 18⟩), (5, ⟨925623535508037658, 17⟩), (10, ⟨-138843530326205649, 17⟩), (12, ⟨277687060652411297, 16⟩), (14, ⟨-370249414203215063, 16⟩), (21, ⟨-925623535508037658, 18⟩), (23, ⟨277687060652411297, 16⟩), (25, ⟨-740498828406430127, 16⟩), (27, ⟨296199531362572051, 16⟩), (36, ⟨-231405883877009415, 18⟩), (38, ⟨925623535508037658, 17⟩), (40, ⟨-370249414203215063, 16⟩), (42, ⟨296199531362572051, 16⟩), (44, ⟨-423142187660817215, 17⟩), (57, ⟨208265295489308473, 17⟩), (62, ⟨833061181957233892, 17⟩), (64, ⟨-222149648521929038, 16⟩), (71, ⟨124959177293585084, 16⟩), (73, ⟨-666448945565787114, 16⟩), (75, ⟨399869367339472268, 16⟩), (84, ⟨833061181957233892, 17⟩), (86, ⟨-666448945565787114, 16⟩), (88, ⟨799738734678944537, 16⟩), (90, ⟨-152331187557894197, 16⟩), (101, ⟨208265295489308473, 17⟩), (103, ⟨-222149648521929038, 16⟩), (105, ⟨399869367339472268, 16⟩), (107, ⟨-152331187557894197, 16⟩), (109, ⟨84628437532163443, 17⟩)],
  [(2, ⟨-208265295489308473, 17⟩), (7, ⟨-833061181957233892, 17⟩), (9, ⟨222149648521929038, 16⟩), (16, ⟨-124959177293585084, 16⟩), (18, ⟨666448945565787114, 16⟩), (20, ⟨-399869367339472268, 16⟩), (29, ⟨-833061181957233892, 17⟩), (31, ⟨666448945565787114, 16⟩), (33, ⟨-799738734678944537, 16⟩), (35, ⟨152331187557894197, 16⟩), (46, ⟨-208265295489308473, 17⟩), (48, ⟨222149648521929038, 16⟩), (50, ⟨-399869367339472268, 16⟩), (52, ⟨152331187557894197, 16⟩), (54, ⟨-84628437532163443, 17⟩), (55, ⟨-231405883877009415, 18⟩), (58, ⟨-925623535508037658, 18⟩), (60, ⟨925623535508037658, 17⟩), (65, ⟨-138843530326205649, 17⟩), (67, ⟨277687060652411297, 16⟩), (69, ⟨-370249414203215063, 16⟩), (76, ⟨-925623535508037658, 18⟩), (78, ⟨277687060652411297, 16⟩), (80, ⟨-740498828406430127, 16⟩), (82, ⟨296199531362572051, 16⟩), (91, ⟨-231405883877009415, 18⟩), (93, ⟨925623535508037658, 17⟩), (95, ⟨-370249414203215063, 16⟩), (97, ⟨296199531362572051, 16⟩), (99, ⟨-423142187660817215, 17⟩)],
  [(0, ⟨206975714696966254, 18⟩), (3, ⟨827902858787865016, 18⟩), (5, ⟨-827902858787865016, 17⟩), (10, ⟨124185428818179752, 17⟩), (12, ⟨-248370857636359505, 16⟩), (14, ⟨331161143515146006, 16⟩), (21, ⟨827902858787865016, 18⟩), (23, ⟨-248370857636359505, 16⟩), (25, ⟨662322287030292013, 16⟩), (27, ⟨-264928914812116805, 16⟩), (36, ⟨206975714696966254, 18⟩), (38, ⟨-827902858787865016, 17⟩), (40, ⟨331161143515146006, 16⟩), (42, ⟨-264928914812116805, 16⟩), (44, ⟨378469878303024007, 17⟩), (57, ⟨-227673286166662879, 17⟩), (62, ⟨-455346572333325759, 17⟩), (64, ⟨227673286166662879, 16⟩), (73, ⟨227673286166662879, 16⟩), (75, ⟨-364277257866660607, 16⟩), (84, ⟨455346572333325759, 17⟩), (86, ⟨-227673286166662879, 16⟩), (90, ⟨104079216533331602, 16⟩), (101, ⟨227673286166662879, 17⟩), (103, ⟨-227673286166662879, 16⟩), (105, ⟨364277257866660607, 16⟩), (107, ⟨-104079216533331602, 16⟩)],
  [(2, ⟨181620452552091112, 17⟩), (7, ⟨363240905104182224, 17⟩), (9, ⟨-181620452552091112, 16⟩), (18, ⟨-181620452552091112, 16⟩), (20, ⟨290592724083345779, 16⟩), (29, ⟨-363240905104182224, 17⟩), (31, ⟨181620452552091112, 16⟩), (35, ⟨-830264925952416512, 17⟩), (46, ⟨-181620452552091112, 17⟩), (48, ⟨181620452552091112, 16⟩), (50, ⟨-290592724083345779, 16⟩), (52, ⟨830264925952416512, 17⟩), (55, ⟨25945778936013016, 17⟩), (60, ⟨-934048041696468576, 17⟩), (65, ⟨-155674673616078096, 17⟩), (67, ⟨934048041696468576, 17⟩), (69, ⟨311349347232156192, 16⟩), (76, ⟨-207566231488104128, 17⟩), (78, ⟨467024020848234288, 16⟩), (80, ⟨-622698694464312384, 16⟩), (82, ⟨-166052985190483302, 16⟩), (91, ⟨-77837336808039048, 17⟩), (93, ⟨280214412508940573, 16⟩), (95, ⟨-934048041696468576, 16⟩), (97, ⟨498158955571449907, 16⟩)],
  [(0, ⟨-183464362288218895, 18⟩), (5, ⟨660471704237588023, 17⟩), (10, ⟨110078617372931337, 17⟩), (12, ⟨-660471704237588023, 17⟩), (14, ⟨-220157234745862674, 16⟩), (21, ⟨146771489830575116, 17⟩), (23, ⟨-330235852118794012, 16⟩), (25, ⟨440314469491725349, 16⟩), (27, ⟨117417191864460093, 16⟩), (36, ⟨550393086864656686, 18⟩), (38, ⟨-198141511271276407, 16⟩), (40, ⟨660471704237588023, 16⟩), (42, ⟨-352251575593380279, 16⟩), (57, ⟨238503670974684564, 17⟩), (62, ⟨-954014683898738256, 17⟩), (64, ⟨-190802936779747651, 16⟩), (71, ⟨-238503670974684564, 16⟩), (73, ⟨954014683898738256, 16⟩), (75, ⟨190802936779747651, 16⟩), (84, ⟨-954014683898738256, 17⟩), (86, ⟨954014683898738256, 16⟩), (88, ⟨-114481762067848591, 15⟩), (101, ⟨238503670974684564, 17⟩), (103, ⟨-190802936779747651, 16⟩), (105, ⟨190802936779747651, 16⟩)],
  [(2, ⟨-147913697639484502, 17⟩), (7, ⟨591654790557938008, 17⟩), (9, ⟨118330958111587602, 16⟩), (16, ⟨147913697639484502, 16⟩), (18, ⟨-591654790557938008, 16⟩), (20, ⟨-118330958111587602, 16⟩), (29, ⟨591654790557938008, 17⟩), (31, ⟨-591654790557938008, 16⟩), (33, ⟨70998574866952561, 15⟩), (46, ⟨-147913697639484502, 17⟩), (48, ⟨118330958111587602, 16⟩), (50, ⟨-118330958111587602, 16⟩), (55, ⟨-295827395278969004, 18⟩), (58, ⟨236661916223175203, 17⟩), (60, ⟨828316706781113211, 17⟩), (65, ⟨414158353390556606, 17⟩), (67, ⟨-74548503610300189, 15⟩), (69, ⟨-165663341356222642, 16⟩), (78, ⟨-414158353390556606, 16⟩), (80, ⟨165663341356222642, 15⟩), (91, ⟨-147913697639484502, 17⟩), (93, ⟨414158353390556606, 16⟩), (95, ⟨-828316706781113211, 16⟩)],
  [(0, ⟨158126394107949853, 18⟩), (3, ⟨-126501115286359882, 17⟩), (5, ⟨-442753903502259587, 17⟩), (10, ⟨-221376951751129794, 17⟩), (12, ⟨398478513152033629, 16⟩), (14, ⟨885507807004519175, 17⟩), (23, ⟨221376951751129794, 16⟩), (25, ⟨-885507807004519175, 16⟩), (36, ⟨790631970539749263, 18⟩), (38, ⟨-221376951751129794, 16⟩), (40, ⟨442753903502259587, 16⟩), (57, ⟨-237189591161924779, 17⟩), (62, ⟨332065427626694691, 16⟩), (64, ⟨110688475875564897, 16⟩), (73, ⟨-166032713813347345, 15⟩), (84, ⟨-332065427626694691, 16⟩), (86, ⟨166032713813347345, 15⟩), (101, ⟨237189591161924779, 17⟩), (103, ⟨-110688475875564897, 16⟩)],
  [(2, ⟨106074409878689427, 17⟩), (7, ⟨-148504173830165197, 16⟩), (9, ⟨-495013912767217325, 17⟩), (18, ⟨742520869150825987, 16⟩), (29, ⟨148504173830165197, 16⟩), (31, ⟨-742520869150825987, 16⟩), (46, ⟨-106074409878689427, 17⟩), (48, ⟨495013912767217325, 17⟩), (55, ⟨353581366262298089, 18⟩), (58, ⟨-707162732524596178, 17⟩), (60, ⟨-565730186019676943, 17⟩), (65, ⟨495013912767217325, 17⟩), (67, ⟨118803339064132158, 15⟩), (76, ⟨99002782553443465, 16⟩), (78, ⟨-19800556510688693, 14⟩), (91, ⟨-247506956383608662, 17⟩), (93, ⟨39601113021377386, 15⟩)],
  [(0, ⟨-125009890892637666, 18⟩), (3, ⟨250019781785275332, 17⟩), (5, ⟨200015825428220266, 17⟩), (10, ⟨-175013847249692732, 17⟩), (12, ⟨-420033233399262558, 16⟩), (21, ⟨-350027694499385465, 17⟩), (23, ⟨70005538899877093, 15⟩), (36, ⟨875069236248463662, 18⟩), (38, ⟨-140011077799754186, 16⟩), (57, ⟨212516814517484032, 17⟩), (62, ⟨-59504708064895529, 15⟩), (71, ⟨148761770162238823, 15⟩), (84, ⟨-59504708064895529, 15⟩), (101, ⟨212516814517484032, 17⟩)],
  [(2, ⟨-51542898439728431, 17⟩), (7, ⟨144320115631239607, 16⟩), (16, ⟨-360800289078099017, 16⟩), (29, ⟨144320115631239607, 16⟩), (46, ⟨-51542898439728431, 17⟩), (55, ⟨-51542898439728431, 17⟩), (58, ⟨185554434383022352, 16⟩), (65, ⟨-64944052034057823, 15⟩), (76, ⟨43296034689371882, 15⟩), (91, ⟨-463886085957555879, 17⟩)],
  [(55, ⟨52955294149244958, 17⟩), (58, ⟨-190639058937281849, 16⟩), (65, ⟨66723670628048647, 15⟩), (76, ⟨-444824470853657647, 16⟩), (91, ⟨476597647343204622, 17⟩)],
  [(0, ⟨121487776695804978, 18⟩), (3, ⟨-437355996104897921, 17⟩), (10, ⟨153074598636714272, 16⟩), (21, ⟨-102049732424476182, 16⟩), (36, ⟨10933899902622448, 16⟩), (57, ⟨218677998052448961, 17⟩), (62, ⟨-61229839454685709, 15⟩), (71, ⟨153074598636714272, 15⟩), (84, ⟨-61229839454685709, 15⟩), (101, ⟨218677998052448961, 17⟩)],
  [(2, ⟨728926660174829869, 18⟩), (7, ⟨-204099464848952363, 16⟩), (16, ⟨510248662122380908, 16⟩), (29, ⟨-204099464848952363, 16⟩), (46, ⟨728926660174829869, 18⟩), (55, ⟨-364463330087414934, 18⟩), (58, ⟨728926660174829869, 17⟩), (60, ⟨583141328139863895, 17⟩), (65, ⟨-510248662122380908, 17⟩), (67, ⟨-122459678909371418, 15⟩), (76, ⟨-102049732424476182, 16⟩), (78, ⟨204099464848952363, 15⟩), (91, ⟨255124331061190454, 17⟩), (93, ⟨-408198929697904727, 16⟩)],
  [(0, ⟨-153105222743980097, 18⟩), (3, ⟨306210445487960195, 17⟩), (5, ⟨244968356390368156, 17⟩), (10, ⟨-214347311841572136, 17⟩), (12, ⟨-514433548419773127, 16⟩), (21, ⟨-428694623683144273, 17⟩), (23, ⟨857389247366288545, 16⟩), (36, ⟨107173655920786068, 17⟩), (38, ⟨-171477849473257709, 16⟩), (57, ⟨-244968356390368156, 17⟩), (62, ⟨342955698946515418, 16⟩), (64, ⟨114318566315505139, 16⟩), (73, ⟨-171477849473257709, 15⟩), (84, ⟨-342955698946515418, 16⟩), (86, ⟨171477849473257709, 15⟩), (101, ⟨244968356390368156, 17⟩), (103, ⟨-114318566315505139, 16⟩)],
  [(2, ⟨-122484178195184078, 17⟩), (7, ⟨171477849473257709, 16⟩), (9, ⟨571592831577525697, 17⟩), (18, ⟨-857389247366288545, 16⟩), (29, ⟨-171477849473257709, 16⟩), (31, ⟨857389247366288545, 16⟩), (46, ⟨122484178195184078, 17⟩), (48, ⟨-571592831577525697, 17⟩), (55, ⟨306210445487960195, 18⟩), (58, ⟨-244968356390368156, 17⟩), (60, ⟨-857389247366288545, 17⟩), (65, ⟨-428694623683144273, 17⟩), (67, ⟨771650322629659691, 16⟩), (69, ⟨171477849473257709, 16⟩), (78, ⟨428694623683144273, 16⟩), (80, ⟨-171477849473257709, 15⟩), (91, ⟨153105222743980097, 17⟩), (93, ⟨-428694623683144273, 16⟩), (95, ⟨857389247366288545, 16⟩)],
  [(0, ⟨176790683131149045, 18⟩), (3, ⟨-141432546504919236, 17⟩), (5, ⟨-495013912767217325, 17⟩), (10, ⟨-247506956383608662, 17⟩), (12, ⟨445512521490495592, 16⟩), (14, ⟨99002782553443465, 16⟩), (23, ⟨247506956383608662, 16⟩), (25, ⟨-99002782553443465, 15⟩), (36, ⟨883953415655745223, 18⟩), (38, ⟨-247506956383608662, 16⟩), (40, ⟨495013912767217325, 16⟩), (57, ⟨247506956383608662, 17⟩), (62, ⟨-99002782553443465, 16⟩), (64, ⟨-19800556510688693, 15⟩), (71, ⟨-247506956383608662, 16⟩), (73, ⟨99002782553443465, 15⟩), (75, ⟨19800556510688693, 15⟩), (84, ⟨-99002782553443465, 16⟩), (86, ⟨99002782553443465, 15⟩), (88, ⟨-118803339064132158, 15⟩), (101, ⟨247506956383608662, 17⟩), (103, ⟨-19800556510688693, 15⟩), (105, ⟨19800556510688693, 15⟩)],
  [(2, ⟨162031337522288607, 17⟩), (7, ⟨-648125350089154427, 17⟩), (9, ⟨-129625070017830885, 16⟩), (16, ⟨-162031337522288607, 16⟩), (18, ⟨648125350089154427, 16⟩), (20, ⟨129625070017830885, 16⟩), (29, ⟨-648125350089154427, 17⟩), (31, ⟨648125350089154427, 16⟩), (33, ⟨-777750420106985312, 16⟩), (46, ⟨162031337522288607, 17⟩), (48, ⟨-129625070017830885, 16⟩), (50, ⟨129625070017830885, 16⟩), (55, ⟨-270052229203814345, 18⟩), (60, ⟨97218802513373164, 16⟩), (65, ⟨162031337522288607, 17⟩), (67, ⟨-97218802513373164, 16⟩), (69, ⟨-324062675044577213, 16⟩), (76, ⟨216041783363051476, 17⟩), (78, ⟨-48609401256686582, 15⟩), (80, ⟨648125350089154427, 16⟩), (82, ⟨172833426690441181, 16⟩), (91, ⟨810156687611443034, 18⟩), (93, ⟨-291656407540119492, 16⟩), (95, ⟨97218802513373164, 15⟩), (97, ⟨-518500280071323542, 16⟩)],
  [(0, ⟨-198164159898117403, 18⟩), (5, ⟨713390975633222651, 17⟩), (10, ⟨118898495938870442, 17⟩), (12, ⟨-713390975633222651, 17⟩), (14, ⟨-237796991877740884, 16⟩), (21, ⟨158531327918493922, 17⟩), (23, ⟨-356695487816611326, 16⟩), (25, ⟨475593983755481767, 16⟩), (27, ⟨126825062334795138, 16⟩), (36, ⟨594492479694352209, 18⟩), (38, ⟨-214017292689966795, 16⟩), (40, ⟨713390975633222651, 16⟩), (42, ⟨-380475187004385414, 16⟩), (57, ⟨-237796991877740884, 17⟩), (62, ⟨-475593983755481767, 17⟩), (64, ⟨237796991877740884, 16⟩), (73, ⟨237796991877740884, 16⟩), (75, ⟨-380475187004385414, 16⟩), (84, ⟨475593983755481767, 17⟩), (86, ⟨-237796991877740884, 16⟩), (90, ⟨108707196286967261, 16⟩), (101, ⟨237796991877740884, 17⟩), (103, ⟨-237796991877740884, 16⟩), (105, ⟨380475187004385414, 16⟩), (107, ⟨-108707196286967261, 16⟩)],
  [(2, ⟨-19416043082307367, 16⟩), (7, ⟨-388320861646147339, 17⟩), (9, ⟨19416043082307367, 15⟩), (18, ⟨19416043082307367, 15⟩), (20, ⟨-310656689316917871, 16⟩), (29, ⟨388320861646147339, 17⟩), (31, ⟨-19416043082307367, 15⟩), (35, ⟨887590540905479632, 17⟩), (46, ⟨19416043082307367, 16⟩), (48, ⟨-19416043082307367, 15⟩), (50, ⟨310656689316917871, 16⟩), (52, ⟨-887590540905479632, 17⟩), (55, ⟨242700538528842087, 18⟩), (58, ⟨970802154115368348, 18⟩), (60, ⟨-970802154115368348, 17⟩), (65, ⟨145620323117305252, 17⟩), (67, ⟨-291240646234610504, 16⟩), (69, ⟨388320861646147339, 16⟩), (76, ⟨970802154115368348, 18⟩), (78, ⟨-291240646234610504, 16⟩), (80, ⟨776641723292294678, 16⟩), (82, ⟨-310656689316917871, 16⟩), (91, ⟨242700538528842087, 18⟩), (93, ⟨-970802154115368348, 17⟩), (95, ⟨388320861646147339, 16⟩), (97, ⟨-310656689316917871, 16⟩), (99, ⟨443795270452739816, 17⟩)],
  [(0, ⟨219530897104735508, 18⟩), (3, ⟨878123588418942033, 18⟩), (5, ⟨-878123588418942033, 17⟩), (10, ⟨131718538262841305, 17⟩), (12, ⟨-26343707652568261, 15⟩), (14, ⟨351249435367576813, 16⟩), (21, ⟨878123588418942033, 18⟩), (23, ⟨-26343707652568261, 15⟩), (25, ⟨702498870735153626, 16⟩), (27, ⟨-280999548294061451, 16⟩), (36, ⟨219530897104735508, 18⟩), (38, ⟨-878123588418942033, 17⟩), (40, ⟨351249435367576813, 16⟩), (42, ⟨-280999548294061451, 16⟩), (44, ⟨401427926134373501, 17⟩), (57, ⟨219530897104735508, 17⟩), (62, ⟨878123588418942033, 17⟩), (64, ⟨-234166290245051209, 16⟩), (71, ⟨131718538262841305, 16⟩), (73, ⟨-702498870735153626, 16⟩), (75, ⟨421499322441092176, 16⟩), (84, ⟨878123588418942033, 17⟩), (86, ⟨-702498870735153626, 16⟩), (88, ⟨842998644882184352, 16⟩), (90, ⟨-1605711704537494, 14⟩), (101, ⟨219530897104735508, 17⟩), (103, ⟨-234166290245051209, 16⟩), (105, ⟨421499322441092176, 16⟩), (107, ⟨-1605711704537494, 14⟩), (109, ⟨892062058076385557, 18⟩)],
  [(2, ⟨219530897104735508, 17⟩), (7, ⟨878123588418942033, 17⟩), (9, ⟨-234166290245051209, 16⟩), (16, ⟨131718538262841305, 16⟩), (18, ⟨-702498870735153626, 16⟩), (20, ⟨421499322441092176, 16⟩), (29, ⟨878123588418942033, 17⟩), (31, ⟨-702498870735153626, 16⟩), (33, ⟨842998644882184352, 16⟩), (35, ⟨-1605711704537494, 14⟩), (46, ⟨219530897104735508, 17⟩), (48, ⟨-234166290245051209, 16⟩), (50, ⟨421499322441092176, 16⟩), (52, ⟨-1605711704537494, 14⟩), (54, ⟨892062058076385557, 18⟩), (55, ⟨-219530897104735508, 18⟩), (58, ⟨-878123588418942033, 18⟩), (60, ⟨878123588418942033, 17⟩), (65, ⟨-131718538262841305, 17⟩), (67, ⟨26343707652568261, 15⟩), (69, ⟨-351249435367576813, 16⟩), (76, ⟨-878123588418942033, 18⟩), (78, ⟨26343707652568261, 15⟩), (80, ⟨-702498870735153626, 16⟩), (82, ⟨280999548294061451, 16⟩), (91, ⟨-219530897104735508, 18⟩), (93, ⟨878123588418942033, 17⟩), (95, ⟨-351249435367576813, 16⟩), (97, ⟨280999548294061451, 16⟩), (99, ⟨-401427926134373501, 17⟩)],
  [(0, ⟨-242700538528842087, 18⟩), (3, ⟨-970802154115368348, 18⟩), (5, ⟨970802154115368348, 17⟩), (10, ⟨-145620323117305252, 17⟩), (12, ⟨291240646234610504, 16⟩), (14, ⟨-388320861646147339, 16⟩), (21, ⟨-970802154115368348, 18⟩), (23, ⟨291240646234610504, 16⟩), (25, ⟨-776641723292294678, 16⟩), (27, ⟨310656689316917871, 16⟩), (36, ⟨-242700538528842087, 18⟩), (38, ⟨970802154115368348, 17⟩), (40, ⟨-388320861646147339, 16⟩), (42, ⟨310656689316917871, 16⟩), (44, ⟨-443795270452739816, 17⟩), (57, ⟨-19416043082307367, 16⟩), (62, ⟨-388320861646147339, 17⟩), (64, ⟨19416043082307367, 15⟩), (73, ⟨19416043082307367, 15⟩), (75, ⟨-310656689316917871, 16⟩), (84, ⟨388320861646147339, 17⟩), (86, ⟨-19416043082307367, 15⟩), (90, ⟨887590540905479632, 17⟩), (101, ⟨19416043082307367, 16⟩), (103, ⟨-19416043082307367, 15⟩), (105, ⟨310656689316917871, 16⟩), (107, ⟨-887590540905479632, 17⟩)],
  [(2, ⟨-237796991877740884, 17⟩), (7, ⟨-475593983755481767, 17⟩), (9, ⟨237796991877740884, 16⟩), (18, ⟨237796991877740884, 16⟩), (20, ⟨-380475187004385414, 16⟩), (29, ⟨475593983755481767, 17⟩), (31, ⟨-237796991877740884, 16⟩), (35, ⟨108707196286967261, 16⟩), (46, ⟨237796991877740884, 17⟩), (48, ⟨-237796991877740884, 16⟩), (50, ⟨380475187004385414, 16⟩), (52, ⟨-108707196286967261, 16⟩), (55, ⟨198164159898117403, 18⟩), (60, ⟨-713390975633222651, 17⟩), (65, ⟨-118898495938870442, 17⟩), (67, ⟨713390975633222651, 17⟩), (69, ⟨237796991877740884, 16⟩), (76, ⟨-158531327918493922, 17⟩), (78, ⟨356695487816611326, 16⟩), (80, ⟨-475593983755481767, 16⟩), (82, ⟨-126825062334795138, 16⟩), (91, ⟨-594492479694352209, 18⟩), (93, ⟨214017292689966795, 16⟩), (95, ⟨-713390975633222651, 16⟩), (97, ⟨380475187004385414, 16⟩)],
  [(0, ⟨270052229203814345, 18⟩), (5, ⟨-97218802513373164, 16⟩), (10, ⟨-162031337522288607, 17⟩), (12, ⟨97218802513373164, 16⟩), (14, ⟨324062675044577213, 16⟩), (21, ⟨-216041783363051476, 17⟩), (23, ⟨48609401256686582, 15⟩), (25, ⟨-648125350089154427, 16⟩), (27, ⟨-172833426690441181, 16⟩), (36, ⟨-810156687611443034, 18⟩), (38, ⟨291656407540119492, 16⟩), (40, ⟨-97218802513373164, 15⟩), (42, ⟨518500280071323542, 16⟩), (57, ⟨162031337522288607, 17⟩), (62, ⟨-648125350089154427, 17⟩), (64, ⟨-129625070017830885, 16⟩), (71, ⟨-162031337522288607, 16⟩), (73, ⟨648125350089154427, 16⟩), (75, ⟨129625070017830885, 16⟩), (84, ⟨-648125350089154427, 17⟩), (86, ⟨648125350089154427, 16⟩), (88, ⟨-777750420106985312, 16⟩), (101, ⟨162031337522288607, 17⟩), (103, ⟨-129625070017830885, 16⟩), (105, ⟨129625070017830885, 16⟩)],
  [(2, ⟨247506956383608662, 17⟩), (7, ⟨-99002782553443465, 16⟩), (9, ⟨-19800556510688693, 15⟩), (16, ⟨-247506956383608662, 16⟩), (18, ⟨99002782553443465, 15⟩), (20, ⟨19800556510688693, 15⟩), (29, ⟨-99002782553443465, 16⟩), (31, ⟨99002782553443465, 15⟩), (33, ⟨-118803339064132158, 15⟩), (46, ⟨247506956383608662, 17⟩), (48, ⟨-19800556510688693, 15⟩), (50, ⟨19800556510688693, 15⟩), (55, ⟨-176790683131149045, 18⟩), (58, ⟨141432546504919236, 17⟩), (60, ⟨495013912767217325, 17⟩), (65, ⟨247506956383608662, 17⟩), (67, ⟨-445512521490495592, 16⟩), (69, ⟨-99002782553443465, 16⟩), (78, ⟨-247506956383608662, 16⟩), (80, ⟨99002782553443465, 15⟩), (91, ⟨-883953415655745223, 18⟩), (93, ⟨247506956383608662, 16⟩), (95, ⟨-495013912767217325, 16⟩)],
  [(0, ⟨-306210445487960195, 18⟩), (3, ⟨244968356390368156, 17⟩), (5, ⟨857389247366288545, 17⟩), (10, ⟨428694623683144273, 17⟩), (12, ⟨-771650322629659691, 16⟩), (14, ⟨-171477849473257709, 16⟩), (23, ⟨-428694623683144273, 16⟩), (25, ⟨171477849473257709, 15⟩), (36, ⟨-153105222743980097, 17⟩), (38, ⟨428694623683144273, 16⟩), (40, ⟨-857389247366288545, 16⟩), (57, ⟨-122484178195184078, 17⟩), (62, ⟨171477849473257709, 16⟩), (64, ⟨571592831577525697, 17⟩), (73, ⟨-857389247366288545, 16⟩), (84, ⟨-171477849473257709, 16⟩), (86, ⟨857389247366288545, 16⟩), (101, ⟨122484178195184078, 17⟩), (103, ⟨-571592831577525697, 17⟩)],
  [(2, ⟨-244968356390368156, 17⟩), (7, ⟨342955698946515418, 16⟩), (9, ⟨114318566315505139, 16⟩), (18, ⟨-171477849473257709, 15⟩), (29, ⟨-342955698946515418, 16⟩), (31, ⟨171477849473257709, 15⟩), (46, ⟨244968356390368156, 17⟩), (48, ⟨-114318566315505139, 16⟩), (55, ⟨153105222743980097, 18⟩), (58, ⟨-306210445487960195, 17⟩), (60, ⟨-244968356390368156, 17⟩), (65, ⟨214347311841572136, 17⟩), (67, ⟨514433548419773127, 16⟩), (76, ⟨428694623683144273, 17⟩), (78, ⟨-857389247366288545, 16⟩), (91, ⟨-107173655920786068, 17⟩), (93, ⟨171477849473257709, 16⟩)],
  [(0, ⟨364463330087414934, 18⟩), (3, ⟨-728926660174829869, 17⟩), (5, ⟨-583141328139863895, 17⟩), (10, ⟨510248662122380908, 17⟩), (12, ⟨122459678909371418, 15⟩), (21, ⟨102049732424476182, 16⟩), (23, ⟨-204099464848952363, 15⟩), (36, ⟨-255124331061190454, 17⟩), (38, ⟨408198929697904727, 16⟩), (57, ⟨728926660174829869, 18⟩), (62, ⟨-204099464848952363, 16⟩), (71, ⟨510248662122380908, 16⟩), (84, ⟨-204099464848952363, 16⟩), (101, ⟨728926660174829869, 18⟩)],
  [(2, ⟨218677998052448961, 17⟩), (7, ⟨-61229839454685709, 15⟩), (16, ⟨153074598636714272, 15⟩), (29, ⟨-61229839454685709, 15⟩), (46, ⟨218677998052448961, 17⟩), (55, ⟨-121487776695804978, 18⟩), (58, ⟨437355996104897921, 17⟩), (65, ⟨-153074598636714272, 16⟩), (76, ⟨102049732424476182, 16⟩), (91, ⟨-10933899902622448, 16⟩)],
  [(0, ⟨-52955294149244958, 17⟩), (3, ⟨190639058937281849, 16⟩), (10, ⟨-66723670628048647, 15⟩), (21, ⟨444824470853657647, 16⟩), (36, ⟨-476597647343204622, 17⟩)]]

/-- The part of g_trans_cart2jR (src/cart2sph.c:813-2172, PYPZPX not defined) for l = 10: for every row of
132 literals the nonzero ones with their column. -/
def cjRowsR10 : List (List (Nat × Dec)) := [
  [(0, ⟨-52955294149244958, 17⟩), (3, ⟨238298823671602311, 16⟩), (10, ⟨-111206117713414412, 15⟩), (21, ⟨111206117713414412, 15⟩), (36, ⟨-238298823671602311, 16⟩), (55, ⟨52955294149244958, 17⟩), (68, ⟨52955294149244958, 17⟩), (73, ⟨-190639058937281849, 16⟩), (82, ⟨66723670628048647, 15⟩), (95, ⟨-444824470853657647, 16⟩), (112, ⟨476597647343204622, 17⟩)],
  [(2, ⟨-230826775722029458, 17⟩), (7, ⟨830976392599306051, 16⟩), (16, ⟨-290841737409757118, 15⟩), (29, ⟨193894491606504745, 15⟩), (46, ⟨-207744098149826513, 16⟩), (66, ⟨-121487776695804978, 18⟩), (69, ⟨328016997078673441, 17⟩), (71, ⟨218677998052448961, 17⟩), (76, ⟨-510248662122380908, 17⟩), (78, ⟨-61229839454685709, 15⟩), (87, ⟨-510248662122380908, 17⟩), (89, ⟨153074598636714272, 15⟩), (102, ⟨328016997078673441, 17⟩), (104, ⟨-61229839454685709, 15⟩), (121, ⟨-121487776695804978, 18⟩), (123, ⟨218677998052448961, 17⟩)],
  [(0, ⟨364463330087414934, 18⟩), (3, ⟨-984050991236020323, 17⟩), (5, ⟨-656033994157346882, 17⟩), (10, ⟨153074598636714272, 16⟩), (12, ⟨183689518364057127, 15⟩), (21, ⟨153074598636714272, 16⟩), (23, ⟨-459223795910142817, 15⟩), (36, ⟨-984050991236020323, 17⟩), (38, ⟨183689518364057127, 15⟩), (55, ⟨364463330087414934, 18⟩), (57, ⟨-656033994157346882, 17⟩), (68, ⟨-10933899902622448, 16⟩), (73, ⟨218677998052448961, 16⟩), (75, ⟨583141328139863895, 17⟩), (82, ⟨-153074598636714272, 16⟩), (84, ⟨-122459678909371418, 15⟩), (95, ⟨-306149197273428545, 16⟩), (97, ⟨204099464848952363, 15⟩), (112, ⟨765372993183571362, 17⟩), (114, ⟨-408198929697904727, 16⟩)],
  [(2, ⟨260278878664766166, 17⟩), (7, ⟨-520557757329532331, 16⟩), (9, ⟨-138815401954541955, 16⟩), (16, ⟨364390430130672632, 16⟩), (18, ⟨291512344104538105, 15⟩), (29, ⟨728780860261345264, 16⟩), (31, ⟨-485853906840896842, 15⟩), (46, ⟨-182195215065336316, 16⟩), (48, ⟨971707813681793685, 16⟩), (66, ⟨153105222743980097, 18⟩), (69, ⟨-199036789567174127, 17⟩), (71, ⟨-489936712780736312, 17⟩), (76, ⟨-214347311841572136, 17⟩), (78, ⟨685911397893030836, 16⟩), (80, ⟨114318566315505139, 16⟩), (87, ⟨214347311841572136, 17⟩), (91, ⟨-171477849473257709, 15⟩), (102, ⟨199036789567174127, 17⟩), (104, ⟨-685911397893030836, 16⟩), (106, ⟨171477849473257709, 15⟩), (121, ⟨-153105222743980097, 18⟩), (123, ⟨489936712780736312, 17⟩), (125, ⟨-114318566315505139, 16⟩)],
  [(0, ⟨-306210445487960195, 18⟩), (3, ⟨398073579134348253, 17⟩), (5, ⟨979873425561472623, 17⟩), (10, ⟨428694623683144273, 17⟩), (12, ⟨-137182279578606167, 15⟩), (14, ⟨-228637132631010279, 16⟩), (21, ⟨-428694623683144273, 17⟩), (25, ⟨342955698946515418, 15⟩), (36, ⟨-398073579134348253, 17⟩), (38, ⟨137182279578606167, 15⟩), (40, ⟨-342955698946515418, 15⟩), (55, ⟨306210445487960195, 18⟩), (57, ⟨-979873425561472623, 17⟩), (59, ⟨228637132631010279, 16⟩), (68, ⟨153105222743980097, 17⟩), (73, ⟨-122484178195184078, 16⟩), (75, ⟨-142898207894381424, 16⟩), (82, ⟨-214347311841572136, 16⟩), (84, ⟨128608387104943282, 15⟩), (86, ⟨171477849473257709, 16⟩), (97, ⟨714491039471907121, 16⟩), (99, ⟨-171477849473257709, 15⟩), (112, ⟨765526113719900487, 17⟩), (114, ⟨-714491039471907121, 16⟩), (116, ⟨857389247366288545, 16⟩)],
  [(2, ⟨-265186024696723567, 17⟩), (7, ⟨212148819757378853, 16⟩), (9, ⟨247506956383608662, 16⟩), (16, ⟨371260434575412994, 16⟩), (18, ⟨-222756260745247796, 15⟩), (20, ⟨-297008347660330395, 16⟩), (31, ⟨-123753478191804331, 15⟩), (33, ⟨297008347660330395, 15⟩), (46, ⟨-132593012348361783, 16⟩), (48, ⟨123753478191804331, 15⟩), (50, ⟨-148504173830165197, 15⟩), (66, ⟨-176790683131149045, 18⟩), (69, ⟨530372049393447134, 18⟩), (71, ⟨742520869150825987, 17⟩), (76, ⟨247506956383608662, 17⟩), (78, ⟨-297008347660330395, 16⟩), (80, ⟨-297008347660330395, 16⟩), (87, ⟨247506956383608662, 17⟩), (89, ⟨-742520869150825987, 16⟩), (91, ⟨148504173830165197, 15⟩), (93, ⟨19800556510688693, 15⟩), (102, ⟨530372049393447134, 18⟩), (104, ⟨-297008347660330395, 16⟩), (106, ⟨148504173830165197, 15⟩), (108, ⟨-118803339064132158, 15⟩), (121, ⟨-176790683131149045, 18⟩), (123, ⟨742520869150825987, 17⟩), (125, ⟨-297008347660330395, 16⟩), (127, ⟨19800556510688693, 15⟩)],
  [(0, ⟨270052229203814345, 18⟩), (3, ⟨-810156687611443034, 18⟩), (5, ⟨-113421936265602025, 16⟩), (10, ⟨-378073120885340082, 17⟩), (12, ⟨453687745062408099, 16⟩), (14, ⟨453687745062408099, 16⟩), (21, ⟨-378073120885340082, 17⟩), (23, ⟨113421936265602025, 15⟩), (25, ⟨-226843872531204049, 15⟩), (27, ⟨-302458496708272066, 16⟩), (36, ⟨-810156687611443034, 18⟩), (38, ⟨453687745062408099, 16⟩), (40, ⟨-226843872531204049, 15⟩), (42, ⟨18147509802496324, 14⟩), (55, ⟨270052229203814345, 18⟩), (57, ⟨-113421936265602025, 16⟩), (59, ⟨453687745062408099, 16⟩), (61, ⟨-302458496708272066, 16⟩), (68, ⟨-189036560442670041, 17⟩), (75, ⟨226843872531204049, 16⟩), (82, ⟨113421936265602025, 16⟩), (84, ⟨-226843872531204049, 16⟩), (86, ⟨-453687745062408099, 16⟩), (95, ⟨151229248354136033, 16⟩), (97, ⟨-113421936265602025, 15⟩), (99, ⟨907375490124816198, 16⟩), (101, ⟨172833426690441181, 16⟩), (112, ⟨567109681328010124, 17⟩), (114, ⟨-680531617593612148, 16⟩), (116, ⟨13610632351872243, 14⟩), (118, ⟨-518500280071323542, 16⟩)],
  [(2, ⟨257613407867552624, 17⟩), (9, ⟨-309136089441063149, 16⟩), (16, ⟨-154568044720531574, 16⟩), (18, ⟨309136089441063149, 16⟩), (20, ⟨618272178882126298, 16⟩), (29, ⟨-206090726294042099, 16⟩), (31, ⟨154568044720531574, 15⟩), (33, ⟨-12365443577642526, 14⟩), (35, ⟨-235532258621762399, 16⟩), (46, ⟨-772840223602657872, 17⟩), (48, ⟨927408268323189446, 16⟩), (50, ⟨-185481653664637889, 15⟩), (52, ⟨706596775865287197, 16⟩), (66, ⟨198164159898117403, 18⟩), (69, ⟨594492479694352209, 18⟩), (71, ⟨-951187967510963535, 17⟩), (76, ⟨396328319796234806, 18⟩), (78, ⟨-190237593502192707, 16⟩), (80, ⟨475593983755481767, 16⟩), (87, ⟨-396328319796234806, 18⟩), (91, ⟨475593983755481767, 16⟩), (93, ⟨-507300249339180552, 16⟩), (102, ⟨-594492479694352209, 18⟩), (104, ⟨190237593502192707, 16⟩), (106, ⟨-475593983755481767, 16⟩), (110, ⟨108707196286967261, 16⟩), (121, ⟨-198164159898117403, 18⟩), (123, ⟨951187967510963535, 17⟩), (125, ⟨-475593983755481767, 16⟩), (127, ⟨507300249339180552, 16⟩), (129, ⟨-108707196286967261, 16⟩)],
  [(0, ⟨-242700538528842087, 18⟩), (3, ⟨-728101615586526261, 18⟩), (5, ⟨116496258493844202, 16⟩), (10, ⟨-485401077057684174, 18⟩), (12, ⟨232992516987688403, 16⟩), (14, ⟨-582481292469221009, 16⟩), (21, ⟨485401077057684174, 18⟩), (25, ⟨-582481292469221009, 16⟩), (27, ⟨621313378633835742, 16⟩), (36, ⟨728101615586526261, 18⟩), (38, ⟨-232992516987688403, 16⟩), (40, ⟨582481292469221009, 16⟩), (44, ⟨-133138581135821945, 16⟩), (55, ⟨242700538528842087, 18⟩), (57, ⟨-116496258493844202, 16⟩), (59, ⟨582481292469221009, 16⟩), (61, ⟨-621313378633835742, 16⟩), (63, ⟨133138581135821945, 16⟩), (68, ⟨218430484675957878, 17⟩), (73, ⟨873721938703831513, 17⟩), (75, ⟨-291240646234610504, 16⟩), (82, ⟨131058290805574727, 16⟩), (84, ⟨-873721938703831513, 16⟩), (86, ⟨69897755096306521, 15⟩), (95, ⟨873721938703831513, 17⟩), (97, ⟨-873721938703831513, 16⟩), (99, ⟨139795510192613042, 15⟩), (101, ⟨-399415743407465834, 16⟩), (112, ⟨218430484675957878, 17⟩), (114, ⟨-291240646234610504, 16⟩), (116, ⟨69897755096306521, 15⟩), (118, ⟨-399415743407465834, 16⟩), (120, ⟨443795270452739816, 17⟩)],
  [(2, ⟨-241483986815209059, 17⟩), (7, ⟨-965935947260836236, 17⟩), (9, ⟨321978649086945412, 16⟩), (16, ⟨-144890392089125435, 16⟩), (18, ⟨965935947260836236, 16⟩), (20, ⟨-772748757808668989, 16⟩), (29, ⟨-965935947260836236, 17⟩), (31, ⟨965935947260836236, 16⟩), (33, ⟨-154549751561733798, 15⟩), (35, ⟨441570718747810851, 16⟩), (46, ⟨-241483986815209059, 17⟩), (48, ⟨321978649086945412, 16⟩), (50, ⟨-772748757808668989, 16⟩), (52, ⟨441570718747810851, 16⟩), (54, ⟨-490634131942012056, 17⟩), (66, ⟨-219530897104735508, 18⟩), (69, ⟨-109765448552367754, 17⟩), (71, ⟨109765448552367754, 16⟩), (76, ⟨-219530897104735508, 17⟩), (78, ⟨439061794209471016, 16⟩), (80, ⟨-585415725612628022, 16⟩), (87, ⟨-219530897104735508, 17⟩), (89, ⟨658592691314206525, 16⟩), (91, ⟨-175624717683788407, 15⟩), (93, ⟨702498870735153626, 16⟩), (102, ⟨-109765448552367754, 17⟩), (104, ⟨439061794209471016, 16⟩), (106, ⟨-175624717683788407, 15⟩), (108, ⟨140499774147030725, 15⟩), (110, ⟨-20071396306718675, 15⟩), (121, ⟨-219530897104735508, 18⟩), (123, ⟨109765448552367754, 16⟩), (125, ⟨-585415725612628022, 16⟩), (127, ⟨702498870735153626, 16⟩), (129, ⟨-20071396306718675, 15⟩), (131, ⟨892062058076385557, 18⟩)],
  [(0, ⟨219530897104735508, 18⟩), (3, ⟨109765448552367754, 17⟩), (5, ⟨-109765448552367754, 16⟩), (10, ⟨219530897104735508, 17⟩), (12, ⟨-439061794209471016, 16⟩), (14, ⟨585415725612628022, 16⟩), (21, ⟨219530897104735508, 17⟩), (23, ⟨-658592691314206525, 16⟩), (25, ⟨175624717683788407, 15⟩), (27, ⟨-702498870735153626, 16⟩), (36, ⟨109765448552367754, 17⟩), (38, ⟨-439061794209471016, 16⟩), (40, ⟨175624717683788407, 15⟩), (42, ⟨-140499774147030725, 15⟩), (44, ⟨20071396306718675, 15⟩), (55, ⟨219530897104735508, 18⟩), (57, ⟨-109765448552367754, 16⟩), (59, ⟨585415725612628022, 16⟩), (61, ⟨-702498870735153626, 16⟩), (63, ⟨20071396306718675, 15⟩), (65, ⟨-892062058076385557, 18⟩), (68, ⟨-241483986815209059, 17⟩), (73, ⟨-965935947260836236, 17⟩), (75, ⟨321978649086945412, 16⟩), (82, ⟨-144890392089125435, 16⟩), (84, ⟨965935947260836236, 16⟩), (86, ⟨-772748757808668989, 16⟩), (95, ⟨-965935947260836236, 17⟩), (97, ⟨965935947260836236, 16⟩), (99, ⟨-154549751561733798, 15⟩), (101, ⟨441570718747810851, 16⟩), (112, ⟨-241483986815209059, 17⟩), (114, ⟨321978649086945412, 16⟩), (116, ⟨-772748757808668989, 16⟩), (118, ⟨441570718747810851, 16⟩), (120, ⟨-490634131942012056, 17⟩)],
  [(2, ⟨218430484675957878, 17⟩), (7, ⟨873721938703831513, 17⟩), (9, ⟨-291240646234610504, 16⟩), (16, ⟨131058290805574727, 16⟩), (18, ⟨-873721938703831513, 16⟩), (20, ⟨69897755096306521, 15⟩), (29, ⟨873721938703831513, 17⟩), (31, ⟨-873721938703831513, 16⟩), (33, ⟨139795510192613042, 15⟩), (35, ⟨-399415743407465834, 16⟩), (46, ⟨218430484675957878, 17⟩), (48, ⟨-291240646234610504, 16⟩), (50, ⟨69897755096306521, 15⟩), (52, ⟨-399415743407465834, 16⟩), (54, ⟨443795270452739816, 17⟩), (66, ⟨242700538528842087, 18⟩), (69, ⟨728101615586526261, 18⟩), (71, ⟨-116496258493844202, 16⟩), (76, ⟨485401077057684174, 18⟩), (78, ⟨-232992516987688403, 16⟩), (80, ⟨582481292469221009, 16⟩), (87, ⟨-485401077057684174, 18⟩), (91, ⟨582481292469221009, 16⟩), (93, ⟨-621313378633835742, 16⟩), (102, ⟨-728101615586526261, 18⟩), (104, ⟨232992516987688403, 16⟩), (106, ⟨-582481292469221009, 16⟩), (110, ⟨133138581135821945, 16⟩), (121, ⟨-242700538528842087, 18⟩), (123, ⟨116496258493844202, 16⟩), (125, ⟨-582481292469221009, 16⟩), (127, ⟨621313378633835742, 16⟩), (129, ⟨-133138581135821945, 16⟩)],
  [(0, ⟨-198164159898117403, 18⟩), (3, ⟨-594492479694352209, 18⟩), (5, ⟨951187967510963535, 17⟩), (10, ⟨-396328319796234806, 18⟩), (12, ⟨190237593502192707, 16⟩), (14, ⟨-475593983755481767, 16⟩), (21, ⟨396328319796234806, 18⟩), (25, ⟨-475593983755481767, 16⟩), (27, ⟨507300249339180552, 16⟩), (36, ⟨594492479694352209, 18⟩), (38, ⟨-190237593502192707, 16⟩), (40, ⟨475593983755481767, 16⟩), (44, ⟨-108707196286967261, 16⟩), (55, ⟨198164159898117403, 18⟩), (57, ⟨-951187967510963535, 17⟩), (59, ⟨475593983755481767, 16⟩), (61, ⟨-507300249339180552, 16⟩), (63, ⟨108707196286967261, 16⟩), (68, ⟨257613407867552624, 17⟩), (75, ⟨-309136089441063149, 16⟩), (82, ⟨-154568044720531574, 16⟩), (84, ⟨309136089441063149, 16⟩), (86, ⟨618272178882126298, 16⟩), (95, ⟨-206090726294042099, 16⟩), (97, ⟨154568044720531574, 15⟩), (99, ⟨-12365443577642526, 14⟩), (101, ⟨-235532258621762399, 16⟩), (112, ⟨-772840223602657872, 17⟩), (114, ⟨927408268323189446, 16⟩), (116, ⟨-185481653664637889, 15⟩), (118, ⟨706596775865287197, 16⟩)],
  [(2, ⟨-189036560442670041, 17⟩), (9, ⟨226843872531204049, 16⟩), (16, ⟨113421936265602025, 16⟩), (18, ⟨-226843872531204049, 16⟩), (20, ⟨-453687745062408099, 16⟩), (29, ⟨151229248354136033, 16⟩), (31, ⟨-113421936265602025, 15⟩), (33, ⟨907375490124816198, 16⟩), (35, ⟨172833426690441181, 16⟩), (46, ⟨567109681328010124, 17⟩), (48, ⟨-680531617593612148, 16⟩), (50, ⟨13610632351872243, 14⟩), (52, ⟨-518500280071323542, 16⟩), (66, ⟨-270052229203814345, 18⟩), (69, ⟨810156687611443034, 18⟩), (71, ⟨113421936265602025, 16⟩), (76, ⟨378073120885340082, 17⟩), (78, ⟨-453687745062408099, 16⟩), (80, ⟨-453687745062408099, 16⟩), (87, ⟨378073120885340082, 17⟩), (89, ⟨-113421936265602025, 15⟩), (91, ⟨226843872531204049, 15⟩), (93, ⟨302458496708272066, 16⟩), (102, ⟨810156687611443034, 18⟩), (104, ⟨-453687745062408099, 16⟩), (106, ⟨226843872531204049, 15⟩), (108, ⟨-18147509802496324, 14⟩), (121, ⟨-270052229203814345, 18⟩), (123, ⟨113421936265602025, 16⟩), (125, ⟨-453687745062408099, 16⟩), (127, ⟨302458496708272066, 16⟩)],
  [(0, ⟨176790683131149045, 18⟩), (3, ⟨-530372049393447134, 18⟩), (5, ⟨-742520869150825987, 17⟩), (10, ⟨-247506956383608662, 17⟩), (12, ⟨297008347660330395, 16⟩), (14, ⟨297008347660330395, 16⟩), (21, ⟨-247506956383608662, 17⟩), (23, ⟨742520869150825987, 16⟩), (25, ⟨-148504173830165197, 15⟩), (27, ⟨-19800556510688693, 15⟩), (36, ⟨-530372049393447134, 18⟩), (38, ⟨297008347660330395, 16⟩), (40, ⟨-148504173830165197, 15⟩), (42, ⟨118803339064132158, 15⟩), (55, ⟨176790683131149045, 18⟩), (57, ⟨-742520869150825987, 17⟩), (59, ⟨297008347660330395, 16⟩), (61, ⟨-19800556510688693, 15⟩), (68, ⟨-265186024696723567, 17⟩), (73, ⟨212148819757378853, 16⟩), (75, ⟨247506956383608662, 16⟩), (82, ⟨371260434575412994, 16⟩), (84, ⟨-222756260745247796, 15⟩), (86, ⟨-297008347660330395, 16⟩), (97, ⟨-123753478191804331, 15⟩), (99, ⟨297008347660330395, 15⟩), (112, ⟨-132593012348361783, 16⟩), (114, ⟨123753478191804331, 15⟩), (116, ⟨-148504173830165197, 15⟩)],
  [(2, ⟨153105222743980097, 17⟩), (7, ⟨-122484178195184078, 16⟩), (9, ⟨-142898207894381424, 16⟩), (16, ⟨-214347311841572136, 16⟩), (18, ⟨128608387104943282, 15⟩), (20, ⟨171477849473257709, 16⟩), (31, ⟨714491039471907121, 16⟩), (33, ⟨-171477849473257709, 15⟩), (46, ⟨765526113719900487, 17⟩), (48, ⟨-714491039471907121, 16⟩), (50, ⟨857389247366288545, 16⟩), (66, ⟨306210445487960195, 18⟩), (69, ⟨-398073579134348253, 17⟩), (71, ⟨-979873425561472623, 17⟩), (76, ⟨-428694623683144273, 17⟩), (78, ⟨137182279578606167, 15⟩), (80, ⟨228637132631010279, 16⟩), (87, ⟨428694623683144273, 17⟩), (91, ⟨-342955698946515418, 15⟩), (102, ⟨398073579134348253, 17⟩), (104, ⟨-137182279578606167, 15⟩), (106, ⟨342955698946515418, 15⟩), (121, ⟨-306210445487960195, 18⟩), (123, ⟨979873425561472623, 17⟩), (125, ⟨-228637132631010279, 16⟩)],
  [(0, ⟨-153105222743980097, 18⟩), (3, ⟨199036789567174127, 17⟩), (5, ⟨489936712780736312, 17⟩), (10, ⟨214347311841572136, 17⟩), (12, ⟨-685911397893030836, 16⟩), (14, ⟨-114318566315505139, 16⟩), (21, ⟨-214347311841572136, 17⟩), (25, ⟨171477849473257709, 15⟩), (36, ⟨-199036789567174127, 17⟩), (38, ⟨685911397893030836, 16⟩), (40, ⟨-171477849473257709, 15⟩), (55, ⟨153105222743980097, 18⟩), (57, ⟨-489936712780736312, 17⟩), (59, ⟨114318566315505139, 16⟩), (68, ⟨260278878664766166, 17⟩), (73, ⟨-520557757329532331, 16⟩), (75, ⟨-138815401954541955, 16⟩), (82, ⟨364390430130672632, 16⟩), (84, ⟨291512344104538105, 15⟩), (95, ⟨728780860261345264, 16⟩), (97, ⟨-485853906840896842, 15⟩), (112, ⟨-182195215065336316, 16⟩), (114, ⟨971707813681793685, 16⟩)],
  [(2, ⟨-10933899902622448, 16⟩), (7, ⟨218677998052448961, 16⟩), (9, ⟨583141328139863895, 17⟩), (16, ⟨-153074598636714272, 16⟩), (18, ⟨-122459678909371418, 15⟩), (29, ⟨-306149197273428545, 16⟩), (31, ⟨204099464848952363, 15⟩), (46, ⟨765372993183571362, 17⟩), (48, ⟨-408198929697904727, 16⟩), (66, ⟨-364463330087414934, 18⟩), (69, ⟨984050991236020323, 17⟩), (71, ⟨656033994157346882, 17⟩), (76, ⟨-153074598636714272, 16⟩), (78, ⟨-183689518364057127, 15⟩), (87, ⟨-153074598636714272, 16⟩), (89, ⟨459223795910142817, 15⟩), (102, ⟨984050991236020323, 17⟩), (104, ⟨-183689518364057127, 15⟩), (121, ⟨-364463330087414934, 18⟩), (123, ⟨656033994157346882, 17⟩)],
  [(0, ⟨121487776695804978, 18⟩), (3, ⟨-328016997078673441, 17⟩), (5, ⟨-218677998052448961, 17⟩), (10, ⟨510248662122380908, 17⟩), (12, ⟨61229839454685709, 15⟩), (21, ⟨510248662122380908, 17⟩), (23, ⟨-153074598636714272, 15⟩), (36, ⟨-328016997078673441, 17⟩), (38, ⟨61229839454685709, 15⟩), (55, ⟨121487776695804978, 18⟩), (57, ⟨-218677998052448961, 17⟩), (68, ⟨-230826775722029458, 17⟩), (73, ⟨830976392599306051, 16⟩), (82, ⟨-290841737409757118, 15⟩), (95, ⟨193894491606504745, 15⟩), (112, ⟨-207744098149826513, 16⟩)],
  [(2, ⟨52955294149244958, 17⟩), (7, ⟨-190639058937281849, 16⟩), (16, ⟨66723670628048647, 15⟩), (29, ⟨-444824470853657647, 16⟩), (46, ⟨476597647343204622, 17⟩), (66, ⟨52955294149244958, 17⟩), (69, ⟨-238298823671602311, 16⟩), (76, ⟨111206117713414412, 15⟩), (87, ⟨-111206117713414412, 15⟩), (102, ⟨238298823671602311, 16⟩), (121, ⟨-52955294149244958, 17⟩)],
  [(66, ⟨542630291944221461, 18⟩), (69, ⟨-244183631374899657, 16⟩), (76, ⟨113952361308286507, 15⟩), (87, ⟨-113952361308286507, 15⟩), (102, ⟨244183631374899657, 16⟩), (121, ⟨-542630291944221461, 18⟩)],
  [(0, ⟨11841163748620862, 17⟩), (3, ⟨-532852368687938788, 17⟩), (10, ⟨248664438721038101, 16⟩), (21, ⟨-248664438721038101, 16⟩), (36, ⟨532852368687938788, 17⟩), (55, ⟨-11841163748620862, 17⟩), (68, ⟨236823274972417239, 17⟩), (73, ⟨-852563789900702061, 16⟩), (82, ⟨298397326465245721, 15⟩), (95, ⟨-198931550976830481, 15⟩), (112, ⟨213140947475175515, 16⟩)],
  [(2, ⟨748900951853188297, 18⟩), (7, ⟨-269604342667147787, 16⟩), (16, ⟨943615199335017254, 16⟩), (29, ⟨-629076799556678169, 16⟩), (46, ⟨674010856667869467, 17⟩), (66, ⟨-374450475926594148, 18⟩), (69, ⟨10110162850018042, 15⟩), (71, ⟨674010856667869467, 17⟩), (76, ⟨-157269199889169542, 16⟩), (78, ⟨-188723039867003451, 15⟩), (87, ⟨-157269199889169542, 16⟩), (89, ⟨471807599667508627, 15⟩), (102, ⟨10110162850018042, 15⟩), (104, ⟨-188723039867003451, 15⟩), (121, ⟨-374450475926594148, 18⟩), (123, ⟨674010856667869467, 17⟩)],
  [(0, ⟨-148791531444953757, 18⟩), (3, ⟨401737134901375144, 17⟩), (5, ⟨267824756600916763, 17⟩), (10, ⟨-62492443206880578, 16⟩), (12, ⟨-749909318482566936, 16⟩), (21, ⟨-62492443206880578, 16⟩), (23, ⟨187477329620641734, 15⟩), (36, ⟨401737134901375144, 17⟩), (38, ⟨-749909318482566936, 16⟩), (55, ⟨-148791531444953757, 18⟩), (57, ⟨267824756600916763, 17⟩), (68, ⟨-267824756600916763, 17⟩), (73, ⟨535649513201833526, 16⟩), (75, ⟨142839870187155607, 16⟩), (82, ⟨-374954659241283468, 16⟩), (84, ⟨-299963727393026774, 15⟩), (95, ⟨-749909318482566936, 16⟩), (97, ⟨499939545655044624, 15⟩), (112, ⟨187477329620641734, 16⟩), (114, ⟨-999879091310089248, 16⟩)],
  [(2, ⟨-126253801041429866, 17⟩), (7, ⟨252507602082859732, 16⟩), (9, ⟨673353605554292619, 17⟩), (16, ⟨-176755321458001813, 16⟩), (18, ⟨-14140425716640145, 14⟩), (29, ⟨-353510642916003625, 16⟩), (31, ⟨235673761944002417, 15⟩), (46, ⟨883776607290009063, 17⟩), (48, ⟨-471347523888004833, 16⟩), (66, ⟨315634502603574665, 18⟩), (69, ⟨-410324853384647065, 17⟩), (71, ⟨-101003040833143893, 16⟩), (76, ⟨-441888303645004531, 17⟩), (78, ⟨14140425716640145, 14⟩), (80, ⟨235673761944002417, 16⟩), (87, ⟨441888303645004531, 17⟩), (91, ⟨-353510642916003625, 15⟩), (102, ⟨410324853384647065, 17⟩), (104, ⟨-14140425716640145, 14⟩), (106, ⟨353510642916003625, 15⟩), (121, ⟨-315634502603574665, 18⟩), (123, ⟨101003040833143893, 16⟩), (125, ⟨-235673761944002417, 16⟩)],
  [(0, ⟨171176842882893189, 18⟩), (3, ⟨-222529895747761146, 17⟩), (5, ⟨-547765897225258205, 17⟩), (10, ⟨-239647580036050465, 17⟩), (12, ⟨766872256115361487, 16⟩), (14, ⟨127812042685893581, 16⟩), (21, ⟨239647580036050465, 17⟩), (25, ⟨-191718064028840372, 15⟩), (36, ⟨222529895747761146, 17⟩), (38, ⟨-766872256115361487, 16⟩), (40, ⟨191718064028840372, 15⟩), (55, ⟨-171176842882893189, 18⟩), (57, ⟨547765897225258205, 17⟩), (59, ⟨-127812042685893581, 16⟩), (68, ⟨273882948612629102, 17⟩), (73, ⟨-219106358890103282, 16⟩), (75, ⟨-255624085371787162, 16⟩), (82, ⟨-383436128057680743, 16⟩), (84, ⟨230061676834608446, 15⟩), (86, ⟨306748902446144595, 16⟩), (97, ⟨127812042685893581, 15⟩), (99, ⟨-306748902446144595, 15⟩), (112, ⟨136941474306314551, 16⟩), (114, ⟨-127812042685893581, 15⟩), (116, ⟨153374451223072297, 15⟩)],
  [(2, ⟨167718368337461811, 17⟩), (7, ⟨-134174694669969449, 16⟩), (9, ⟨-156537143781631024, 16⟩), (16, ⟨-234805715672446536, 16⟩), (18, ⟨140883429403467921, 15⟩), (20, ⟨187844572537957229, 16⟩), (31, ⟨782685718908155119, 16⟩), (33, ⟨-187844572537957229, 15⟩), (46, ⟨838591841687309056, 17⟩), (48, ⟨-782685718908155119, 16⟩), (50, ⟨939222862689786143, 16⟩), (66, ⟨-279530613895769685, 18⟩), (69, ⟨838591841687309056, 18⟩), (71, ⟨117402857836223268, 16⟩), (76, ⟨39134285945407756, 16⟩), (78, ⟨-469611431344893072, 16⟩), (80, ⟨-469611431344893072, 16⟩), (87, ⟨39134285945407756, 16⟩), (89, ⟨-117402857836223268, 15⟩), (91, ⟨234805715672446536, 15⟩), (93, ⟨313074287563262048, 16⟩), (102, ⟨838591841687309056, 18⟩), (104, ⟨-469611431344893072, 16⟩), (106, ⟨234805715672446536, 15⟩), (108, ⟨-187844572537957229, 15⟩), (121, ⟨-279530613895769685, 18⟩), (123, ⟨117402857836223268, 16⟩), (125, ⟨-469611431344893072, 16⟩), (127, ⟨313074287563262048, 16⟩)],
  [(0, ⟨-190955762544560929, 18⟩), (3, ⟨572867287633682787, 18⟩), (5, ⟨802014202687155901, 17⟩), (10, ⟨2673380675623853, 15⟩), (12, ⟨-320805681074862361, 16⟩), (14, ⟨-320805681074862361, 16⟩), (21, ⟨2673380675623853, 15⟩), (23, ⟨-802014202687155901, 16⟩), (25, ⟨16040284053743118, 14⟩), (27, ⟨21387045404990824, 15⟩), (36, ⟨572867287633682787, 18⟩), (38, ⟨-320805681074862361, 16⟩), (40, ⟨16040284053743118, 14⟩), (42, ⟨-128322272429944944, 15⟩), (55, ⟨-190955762544560929, 18⟩), (57, ⟨802014202687155901, 17⟩), (59, ⟨-320805681074862361, 16⟩), (61, ⟨21387045404990824, 15⟩), (68, ⟨-2673380675623853, 15⟩), (75, ⟨320805681074862361, 16⟩), (82, ⟨16040284053743118, 15⟩), (84, ⟨-320805681074862361, 16⟩), (86, ⟨-641611362149724721, 16⟩), (95, ⟨21387045404990824, 15⟩), (97, ⟨-16040284053743118, 14⟩), (99, ⟨128322272429944944, 15⟩), (101, ⟨244423376057037989, 16⟩), (112, ⟨802014202687155901, 17⟩), (114, ⟨-962417043224587082, 16⟩), (116, ⟨192483408644917416, 15⟩), (118, ⟨-733270128171113967, 16⟩)],
  [(2, ⟨-202088583643044288, 17⟩), (9, ⟨242506300371653145, 16⟩), (16, ⟨121253150185826573, 16⟩), (18, ⟨-242506300371653145, 16⟩), (20, ⟨-48501260074330629, 15⟩), (29, ⟨16167086691443543, 15⟩), (31, ⟨-121253150185826573, 15⟩), (33, ⟨970025201486612581, 16⟩), (35, ⟨184766705045069063, 16⟩), (46, ⟨606265750929132863, 17⟩), (48, ⟨-727518901114959435, 16⟩), (50, ⟨145503780222991887, 15⟩), (52, ⟨-554300115135207189, 16⟩), (66, ⟨25261072955380536, 17⟩), (69, ⟨757832188661416079, 18⟩), (71, ⟨-121253150185826573, 16⟩), (76, ⟨505221459107610719, 18⟩), (78, ⟨-242506300371653145, 16⟩), (80, ⟨606265750929132863, 16⟩), (87, ⟨-505221459107610719, 18⟩), (91, ⟨606265750929132863, 16⟩), (93, ⟨-64668346765774172, 15⟩), (102, ⟨-757832188661416079, 18⟩), (104, ⟨242506300371653145, 16⟩), (106, ⟨-606265750929132863, 16⟩), (110, ⟨138575028783801797, 16⟩), (121, ⟨-25261072955380536, 17⟩), (123, ⟨121253150185826573, 16⟩), (125, ⟨-606265750929132863, 16⟩), (127, ⟨64668346765774172, 15⟩), (129, ⟨-138575028783801797, 16⟩)],
  [(0, ⟨210184831878141177, 18⟩), (3, ⟨630554495634423532, 18⟩), (5, ⟨-100888719301507765, 16⟩), (10, ⟨420369663756282355, 18⟩), (12, ⟨-20177743860301553, 15⟩), (14, ⟨504443596507538826, 16⟩), (21, ⟨-420369663756282355, 18⟩), (25, ⟨504443596507538826, 16⟩), (27, ⟨-538073169608041414, 16⟩), (36, ⟨-630554495634423532, 18⟩), (38, ⟨20177743860301553, 15⟩), (40, ⟨-504443596507538826, 16⟩), (44, ⟨115301393487437446, 16⟩), (55, ⟨-210184831878141177, 18⟩), (57, ⟨100888719301507765, 16⟩), (59, ⟨-504443596507538826, 16⟩), (61, ⟨538073169608041414, 16⟩), (63, ⟨-115301393487437446, 16⟩), (68, ⟨252221798253769413, 17⟩), (73, ⟨100888719301507765, 16⟩), (75, ⟨-336295731005025884, 16⟩), (82, ⟨151333078952261648, 16⟩), (84, ⟨-100888719301507765, 15⟩), (86, ⟨807109754412062121, 16⟩), (95, ⟨100888719301507765, 16⟩), (97, ⟨-100888719301507765, 15⟩), (99, ⟨161421950882412424, 15⟩), (101, ⟨-461205573949749784, 16⟩), (112, ⟨252221798253769413, 17⟩), (114, ⟨-336295731005025884, 16⟩), (116, ⟨807109754412062121, 16⟩), (118, ⟨-461205573949749784, 16⟩), (120, ⟨512450637721944204, 17⟩)],
  [(2, ⟨230245947330177705, 17⟩), (7, ⟨920983789320710822, 17⟩), (9, ⟨-306994596440236941, 16⟩), (16, ⟨138147568398106623, 16⟩), (18, ⟨-920983789320710822, 16⟩), (20, ⟨736787031456568658, 16⟩), (29, ⟨920983789320710822, 17⟩), (31, ⟨-920983789320710822, 16⟩), (33, ⟨147357406291313732, 15⟩), (35, ⟨-421021160832324947, 16⟩), (46, ⟨230245947330177705, 17⟩), (48, ⟨-306994596440236941, 16⟩), (50, ⟨736787031456568658, 16⟩), (52, ⟨-421021160832324947, 16⟩), (54, ⟨467801289813694386, 17⟩), (66, ⟨-230245947330177705, 18⟩), (69, ⟨-115122973665088853, 17⟩), (71, ⟨115122973665088853, 16⟩), (76, ⟨-230245947330177705, 17⟩), (78, ⟨460491894660355411, 16⟩), (80, ⟨-613989192880473881, 16⟩), (87, ⟨-230245947330177705, 17⟩), (89, ⟨690737841990533116, 16⟩), (91, ⟨-184196757864142164, 15⟩), (93, ⟨736787031456568658, 16⟩), (102, ⟨-115122973665088853, 17⟩), (104, ⟨460491894660355411, 16⟩), (106, ⟨-184196757864142164, 15⟩), (108, ⟨147357406291313732, 15⟩), (110, ⟨-210510580416162474, 16⟩), (121, ⟨-230245947330177705, 18⟩), (123, ⟨115122973665088853, 16⟩), (125, ⟨-613989192880473881, 16⟩), (127, ⟨736787031456568658, 16⟩), (129, ⟨-210510580416162474, 16⟩), (131, ⟨935602579627388772, 18⟩)],
  [(0, ⟨-230245947330177705, 18⟩), (3, ⟨-115122973665088853, 17⟩), (5, ⟨115122973665088853, 16⟩), (10, ⟨-230245947330177705, 17⟩), (12, ⟨460491894660355411, 16⟩), (14, ⟨-613989192880473881, 16⟩), (21, ⟨-230245947330177705, 17⟩), (23, ⟨690737841990533116, 16⟩), (25, ⟨-184196757864142164, 15⟩), (27, ⟨736787031456568658, 16⟩), (36, ⟨-115122973665088853, 17⟩), (38, ⟨460491894660355411, 16⟩), (40, ⟨-184196757864142164, 15⟩), (42, ⟨147357406291313732, 15⟩), (44, ⟨-210510580416162474, 16⟩), (55, ⟨-230245947330177705, 18⟩), (57, ⟨115122973665088853, 16⟩), (59, ⟨-613989192880473881, 16⟩), (61, ⟨736787031456568658, 16⟩), (63, ⟨-210510580416162474, 16⟩), (65, ⟨935602579627388772, 18⟩), (68, ⟨-230245947330177705, 17⟩), (73, ⟨-920983789320710822, 17⟩), (75, ⟨306994596440236941, 16⟩), (82, ⟨-138147568398106623, 16⟩), (84, ⟨920983789320710822, 16⟩), (86, ⟨-736787031456568658, 16⟩), (95, ⟨-920983789320710822, 17⟩), (97, ⟨920983789320710822, 16⟩), (99, ⟨-147357406291313732, 15⟩), (101, ⟨421021160832324947, 16⟩), (112, ⟨-230245947330177705, 17⟩), (114, ⟨306994596440236941, 16⟩), (116, ⟨-736787031456568658, 16⟩), (118, ⟨421021160832324947, 16⟩), (120, ⟨-467801289813694386, 17⟩)],
  [(2, ⟨-252221798253769413, 17⟩), (7, ⟨-100888719301507765, 16⟩), (9, ⟨336295731005025884, 16⟩), (16, ⟨-151333078952261648, 16⟩), (18, ⟨100888719301507765, 15⟩), (20, ⟨-807109754412062121, 16⟩), (29, ⟨-100888719301507765, 16⟩), (31, ⟨100888719301507765, 15⟩), (33, ⟨-161421950882412424, 15⟩), (35, ⟨461205573949749784, 16⟩), (46, ⟨-252221798253769413, 17⟩), (48, ⟨336295731005025884, 16⟩), (50, ⟨-807109754412062121, 16⟩), (52, ⟨461205573949749784, 16⟩), (54, ⟨-512450637721944204, 17⟩), (66, ⟨210184831878141177, 18⟩), (69, ⟨630554495634423532, 18⟩), (71, ⟨-100888719301507765, 16⟩), (76, ⟨420369663756282355, 18⟩), (78, ⟨-20177743860301553, 15⟩), (80, ⟨504443596507538826, 16⟩), (87, ⟨-420369663756282355, 18⟩), (91, ⟨504443596507538826, 16⟩), (93, ⟨-538073169608041414, 16⟩), (102, ⟨-630554495634423532, 18⟩), (104, ⟨20177743860301553, 15⟩), (106, ⟨-504443596507538826, 16⟩), (110, ⟨115301393487437446, 16⟩), (121, ⟨-210184831878141177, 18⟩), (123, ⟨100888719301507765, 16⟩), (125, ⟨-504443596507538826, 16⟩), (127, ⟨538073169608041414, 16⟩), (129, ⟨-115301393487437446, 16⟩)],
  [(0, ⟨25261072955380536, 17⟩), (3, ⟨757832188661416079, 18⟩), (5, ⟨-121253150185826573, 16⟩), (10, ⟨505221459107610719, 18⟩), (12, ⟨-242506300371653145, 16⟩), (14, ⟨606265750929132863, 16⟩), (21, ⟨-505221459107610719, 18⟩), (25, ⟨606265750929132863, 16⟩), (27, ⟨-64668346765774172, 15⟩), (36, ⟨-757832188661416079, 18⟩), (38, ⟨242506300371653145, 16⟩), (40, ⟨-606265750929132863, 16⟩), (44, ⟨138575028783801797, 16⟩), (55, ⟨-25261072955380536, 17⟩), (57, ⟨121253150185826573, 16⟩), (59, ⟨-606265750929132863, 16⟩), (61, ⟨64668346765774172, 15⟩), (63, ⟨-138575028783801797, 16⟩), (68, ⟨202088583643044288, 17⟩), (75, ⟨-242506300371653145, 16⟩), (82, ⟨-121253150185826573, 16⟩), (84, ⟨242506300371653145, 16⟩), (86, ⟨48501260074330629, 15⟩), (95, ⟨-16167086691443543, 15⟩), (97, ⟨121253150185826573, 15⟩), (99, ⟨-970025201486612581, 16⟩), (101, ⟨-184766705045069063, 16⟩), (112, ⟨-606265750929132863, 17⟩), (114, ⟨727518901114959435, 16⟩), (116, ⟨-145503780222991887, 15⟩), (118, ⟨554300115135207189, 16⟩)],
  [(2, ⟨2673380675623853, 15⟩), (9, ⟨-320805681074862361, 16⟩), (16, ⟨-16040284053743118, 15⟩), (18, ⟨320805681074862361, 16⟩), (20, ⟨641611362149724721, 16⟩), (29, ⟨-21387045404990824, 15⟩), (31, ⟨16040284053743118, 14⟩), (33, ⟨-128322272429944944, 15⟩), (35, ⟨-244423376057037989, 16⟩), (46, ⟨-802014202687155901, 17⟩), (48, ⟨962417043224587082, 16⟩), (50, ⟨-192483408644917416, 15⟩), (52, ⟨733270128171113967, 16⟩), (66, ⟨-190955762544560929, 18⟩), (69, ⟨572867287633682787, 18⟩), (71, ⟨802014202687155901, 17⟩), (76, ⟨2673380675623853, 15⟩), (78, ⟨-320805681074862361, 16⟩), (80, ⟨-320805681074862361, 16⟩), (87, ⟨2673380675623853, 15⟩), (89, ⟨-802014202687155901, 16⟩), (91, ⟨16040284053743118, 14⟩), (93, ⟨21387045404990824, 15⟩), (102, ⟨572867287633682787, 18⟩), (104, ⟨-320805681074862361, 16⟩), (106, ⟨16040284053743118, 14⟩), (108, ⟨-128322272429944944, 15⟩), (121, ⟨-190955762544560929, 18⟩), (123, ⟨802014202687155901, 17⟩), (125, ⟨-320805681074862361, 16⟩), (127, ⟨21387045404990824, 15⟩)],
  [(0, ⟨-279530613895769685, 18⟩), (3, ⟨838591841687309056, 18⟩), (5, ⟨117402857836223268, 16⟩), (10, ⟨39134285945407756, 16⟩), (12, ⟨-469611431344893072, 16⟩), (14, ⟨-469611431344893072, 16⟩), (21, ⟨39134285945407756, 16⟩), (23, ⟨-117402857836223268, 15⟩), (25, ⟨234805715672446536, 15⟩), (27, ⟨313074287563262048, 16⟩), (36, ⟨838591841687309056, 18⟩), (38, ⟨-469611431344893072, 16⟩), (40, ⟨234805715672446536, 15⟩), (42, ⟨-187844572537957229, 15⟩), (55, ⟨-279530613895769685, 18⟩), (57, ⟨117402857836223268, 16⟩), (59, ⟨-469611431344893072, 16⟩), (61, ⟨313074287563262048, 16⟩), (68, ⟨-167718368337461811, 17⟩), (73, ⟨134174694669969449, 16⟩), (75, ⟨156537143781631024, 16⟩), (82, ⟨234805715672446536, 16⟩), (84, ⟨-140883429403467921, 15⟩), (86, ⟨-187844572537957229, 16⟩), (97, ⟨-782685718908155119, 16⟩), (99, ⟨187844572537957229, 15⟩), (112, ⟨-838591841687309056, 17⟩), (114, ⟨782685718908155119, 16⟩), (116, ⟨-939222862689786143, 16⟩)],
  [(2, ⟨-273882948612629102, 17⟩), (7, ⟨219106358890103282, 16⟩), (9, ⟨255624085371787162, 16⟩), (16, ⟨383436128057680743, 16⟩), (18, ⟨-230061676834608446, 15⟩), (20, ⟨-306748902446144595, 16⟩), (31, ⟨-127812042685893581, 15⟩), (33, ⟨306748902446144595, 15⟩), (46, ⟨-136941474306314551, 16⟩), (48, ⟨127812042685893581, 15⟩), (50, ⟨-153374451223072297, 15⟩), (66, ⟨171176842882893189, 18⟩), (69, ⟨-222529895747761146, 17⟩), (71, ⟨-547765897225258205, 17⟩), (76, ⟨-239647580036050465, 17⟩), (78, ⟨766872256115361487, 16⟩), (80, ⟨127812042685893581, 16⟩), (87, ⟨239647580036050465, 17⟩), (91, ⟨-191718064028840372, 15⟩), (102, ⟨222529895747761146, 17⟩), (104, ⟨-766872256115361487, 16⟩), (106, ⟨191718064028840372, 15⟩), (121, ⟨-171176842882893189, 18⟩), (123, ⟨547765897225258205, 17⟩), (125, ⟨-127812042685893581, 16⟩)],
  [(0, ⟨315634502603574665, 18⟩), (3, ⟨-410324853384647065, 17⟩), (5, ⟨-101003040833143893, 16⟩), (10, ⟨-441888303645004531, 17⟩), (12, ⟨14140425716640145, 14⟩), (14, ⟨235673761944002417, 16⟩), (21, ⟨441888303645004531, 17⟩), (25, ⟨-353510642916003625, 15⟩), (36, ⟨410324853384647065, 17⟩), (38, ⟨-14140425716640145, 14⟩), (40, ⟨353510642916003625, 15⟩), (55, ⟨-315634502603574665, 18⟩), (57, ⟨101003040833143893, 16⟩), (59, ⟨-235673761944002417, 16⟩), (68, ⟨126253801041429866, 17⟩), (73, ⟨-252507602082859732, 16⟩), (75, ⟨-673353605554292619, 17⟩), (82, ⟨176755321458001813, 16⟩), (84, ⟨14140425716640145, 14⟩), (95, ⟨353510642916003625, 16⟩), (97, ⟨-235673761944002417, 15⟩), (112, ⟨-883776607290009063, 17⟩), (114, ⟨471347523888004833, 16⟩)],
  [(2, ⟨267824756600916763, 17⟩), (7, ⟨-535649513201833526, 16⟩), (9, ⟨-142839870187155607, 16⟩), (16, ⟨374954659241283468, 16⟩), (18, ⟨299963727393026774, 15⟩), (29, ⟨749909318482566936, 16⟩), (31, ⟨-499939545655044624, 15⟩), (46, ⟨-187477329620641734, 16⟩), (48, ⟨999879091310089248, 16⟩), (66, ⟨-148791531444953757, 18⟩), (69, ⟨401737134901375144, 17⟩), (71, ⟨267824756600916763, 17⟩), (76, ⟨-62492443206880578, 16⟩), (78, ⟨-749909318482566936, 16⟩), (87, ⟨-62492443206880578, 16⟩), (89, ⟨187477329620641734, 15⟩), (102, ⟨401737134901375144, 17⟩), (104, ⟨-749909318482566936, 16⟩), (121, ⟨-148791531444953757, 18⟩), (123, ⟨267824756600916763, 17⟩)],
  [(0, ⟨-374450475926594148, 18⟩), (3, ⟨10110162850018042, 15⟩), (5, ⟨674010856667869467, 17⟩), (10, ⟨-157269199889169542, 16⟩), (12, ⟨-188723039867003451, 15⟩), (21, ⟨-157269199889169542, 16⟩), (23, ⟨471807599667508627, 15⟩), (36, ⟨10110162850018042, 15⟩), (38, ⟨-188723039867003451, 15⟩), (55, ⟨-374450475926594148, 18⟩), (57, ⟨674010856667869467, 17⟩), (68, ⟨-748900951853188297, 18⟩), (73, ⟨269604342667147787, 16⟩), (82, ⟨-943615199335017254, 16⟩), (95, ⟨629076799556678169, 16⟩), (112, ⟨-674010856667869467, 17⟩)],
  [(2, ⟨-236823274972417239, 17⟩), (7, ⟨852563789900702061, 16⟩), (16, ⟨-298397326465245721, 15⟩), (29, ⟨198931550976830481, 15⟩), (46, ⟨-213140947475175515, 16⟩), (66, ⟨11841163748620862, 17⟩), (69, ⟨-532852368687938788, 17⟩), (76, ⟨248664438721038101, 16⟩), (87, ⟨-248664438721038101, 16⟩), (102, ⟨532852368687938788, 17⟩), (121, ⟨-11841163748620862, 17⟩)],
  [(0, ⟨542630291944221461, 18⟩), (3, ⟨-244183631374899657, 16⟩), (10, ⟨113952361308286507, 15⟩), (21, ⟨-113952361308286507, 15⟩), (36, ⟨244183631374899657, 16⟩), (55, ⟨-542630291944221461, 18⟩)]]

/-- The part of g_trans_cart2jR (src/cart2sph.c:813-2172, PYPZPX not defined) for l = 11: for every row of
156 literals the nonzero ones with their column. -/
def cjRowsR11 : List (List (Nat × Dec)) := [
  [(0, ⟨-542630291944221461, 18⟩), (3, ⟨298446660569321803, 16⟩), (10, ⟨-179067996341593082, 15⟩), (21, ⟨250695194878230315, 15⟩), (36, ⟨-89533998170796541, 15⟩), (55, ⟨596893321138643607, 17⟩), (80, ⟨542630291944221461, 18⟩), (85, ⟨-244183631374899657, 16⟩), (94, ⟨113952361308286507, 15⟩), (107, ⟨-113952361308286507, 15⟩), (124, ⟨244183631374899657, 16⟩), (145, ⟨-542630291944221461, 18⟩)],
  [(2, ⟨-248664438721038101, 17⟩), (7, ⟨111898997424467146, 15⟩), (16, ⟨-522195321314180012, 15⟩), (29, ⟨522195321314180012, 15⟩), (46, ⟨-111898997424467146, 15⟩), (67, ⟨248664438721038101, 17⟩), (78, ⟨-11841163748620862, 17⟩), (81, ⟨414440731201730169, 17⟩), (83, ⟨236823274972417239, 17⟩), (88, ⟨-106570473737587758, 16⟩), (90, ⟨-852563789900702061, 16⟩), (99, ⟨-497328877442076202, 17⟩), (101, ⟨298397326465245721, 15⟩), (114, ⟨888087281146564647, 17⟩), (116, ⟨-198931550976830481, 15⟩), (133, ⟨-106570473737587758, 17⟩), (135, ⟨213140947475175515, 16⟩)],
  [(0, ⟨374450475926594148, 18⟩), (3, ⟨-131057666574307952, 16⟩), (5, ⟨-748900951853188297, 17⟩), (10, ⟨337005428333934733, 16⟩), (12, ⟨269604342667147787, 15⟩), (21, ⟨157269199889169542, 16⟩), (23, ⟨-943615199335017254, 15⟩), (36, ⟨-280837856944945611, 16⟩), (38, ⟨629076799556678169, 15⟩), (55, ⟨337005428333934733, 17⟩), (57, ⟨-674010856667869467, 16⟩), (80, ⟨-112335142777978244, 17⟩), (85, ⟨30330488550054126, 15⟩), (87, ⟨674010856667869467, 17⟩), (94, ⟨-471807599667508627, 16⟩), (96, ⟨-188723039867003451, 15⟩), (107, ⟨-471807599667508627, 16⟩), (109, ⟨471807599667508627, 15⟩), (124, ⟨30330488550054126, 15⟩), (126, ⟨-188723039867003451, 15⟩), (145, ⟨-112335142777978244, 17⟩), (147, ⟨674010856667869467, 17⟩)],
  [(2, ⟨282703909745412139, 17⟩), (7, ⟨-763300556312612774, 16⟩), (9, ⟨-169622345847247283, 16⟩), (16, ⟨118735642093073098, 15⟩), (18, ⟨474942568372292393, 15⟩), (29, ⟨118735642093073098, 15⟩), (31, ⟨-118735642093073098, 14⟩), (46, ⟨-763300556312612774, 16⟩), (48, ⟨474942568372292393, 15⟩), (67, ⟨282703909745412139, 17⟩), (69, ⟨-169622345847247283, 16⟩), (78, ⟨148791531444953757, 18⟩), (81, ⟨-282703909745412139, 17⟩), (83, ⟨-535649513201833526, 17⟩), (88, ⟨-892749188669722543, 18⟩), (90, ⟨107129902640366705, 15⟩), (92, ⟨142839870187155607, 16⟩), (99, ⟨62492443206880578, 16⟩), (101, ⟨-749909318482566936, 16⟩), (103, ⟨-299963727393026774, 15⟩), (114, ⟨31246221603440289, 16⟩), (116, ⟨-149981863696513387, 15⟩), (118, ⟨499939545655044624, 15⟩), (133, ⟨-10415407201146763, 16⟩), (135, ⟨374954659241283468, 16⟩), (137, ⟨-999879091310089248, 16⟩)],
  [(0, ⟨-315634502603574665, 18⟩), (3, ⟨599705554946791864, 17⟩), (5, ⟨113628420937286879, 16⟩), (10, ⟨189380701562144799, 17⟩), (12, ⟨-227256841874573759, 15⟩), (14, ⟨-303009122499431679, 16⟩), (21, ⟨-132566491093501359, 16⟩), (23, ⟨159079789312201631, 15⟩), (25, ⟨636319157248806525, 15⟩), (36, ⟨-662832455467506797, 17⟩), (38, ⟨318159578624403263, 15⟩), (40, ⟨-106053192874801088, 14⟩), (55, ⟨220944151822502266, 17⟩), (57, ⟨-795398946561008156, 16⟩), (59, ⟨212106385749602175, 15⟩), (80, ⟨157817251301787333, 17⟩), (85, ⟨-205162426692323532, 16⟩), (87, ⟨-168338401388573155, 16⟩), (94, ⟨-220944151822502266, 16⟩), (96, ⟨235673761944002417, 15⟩), (98, ⟨235673761944002417, 16⟩), (107, ⟨220944151822502266, 16⟩), (111, ⟨-353510642916003625, 15⟩), (124, ⟨205162426692323532, 16⟩), (126, ⟨-235673761944002417, 15⟩), (128, ⟨353510642916003625, 15⟩), (145, ⟨-157817251301787333, 17⟩), (147, ⟨168338401388573155, 16⟩), (149, ⟨-235673761944002417, 16⟩)],
  [(2, ⟨-291000632900918421, 17⟩), (7, ⟨378300822771193948, 16⟩), (9, ⟨310400675094312983, 16⟩), (16, ⟨40740088606128579, 15⟩), (18, ⟨-434560945132038176, 15⟩), (20, ⟨-434560945132038176, 16⟩), (29, ⟨-40740088606128579, 15⟩), (33, ⟨651841417698057264, 15⟩), (46, ⟨-378300822771193948, 16⟩), (48, ⟨434560945132038176, 15⟩), (50, ⟨-651841417698057264, 15⟩), (67, ⟨291000632900918421, 17⟩), (69, ⟨-310400675094312983, 16⟩), (71, ⟨434560945132038176, 16⟩), (78, ⟨-171176842882893189, 18⟩), (81, ⟨119823790018025232, 17⟩), (83, ⟨821648845837887307, 17⟩), (88, ⟨376589054342365016, 17⟩), (90, ⟨-657319076670309846, 16⟩), (92, ⟨-383436128057680743, 16⟩), (99, ⟨239647580036050465, 17⟩), (101, ⟨-115030838417304223, 15⟩), (103, ⟨345092515251912669, 15⟩), (105, ⟨306748902446144595, 16⟩), (114, ⟨-855884214414465945, 18⟩), (118, ⟨191718064028840372, 15⟩), (120, ⟨-306748902446144595, 15⟩), (133, ⟨-855884214414465945, 18⟩), (135, ⟨410824422918943654, 16⟩), (137, ⟨-191718064028840372, 15⟩), (139, ⟨153374451223072297, 15⟩)],
  [(0, ⟨279530613895769685, 18⟩), (3, ⟨-19567142972703878, 16⟩), (5, ⟨-134174694669969449, 16⟩), (10, ⟨-614967350570693308, 17⟩), (12, ⟨107339755735975559, 15⟩), (14, ⟨626148575126524095, 16⟩), (21, ⟨-39134285945407756, 16⟩), (23, ⟨187844572537957229, 15⟩), (25, ⟨-563533717613871686, 15⟩), (27, ⟨-500918860101219276, 16⟩), (36, ⟨139765306947884843, 17⟩), (40, ⟨-313074287563262048, 15⟩), (42, ⟨500918860101219276, 15⟩), (55, ⟨139765306947884843, 17⟩), (57, ⟨-670873473349847245, 16⟩), (59, ⟨313074287563262048, 15⟩), (61, ⟨-250459430050609638, 15⟩), (80, ⟨-19567142972703878, 16⟩), (85, ⟨587014289181116339, 17⟩), (87, ⟨273940001617854292, 16⟩), (94, ⟨273940001617854292, 16⟩), (96, ⟨-109576000647141717, 15⟩), (98, ⟨-6574560038828503, 14⟩), (107, ⟨273940001617854292, 16⟩), (109, ⟨-273940001617854292, 15⟩), (111, ⟨32872800194142515, 14⟩), (113, ⟨313074287563262048, 16⟩), (124, ⟨587014289181116339, 17⟩), (126, ⟨-109576000647141717, 15⟩), (128, ⟨32872800194142515, 14⟩), (130, ⟨-187844572537957229, 15⟩), (145, ⟨-19567142972703878, 16⟩), (147, ⟨273940001617854292, 16⟩), (149, ⟨-6574560038828503, 14⟩), (151, ⟨313074287563262048, 16⟩)],
  [(2, ⟨286433643816841393, 17⟩), (7, ⟨-85930093145052418, 16⟩), (9, ⟨-401007101343577951, 16⟩), (16, ⟨-401007101343577951, 16⟩), (18, ⟨16040284053743118, 14⟩), (20, ⟨962417043224587082, 16⟩), (29, ⟨-401007101343577951, 16⟩), (31, ⟨401007101343577951, 15⟩), (33, ⟨-481208521612293541, 15⟩), (35, ⟨-458293830106946229, 16⟩), (46, ⟨-85930093145052418, 16⟩), (48, ⟨16040284053743118, 14⟩), (50, ⟨-481208521612293541, 15⟩), (52, ⟨274976298064167738, 15⟩), (67, ⟨286433643816841393, 17⟩), (69, ⟨-401007101343577951, 16⟩), (71, ⟨962417043224587082, 16⟩), (73, ⟨-458293830106946229, 16⟩), (78, ⟨190955762544560929, 18⟩), (81, ⟨190955762544560929, 18⟩), (83, ⟨-10693522702495412, 15⟩), (88, ⟨-114573457526736557, 17⟩), (92, ⟨641611362149724721, 16⟩), (99, ⟨-2673380675623853, 15⟩), (101, ⟨641611362149724721, 16⟩), (103, ⟨-641611362149724721, 16⟩), (105, ⟨-855481816199632961, 16⟩), (114, ⟨-210051338799017022, 17⟩), (116, ⟨855481816199632961, 16⟩), (118, ⟨-320805681074862361, 15⟩), (120, ⟨171096363239926592, 15⟩), (122, ⟨244423376057037989, 16⟩), (133, ⟨-572867287633682787, 18⟩), (135, ⟨320805681074862361, 16⟩), (137, ⟨-192483408644917416, 15⟩), (139, ⟨256644544859889888, 15⟩), (141, ⟨-733270128171113967, 16⟩)],
  [(0, ⟨-25261072955380536, 17⟩), (3, ⟨-25261072955380536, 17⟩), (5, ⟨141462008550131001, 16⟩), (10, ⟨151566437732283216, 17⟩), (14, ⟨-848772051300786008, 16⟩), (21, ⟨353655021375327503, 17⟩), (23, ⟨-848772051300786008, 16⟩), (25, ⟨848772051300786008, 16⟩), (27, ⟨113169606840104801, 15⟩), (36, ⟨277871802509185895, 17⟩), (38, ⟨-113169606840104801, 15⟩), (40, ⟨424386025650393004, 15⟩), (42, ⟨-226339213680209602, 15⟩), (44, ⟨-32334173382887086, 15⟩), (55, ⟨757832188661416079, 18⟩), (57, ⟨-424386025650393004, 16⟩), (59, ⟨254631615390235802, 15⟩), (61, ⟨-339508820520314403, 15⟩), (63, ⟨970025201486612581, 16⟩), (80, ⟨227349656598424824, 17⟩), (85, ⟨682048969795274471, 17⟩), (87, ⟨-363759450557479718, 16⟩), (94, ⟨454699313196849647, 17⟩), (96, ⟨-727518901114959435, 16⟩), (98, ⟨109127835167243915, 15⟩), (107, ⟨-454699313196849647, 17⟩), (111, ⟨109127835167243915, 15⟩), (113, ⟨-831450172702810783, 16⟩), (124, ⟨-682048969795274471, 17⟩), (126, ⟨727518901114959435, 16⟩), (128, ⟨-109127835167243915, 15⟩), (132, ⟨138575028783801797, 16⟩), (145, ⟨-227349656598424824, 17⟩), (147, ⟨363759450557479718, 16⟩), (149, ⟨-109127835167243915, 15⟩), (151, ⟨831450172702810783, 16⟩), (153, ⟨-138575028783801797, 16⟩)],
  [(2, ⟨-273240281441583531, 17⟩), (7, ⟨-819720844324750592, 17⟩), (9, ⟨437184450306533649, 16⟩), (16, ⟨-546480562883167061, 17⟩), (18, ⟨874368900613067298, 16⟩), (20, ⟨-131155335091960095, 15⟩), (29, ⟨546480562883167061, 17⟩), (33, ⟨-131155335091960095, 15⟩), (35, ⟨999278743557791198, 16⟩), (46, ⟨819720844324750592, 17⟩), (48, ⟨-874368900613067298, 16⟩), (50, ⟨131155335091960095, 15⟩), (54, ⟨-166546457259631866, 16⟩), (67, ⟨273240281441583531, 17⟩), (69, ⟨-437184450306533649, 16⟩), (71, ⟨131155335091960095, 15⟩), (73, ⟨-999278743557791198, 16⟩), (75, ⟨166546457259631866, 16⟩), (78, ⟨-210184831878141177, 18⟩), (81, ⟨-105092415939070589, 17⟩), (83, ⟨126110899126884706, 16⟩), (88, ⟨-210184831878141177, 17⟩), (90, ⟨504443596507538826, 16⟩), (92, ⟨-84073932751256471, 15⟩), (99, ⟨-210184831878141177, 17⟩), (101, ⟨756665394761308239, 16⟩), (103, ⟨-252221798253769413, 15⟩), (105, ⟨134518292402010354, 15⟩), (114, ⟨-105092415939070589, 17⟩), (116, ⟨504443596507538826, 16⟩), (118, ⟨-252221798253769413, 15⟩), (120, ⟨269036584804020707, 15⟩), (122, ⟨-57650696743718723, 15⟩), (133, ⟨-210184831878141177, 18⟩), (135, ⟨126110899126884706, 16⟩), (137, ⟨-84073932751256471, 15⟩), (139, ⟨134518292402010354, 15⟩), (141, ⟨-57650696743718723, 15⟩), (143, ⟨512450637721944204, 17⟩)],
  [(0, ⟨230245947330177705, 18⟩), (3, ⟨115122973665088853, 17⟩), (5, ⟨-138147568398106623, 16⟩), (10, ⟨230245947330177705, 17⟩), (12, ⟨-552590273592426493, 16⟩), (14, ⟨920983789320710822, 16⟩), (21, ⟨230245947330177705, 17⟩), (23, ⟨-82888541038863974, 15⟩), (25, ⟨276295136796213247, 15⟩), (27, ⟨-147357406291313732, 15⟩), (36, ⟨115122973665088853, 17⟩), (38, ⟨-552590273592426493, 16⟩), (40, ⟨276295136796213247, 15⟩), (42, ⟨-294714812582627463, 15⟩), (44, ⟨631531741248487421, 16⟩), (55, ⟨230245947330177705, 18⟩), (57, ⟨-138147568398106623, 16⟩), (59, ⟨920983789320710822, 16⟩), (61, ⟨-147357406291313732, 15⟩), (63, ⟨631531741248487421, 16⟩), (65, ⟨-561361547776433263, 17⟩), (80, ⟨-253270542063195476, 17⟩), (85, ⟨-126635271031597738, 16⟩), (87, ⟨422117570105325793, 16⟩), (94, ⟨-253270542063195476, 16⟩), (96, ⟨168847028042130317, 15⟩), (98, ⟨-135077622433704254, 15⟩), (107, ⟨-253270542063195476, 16⟩), (109, ⟨253270542063195476, 15⟩), (111, ⟨-405232867301112762, 15⟩), (113, ⟨11578081922888936, 14⟩), (124, ⟨-126635271031597738, 16⟩), (126, ⟨168847028042130317, 15⟩), (128, ⟨-405232867301112762, 15⟩), (130, ⟨231561638457778721, 15⟩), (132, ⟨-257290709397531912, 16⟩), (145, ⟨-253270542063195476, 17⟩), (147, ⟨422117570105325793, 16⟩), (149, ⟨-135077622433704254, 15⟩), (151, ⟨11578081922888936, 14⟩), (153, ⟨-257290709397531912, 16⟩), (155, ⟨935602579627388772, 18⟩)],
  [(2, ⟨253270542063195476, 17⟩), (7, ⟨126635271031597738, 16⟩), (9, ⟨-422117570105325793, 16⟩), (16, ⟨253270542063195476, 16⟩), (18, ⟨-168847028042130317, 15⟩), (20, ⟨135077622433704254, 15⟩), (29, ⟨253270542063195476, 16⟩), (31, ⟨-253270542063195476, 15⟩), (33, ⟨405232867301112762, 15⟩), (35, ⟨-11578081922888936, 14⟩), (46, ⟨126635271031597738, 16⟩), (48, ⟨-168847028042130317, 15⟩), (50, ⟨405232867301112762, 15⟩), (52, ⟨-231561638457778721, 15⟩), (54, ⟨257290709397531912, 16⟩), (67, ⟨253270542063195476, 17⟩), (69, ⟨-422117570105325793, 16⟩), (71, ⟨135077622433704254, 15⟩), (73, ⟨-11578081922888936, 14⟩), (75, ⟨257290709397531912, 16⟩), (77, ⟨-935602579627388772, 18⟩), (78, ⟨230245947330177705, 18⟩), (81, ⟨115122973665088853, 17⟩), (83, ⟨-138147568398106623, 16⟩), (88, ⟨230245947330177705, 17⟩), (90, ⟨-552590273592426493, 16⟩), (92, ⟨920983789320710822, 16⟩), (99, ⟨230245947330177705, 17⟩), (101, ⟨-82888541038863974, 15⟩), (103, ⟨276295136796213247, 15⟩), (105, ⟨-147357406291313732, 15⟩), (114, ⟨115122973665088853, 17⟩), (116, ⟨-552590273592426493, 16⟩), (118, ⟨276295136796213247, 15⟩), (120, ⟨-294714812582627463, 15⟩), (122, ⟨631531741248487421, 16⟩), (133, ⟨230245947330177705, 18⟩), (135, ⟨-138147568398106623, 16⟩), (137, ⟨920983789320710822, 16⟩), (139, ⟨-147357406291313732, 15⟩), (141, ⟨631531741248487421, 16⟩), (143, ⟨-561361547776433263, 17⟩)],
  [(0, ⟨-210184831878141177, 18⟩), (3, ⟨-105092415939070589, 17⟩), (5, ⟨126110899126884706, 16⟩), (10, ⟨-210184831878141177, 17⟩), (12, ⟨504443596507538826, 16⟩), (14, ⟨-84073932751256471, 15⟩), (21, ⟨-210184831878141177, 17⟩), (23, ⟨756665394761308239, 16⟩), (25, ⟨-252221798253769413, 15⟩), (27, ⟨134518292402010354, 15⟩), (36, ⟨-105092415939070589, 17⟩), (38, ⟨504443596507538826, 16⟩), (40, ⟨-252221798253769413, 15⟩), (42, ⟨269036584804020707, 15⟩), (44, ⟨-57650696743718723, 15⟩), (55, ⟨-210184831878141177, 18⟩), (57, ⟨126110899126884706, 16⟩), (59, ⟨-84073932751256471, 15⟩), (61, ⟨134518292402010354, 15⟩), (63, ⟨-57650696743718723, 15⟩), (65, ⟨512450637721944204, 17⟩), (80, ⟨273240281441583531, 17⟩), (85, ⟨819720844324750592, 17⟩), (87, ⟨-437184450306533649, 16⟩), (94, ⟨546480562883167061, 17⟩), (96, ⟨-874368900613067298, 16⟩), (98, ⟨131155335091960095, 15⟩), (107, ⟨-546480562883167061, 17⟩), (111, ⟨131155335091960095, 15⟩), (113, ⟨-999278743557791198, 16⟩), (124, ⟨-819720844324750592, 17⟩), (126, ⟨874368900613067298, 16⟩), (128, ⟨-131155335091960095, 15⟩), (132, ⟨166546457259631866, 16⟩), (145, ⟨-273240281441583531, 17⟩), (147, ⟨437184450306533649, 16⟩), (149, ⟨-131155335091960095, 15⟩), (151, ⟨999278743557791198, 16⟩), (153, ⟨-166546457259631866, 16⟩)],
  [(2, ⟨-227349656598424824, 17⟩), (7, ⟨-682048969795274471, 17⟩), (9, ⟨363759450557479718, 16⟩), (16, ⟨-454699313196849647, 17⟩), (18, ⟨727518901114959435, 16⟩), (20, ⟨-109127835167243915, 15⟩), (29, ⟨454699313196849647, 17⟩), (33, ⟨-109127835167243915, 15⟩), (35, ⟨831450172702810783, 16⟩), (46, ⟨682048969795274471, 17⟩), (48, ⟨-727518901114959435, 16⟩), (50, ⟨109127835167243915, 15⟩), (54, ⟨-138575028783801797, 16⟩), (67, ⟨227349656598424824, 17⟩), (69, ⟨-363759450557479718, 16⟩), (71, ⟨109127835167243915, 15⟩), (73, ⟨-831450172702810783, 16⟩), (75, ⟨138575028783801797, 16⟩), (78, ⟨-25261072955380536, 17⟩), (81, ⟨-25261072955380536, 17⟩), (83, ⟨141462008550131001, 16⟩), (88, ⟨151566437732283216, 17⟩), (92, ⟨-848772051300786008, 16⟩), (99, ⟨353655021375327503, 17⟩), (101, ⟨-848772051300786008, 16⟩), (103, ⟨848772051300786008, 16⟩), (105, ⟨113169606840104801, 15⟩), (114, ⟨277871802509185895, 17⟩), (116, ⟨-113169606840104801, 15⟩), (118, ⟨424386025650393004, 15⟩), (120, ⟨-226339213680209602, 15⟩), (122, ⟨-32334173382887086, 15⟩), (133, ⟨757832188661416079, 18⟩), (135, ⟨-424386025650393004, 16⟩), (137, ⟨254631615390235802, 15⟩), (139, ⟨-339508820520314403, 15⟩), (141, ⟨970025201486612581, 16⟩)],
  [(0, ⟨190955762544560929, 18⟩), (3, ⟨190955762544560929, 18⟩), (5, ⟨-10693522702495412, 15⟩), (10, ⟨-114573457526736557, 17⟩), (14, ⟨641611362149724721, 16⟩), (21, ⟨-2673380675623853, 15⟩), (23, ⟨641611362149724721, 16⟩), (25, ⟨-641611362149724721, 16⟩), (27, ⟨-855481816199632961, 16⟩), (36, ⟨-210051338799017022, 17⟩), (38, ⟨855481816199632961, 16⟩), (40, ⟨-320805681074862361, 15⟩), (42, ⟨171096363239926592, 15⟩), (44, ⟨244423376057037989, 16⟩), (55, ⟨-572867287633682787, 18⟩), (57, ⟨320805681074862361, 16⟩), (59, ⟨-192483408644917416, 15⟩), (61, ⟨256644544859889888, 15⟩), (63, ⟨-733270128171113967, 16⟩), (80, ⟨-286433643816841393, 17⟩), (85, ⟨85930093145052418, 16⟩), (87, ⟨401007101343577951, 16⟩), (94, ⟨401007101343577951, 16⟩), (96, ⟨-16040284053743118, 14⟩), (98, ⟨-962417043224587082, 16⟩), (107, ⟨401007101343577951, 16⟩), (109, ⟨-401007101343577951, 15⟩), (111, ⟨481208521612293541, 15⟩), (113, ⟨458293830106946229, 16⟩), (124, ⟨85930093145052418, 16⟩), (126, ⟨-16040284053743118, 14⟩), (128, ⟨481208521612293541, 15⟩), (130, ⟨-274976298064167738, 15⟩), (145, ⟨-286433643816841393, 17⟩), (147, ⟨401007101343577951, 16⟩), (149, ⟨-962417043224587082, 16⟩), (151, ⟨458293830106946229, 16⟩)],
  [(2, ⟨19567142972703878, 16⟩), (7, ⟨-587014289181116339, 17⟩), (9, ⟨-273940001617854292, 16⟩), (16, ⟨-273940001617854292, 16⟩), (18, ⟨109576000647141717, 15⟩), (20, ⟨6574560038828503, 14⟩), (29, ⟨-273940001617854292, 16⟩), (31, ⟨273940001617854292, 15⟩), (33, ⟨-32872800194142515, 14⟩), (35, ⟨-313074287563262048, 16⟩), (46, ⟨-587014289181116339, 17⟩), (48, ⟨109576000647141717, 15⟩), (50, ⟨-32872800194142515, 14⟩), (52, ⟨187844572537957229, 15⟩), (67, ⟨19567142972703878, 16⟩), (69, ⟨-273940001617854292, 16⟩), (71, ⟨6574560038828503, 14⟩), (73, ⟨-313074287563262048, 16⟩), (78, ⟨279530613895769685, 18⟩), (81, ⟨-19567142972703878, 16⟩), (83, ⟨-134174694669969449, 16⟩), (88, ⟨-614967350570693308, 17⟩), (90, ⟨107339755735975559, 15⟩), (92, ⟨626148575126524095, 16⟩), (99, ⟨-39134285945407756, 16⟩), (101, ⟨187844572537957229, 15⟩), (103, ⟨-563533717613871686, 15⟩), (105, ⟨-500918860101219276, 16⟩), (114, ⟨139765306947884843, 17⟩), (118, ⟨-313074287563262048, 15⟩), (120, ⟨500918860101219276, 15⟩), (133, ⟨139765306947884843, 17⟩), (135, ⟨-670873473349847245, 16⟩), (137, ⟨313074287563262048, 15⟩), (139, ⟨-250459430050609638, 15⟩)],
  [(0, ⟨-171176842882893189, 18⟩), (3, ⟨119823790018025232, 17⟩), (5, ⟨821648845837887307, 17⟩), (10, ⟨376589054342365016, 17⟩), (12, ⟨-657319076670309846, 16⟩), (14, ⟨-383436128057680743, 16⟩), (21, ⟨239647580036050465, 17⟩), (23, ⟨-115030838417304223, 15⟩), (25, ⟨345092515251912669, 15⟩), (27, ⟨306748902446144595, 16⟩), (36, ⟨-855884214414465945, 18⟩), (40, ⟨191718064028840372, 15⟩), (42, ⟨-306748902446144595, 15⟩), (55, ⟨-855884214414465945, 18⟩), (57, ⟨410824422918943654, 16⟩), (59, ⟨-191718064028840372, 15⟩), (61, ⟨153374451223072297, 15⟩), (80, ⟨291000632900918421, 17⟩), (85, ⟨-378300822771193948, 16⟩), (87, ⟨-310400675094312983, 16⟩), (94, ⟨-40740088606128579, 15⟩), (96, ⟨434560945132038176, 15⟩), (98, ⟨434560945132038176, 16⟩), (107, ⟨40740088606128579, 15⟩), (111, ⟨-651841417698057264, 15⟩), (124, ⟨378300822771193948, 16⟩), (126, ⟨-434560945132038176, 15⟩), (128, ⟨651841417698057264, 15⟩), (145, ⟨-291000632900918421, 17⟩), (147, ⟨310400675094312983, 16⟩), (149, ⟨-434560945132038176, 16⟩)],
  [(2, ⟨-157817251301787333, 17⟩), (7, ⟨205162426692323532, 16⟩), (9, ⟨168338401388573155, 16⟩), (16, ⟨220944151822502266, 16⟩), (18, ⟨-235673761944002417, 15⟩), (20, ⟨-235673761944002417, 16⟩), (29, ⟨-220944151822502266, 16⟩), (33, ⟨353510642916003625, 15⟩), (46, ⟨-205162426692323532, 16⟩), (48, ⟨235673761944002417, 15⟩), (50, ⟨-353510642916003625, 15⟩), (67, ⟨157817251301787333, 17⟩), (69, ⟨-168338401388573155, 16⟩), (71, ⟨235673761944002417, 16⟩), (78, ⟨-315634502603574665, 18⟩), (81, ⟨599705554946791864, 17⟩), (83, ⟨113628420937286879, 16⟩), (88, ⟨189380701562144799, 17⟩), (90, ⟨-227256841874573759, 15⟩), (92, ⟨-303009122499431679, 16⟩), (99, ⟨-132566491093501359, 16⟩), (101, ⟨159079789312201631, 15⟩), (103, ⟨636319157248806525, 15⟩), (114, ⟨-662832455467506797, 17⟩), (116, ⟨318159578624403263, 15⟩), (118, ⟨-106053192874801088, 14⟩), (133, ⟨220944151822502266, 17⟩), (135, ⟨-795398946561008156, 16⟩), (137, ⟨212106385749602175, 15⟩)],
  [(0, ⟨148791531444953757, 18⟩), (3, ⟨-282703909745412139, 17⟩), (5, ⟨-535649513201833526, 17⟩), (10, ⟨-892749188669722543, 18⟩), (12, ⟨107129902640366705, 15⟩), (14, ⟨142839870187155607, 16⟩), (21, ⟨62492443206880578, 16⟩), (23, ⟨-749909318482566936, 16⟩), (25, ⟨-299963727393026774, 15⟩), (36, ⟨31246221603440289, 16⟩), (38, ⟨-149981863696513387, 15⟩), (40, ⟨499939545655044624, 15⟩), (55, ⟨-10415407201146763, 16⟩), (57, ⟨374954659241283468, 16⟩), (59, ⟨-999879091310089248, 16⟩), (80, ⟨-282703909745412139, 17⟩), (85, ⟨763300556312612774, 16⟩), (87, ⟨169622345847247283, 16⟩), (94, ⟨-118735642093073098, 15⟩), (96, ⟨-474942568372292393, 15⟩), (107, ⟨-118735642093073098, 15⟩), (109, ⟨118735642093073098, 14⟩), (124, ⟨763300556312612774, 16⟩), (126, ⟨-474942568372292393, 15⟩), (145, ⟨-282703909745412139, 17⟩), (147, ⟨169622345847247283, 16⟩)],
  [(2, ⟨112335142777978244, 17⟩), (7, ⟨-30330488550054126, 15⟩), (9, ⟨-674010856667869467, 17⟩), (16, ⟨471807599667508627, 16⟩), (18, ⟨188723039867003451, 15⟩), (29, ⟨471807599667508627, 16⟩), (31, ⟨-471807599667508627, 15⟩), (46, ⟨-30330488550054126, 15⟩), (48, ⟨188723039867003451, 15⟩), (67, ⟨112335142777978244, 17⟩), (69, ⟨-674010856667869467, 17⟩), (78, ⟨374450475926594148, 18⟩), (81, ⟨-131057666574307952, 16⟩), (83, ⟨-748900951853188297, 17⟩), (88, ⟨337005428333934733, 16⟩), (90, ⟨269604342667147787, 15⟩), (99, ⟨157269199889169542, 16⟩), (101, ⟨-943615199335017254, 15⟩), (114, ⟨-280837856944945611, 16⟩), (116, ⟨629076799556678169, 15⟩), (133, ⟨337005428333934733, 17⟩), (135, ⟨-674010856667869467, 16⟩)],
  [(0, ⟨-11841163748620862, 17⟩), (3, ⟨414440731201730169, 17⟩), (5, ⟨236823274972417239, 17⟩), (10, ⟨-106570473737587758, 16⟩), (12, ⟨-852563789900702061, 16⟩), (21, ⟨-497328877442076202, 17⟩), (23, ⟨298397326465245721, 15⟩), (36, ⟨888087281146564647, 17⟩), (38, ⟨-198931550976830481, 15⟩), (55, ⟨-106570473737587758, 17⟩), (57, ⟨213140947475175515, 16⟩), (80, ⟨248664438721038101, 17⟩), (85, ⟨-111898997424467146, 15⟩), (94, ⟨522195321314180012, 15⟩), (107, ⟨-522195321314180012, 15⟩), (124, ⟨111898997424467146, 15⟩), (145, ⟨-248664438721038101, 17⟩)],
  [(2, ⟨-542630291944221461, 18⟩), (7, ⟨244183631374899657, 16⟩), (16, ⟨-113952361308286507, 15⟩), (29, ⟨113952361308286507, 15⟩), (46, ⟨-244183631374899657, 16⟩), (67, ⟨542630291944221461, 18⟩), (78, ⟨-542630291944221461, 18⟩), (81, ⟨298446660569321803, 16⟩), (88, ⟨-179067996341593082, 15⟩), (99, ⟨250695194878230315, 15⟩), (114, ⟨-89533998170796541, 15⟩), (133, ⟨596893321138643607, 17⟩)],
  [(78, ⟨554825753806619302, 18⟩), (81, ⟨-305154164593640616, 16⟩), (88, ⟨18309249875618437, 14⟩), (99, ⟨-256329498258658117, 15⟩), (114, ⟨915462493780921848, 16⟩), (133, ⟨-610308329187281232, 17⟩)],
  [(0, ⟨115689166958762041, 18⟩), (3, ⟨-636290418273191227, 17⟩), (10, ⟨381774250963914736, 16⟩), (21, ⟨-534483951349480631, 16⟩), (36, ⟨190887125481957368, 16⟩), (55, ⟨-127258083654638245, 17⟩), (80, ⟨254516167309276491, 17⟩), (85, ⟨-114532275289174421, 15⟩), (94, ⟨534483951349480631, 15⟩), (107, ⟨-534483951349480631, 15⟩), (124, ⟨114532275289174421, 15⟩), (145, ⟨-254516167309276491, 17⟩)],
  [(2, ⟨767395118221990013, 18⟩), (7, ⟨-345327803199895506, 16⟩), (16, ⟨161152974826617903, 15⟩), (29, ⟨-161152974826617903, 15⟩), (46, ⟨345327803199895506, 16⟩), (67, ⟨-767395118221990013, 18⟩), (78, ⟨-383697559110995006, 18⟩), (81, ⟨134294145688848252, 16⟩), (83, ⟨767395118221990013, 17⟩), (88, ⟨-345327803199895506, 16⟩), (90, ⟨-276262242559916405, 15⟩), (99, ⟨-161152974826617903, 16⟩), (101, ⟨966917848959707416, 15⟩), (114, ⟨287773169333246255, 16⟩), (116, ⟨-644611899306471611, 15⟩), (133, ⟨-345327803199895506, 17⟩), (135, ⟨690655606399791011, 16⟩)],
  [(0, ⟨-145024045724314041, 18⟩), (3, ⟨507584160035099142, 17⟩), (5, ⟨290048091448628081, 17⟩), (10, ⟨-130521641151882637, 16⟩), (12, ⟨-104417312921506109, 15⟩), (21, ⟨-609100992042118971, 17⟩), (23, ⟨365460595225271382, 15⟩), (36, ⟨10876803429323553, 15⟩), (38, ⟨-243640396816847588, 15⟩), (55, ⟨-130521641151882637, 17⟩), (57, ⟨261043282303765273, 16⟩), (80, ⟨-290048091448628081, 17⟩), (85, ⟨783129846911295819, 16⟩), (87, ⟨174028854869176849, 16⟩), (94, ⟨-121820198408423794, 15⟩), (96, ⟨-487280793633695176, 15⟩), (107, ⟨-121820198408423794, 15⟩), (109, ⟨121820198408423794, 14⟩), (124, ⟨783129846911295819, 16⟩), (126, ⟨-487280793633695176, 15⟩), (145, ⟨-290048091448628081, 17⟩), (147, ⟨174028854869176849, 16⟩)],
  [(2, ⟨-129713449844641568, 17⟩), (7, ⟨350226314580532234, 16⟩), (9, ⟨778280699067849409, 17⟩), (16, ⟨-544796489347494586, 16⟩), (18, ⟨-217918595738997834, 15⟩), (29, ⟨-544796489347494586, 16⟩), (31, ⟨544796489347494586, 15⟩), (46, ⟨350226314580532234, 16⟩), (48, ⟨-217918595738997834, 15⟩), (67, ⟨-129713449844641568, 17⟩), (69, ⟨778280699067849409, 17⟩), (78, ⟨32428362461160392, 17⟩), (81, ⟨-616138886762047449, 17⟩), (83, ⟨-116742104860177411, 16⟩), (88, ⟨-194570174766962352, 17⟩), (90, ⟨233484209720354823, 15⟩), (92, ⟨311312279627139763, 16⟩), (99, ⟨136199122336873647, 16⟩), (101, ⟨-163438946804248376, 15⟩), (103, ⟨-653755787216993503, 15⟩), (114, ⟨680995611684368233, 17⟩), (116, ⟨-326877893608496752, 15⟩), (118, ⟨108959297869498917, 14⟩), (133, ⟨-226998537228122744, 17⟩), (135, ⟨817194734021241879, 16⟩), (137, ⟨-217918595738997834, 15⟩)],
  [(0, ⟨166353989393607054, 18⟩), (3, ⟨-316072579847853403, 17⟩), (5, ⟨-598874361816985396, 17⟩), (10, ⟨-998123936361642327, 18⟩), (12, ⟨119774872363397079, 15⟩), (14, ⟨159699829817862772, 16⟩), (21, ⟨698686755453149629, 17⟩), (23, ⟨-838424106543779555, 16⟩), (25, ⟨-335369642617511822, 15⟩), (36, ⟨349343377726574814, 17⟩), (38, ⟨-167684821308755911, 15⟩), (40, ⟨558949404362519703, 15⟩), (55, ⟨-116447792575524938, 17⟩), (57, ⟨419212053271889777, 16⟩), (59, ⟨-111789880872503941, 15⟩), (80, ⟨299437180908492698, 17⟩), (85, ⟨-389268335181040507, 16⟩), (87, ⟨-319399659635725545, 16⟩), (94, ⟨-419212053271889777, 16⟩), (96, ⟨447159523490015762, 15⟩), (98, ⟨447159523490015762, 16⟩), (107, ⟨419212053271889777, 16⟩), (111, ⟨-670739285235023644, 15⟩), (124, ⟨389268335181040507, 16⟩), (126, ⟨-447159523490015762, 15⟩), (128, ⟨670739285235023644, 15⟩), (145, ⟨-299437180908492698, 17⟩), (147, ⟨319399659635725545, 16⟩), (149, ⟨-447159523490015762, 16⟩)],
  [(2, ⟨172880137002900928, 17⟩), (7, ⟨-224744178103771206, 16⟩), (9, ⟨-18440547946976099, 15⟩), (16, ⟨-242032191804061299, 16⟩), (18, ⟨258167671257665386, 15⟩), (20, ⟨258167671257665386, 16⟩), (29, ⟨242032191804061299, 16⟩), (33, ⟨-387251506886498079, 15⟩), (46, ⟨224744178103771206, 16⟩), (48, ⟨-258167671257665386, 15⟩), (50, ⟨387251506886498079, 15⟩), (67, ⟨-172880137002900928, 17⟩), (69, ⟨18440547946976099, 15⟩), (71, ⟨-258167671257665386, 16⟩), (78, ⟨-288133561671501547, 18⟩), (81, ⟨201693493170051083, 17⟩), (83, ⟨138304109602320742, 16⟩), (88, ⟨633893835677303403, 17⟩), (90, ⟨-110643287681856594, 15⟩), (92, ⟨-645419178144163464, 16⟩), (99, ⟨403386986340102165, 17⟩), (101, ⟨-193625753443249039, 15⟩), (103, ⟨580877260329747118, 15⟩), (105, ⟨516335342515330771, 16⟩), (114, ⟨-144066780835750773, 17⟩), (118, ⟨322709589072081732, 15⟩), (120, ⟨-516335342515330771, 15⟩), (133, ⟨-144066780835750773, 17⟩), (135, ⟨691520548011603712, 16⟩), (137, ⟨-322709589072081732, 15⟩), (139, ⟨258167671257665386, 15⟩)],
  [(0, ⟨-184892122049355627, 18⟩), (3, ⟨129424485434548939, 17⟩), (5, ⟨887482185836907012, 17⟩), (10, ⟨40676266850858238, 16⟩), (12, ⟨-70998574866952561, 15⟩), (14, ⟨-414158353390556606, 16⟩), (21, ⟨258848970869097878, 17⟩), (23, ⟨-124247506017166982, 15⟩), (25, ⟨372742518051500945, 15⟩), (27, ⟨331326682712445284, 16⟩), (36, ⟨-924460610246778137, 18⟩), (40, ⟨207079176695278303, 15⟩), (42, ⟨-331326682712445284, 15⟩), (55, ⟨-924460610246778137, 18⟩), (57, ⟨443741092918453506, 16⟩), (59, ⟨-207079176695278303, 15⟩), (61, ⟨165663341356222642, 15⟩), (80, ⟨-295827395278969004, 17⟩), (85, ⟨887482185836907012, 17⟩), (87, ⟨414158353390556606, 16⟩), (94, ⟨414158353390556606, 16⟩), (96, ⟨-165663341356222642, 15⟩), (98, ⟨-993980048137335853, 16⟩), (107, ⟨414158353390556606, 16⟩), (109, ⟨-414158353390556606, 15⟩), (111, ⟨496990024068667927, 15⟩), (113, ⟨473323832446350406, 16⟩), (124, ⟨887482185836907012, 17⟩), (126, ⟨-165663341356222642, 15⟩), (128, ⟨496990024068667927, 15⟩), (130, ⟨-283994299467810244, 15⟩), (145, ⟨-295827395278969004, 17⟩), (147, ⟨414158353390556606, 16⟩), (149, ⟨-993980048137335853, 16⟩), (151, ⟨473323832446350406, 16⟩)],
  [(2, ⟨-209181557262512238, 17⟩), (7, ⟨627544671787536713, 17⟩), (9, ⟨292854180167517133, 16⟩), (16, ⟨292854180167517133, 16⟩), (18, ⟨-117141672067006853, 15⟩), (20, ⟨-702850032402041119, 16⟩), (29, ⟨292854180167517133, 16⟩), (31, ⟨-292854180167517133, 15⟩), (33, ⟨351425016201020559, 15⟩), (35, ⟨33469049162001958, 15⟩), (46, ⟨627544671787536713, 17⟩), (48, ⟨-117141672067006853, 15⟩), (50, ⟨351425016201020559, 15⟩), (52, ⟨-200814294972011748, 15⟩), (67, ⟨-209181557262512238, 17⟩), (69, ⟨292854180167517133, 16⟩), (71, ⟨-702850032402041119, 16⟩), (73, ⟨33469049162001958, 15⟩), (78, ⟨261476946578140297, 18⟩), (81, ⟨261476946578140297, 18⟩), (83, ⟨-146427090083758566, 16⟩), (88, ⟨-156886167946884178, 17⟩), (92, ⟨878562540502551398, 16⟩), (99, ⟨-366067725209396416, 17⟩), (101, ⟨878562540502551398, 16⟩), (103, ⟨-878562540502551398, 16⟩), (105, ⟨-117141672067006853, 15⟩), (114, ⟨-287624641235954327, 17⟩), (116, ⟨117141672067006853, 15⟩), (118, ⟨-439281270251275699, 15⟩), (120, ⟨234283344134013706, 15⟩), (122, ⟨33469049162001958, 15⟩), (133, ⟨-784430839734420891, 18⟩), (135, ⟨439281270251275699, 16⟩), (137, ⟨-263568762150765419, 15⟩), (139, ⟨351425016201020559, 15⟩), (141, ⟨-100407147486005874, 15⟩)],
  [(0, ⟨202539171902860758, 18⟩), (3, ⟨202539171902860758, 18⟩), (5, ⟨-113421936265602025, 16⟩), (10, ⟨-121523503141716455, 17⟩), (14, ⟨680531617593612148, 16⟩), (21, ⟨-283554840664005062, 17⟩), (23, ⟨680531617593612148, 16⟩), (25, ⟨-680531617593612148, 16⟩), (27, ⟨-907375490124816198, 16⟩), (36, ⟨-222793089093146834, 17⟩), (38, ⟨907375490124816198, 16⟩), (40, ⟨-340265808796806074, 15⟩), (42, ⟨18147509802496324, 14⟩), (44, ⟨259250140035661771, 16⟩), (55, ⟨-607617515708582275, 18⟩), (57, ⟨340265808796806074, 16⟩), (59, ⟨-204159485278083644, 15⟩), (61, ⟨272212647037444859, 15⟩), (63, ⟨-777750420106985312, 16⟩), (80, ⟨283554840664005062, 17⟩), (85, ⟨850664521992015185, 17⟩), (87, ⟨-453687745062408099, 16⟩), (94, ⟨567109681328010124, 17⟩), (96, ⟨-907375490124816198, 16⟩), (98, ⟨13610632351872243, 14⟩), (107, ⟨-567109681328010124, 17⟩), (111, ⟨13610632351872243, 14⟩), (113, ⟨-103700056014264708, 15⟩), (124, ⟨-850664521992015185, 17⟩), (126, ⟨907375490124816198, 16⟩), (128, ⟨-13610632351872243, 14⟩), (132, ⟨172833426690441181, 16⟩), (145, ⟨-283554840664005062, 17⟩), (147, ⟨453687745062408099, 16⟩), (149, ⟨-13610632351872243, 14⟩), (151, ⟨103700056014264708, 15⟩), (153, ⟨-172833426690441181, 16⟩)],
  [(2, ⟨239647580036050465, 17⟩), (7, ⟨718942740108151394, 17⟩), (9, ⟨-383436128057680743, 16⟩), (16, ⟨479295160072100929, 17⟩), (18, ⟨-766872256115361487, 16⟩), (20, ⟨115030838417304223, 15⟩), (29, ⟨-479295160072100929, 17⟩), (33, ⟨115030838417304223, 15⟩), (35, ⟨-876425435560413128, 16⟩), (46, ⟨-718942740108151394, 17⟩), (48, ⟨766872256115361487, 16⟩), (50, ⟨-115030838417304223, 15⟩), (54, ⟨146070905926735521, 16⟩), (67, ⟨-239647580036050465, 17⟩), (69, ⟨383436128057680743, 16⟩), (71, ⟨-115030838417304223, 15⟩), (73, ⟨876425435560413128, 16⟩), (75, ⟨-146070905926735521, 16⟩), (78, ⟨-239647580036050465, 18⟩), (81, ⟨-119823790018025232, 17⟩), (83, ⟨143788548021630279, 16⟩), (88, ⟨-239647580036050465, 17⟩), (90, ⟨575154192086521115, 16⟩), (92, ⟨-958590320144201859, 16⟩), (99, ⟨-239647580036050465, 17⟩), (101, ⟨862731288129781673, 16⟩), (103, ⟨-287577096043260558, 15⟩), (105, ⟨153374451223072297, 15⟩), (114, ⟨-119823790018025232, 17⟩), (116, ⟨575154192086521115, 16⟩), (118, ⟨-287577096043260558, 15⟩), (120, ⟨306748902446144595, 15⟩), (122, ⟨-657319076670309846, 16⟩), (133, ⟨-239647580036050465, 18⟩), (135, ⟨143788548021630279, 16⟩), (137, ⟨-958590320144201859, 16⟩), (139, ⟨153374451223072297, 15⟩), (141, ⟨-657319076670309846, 16⟩), (143, ⟨584283623706942085, 17⟩)],
  [(0, ⟨-220443711424950199, 18⟩), (3, ⟨-110221855712475099, 17⟩), (5, ⟨132266226854970119, 16⟩), (10, ⟨-220443711424950199, 17⟩), (12, ⟨529064907419880478, 16⟩), (14, ⟨-881774845699800796, 16⟩), (21, ⟨-220443711424950199, 17⟩), (23, ⟨793597361129820716, 16⟩), (25, ⟨-264532453709940239, 15⟩), (27, ⟨141083975311968127, 15⟩), (36, ⟨-110221855712475099, 17⟩), (38, ⟨529064907419880478, 16⟩), (40, ⟨-264532453709940239, 15⟩), (42, ⟨282167950623936255, 15⟩), (44, ⟨-604645608479863403, 16⟩), (55, ⟨-220443711424950199, 18⟩), (57, ⟨132266226854970119, 16⟩), (59, ⟨-881774845699800796, 16⟩), (61, ⟨141083975311968127, 15⟩), (63, ⟨-604645608479863403, 16⟩), (65, ⟨537462763093211914, 17⟩), (80, ⟨-264532453709940239, 17⟩), (85, ⟨-132266226854970119, 16⟩), (87, ⟨440887422849900398, 16⟩), (94, ⟨-264532453709940239, 16⟩), (96, ⟨176354969139960159, 15⟩), (98, ⟨-141083975311968127, 15⟩), (107, ⟨-264532453709940239, 16⟩), (109, ⟨264532453709940239, 15⟩), (111, ⟨-423251925935904382, 15⟩), (113, ⟨120929121695972681, 15⟩), (124, ⟨-132266226854970119, 16⟩), (126, ⟨176354969139960159, 15⟩), (128, ⟨-423251925935904382, 15⟩), (130, ⟨241858243391945361, 15⟩), (132, ⟨-268731381546605957, 16⟩), (145, ⟨-264532453709940239, 17⟩), (147, ⟨440887422849900398, 16⟩), (149, ⟨-141083975311968127, 15⟩), (151, ⟨120929121695972681, 15⟩), (153, ⟨-268731381546605957, 16⟩), (155, ⟨977205023805839843, 18⟩)],
  [(2, ⟨-264532453709940239, 17⟩), (7, ⟨-132266226854970119, 16⟩), (9, ⟨440887422849900398, 16⟩), (16, ⟨-264532453709940239, 16⟩), (18, ⟨176354969139960159, 15⟩), (20, ⟨-141083975311968127, 15⟩), (29, ⟨-264532453709940239, 16⟩), (31, ⟨264532453709940239, 15⟩), (33, ⟨-423251925935904382, 15⟩), (35, ⟨120929121695972681, 15⟩), (46, ⟨-132266226854970119, 16⟩), (48, ⟨176354969139960159, 15⟩), (50, ⟨-423251925935904382, 15⟩), (52, ⟨241858243391945361, 15⟩), (54, ⟨-268731381546605957, 16⟩), (67, ⟨-264532453709940239, 17⟩), (69, ⟨440887422849900398, 16⟩), (71, ⟨-141083975311968127, 15⟩), (73, ⟨120929121695972681, 15⟩), (75, ⟨-268731381546605957, 16⟩), (77, ⟨977205023805839843, 18⟩), (78, ⟨220443711424950199, 18⟩), (81, ⟨110221855712475099, 17⟩), (83, ⟨-132266226854970119, 16⟩), (88, ⟨220443711424950199, 17⟩), (90, ⟨-529064907419880478, 16⟩), (92, ⟨881774845699800796, 16⟩), (99, ⟨220443711424950199, 17⟩), (101, ⟨-793597361129820716, 16⟩), (103, ⟨264532453709940239, 15⟩), (105, ⟨-141083975311968127, 15⟩), (114, ⟨110221855712475099, 17⟩), (116, ⟨-529064907419880478, 16⟩), (118, ⟨264532453709940239, 15⟩), (120, ⟨-282167950623936255, 15⟩), (122, ⟨604645608479863403, 16⟩), (133, ⟨220443711424950199, 18⟩), (135, ⟨-132266226854970119, 16⟩), (137, ⟨881774845699800796, 16⟩), (139, ⟨-141083975311968127, 15⟩), (141, ⟨604645608479863403, 16⟩), (143, ⟨-537462763093211914, 17⟩)],
  [(0, ⟨239647580036050465, 18⟩), (3, ⟨119823790018025232, 17⟩), (5, ⟨-143788548021630279, 16⟩), (10, ⟨239647580036050465, 17⟩), (12, ⟨-575154192086521115, 16⟩), (14, ⟨958590320144201859, 16⟩), (21, ⟨239647580036050465, 17⟩), (23, ⟨-862731288129781673, 16⟩), (25, ⟨287577096043260558, 15⟩), (27, ⟨-153374451223072297, 15⟩), (36, ⟨119823790018025232, 17⟩), (38, ⟨-575154192086521115, 16⟩), (40, ⟨287577096043260558, 15⟩), (42, ⟨-306748902446144595, 15⟩), (44, ⟨657319076670309846, 16⟩), (55, ⟨239647580036050465, 18⟩), (57, ⟨-143788548021630279, 16⟩), (59, ⟨958590320144201859, 16⟩), (61, ⟨-153374451223072297, 15⟩), (63, ⟨657319076670309846, 16⟩), (65, ⟨-584283623706942085, 17⟩), (80, ⟨239647580036050465, 17⟩), (85, ⟨718942740108151394, 17⟩), (87, ⟨-383436128057680743, 16⟩), (94, ⟨479295160072100929, 17⟩), (96, ⟨-766872256115361487, 16⟩), (98, ⟨115030838417304223, 15⟩), (107, ⟨-479295160072100929, 17⟩), (111, ⟨115030838417304223, 15⟩), (113, ⟨-876425435560413128, 16⟩), (124, ⟨-718942740108151394, 17⟩), (126, ⟨766872256115361487, 16⟩), (128, ⟨-115030838417304223, 15⟩), (132, ⟨146070905926735521, 16⟩), (145, ⟨-239647580036050465, 17⟩), (147, ⟨383436128057680743, 16⟩), (149, ⟨-115030838417304223, 15⟩), (151, ⟨876425435560413128, 16⟩), (153, ⟨-146070905926735521, 16⟩)],
  [(2, ⟨283554840664005062, 17⟩), (7, ⟨850664521992015185, 17⟩), (9, ⟨-453687745062408099, 16⟩), (16, ⟨567109681328010124, 17⟩), (18, ⟨-907375490124816198, 16⟩), (20, ⟨13610632351872243, 14⟩), (29, ⟨-567109681328010124, 17⟩), (33, ⟨13610632351872243, 14⟩), (35, ⟨-103700056014264708, 15⟩), (46, ⟨-850664521992015185, 17⟩), (48, ⟨907375490124816198, 16⟩), (50, ⟨-13610632351872243, 14⟩), (54, ⟨172833426690441181, 16⟩), (67, ⟨-283554840664005062, 17⟩), (69, ⟨453687745062408099, 16⟩), (71, ⟨-13610632351872243, 14⟩), (73, ⟨103700056014264708, 15⟩), (75, ⟨-172833426690441181, 16⟩), (78, ⟨-202539171902860758, 18⟩), (81, ⟨-202539171902860758, 18⟩), (83, ⟨113421936265602025, 16⟩), (88, ⟨121523503141716455, 17⟩), (92, ⟨-680531617593612148, 16⟩), (99, ⟨283554840664005062, 17⟩), (101, ⟨-680531617593612148, 16⟩), (103, ⟨680531617593612148, 16⟩), (105, ⟨907375490124816198, 16⟩), (114, ⟨222793089093146834, 17⟩), (116, ⟨-907375490124816198, 16⟩), (118, ⟨340265808796806074, 15⟩), (120, ⟨-18147509802496324, 14⟩), (122, ⟨-259250140035661771, 16⟩), (133, ⟨607617515708582275, 18⟩), (135, ⟨-340265808796806074, 16⟩), (137, ⟨204159485278083644, 15⟩), (139, ⟨-272212647037444859, 15⟩), (141, ⟨777750420106985312, 16⟩)],
  [(0, ⟨-261476946578140297, 18⟩), (3, ⟨-261476946578140297, 18⟩), (5, ⟨146427090083758566, 16⟩), (10, ⟨156886167946884178, 17⟩), (14, ⟨-878562540502551398, 16⟩), (21, ⟨366067725209396416, 17⟩), (23, ⟨-878562540502551398, 16⟩), (25, ⟨878562540502551398, 16⟩), (27, ⟨117141672067006853, 15⟩), (36, ⟨287624641235954327, 17⟩), (38, ⟨-117141672067006853, 15⟩), (40, ⟨439281270251275699, 15⟩), (42, ⟨-234283344134013706, 15⟩), (44, ⟨-33469049162001958, 15⟩), (55, ⟨784430839734420891, 18⟩), (57, ⟨-439281270251275699, 16⟩), (59, ⟨263568762150765419, 15⟩), (61, ⟨-351425016201020559, 15⟩), (63, ⟨100407147486005874, 15⟩), (80, ⟨-209181557262512238, 17⟩), (85, ⟨627544671787536713, 17⟩), (87, ⟨292854180167517133, 16⟩), (94, ⟨292854180167517133, 16⟩), (96, ⟨-117141672067006853, 15⟩), (98, ⟨-702850032402041119, 16⟩), (107, ⟨292854180167517133, 16⟩), (109, ⟨-292854180167517133, 15⟩), (111, ⟨351425016201020559, 15⟩), (113, ⟨33469049162001958, 15⟩), (124, ⟨627544671787536713, 17⟩), (126, ⟨-117141672067006853, 15⟩), (128, ⟨351425016201020559, 15⟩), (130, ⟨-200814294972011748, 15⟩), (145, ⟨-209181557262512238, 17⟩), (147, ⟨292854180167517133, 16⟩), (149, ⟨-702850032402041119, 16⟩), (151, ⟨33469049162001958, 15⟩)],
  [(2, ⟨-295827395278969004, 17⟩), (7, ⟨887482185836907012, 17⟩), (9, ⟨414158353390556606, 16⟩), (16, ⟨414158353390556606, 16⟩), (18, ⟨-165663341356222642, 15⟩), (20, ⟨-993980048137335853, 16⟩), (29, ⟨414158353390556606, 16⟩), (31, ⟨-414158353390556606, 15⟩), (33, ⟨496990024068667927, 15⟩), (35, ⟨473323832446350406, 16⟩), (46, ⟨887482185836907012, 17⟩), (48, ⟨-165663341356222642, 15⟩), (50, ⟨496990024068667927, 15⟩), (52, ⟨-283994299467810244, 15⟩), (67, ⟨-295827395278969004, 17⟩), (69, ⟨414158353390556606, 16⟩), (71, ⟨-993980048137335853, 16⟩), (73, ⟨473323832446350406, 16⟩), (78, ⟨184892122049355627, 18⟩), (81, ⟨-129424485434548939, 17⟩), (83, ⟨-887482185836907012, 17⟩), (88, ⟨-40676266850858238, 16⟩), (90, ⟨70998574866952561, 15⟩), (92, ⟨414158353390556606, 16⟩), (99, ⟨-258848970869097878, 17⟩), (101, ⟨124247506017166982, 15⟩), (103, ⟨-372742518051500945, 15⟩), (105, ⟨-331326682712445284, 16⟩), (114, ⟨924460610246778137, 18⟩), (118, ⟨-207079176695278303, 15⟩), (120, ⟨331326682712445284, 15⟩), (133, ⟨924460610246778137, 18⟩), (135, ⟨-443741092918453506, 16⟩), (137, ⟨207079176695278303, 15⟩), (139, ⟨-165663341356222642, 15⟩)],
  [(0, ⟨288133561671501547, 18⟩), (3, ⟨-201693493170051083, 17⟩), (5, ⟨-138304109602320742, 16⟩), (10, ⟨-633893835677303403, 17⟩), (12, ⟨110643287681856594, 15⟩), (14, ⟨645419178144163464, 16⟩), (21, ⟨-403386986340102165, 17⟩), (23, ⟨193625753443249039, 15⟩), (25, ⟨-580877260329747118, 15⟩), (27, ⟨-516335342515330771, 16⟩), (36, ⟨144066780835750773, 17⟩), (40, ⟨-322709589072081732, 15⟩), (42, ⟨516335342515330771, 15⟩), (55, ⟨144066780835750773, 17⟩), (57, ⟨-691520548011603712, 16⟩), (59, ⟨322709589072081732, 15⟩), (61, ⟨-258167671257665386, 15⟩), (80, ⟨172880137002900928, 17⟩), (85, ⟨-224744178103771206, 16⟩), (87, ⟨-18440547946976099, 15⟩), (94, ⟨-242032191804061299, 16⟩), (96, ⟨258167671257665386, 15⟩), (98, ⟨258167671257665386, 16⟩), (107, ⟨242032191804061299, 16⟩), (111, ⟨-387251506886498079, 15⟩), (124, ⟨224744178103771206, 16⟩), (126, ⟨-258167671257665386, 15⟩), (128, ⟨387251506886498079, 15⟩), (145, ⟨-172880137002900928, 17⟩), (147, ⟨18440547946976099, 15⟩), (149, ⟨-258167671257665386, 16⟩)],
  [(2, ⟨299437180908492698, 17⟩), (7, ⟨-389268335181040507, 16⟩), (9, ⟨-319399659635725545, 16⟩), (16, ⟨-419212053271889777, 16⟩), (18, ⟨447159523490015762, 15⟩), (20, ⟨447159523490015762, 16⟩), (29, ⟨419212053271889777, 16⟩), (33, ⟨-670739285235023644, 15⟩), (46, ⟨389268335181040507, 16⟩), (48, ⟨-447159523490015762, 15⟩), (50, ⟨670739285235023644, 15⟩), (67, ⟨-299437180908492698, 17⟩), (69, ⟨319399659635725545, 16⟩), (71, ⟨-447159523490015762, 16⟩), (78, ⟨-166353989393607054, 18⟩), (81, ⟨316072579847853403, 17⟩), (83, ⟨598874361816985396, 17⟩), (88, ⟨998123936361642327, 18⟩), (90, ⟨-119774872363397079, 15⟩), (92, ⟨-159699829817862772, 16⟩), (99, ⟨-698686755453149629, 17⟩), (101, ⟨838424106543779555, 16⟩), (103, ⟨335369642617511822, 15⟩), (114, ⟨-349343377726574814, 17⟩), (116, ⟨167684821308755911, 15⟩), (118, ⟨-558949404362519703, 15⟩), (133, ⟨116447792575524938, 17⟩), (135, ⟨-419212053271889777, 16⟩), (137, ⟨111789880872503941, 15⟩)],
  [(0, ⟨-32428362461160392, 17⟩), (3, ⟨616138886762047449, 17⟩), (5, ⟨116742104860177411, 16⟩), (10, ⟨194570174766962352, 17⟩), (12, ⟨-233484209720354823, 15⟩), (14, ⟨-311312279627139763, 16⟩), (21, ⟨-136199122336873647, 16⟩), (23, ⟨163438946804248376, 15⟩), (25, ⟨653755787216993503, 15⟩), (36, ⟨-680995611684368233, 17⟩), (38, ⟨326877893608496752, 15⟩), (40, ⟨-108959297869498917, 14⟩), (55, ⟨226998537228122744, 17⟩), (57, ⟨-817194734021241879, 16⟩), (59, ⟨217918595738997834, 15⟩), (80, ⟨-129713449844641568, 17⟩), (85, ⟨350226314580532234, 16⟩), (87, ⟨778280699067849409, 17⟩), (94, ⟨-544796489347494586, 16⟩), (96, ⟨-217918595738997834, 15⟩), (107, ⟨-544796489347494586, 16⟩), (109, ⟨544796489347494586, 15⟩), (124, ⟨350226314580532234, 16⟩), (126, ⟨-217918595738997834, 15⟩), (145, ⟨-129713449844641568, 17⟩), (147, ⟨778280699067849409, 17⟩)],
  [(2, ⟨-290048091448628081, 17⟩), (7, ⟨783129846911295819, 16⟩), (9, ⟨174028854869176849, 16⟩), (16, ⟨-121820198408423794, 15⟩), (18, ⟨-487280793633695176, 15⟩), (29, ⟨-121820198408423794, 15⟩), (31, ⟨121820198408423794, 14⟩), (46, ⟨783129846911295819, 16⟩), (48, ⟨-487280793633695176, 15⟩), (67, ⟨-290048091448628081, 17⟩), (69, ⟨174028854869176849, 16⟩), (78, ⟨145024045724314041, 18⟩), (81, ⟨-507584160035099142, 17⟩), (83, ⟨-290048091448628081, 17⟩), (88, ⟨130521641151882637, 16⟩), (90, ⟨104417312921506109, 15⟩), (99, ⟨609100992042118971, 17⟩), (101, ⟨-365460595225271382, 15⟩), (114, ⟨-10876803429323553, 15⟩), (116, ⟨243640396816847588, 15⟩), (133, ⟨130521641151882637, 17⟩), (135, ⟨-261043282303765273, 16⟩)],
  [(0, ⟨383697559110995006, 18⟩), (3, ⟨-134294145688848252, 16⟩), (5, ⟨-767395118221990013, 17⟩), (10, ⟨345327803199895506, 16⟩), (12, ⟨276262242559916405, 15⟩), (21, ⟨161152974826617903, 16⟩), (23, ⟨-966917848959707416, 15⟩), (36, ⟨-287773169333246255, 16⟩), (38, ⟨644611899306471611, 15⟩), (55, ⟨345327803199895506, 17⟩), (57, ⟨-690655606399791011, 16⟩), (80, ⟨767395118221990013, 18⟩), (85, ⟨-345327803199895506, 16⟩), (94, ⟨161152974826617903, 15⟩), (107, ⟨-161152974826617903, 15⟩), (124, ⟨345327803199895506, 16⟩), (145, ⟨-767395118221990013, 18⟩)],
  [(2, ⟨254516167309276491, 17⟩), (7, ⟨-114532275289174421, 15⟩), (16, ⟨534483951349480631, 15⟩), (29, ⟨-534483951349480631, 15⟩), (46, ⟨114532275289174421, 15⟩), (67, ⟨-254516167309276491, 17⟩), (78, ⟨-115689166958762041, 18⟩), (81, ⟨636290418273191227, 17⟩), (88, ⟨-381774250963914736, 16⟩), (99, ⟨534483951349480631, 16⟩), (114, ⟨-190887125481957368, 16⟩), (133, ⟨127258083654638245, 17⟩)],
  [(0, ⟨-554825753806619302, 18⟩), (3, ⟨305154164593640616, 16⟩), (10, ⟨-18309249875618437, 14⟩), (21, ⟨256329498258658117, 15⟩), (36, ⟨-915462493780921848, 16⟩), (55, ⟨610308329187281232, 17⟩)]]

/-- The part of g_trans_cart2jR (src/cart2sph.c:813-2172, PYPZPX not defined) for l = 12: for every row of
182 literals the nonzero ones with their column. -/
def cjRowsR12 : List (List (Nat × Dec)) := [
  [(0, ⟨-554825753806619302, 18⟩), (3, ⟨366184997512368739, 16⟩), (10, ⟨-274638748134276554, 15⟩), (21, ⟨512658996517316235, 15⟩), (36, ⟨-274638748134276554, 15⟩), (55, ⟨366184997512368739, 16⟩), (78, ⟨-554825753806619302, 18⟩), (93, ⟨554825753806619302, 18⟩), (98, ⟨-305154164593640616, 16⟩), (107, ⟨18309249875618437, 14⟩), (120, ⟨-256329498258658117, 15⟩), (137, ⟨915462493780921848, 16⟩), (158, ⟨-610308329187281232, 17⟩)],
  [(2, ⟨-266085084005152695, 17⟩), (7, ⟨146346796202833982, 15⟩), (16, ⟨-878080777217003893, 15⟩), (29, ⟨122931308810380545, 14⟩), (46, ⟨-439040388608501947, 15⟩), (67, ⟨292693592405667964, 16⟩), (91, ⟨-115689166958762041, 18⟩), (94, ⟨509032334618552982, 17⟩), (96, ⟨254516167309276491, 17⟩), (101, ⟨-190887125481957368, 16⟩), (103, ⟨-114532275289174421, 15⟩), (114, ⟨534483951349480631, 15⟩), (127, ⟨190887125481957368, 16⟩), (129, ⟨-534483951349480631, 15⟩), (146, ⟨-509032334618552982, 17⟩), (148, ⟨114532275289174421, 15⟩), (169, ⟨115689166958762041, 18⟩), (171, ⟨-254516167309276491, 17⟩)],
  [(0, ⟨383697559110995006, 18⟩), (3, ⟨-168826926008837803, 16⟩), (5, ⟨-844134630044189014, 17⟩), (10, ⟨63310097253314176, 15⟩), (12, ⟨379860583519885056, 15⟩), (23, ⟨-177268272309279693, 14⟩), (36, ⟨-63310097253314176, 15⟩), (38, ⟨177268272309279693, 14⟩), (55, ⟨168826926008837803, 16⟩), (57, ⟨-379860583519885056, 15⟩), (78, ⟨-383697559110995006, 18⟩), (80, ⟨844134630044189014, 17⟩), (93, ⟨-115109267733298502, 17⟩), (98, ⟨402882437066544757, 16⟩), (100, ⟨767395118221990013, 17⟩), (107, ⟨-103598340959968652, 15⟩), (109, ⟨-276262242559916405, 15⟩), (120, ⟨-483458924479853708, 16⟩), (122, ⟨966917848959707416, 15⟩), (137, ⟨863319507999738764, 16⟩), (139, ⟨-644611899306471611, 15⟩), (158, ⟨-103598340959968652, 16⟩), (160, ⟨690655606399791011, 16⟩)],
  [(2, ⟨304550496021059485, 17⟩), (7, ⟨-10659267360737082, 14⟩), (9, ⟨-203033664014039657, 16⟩), (16, ⟨274095446418953537, 15⟩), (18, ⟨730921190450542765, 15⟩), (29, ⟨127911208328844984, 15⟩), (31, ⟨-255822416657689968, 14⟩), (46, ⟨-228412872015794614, 15⟩), (48, ⟨170548277771793312, 14⟩), (67, ⟨274095446418953537, 16⟩), (69, ⟨-182730297612635691, 15⟩), (91, ⟨145024045724314041, 18⟩), (94, ⟨-377062518883216506, 17⟩), (96, ⟨-580096182897256162, 17⟩), (101, ⟨217536068586471061, 17⟩), (103, ⟨156625969382259164, 15⟩), (105, ⟨174028854869176849, 16⟩), (112, ⟨121820198408423794, 16⟩), (114, ⟨-243640396816847588, 15⟩), (116, ⟨-487280793633695176, 15⟩), (127, ⟨217536068586471061, 17⟩), (129, ⟨-243640396816847588, 15⟩), (131, ⟨121820198408423794, 14⟩), (146, ⟨-377062518883216506, 17⟩), (148, ⟨156625969382259164, 15⟩), (150, ⟨-487280793633695176, 15⟩), (169, ⟨145024045724314041, 18⟩), (171, ⟨-580096182897256162, 17⟩), (173, ⟨174028854869176849, 16⟩)],
  [(0, ⟨-32428362461160392, 17⟩), (3, ⟨843137423990170193, 17⟩), (5, ⟨129713449844641568, 16⟩), (10, ⟨-48642543691740588, 16⟩), (12, ⟨-350226314580532234, 15⟩), (14, ⟨-389140349533924704, 16⟩), (21, ⟨-272398244673747293, 16⟩), (23, ⟨544796489347494586, 15⟩), (25, ⟨108959297869498917, 14⟩), (36, ⟨-48642543691740588, 16⟩), (38, ⟨544796489347494586, 15⟩), (40, ⟨-272398244673747293, 14⟩), (55, ⟨843137423990170193, 17⟩), (57, ⟨-350226314580532234, 15⟩), (59, ⟨108959297869498917, 14⟩), (78, ⟨-32428362461160392, 17⟩), (80, ⟨129713449844641568, 16⟩), (82, ⟨-389140349533924704, 16⟩), (93, ⟨16214181230580196, 16⟩), (98, ⟨-308069443381023724, 16⟩), (100, ⟨-194570174766962352, 16⟩), (107, ⟨-972850873834811761, 17⟩), (109, ⟨389140349533924704, 15⟩), (111, ⟨311312279627139763, 16⟩), (120, ⟨680995611684368233, 16⟩), (122, ⟨-272398244673747293, 15⟩), (124, ⟨-653755787216993503, 15⟩), (137, ⟨340497805842184116, 16⟩), (139, ⟨-544796489347494586, 15⟩), (141, ⟨108959297869498917, 14⟩), (158, ⟨-113499268614061372, 16⟩), (160, ⟨136199122336873647, 15⟩), (162, ⟨-217918595738997834, 15⟩)],
  [(2, ⟨-316072579847853403, 17⟩), (7, ⟨600537901710921467, 16⟩), (9, ⟨379287095817424084, 16⟩), (16, ⟨189643547908712042, 16⟩), (18, ⟨-758574191634848168, 15⟩), (20, ⟨-606859353307878535, 16⟩), (29, ⟨-132750483536098429, 15⟩), (31, ⟨531001934144393718, 15⟩), (33, ⟨127440464194654492, 14⟩), (46, ⟨-663752417680492147, 16⟩), (48, ⟨106200386828878744, 14⟩), (50, ⟨-212400773657757487, 14⟩), (67, ⟨221250805893497382, 16⟩), (69, ⟨-265500967072196859, 15⟩), (71, ⟨424801547315514974, 15⟩), (91, ⟨-166353989393607054, 18⟩), (94, ⟨199624787272328465, 17⟩), (96, ⟨898311542725478094, 17⟩), (101, ⟨449155771362739047, 17⟩), (103, ⟨-116780500554312152, 15⟩), (105, ⟨-479099489453588317, 16⟩), (114, ⟨-125763615981566933, 15⟩), (116, ⟨670739285235023644, 15⟩), (118, ⟨447159523490015762, 16⟩), (127, ⟨-449155771362739047, 17⟩), (129, ⟨125763615981566933, 15⟩), (133, ⟨-670739285235023644, 15⟩), (146, ⟨-199624787272328465, 17⟩), (148, ⟨116780500554312152, 15⟩), (150, ⟨-670739285235023644, 15⟩), (152, ⟨670739285235023644, 15⟩), (169, ⟨166353989393607054, 18⟩), (171, ⟨-898311542725478094, 17⟩), (173, ⟨479099489453588317, 16⟩), (175, ⟨-447159523490015762, 16⟩)],
  [(0, ⟨288133561671501547, 18⟩), (3, ⟨-345760274005801856, 17⟩), (5, ⟨-155592123302610835, 16⟩), (10, ⟨-777960616513054176, 17⟩), (12, ⟨202269760293394086, 15⟩), (14, ⟨829824657613924454, 16⟩), (23, ⟨217828972623655169, 15⟩), (25, ⟨-116175452065949424, 14⟩), (27, ⟨-774503013772996157, 16⟩), (36, ⟨777960616513054176, 17⟩), (38, ⟨-217828972623655169, 15⟩), (42, ⟨116175452065949424, 14⟩), (55, ⟨345760274005801856, 17⟩), (57, ⟨-202269760293394086, 15⟩), (59, ⟨116175452065949424, 14⟩), (61, ⟨-116175452065949424, 14⟩), (78, ⟨-288133561671501547, 18⟩), (80, ⟨155592123302610835, 16⟩), (82, ⟨-829824657613924454, 16⟩), (84, ⟨774503013772996157, 16⟩), (93, ⟨-201693493170051083, 17⟩), (98, ⟨141185445219035758, 16⟩), (100, ⟨322709589072081732, 16⟩), (107, ⟨443725684974112382, 16⟩), (109, ⟨-258167671257665386, 15⟩), (111, ⟨-90358684940182885, 15⟩), (120, ⟨282370890438071516, 16⟩), (122, ⟨-451793424700914425, 15⟩), (124, ⟨813228164461645965, 15⟩), (126, ⟨516335342515330771, 16⟩), (137, ⟨-100846746585025541, 16⟩), (141, ⟨451793424700914425, 15⟩), (143, ⟨-516335342515330771, 15⟩), (158, ⟨-100846746585025541, 16⟩), (160, ⟨161354794536040866, 15⟩), (162, ⟨-451793424700914425, 15⟩), (164, ⟨258167671257665386, 15⟩)],
  [(2, ⟨314316607483904567, 17⟩), (7, ⟨-220021625238733197, 16⟩), (9, ⟨-502906571974247307, 16⟩), (16, ⟨-691496536464590047, 16⟩), (18, ⟨402325257579397845, 15⟩), (20, ⟨140813840152789246, 15⟩), (29, ⟨-440043250477466393, 16⟩), (31, ⟨70406920076394623, 14⟩), (33, ⟨-126732456137510321, 14⟩), (35, ⟨-804650515158795691, 16⟩), (46, ⟨157158303741952283, 16⟩), (50, ⟨-70406920076394623, 14⟩), (52, ⟨804650515158795691, 15⟩), (67, ⟨157158303741952283, 16⟩), (69, ⟨-251453285987123653, 15⟩), (71, ⟨70406920076394623, 14⟩), (73, ⟨-402325257579397845, 15⟩), (91, ⟨184892122049355627, 18⟩), (94, ⟨-369784244098711255, 18⟩), (96, ⟨-118330958111587602, 16⟩), (101, ⟨-314316607483904567, 17⟩), (103, ⟨354992874334762805, 16⟩), (105, ⟨828316706781113211, 16⟩), (112, ⟨-517697941738195757, 17⟩), (114, ⟨165663341356222642, 15⟩), (116, ⟨-331326682712445284, 15⟩), (118, ⟨-132530673084978114, 15⟩), (127, ⟨-314316607483904567, 17⟩), (129, ⟨165663341356222642, 15⟩), (131, ⟨-828316706781113211, 15⟩), (133, ⟨662653365424890569, 15⟩), (135, ⟨473323832446350406, 16⟩), (146, ⟨-369784244098711255, 18⟩), (148, ⟨354992874334762805, 16⟩), (150, ⟨-331326682712445284, 15⟩), (152, ⟨662653365424890569, 15⟩), (154, ⟨-283994299467810244, 15⟩), (169, ⟨184892122049355627, 18⟩), (171, ⟨-118330958111587602, 16⟩), (173, ⟨828316706781113211, 16⟩), (175, ⟨-132530673084978114, 15⟩), (177, ⟨473323832446350406, 16⟩)],
  [(0, ⟨-261476946578140297, 18⟩), (3, ⟨522953893156280594, 18⟩), (5, ⟨16734524581000979, 15⟩), (10, ⟨444510809182838505, 17⟩), (12, ⟨-50203573743002937, 15⟩), (14, ⟨-117141672067006853, 15⟩), (21, ⟨732135450418792832, 17⟩), (23, ⟨-234283344134013706, 15⟩), (25, ⟨468566688268027412, 15⟩), (27, ⟨187426675307210965, 15⟩), (36, ⟨444510809182838505, 17⟩), (38, ⟨-234283344134013706, 15⟩), (40, ⟨117141672067006853, 14⟩), (42, ⟨-937133376536054825, 15⟩), (44, ⟨-66938098324003916, 15⟩), (55, ⟨522953893156280594, 18⟩), (57, ⟨-50203573743002937, 15⟩), (59, ⟨468566688268027412, 15⟩), (61, ⟨-937133376536054825, 15⟩), (63, ⟨401628589944023496, 15⟩), (78, ⟨-261476946578140297, 18⟩), (80, ⟨16734524581000979, 15⟩), (82, ⟨-117141672067006853, 15⟩), (84, ⟨187426675307210965, 15⟩), (86, ⟨-66938098324003916, 15⟩), (93, ⟨235329251920326267, 17⟩), (98, ⟨235329251920326267, 17⟩), (100, ⟨-439281270251275699, 16⟩), (107, ⟨-14119755115219576, 15⟩), (111, ⟨158141257290459252, 15⟩), (120, ⟨-329460952688456774, 16⟩), (122, ⟨263568762150765419, 15⟩), (124, ⟨-158141257290459252, 15⟩), (126, ⟨-150610721229008811, 15⟩), (137, ⟨-258862177112358894, 16⟩), (139, ⟨351425016201020559, 15⟩), (141, ⟨-790706286452296258, 15⟩), (143, ⟨301221442458017622, 15⟩), (145, ⟨33469049162001958, 15⟩), (158, ⟨-705987755760978802, 17⟩), (160, ⟨13178438107538271, 14⟩), (162, ⟨-474423771871377755, 15⟩), (164, ⟨451832163687026433, 15⟩), (166, ⟨-100407147486005874, 15⟩)],
  [(2, ⟨-303808757854291138, 17⟩), (7, ⟨-303808757854291138, 17⟩), (9, ⟨567109681328010124, 16⟩), (16, ⟨182285254712574683, 16⟩), (20, ⟨-204159485278083644, 15⟩), (29, ⟨425332260996007593, 16⟩), (31, ⟨-340265808796806074, 15⟩), (33, ⟨204159485278083644, 15⟩), (35, ⟨194437605026746328, 15⟩), (46, ⟨334189633639720251, 16⟩), (48, ⟨-453687745062408099, 15⟩), (50, ⟨102079742639041822, 14⟩), (52, ⟨-388875210053492656, 15⟩), (54, ⟨-432083566726102951, 16⟩), (67, ⟨911426273562873413, 17⟩), (69, ⟨-170132904398403037, 15⟩), (71, ⟨612478455834250933, 15⟩), (73, ⟨-583312815080238984, 15⟩), (75, ⟨129625070017830885, 15⟩), (91, ⟨-202539171902860758, 18⟩), (94, ⟨-810156687611443034, 18⟩), (96, ⟨141777420332002531, 16⟩), (101, ⟨-101269585951430379, 17⟩), (103, ⟨425332260996007593, 16⟩), (105, ⟨-113421936265602025, 15⟩), (114, ⟨283554840664005062, 16⟩), (116, ⟨-226843872531204049, 15⟩), (118, ⟨226843872531204049, 15⟩), (127, ⟨101269585951430379, 17⟩), (129, ⟨-283554840664005062, 16⟩), (133, ⟨226843872531204049, 15⟩), (135, ⟨-129625070017830885, 15⟩), (146, ⟨810156687611443034, 18⟩), (148, ⟨-425332260996007593, 16⟩), (150, ⟨226843872531204049, 15⟩), (152, ⟨-226843872531204049, 15⟩), (156, ⟨172833426690441181, 16⟩), (169, ⟨202539171902860758, 18⟩), (171, ⟨-141777420332002531, 16⟩), (173, ⟨113421936265602025, 15⟩), (175, ⟨-226843872531204049, 15⟩), (177, ⟨129625070017830885, 15⟩), (179, ⟨-172833426690441181, 16⟩)],
  [(0, ⟨239647580036050465, 18⟩), (3, ⟨958590320144201859, 18⟩), (5, ⟨-167753306025235325, 16⟩), (10, ⟨119823790018025232, 17⟩), (12, ⟨-503259918075705976, 16⟩), (14, ⟨13420264482018826, 14⟩), (23, ⟨-335506612050470651, 16⟩), (25, ⟨26840528964037652, 14⟩), (27, ⟨-26840528964037652, 14⟩), (36, ⟨-119823790018025232, 17⟩), (38, ⟨335506612050470651, 16⟩), (42, ⟨-26840528964037652, 14⟩), (44, ⟨153374451223072297, 15⟩), (55, ⟨-958590320144201859, 18⟩), (57, ⟨503259918075705976, 16⟩), (59, ⟨-26840528964037652, 14⟩), (61, ⟨26840528964037652, 14⟩), (65, ⟨-20449926829742973, 15⟩), (78, ⟨-239647580036050465, 18⟩), (80, ⟨167753306025235325, 16⟩), (82, ⟨-13420264482018826, 14⟩), (84, ⟨26840528964037652, 14⟩), (86, ⟨-153374451223072297, 15⟩), (88, ⟨20449926829742973, 15⟩), (93, ⟨-263612338039655511, 17⟩), (98, ⟨-131806169019827756, 16⟩), (100, ⟨527224676079311022, 16⟩), (107, ⟨-263612338039655511, 16⟩), (109, ⟨210889870431724409, 15⟩), (111, ⟨-210889870431724409, 15⟩), (120, ⟨-263612338039655511, 16⟩), (122, ⟨316334805647586613, 15⟩), (124, ⟨-632669611295173227, 15⟩), (126, ⟨24101699477911361, 14⟩), (137, ⟨-131806169019827756, 16⟩), (139, ⟨210889870431724409, 15⟩), (141, ⟨-632669611295173227, 15⟩), (143, ⟨48203398955822722, 14⟩), (145, ⟨-803389982597045367, 16⟩), (158, ⟨-263612338039655511, 17⟩), (160, ⟨527224676079311022, 16⟩), (162, ⟨-210889870431724409, 15⟩), (164, ⟨24101699477911361, 14⟩), (166, ⟨-803389982597045367, 16⟩), (168, ⟨584283623706942085, 17⟩)],
  [(2, ⟨286576824852435259, 17⟩), (7, ⟨143288412426217629, 16⟩), (9, ⟨-573153649704870517, 16⟩), (16, ⟨286576824852435259, 16⟩), (18, ⟨-229261459881948207, 15⟩), (20, ⟨229261459881948207, 15⟩), (29, ⟨286576824852435259, 16⟩), (31, ⟨-34389218982292231, 14⟩), (33, ⟨687784379645844621, 15⟩), (35, ⟨-262013097007940808, 15⟩), (46, ⟨143288412426217629, 16⟩), (48, ⟨-229261459881948207, 15⟩), (50, ⟨687784379645844621, 15⟩), (52, ⟨-524026194015881616, 15⟩), (54, ⟨87337699002646936, 15⟩), (67, ⟨286576824852435259, 17⟩), (69, ⟨-573153649704870517, 16⟩), (71, ⟨229261459881948207, 15⟩), (73, ⟨-262013097007940808, 15⟩), (75, ⟨87337699002646936, 15⟩), (77, ⟨-635183265473795898, 17⟩), (91, ⟨220443711424950199, 18⟩), (94, ⟨132266226854970119, 17⟩), (96, ⟨-158719472225964143, 16⟩), (101, ⟨330665567137425298, 17⟩), (103, ⟨-793597361129820716, 16⟩), (105, ⟨132266226854970119, 15⟩), (112, ⟨440887422849900398, 17⟩), (114, ⟨-158719472225964143, 15⟩), (116, ⟨529064907419880478, 15⟩), (118, ⟨-282167950623936255, 15⟩), (127, ⟨330665567137425298, 17⟩), (129, ⟨-158719472225964143, 15⟩), (131, ⟨793597361129820716, 15⟩), (133, ⟨-846503851871808764, 15⟩), (135, ⟨181393682543959021, 15⟩), (146, ⟨132266226854970119, 17⟩), (148, ⟨-793597361129820716, 16⟩), (150, ⟨529064907419880478, 15⟩), (152, ⟨-846503851871808764, 15⟩), (154, ⟨362787365087918042, 15⟩), (156, ⟨-322477657855927148, 16⟩), (169, ⟨220443711424950199, 18⟩), (171, ⟨-158719472225964143, 16⟩), (173, ⟨132266226854970119, 15⟩), (175, ⟨-282167950623936255, 15⟩), (177, ⟨181393682543959021, 15⟩), (179, ⟨-322477657855927148, 16⟩), (181, ⟨977205023805839843, 18⟩)],
  [(0, ⟨-220443711424950199, 18⟩), (3, ⟨-132266226854970119, 17⟩), (5, ⟨158719472225964143, 16⟩), (10, ⟨-330665567137425298, 17⟩), (12, ⟨793597361129820716, 16⟩), (14, ⟨-132266226854970119, 15⟩), (21, ⟨-440887422849900398, 17⟩), (23, ⟨158719472225964143, 15⟩), (25, ⟨-529064907419880478, 15⟩), (27, ⟨282167950623936255, 15⟩), (36, ⟨-330665567137425298, 17⟩), (38, ⟨158719472225964143, 15⟩), (40, ⟨-793597361129820716, 15⟩), (42, ⟨846503851871808764, 15⟩), (44, ⟨-181393682543959021, 15⟩), (55, ⟨-132266226854970119, 17⟩), (57, ⟨793597361129820716, 16⟩), (59, ⟨-529064907419880478, 15⟩), (61, ⟨846503851871808764, 15⟩), (63, ⟨-362787365087918042, 15⟩), (65, ⟨322477657855927148, 16⟩), (78, ⟨-220443711424950199, 18⟩), (80, ⟨158719472225964143, 16⟩), (82, ⟨-132266226854970119, 15⟩), (84, ⟨282167950623936255, 15⟩), (86, ⟨-181393682543959021, 15⟩), (88, ⟨322477657855927148, 16⟩), (90, ⟨-977205023805839843, 18⟩), (93, ⟨286576824852435259, 17⟩), (98, ⟨143288412426217629, 16⟩), (100, ⟨-573153649704870517, 16⟩), (107, ⟨286576824852435259, 16⟩), (109, ⟨-229261459881948207, 15⟩), (111, ⟨229261459881948207, 15⟩), (120, ⟨286576824852435259, 16⟩), (122, ⟨-34389218982292231, 14⟩), (124, ⟨687784379645844621, 15⟩), (126, ⟨-262013097007940808, 15⟩), (137, ⟨143288412426217629, 16⟩), (139, ⟨-229261459881948207, 15⟩), (141, ⟨687784379645844621, 15⟩), (143, ⟨-524026194015881616, 15⟩), (145, ⟨87337699002646936, 15⟩), (158, ⟨286576824852435259, 17⟩), (160, ⟨-573153649704870517, 16⟩), (162, ⟨229261459881948207, 15⟩), (164, ⟨-262013097007940808, 15⟩), (166, ⟨87337699002646936, 15⟩), (168, ⟨-635183265473795898, 17⟩)],
  [(2, ⟨-263612338039655511, 17⟩), (7, ⟨-131806169019827756, 16⟩), (9, ⟨527224676079311022, 16⟩), (16, ⟨-263612338039655511, 16⟩), (18, ⟨210889870431724409, 15⟩), (20, ⟨-210889870431724409, 15⟩), (29, ⟨-263612338039655511, 16⟩), (31, ⟨316334805647586613, 15⟩), (33, ⟨-632669611295173227, 15⟩), (35, ⟨24101699477911361, 14⟩), (46, ⟨-131806169019827756, 16⟩), (48, ⟨210889870431724409, 15⟩), (50, ⟨-632669611295173227, 15⟩), (52, ⟨48203398955822722, 14⟩), (54, ⟨-803389982597045367, 16⟩), (67, ⟨-263612338039655511, 17⟩), (69, ⟨527224676079311022, 16⟩), (71, ⟨-210889870431724409, 15⟩), (73, ⟨24101699477911361, 14⟩), (75, ⟨-803389982597045367, 16⟩), (77, ⟨584283623706942085, 17⟩), (91, ⟨-239647580036050465, 18⟩), (94, ⟨-958590320144201859, 18⟩), (96, ⟨167753306025235325, 16⟩), (101, ⟨-119823790018025232, 17⟩), (103, ⟨503259918075705976, 16⟩), (105, ⟨-13420264482018826, 14⟩), (114, ⟨335506612050470651, 16⟩), (116, ⟨-26840528964037652, 14⟩), (118, ⟨26840528964037652, 14⟩), (127, ⟨119823790018025232, 17⟩), (129, ⟨-335506612050470651, 16⟩), (133, ⟨26840528964037652, 14⟩), (135, ⟨-153374451223072297, 15⟩), (146, ⟨958590320144201859, 18⟩), (148, ⟨-503259918075705976, 16⟩), (150, ⟨26840528964037652, 14⟩), (152, ⟨-26840528964037652, 14⟩), (156, ⟨20449926829742973, 15⟩), (169, ⟨239647580036050465, 18⟩), (171, ⟨-167753306025235325, 16⟩), (173, ⟨13420264482018826, 14⟩), (175, ⟨-26840528964037652, 14⟩), (177, ⟨153374451223072297, 15⟩), (179, ⟨-20449926829742973, 15⟩)],
  [(0, ⟨202539171902860758, 18⟩), (3, ⟨810156687611443034, 18⟩), (5, ⟨-141777420332002531, 16⟩), (10, ⟨101269585951430379, 17⟩), (12, ⟨-425332260996007593, 16⟩), (14, ⟨113421936265602025, 15⟩), (23, ⟨-283554840664005062, 16⟩), (25, ⟨226843872531204049, 15⟩), (27, ⟨-226843872531204049, 15⟩), (36, ⟨-101269585951430379, 17⟩), (38, ⟨283554840664005062, 16⟩), (42, ⟨-226843872531204049, 15⟩), (44, ⟨129625070017830885, 15⟩), (55, ⟨-810156687611443034, 18⟩), (57, ⟨425332260996007593, 16⟩), (59, ⟨-226843872531204049, 15⟩), (61, ⟨226843872531204049, 15⟩), (65, ⟨-172833426690441181, 16⟩), (78, ⟨-202539171902860758, 18⟩), (80, ⟨141777420332002531, 16⟩), (82, ⟨-113421936265602025, 15⟩), (84, ⟨226843872531204049, 15⟩), (86, ⟨-129625070017830885, 15⟩), (88, ⟨172833426690441181, 16⟩), (93, ⟨-303808757854291138, 17⟩), (98, ⟨-303808757854291138, 17⟩), (100, ⟨567109681328010124, 16⟩), (107, ⟨182285254712574683, 16⟩), (111, ⟨-204159485278083644, 15⟩), (120, ⟨425332260996007593, 16⟩), (122, ⟨-340265808796806074, 15⟩), (124, ⟨204159485278083644, 15⟩), (126, ⟨194437605026746328, 15⟩), (137, ⟨334189633639720251, 16⟩), (139, ⟨-453687745062408099, 15⟩), (141, ⟨102079742639041822, 14⟩), (143, ⟨-388875210053492656, 15⟩), (145, ⟨-432083566726102951, 16⟩), (158, ⟨911426273562873413, 17⟩), (160, ⟨-170132904398403037, 15⟩), (162, ⟨612478455834250933, 15⟩), (164, ⟨-583312815080238984, 15⟩), (166, ⟨129625070017830885, 15⟩)],
  [(2, ⟨235329251920326267, 17⟩), (7, ⟨235329251920326267, 17⟩), (9, ⟨-439281270251275699, 16⟩), (16, ⟨-14119755115219576, 15⟩), (20, ⟨158141257290459252, 15⟩), (29, ⟨-329460952688456774, 16⟩), (31, ⟨263568762150765419, 15⟩), (33, ⟨-158141257290459252, 15⟩), (35, ⟨-150610721229008811, 15⟩), (46, ⟨-258862177112358894, 16⟩), (48, ⟨351425016201020559, 15⟩), (50, ⟨-790706286452296258, 15⟩), (52, ⟨301221442458017622, 15⟩), (54, ⟨33469049162001958, 15⟩), (67, ⟨-705987755760978802, 17⟩), (69, ⟨13178438107538271, 14⟩), (71, ⟨-474423771871377755, 15⟩), (73, ⟨451832163687026433, 15⟩), (75, ⟨-100407147486005874, 15⟩), (91, ⟨261476946578140297, 18⟩), (94, ⟨-522953893156280594, 18⟩), (96, ⟨-16734524581000979, 15⟩), (101, ⟨-444510809182838505, 17⟩), (103, ⟨50203573743002937, 15⟩), (105, ⟨117141672067006853, 15⟩), (112, ⟨-732135450418792832, 17⟩), (114, ⟨234283344134013706, 15⟩), (116, ⟨-468566688268027412, 15⟩), (118, ⟨-187426675307210965, 15⟩), (127, ⟨-444510809182838505, 17⟩), (129, ⟨234283344134013706, 15⟩), (131, ⟨-117141672067006853, 14⟩), (133, ⟨937133376536054825, 15⟩), (135, ⟨66938098324003916, 15⟩), (146, ⟨-522953893156280594, 18⟩), (148, ⟨50203573743002937, 15⟩), (150, ⟨-468566688268027412, 15⟩), (152, ⟨937133376536054825, 15⟩), (154, ⟨-401628589944023496, 15⟩), (169, ⟨261476946578140297, 18⟩), (171, ⟨-16734524581000979, 15⟩), (173, ⟨117141672067006853, 15⟩), (175, ⟨-187426675307210965, 15⟩), (177, ⟨66938098324003916, 15⟩)],
  [(0, ⟨-184892122049355627, 18⟩), (3, ⟨369784244098711255, 18⟩), (5, ⟨118330958111587602, 16⟩), (10, ⟨314316607483904567, 17⟩), (12, ⟨-354992874334762805, 16⟩), (14, ⟨-828316706781113211, 16⟩), (21, ⟨517697941738195757, 17⟩), (23, ⟨-165663341356222642, 15⟩), (25, ⟨331326682712445284, 15⟩), (27, ⟨132530673084978114, 15⟩), (36, ⟨314316607483904567, 17⟩), (38, ⟨-165663341356222642, 15⟩), (40, ⟨828316706781113211, 15⟩), (42, ⟨-662653365424890569, 15⟩), (44, ⟨-473323832446350406, 16⟩), (55, ⟨369784244098711255, 18⟩), (57, ⟨-354992874334762805, 16⟩), (59, ⟨331326682712445284, 15⟩), (61, ⟨-662653365424890569, 15⟩), (63, ⟨283994299467810244, 15⟩), (78, ⟨-184892122049355627, 18⟩), (80, ⟨118330958111587602, 16⟩), (82, ⟨-828316706781113211, 16⟩), (84, ⟨132530673084978114, 15⟩), (86, ⟨-473323832446350406, 16⟩), (93, ⟨314316607483904567, 17⟩), (98, ⟨-220021625238733197, 16⟩), (100, ⟨-502906571974247307, 16⟩), (107, ⟨-691496536464590047, 16⟩), (109, ⟨402325257579397845, 15⟩), (111, ⟨140813840152789246, 15⟩), (120, ⟨-440043250477466393, 16⟩), (122, ⟨70406920076394623, 14⟩), (124, ⟨-126732456137510321, 14⟩), (126, ⟨-804650515158795691, 16⟩), (137, ⟨157158303741952283, 16⟩), (141, ⟨-70406920076394623, 14⟩), (143, ⟨804650515158795691, 15⟩), (158, ⟨157158303741952283, 16⟩), (160, ⟨-251453285987123653, 15⟩), (162, ⟨70406920076394623, 14⟩), (164, ⟨-402325257579397845, 15⟩)],
  [(2, ⟨-201693493170051083, 17⟩), (7, ⟨141185445219035758, 16⟩), (9, ⟨322709589072081732, 16⟩), (16, ⟨443725684974112382, 16⟩), (18, ⟨-258167671257665386, 15⟩), (20, ⟨-90358684940182885, 15⟩), (29, ⟨282370890438071516, 16⟩), (31, ⟨-451793424700914425, 15⟩), (33, ⟨813228164461645965, 15⟩), (35, ⟨516335342515330771, 16⟩), (46, ⟨-100846746585025541, 16⟩), (50, ⟨451793424700914425, 15⟩), (52, ⟨-516335342515330771, 15⟩), (67, ⟨-100846746585025541, 16⟩), (69, ⟨161354794536040866, 15⟩), (71, ⟨-451793424700914425, 15⟩), (73, ⟨258167671257665386, 15⟩), (91, ⟨-288133561671501547, 18⟩), (94, ⟨345760274005801856, 17⟩), (96, ⟨155592123302610835, 16⟩), (101, ⟨777960616513054176, 17⟩), (103, ⟨-202269760293394086, 15⟩), (105, ⟨-829824657613924454, 16⟩), (114, ⟨-217828972623655169, 15⟩), (116, ⟨116175452065949424, 14⟩), (118, ⟨774503013772996157, 16⟩), (127, ⟨-777960616513054176, 17⟩), (129, ⟨217828972623655169, 15⟩), (133, ⟨-116175452065949424, 14⟩), (146, ⟨-345760274005801856, 17⟩), (148, ⟨202269760293394086, 15⟩), (150, ⟨-116175452065949424, 14⟩), (152, ⟨116175452065949424, 14⟩), (169, ⟨288133561671501547, 18⟩), (171, ⟨-155592123302610835, 16⟩), (173, ⟨829824657613924454, 16⟩), (175, ⟨-774503013772996157, 16⟩)],
  [(0, ⟨166353989393607054, 18⟩), (3, ⟨-199624787272328465, 17⟩), (5, ⟨-898311542725478094, 17⟩), (10, ⟨-449155771362739047, 17⟩), (12, ⟨116780500554312152, 15⟩), (14, ⟨479099489453588317, 16⟩), (23, ⟨125763615981566933, 15⟩), (25, ⟨-670739285235023644, 15⟩), (27, ⟨-447159523490015762, 16⟩), (36, ⟨449155771362739047, 17⟩), (38, ⟨-125763615981566933, 15⟩), (42, ⟨670739285235023644, 15⟩), (55, ⟨199624787272328465, 17⟩), (57, ⟨-116780500554312152, 15⟩), (59, ⟨670739285235023644, 15⟩), (61, ⟨-670739285235023644, 15⟩), (78, ⟨-166353989393607054, 18⟩), (80, ⟨898311542725478094, 17⟩), (82, ⟨-479099489453588317, 16⟩), (84, ⟨447159523490015762, 16⟩), (93, ⟨-316072579847853403, 17⟩), (98, ⟨600537901710921467, 16⟩), (100, ⟨379287095817424084, 16⟩), (107, ⟨189643547908712042, 16⟩), (109, ⟨-758574191634848168, 15⟩), (111, ⟨-606859353307878535, 16⟩), (120, ⟨-132750483536098429, 15⟩), (122, ⟨531001934144393718, 15⟩), (124, ⟨127440464194654492, 14⟩), (137, ⟨-663752417680492147, 16⟩), (139, ⟨106200386828878744, 14⟩), (141, ⟨-212400773657757487, 14⟩), (158, ⟨221250805893497382, 16⟩), (160, ⟨-265500967072196859, 15⟩), (162, ⟨424801547315514974, 15⟩)],
  [(2, ⟨16214181230580196, 16⟩), (7, ⟨-308069443381023724, 16⟩), (9, ⟨-194570174766962352, 16⟩), (16, ⟨-972850873834811761, 17⟩), (18, ⟨389140349533924704, 15⟩), (20, ⟨311312279627139763, 16⟩), (29, ⟨680995611684368233, 16⟩), (31, ⟨-272398244673747293, 15⟩), (33, ⟨-653755787216993503, 15⟩), (46, ⟨340497805842184116, 16⟩), (48, ⟨-544796489347494586, 15⟩), (50, ⟨108959297869498917, 14⟩), (67, ⟨-113499268614061372, 16⟩), (69, ⟨136199122336873647, 15⟩), (71, ⟨-217918595738997834, 15⟩), (91, ⟨32428362461160392, 17⟩), (94, ⟨-843137423990170193, 17⟩), (96, ⟨-129713449844641568, 16⟩), (101, ⟨48642543691740588, 16⟩), (103, ⟨350226314580532234, 15⟩), (105, ⟨389140349533924704, 16⟩), (112, ⟨272398244673747293, 16⟩), (114, ⟨-544796489347494586, 15⟩), (116, ⟨-108959297869498917, 14⟩), (127, ⟨48642543691740588, 16⟩), (129, ⟨-544796489347494586, 15⟩), (131, ⟨272398244673747293, 14⟩), (146, ⟨-843137423990170193, 17⟩), (148, ⟨350226314580532234, 15⟩), (150, ⟨-108959297869498917, 14⟩), (169, ⟨32428362461160392, 17⟩), (171, ⟨-129713449844641568, 16⟩), (173, ⟨389140349533924704, 16⟩)],
  [(0, ⟨-145024045724314041, 18⟩), (3, ⟨377062518883216506, 17⟩), (5, ⟨580096182897256162, 17⟩), (10, ⟨-217536068586471061, 17⟩), (12, ⟨-156625969382259164, 15⟩), (14, ⟨-174028854869176849, 16⟩), (21, ⟨-121820198408423794, 16⟩), (23, ⟨243640396816847588, 15⟩), (25, ⟨487280793633695176, 15⟩), (36, ⟨-217536068586471061, 17⟩), (38, ⟨243640396816847588, 15⟩), (40, ⟨-121820198408423794, 14⟩), (55, ⟨377062518883216506, 17⟩), (57, ⟨-156625969382259164, 15⟩), (59, ⟨487280793633695176, 15⟩), (78, ⟨-145024045724314041, 18⟩), (80, ⟨580096182897256162, 17⟩), (82, ⟨-174028854869176849, 16⟩), (93, ⟨304550496021059485, 17⟩), (98, ⟨-10659267360737082, 14⟩), (100, ⟨-203033664014039657, 16⟩), (107, ⟨274095446418953537, 15⟩), (109, ⟨730921190450542765, 15⟩), (120, ⟨127911208328844984, 15⟩), (122, ⟨-255822416657689968, 14⟩), (137, ⟨-228412872015794614, 15⟩), (139, ⟨170548277771793312, 14⟩), (158, ⟨274095446418953537, 16⟩), (160, ⟨-182730297612635691, 15⟩)],
  [(2, ⟨-115109267733298502, 17⟩), (7, ⟨402882437066544757, 16⟩), (9, ⟨767395118221990013, 17⟩), (16, ⟨-103598340959968652, 15⟩), (18, ⟨-276262242559916405, 15⟩), (29, ⟨-483458924479853708, 16⟩), (31, ⟨966917848959707416, 15⟩), (46, ⟨863319507999738764, 16⟩), (48, ⟨-644611899306471611, 15⟩), (67, ⟨-103598340959968652, 16⟩), (69, ⟨690655606399791011, 16⟩), (91, ⟨-383697559110995006, 18⟩), (94, ⟨168826926008837803, 16⟩), (96, ⟨844134630044189014, 17⟩), (101, ⟨-63310097253314176, 15⟩), (103, ⟨-379860583519885056, 15⟩), (114, ⟨177268272309279693, 14⟩), (127, ⟨63310097253314176, 15⟩), (129, ⟨-177268272309279693, 14⟩), (146, ⟨-168826926008837803, 16⟩), (148, ⟨379860583519885056, 15⟩), (169, ⟨383697559110995006, 18⟩), (171, ⟨-844134630044189014, 17⟩)],
  [(0, ⟨115689166958762041, 18⟩), (3, ⟨-509032334618552982, 17⟩), (5, ⟨-254516167309276491, 17⟩), (10, ⟨190887125481957368, 16⟩), (12, ⟨114532275289174421, 15⟩), (23, ⟨-534483951349480631, 15⟩), (36, ⟨-190887125481957368, 16⟩), (38, ⟨534483951349480631, 15⟩), (55, ⟨509032334618552982, 17⟩), (57, ⟨-114532275289174421, 15⟩), (78, ⟨-115689166958762041, 18⟩), (80, ⟨254516167309276491, 17⟩), (93, ⟨-266085084005152695, 17⟩), (98, ⟨146346796202833982, 15⟩), (107, ⟨-878080777217003893, 15⟩), (120, ⟨122931308810380545, 14⟩), (137, ⟨-439040388608501947, 15⟩), (158, ⟨292693592405667964, 16⟩)],
  [(2, ⟨554825753806619302, 18⟩), (7, ⟨-305154164593640616, 16⟩), (16, ⟨18309249875618437, 14⟩), (29, ⟨-256329498258658117, 15⟩), (46, ⟨915462493780921848, 16⟩), (67, ⟨-610308329187281232, 17⟩), (91, ⟨554825753806619302, 18⟩), (94, ⟨-366184997512368739, 16⟩), (101, ⟨274638748134276554, 15⟩), (112, ⟨-512658996517316235, 15⟩), (127, ⟨274638748134276554, 15⟩), (146, ⟨-366184997512368739, 16⟩), (169, ⟨554825753806619302, 18⟩)],
  [(91, ⟨566266663742191171, 18⟩), (94, ⟨-373735998069846173, 16⟩), (101, ⟨28030199855238463, 14⟩), (112, ⟨-523230397297784642, 15⟩), (127, ⟨28030199855238463, 14⟩), (146, ⟨-373735998069846173, 16⟩), (169, ⟨566266663742191171, 18⟩)],
  [(0, ⟨113253332748438234, 18⟩), (3, ⟨-747471996139692346, 17⟩), (10, ⟨560603997104769259, 16⟩), (21, ⟨-104646079459556928, 15⟩), (36, ⟨560603997104769259, 16⟩), (55, ⟨-747471996139692346, 17⟩), (78, ⟨113253332748438234, 18⟩), (93, ⟨271807998596251762, 17⟩), (98, ⟨-149494399227938469, 15⟩), (107, ⟨896966395367630815, 15⟩), (120, ⟨-125575295351468314, 14⟩), (137, ⟨448483197683815407, 15⟩), (158, ⟨-298988798455876938, 16⟩)],
  [(2, ⟨784642105787196884, 18⟩), (7, ⟨-431553158182958286, 16⟩), (16, ⟨258931894909774972, 15⟩), (29, ⟨-36250465287368496, 14⟩), (46, ⟨129465947454887486, 15⟩), (67, ⟨-863106316365916572, 17⟩), (91, ⟨-392321052893598442, 18⟩), (94, ⟨172621263273183314, 16⟩), (96, ⟨863106316365916572, 17⟩), (101, ⟨-647329737274437429, 16⟩), (103, ⟨-388397842364662457, 15⟩), (114, ⟨18125232643684248, 13⟩), (127, ⟨647329737274437429, 16⟩), (129, ⟨-18125232643684248, 13⟩), (146, ⟨-172621263273183314, 16⟩), (148, ⟨388397842364662457, 15⟩), (169, ⟨392321052893598442, 18⟩), (171, ⟨-863106316365916572, 17⟩)],
  [(0, ⟨-141689713908309089, 18⟩), (3, ⟨623434741196559994, 17⟩), (5, ⟨311717370598279997, 17⟩), (10, ⟨-233788027948709998, 16⟩), (12, ⟨-140272816769225999, 15⟩), (23, ⟨654606478256387993, 15⟩), (36, ⟨233788027948709998, 16⟩), (38, ⟨-654606478256387993, 15⟩), (55, ⟨-623434741196559994, 17⟩), (57, ⟨140272816769225999, 15⟩), (78, ⟨141689713908309089, 18⟩), (80, ⟨-311717370598279997, 17⟩), (93, ⟨-311717370598279997, 17⟩), (98, ⟨109101079709397999, 15⟩), (100, ⟨207811580398853331, 16⟩), (107, ⟨-280545633538451997, 15⟩), (109, ⟨-748121689435871992, 15⟩), (120, ⟨-130921295651277599, 15⟩), (122, ⟨261842591302555197, 14⟩), (137, ⟨233788027948709998, 15⟩), (139, ⟨-174561727535036798, 14⟩), (158, ⟨-280545633538451997, 16⟩), (160, ⟨187030422358967998, 15⟩)],
  [(2, ⟨-132916733424081186, 17⟩), (7, ⟨465208566984284153, 16⟩), (9, ⟨886111556160541243, 17⟩), (16, ⟨-119625060081673068, 15⟩), (18, ⟨-319000160217794847, 15⟩), (29, ⟨-558250280381140983, 16⟩), (31, ⟨111650056076228197, 14⟩), (46, ⟨996875500680608898, 16⟩), (48, ⟨-744333707174854644, 15⟩), (67, ⟨-119625060081673068, 16⟩), (69, ⟨797500400544487119, 16⟩), (91, ⟨332291833560202966, 18⟩), (94, ⟨-863958767256527712, 17⟩), (96, ⟨-132916733424081186, 16⟩), (101, ⟨498437750340304449, 17⟩), (103, ⟨358875180245019203, 15⟩), (105, ⟨398750200272243559, 16⟩), (112, ⟨279125140190570492, 16⟩), (114, ⟨-558250280381140983, 15⟩), (116, ⟨-111650056076228197, 14⟩), (127, ⟨498437750340304449, 17⟩), (129, ⟨-558250280381140983, 15⟩), (131, ⟨279125140190570492, 14⟩), (146, ⟨-863958767256527712, 17⟩), (148, ⟨358875180245019203, 15⟩), (150, ⟨-111650056076228197, 14⟩), (169, ⟨332291833560202966, 18⟩), (171, ⟨-132916733424081186, 16⟩), (173, ⟨398750200272243559, 16⟩)],
  [(0, ⟨16214181230580196, 17⟩), (3, ⟨-421568711995085096, 17⟩), (5, ⟨-648567249223207841, 17⟩), (10, ⟨24321271845870294, 16⟩), (12, ⟨175113157290266117, 15⟩), (14, ⟨194570174766962352, 16⟩), (21, ⟨136199122336873647, 16⟩), (23, ⟨-272398244673747293, 15⟩), (25, ⟨-544796489347494586, 15⟩), (36, ⟨24321271845870294, 16⟩), (38, ⟨-272398244673747293, 15⟩), (40, ⟨136199122336873647, 14⟩), (55, ⟨-421568711995085096, 17⟩), (57, ⟨175113157290266117, 15⟩), (59, ⟨-544796489347494586, 15⟩), (78, ⟨16214181230580196, 17⟩), (80, ⟨-648567249223207841, 17⟩), (82, ⟨194570174766962352, 16⟩), (93, ⟨32428362461160392, 16⟩), (98, ⟨-616138886762047449, 16⟩), (100, ⟨-389140349533924704, 16⟩), (107, ⟨-194570174766962352, 16⟩), (109, ⟨778280699067849409, 15⟩), (111, ⟨622624559254279527, 16⟩), (120, ⟨136199122336873647, 15⟩), (122, ⟨-544796489347494586, 15⟩), (124, ⟨-130751157443398701, 14⟩), (137, ⟨680995611684368233, 16⟩), (139, ⟨-108959297869498917, 14⟩), (141, ⟨217918595738997834, 14⟩), (158, ⟨-226998537228122744, 16⟩), (160, ⟨272398244673747293, 15⟩), (162, ⟨-435837191477995669, 15⟩)],
  [(2, ⟨177617456229312929, 17⟩), (7, ⟨-337473166835694566, 16⟩), (9, ⟨-213140947475175515, 16⟩), (16, ⟨-106570473737587758, 16⟩), (18, ⟨426281894950351031, 15⟩), (20, ⟨341025515960280824, 16⟩), (29, ⟨745993316163114303, 16⟩), (31, ⟨-298397326465245721, 15⟩), (33, ⟨-716153583516589731, 15⟩), (46, ⟨372996658081557152, 16⟩), (48, ⟨-596794652930491443, 15⟩), (50, ⟨119358930586098289, 14⟩), (67, ⟨-124332219360519051, 16⟩), (69, ⟨149198663232622861, 15⟩), (71, ⟨-238717861172196577, 15⟩), (91, ⟨-296029093715521549, 18⟩), (94, ⟨355234912458625859, 17⟩), (96, ⟨159855710606381636, 16⟩), (101, ⟨799278553031908182, 17⟩), (103, ⟨-207812423788296127, 15⟩), (105, ⟨-852563789900702061, 16⟩), (114, ⟨-223797994848934291, 15⟩), (116, ⟨119358930586098289, 14⟩), (118, ⟨795726203907321924, 16⟩), (127, ⟨-799278553031908182, 17⟩), (129, ⟨223797994848934291, 15⟩), (133, ⟨-119358930586098289, 14⟩), (146, ⟨-355234912458625859, 17⟩), (148, ⟨207812423788296127, 15⟩), (150, ⟨-119358930586098289, 14⟩), (152, ⟨119358930586098289, 14⟩), (169, ⟨296029093715521549, 18⟩), (171, ⟨-159855710606381636, 16⟩), (173, ⟨852563789900702061, 16⟩), (175, ⟨-795726203907321924, 16⟩)],
  [(0, ⟨-179682844900943126, 18⟩), (3, ⟨215619413881131751, 17⟩), (5, ⟨97028736246509288, 16⟩), (10, ⟨48514368123254644, 16⟩), (12, ⟨-126137357120462074, 15⟩), (14, ⟨-517486593314716203, 16⟩), (23, ⟨-135840230745113003, 15⟩), (25, ⟨724481230640602684, 15⟩), (27, ⟨482987487093735122, 16⟩), (36, ⟨-48514368123254644, 16⟩), (38, ⟨135840230745113003, 15⟩), (42, ⟨-724481230640602684, 15⟩), (55, ⟨-215619413881131751, 17⟩), (57, ⟨126137357120462074, 15⟩), (59, ⟨-724481230640602684, 15⟩), (61, ⟨724481230640602684, 15⟩), (78, ⟨179682844900943126, 18⟩), (80, ⟨-97028736246509288, 16⟩), (82, ⟨517486593314716203, 16⟩), (84, ⟨-482987487093735122, 16⟩), (93, ⟨-323429120821697627, 17⟩), (98, ⟨226400384575188339, 16⟩), (100, ⟨517486593314716203, 16⟩), (107, ⟨711544065807734779, 16⟩), (109, ⟨-413989274651772962, 15⟩), (111, ⟨-144896246128120537, 15⟩), (120, ⟨452800769150376677, 16⟩), (122, ⟨-724481230640602684, 15⟩), (124, ⟨130406621515308483, 14⟩), (126, ⟨827978549303545924, 16⟩), (137, ⟨-161714560410848813, 16⟩), (141, ⟨724481230640602684, 15⟩), (143, ⟨-827978549303545924, 15⟩), (158, ⟨-161714560410848813, 16⟩), (160, ⟨258743296657358101, 15⟩), (162, ⟨-724481230640602684, 15⟩), (164, ⟨413989274651772962, 15⟩)],
  [(2, ⟨-215619413881131751, 17⟩), (7, ⟨150933589716792226, 16⟩), (9, ⟨344991062209810802, 16⟩), (16, ⟨474362710538489852, 16⟩), (18, ⟨-275992849767848641, 15⟩), (20, ⟨-965974974187470245, 16⟩), (29, ⟨301867179433584452, 16⟩), (31, ⟨-482987487093735122, 15⟩), (33, ⟨86937747676872322, 14⟩), (35, ⟨551985699535697283, 16⟩), (46, ⟨-107809706940565876, 16⟩), (50, ⟨482987487093735122, 15⟩), (52, ⟨-551985699535697283, 15⟩), (67, ⟨-107809706940565876, 16⟩), (69, ⟨172495531104905401, 15⟩), (71, ⟨-482987487093735122, 15⟩), (73, ⟨275992849767848641, 15⟩), (91, ⟨269524267351414689, 18⟩), (94, ⟨-539048534702829378, 18⟩), (96, ⟨-172495531104905401, 16⟩), (101, ⟨-458191254497404971, 17⟩), (103, ⟨517486593314716203, 16⟩), (105, ⟨120746871773433781, 15⟩), (112, ⟨-754667948583961129, 17⟩), (114, ⟨241493743546867561, 15⟩), (116, ⟨-482987487093735122, 15⟩), (118, ⟨-193194994837494049, 15⟩), (127, ⟨-458191254497404971, 17⟩), (129, ⟨241493743546867561, 15⟩), (131, ⟨-120746871773433781, 14⟩), (133, ⟨965974974187470245, 15⟩), (135, ⟨689982124419621604, 16⟩), (146, ⟨-539048534702829378, 18⟩), (148, ⟨517486593314716203, 16⟩), (150, ⟨-482987487093735122, 15⟩), (152, ⟨965974974187470245, 15⟩), (154, ⟨-413989274651772962, 15⟩), (169, ⟨269524267351414689, 18⟩), (171, ⟨-172495531104905401, 16⟩), (173, ⟨120746871773433781, 15⟩), (175, ⟨-193194994837494049, 15⟩), (177, ⟨689982124419621604, 16⟩)],
  [(0, ⟨196107709933605223, 18⟩), (3, ⟨-392215419867210446, 18⟩), (5, ⟨-125508934357507343, 16⟩), (10, ⟨-333383106887128879, 17⟩), (12, ⟨376526803072522028, 16⟩), (14, ⟨878562540502551398, 16⟩), (21, ⟨-549101587814094624, 17⟩), (23, ⟨17571250810051028, 14⟩), (25, ⟨-351425016201020559, 15⟩), (27, ⟨-140570006480408224, 15⟩), (36, ⟨-333383106887128879, 17⟩), (38, ⟨17571250810051028, 14⟩), (40, ⟨-878562540502551398, 15⟩), (42, ⟨702850032402041119, 15⟩), (44, ⟨50203573743002937, 15⟩), (55, ⟨-392215419867210446, 18⟩), (57, ⟨376526803072522028, 16⟩), (59, ⟨-351425016201020559, 15⟩), (61, ⟨702850032402041119, 15⟩), (63, ⟨-301221442458017622, 15⟩), (78, ⟨196107709933605223, 18⟩), (80, ⟨-125508934357507343, 16⟩), (82, ⟨878562540502551398, 16⟩), (84, ⟨-140570006480408224, 15⟩), (86, ⟨50203573743002937, 15⟩), (93, ⟨313772335893768356, 17⟩), (98, ⟨313772335893768356, 17⟩), (100, ⟨-585708360335034265, 16⟩), (107, ⟨-188263401536261014, 16⟩), (111, ⟨210855009720612336, 15⟩), (120, ⟨-439281270251275699, 16⟩), (122, ⟨351425016201020559, 15⟩), (124, ⟨-210855009720612336, 15⟩), (126, ⟨-200814294972011748, 15⟩), (137, ⟨-345149569483145192, 16⟩), (139, ⟨468566688268027412, 15⟩), (141, ⟨-105427504860306168, 14⟩), (143, ⟨401628589944023496, 15⟩), (145, ⟨446253988826692774, 16⟩), (158, ⟨-941317007681305069, 17⟩), (160, ⟨17571250810051028, 14⟩), (162, ⟨-632565029161837007, 15⟩), (164, ⟨602442884916035244, 15⟩), (166, ⟨-133876196648007832, 15⟩)],
  [(2, ⟨248058812043928146, 17⟩), (7, ⟨248058812043928146, 17⟩), (9, ⟨-463043115815332539, 16⟩), (16, ⟨-148835287226356887, 16⟩), (20, ⟨166695521693519714, 15⟩), (29, ⟨-347282336861499404, 16⟩), (31, ⟨277825869489199523, 15⟩), (33, ⟨-166695521693519714, 15⟩), (35, ⟨-158757639708114013, 15⟩), (46, ⟨-27286469324832096, 15⟩), (48, ⟨370434492652266031, 15⟩), (50, ⟨-83347760846759857, 14⟩), (52, ⟨317515279416228027, 15⟩), (54, ⟨35279475490692003, 15⟩), (67, ⟨-744176436131784437, 17⟩), (69, ⟨138912934744599762, 15⟩), (71, ⟨-500086565080559142, 15⟩), (73, ⟨47627291912434204, 14⟩), (75, ⟨-105838426472076009, 15⟩), (91, ⟨-248058812043928146, 18⟩), (94, ⟨-992235248175712583, 18⟩), (96, ⟨173641168430749702, 16⟩), (101, ⟨-124029406021964073, 17⟩), (103, ⟨520923505292249106, 16⟩), (105, ⟨-138912934744599762, 15⟩), (114, ⟨347282336861499404, 16⟩), (116, ⟨-277825869489199523, 15⟩), (118, ⟨277825869489199523, 15⟩), (127, ⟨124029406021964073, 17⟩), (129, ⟨-347282336861499404, 16⟩), (133, ⟨277825869489199523, 15⟩), (135, ⟨-158757639708114013, 15⟩), (146, ⟨992235248175712583, 18⟩), (148, ⟨-520923505292249106, 16⟩), (150, ⟨277825869489199523, 15⟩), (152, ⟨-277825869489199523, 15⟩), (156, ⟨211676852944152018, 16⟩), (169, ⟨248058812043928146, 18⟩), (171, ⟨-173641168430749702, 16⟩), (173, ⟨138912934744599762, 15⟩), (175, ⟨-277825869489199523, 15⟩), (177, ⟨158757639708114013, 15⟩), (179, ⟨-211676852944152018, 16⟩)],
  [(0, ⟨-212424875592775713, 18⟩), (3, ⟨-849699502371102853, 18⟩), (5, ⟨148697412914942999, 16⟩), (10, ⟨-106212437796387857, 17⟩), (12, ⟨446092238744828998, 16⟩), (14, ⟨-118957930331954399, 15⟩), (23, ⟨297394825829885999, 16⟩), (25, ⟨-237915860663908799, 15⟩), (27, ⟨237915860663908799, 15⟩), (36, ⟨106212437796387857, 17⟩), (38, ⟨-297394825829885999, 16⟩), (42, ⟨237915860663908799, 15⟩), (44, ⟨-135951920379376457, 15⟩), (55, ⟨849699502371102853, 18⟩), (57, ⟨-446092238744828998, 16⟩), (59, ⟨237915860663908799, 15⟩), (61, ⟨-237915860663908799, 15⟩), (65, ⟨181269227172501942, 16⟩), (78, ⟨212424875592775713, 18⟩), (80, ⟨-148697412914942999, 16⟩), (82, ⟨118957930331954399, 15⟩), (84, ⟨-237915860663908799, 15⟩), (86, ⟨135951920379376457, 15⟩), (88, ⟨-181269227172501942, 16⟩), (93, ⟨-297394825829885999, 17⟩), (98, ⟨-148697412914942999, 16⟩), (100, ⟨594789651659771997, 16⟩), (107, ⟨-297394825829885999, 16⟩), (109, ⟨237915860663908799, 15⟩), (111, ⟨-237915860663908799, 15⟩), (120, ⟨-297394825829885999, 16⟩), (122, ⟨356873790995863198, 15⟩), (124, ⟨-713747581991726397, 15⟩), (126, ⟨271903840758752913, 15⟩), (137, ⟨-148697412914942999, 16⟩), (139, ⟨237915860663908799, 15⟩), (141, ⟨-713747581991726397, 15⟩), (143, ⟨543807681517505826, 15⟩), (145, ⟨-90634613586250971, 15⟩), (158, ⟨-297394825829885999, 17⟩), (160, ⟨594789651659771997, 16⟩), (162, ⟨-237915860663908799, 15⟩), (164, ⟨271903840758752913, 15⟩), (166, ⟨-90634613586250971, 15⟩), (168, ⟨659160826081825244, 17⟩)],
  [(2, ⟨-27533410732166562, 16⟩), (7, ⟨-13766705366083281, 15⟩), (9, ⟨55066821464333124, 15⟩), (16, ⟨-27533410732166562, 15⟩), (18, ⟨220267285857332496, 15⟩), (20, ⟨-220267285857332496, 15⟩), (29, ⟨-27533410732166562, 15⟩), (31, ⟨330400928785998744, 15⟩), (33, ⟨-660801857571997488, 15⟩), (35, ⟨251734040979808567, 15⟩), (46, ⟨-13766705366083281, 15⟩), (48, ⟨220267285857332496, 15⟩), (50, ⟨-660801857571997488, 15⟩), (52, ⟨503468081959617133, 15⟩), (54, ⟨-839113469932695222, 16⟩), (67, ⟨-27533410732166562, 16⟩), (69, ⟨55066821464333124, 15⟩), (71, ⟨-220267285857332496, 15⟩), (73, ⟨251734040979808567, 15⟩), (75, ⟨-839113469932695222, 16⟩), (77, ⟨610264341769232889, 17⟩), (91, ⟨22944508943472135, 17⟩), (94, ⟨13766705366083281, 16⟩), (96, ⟨-165200464392999372, 16⟩), (101, ⟨344167634152082025, 17⟩), (103, ⟨-826002321964996859, 16⟩), (105, ⟨13766705366083281, 14⟩), (112, ⟨4588901788694427, 15⟩), (114, ⟨-165200464392999372, 15⟩), (116, ⟨55066821464333124, 14⟩), (118, ⟨-293689714476443328, 15⟩), (127, ⟨344167634152082025, 17⟩), (129, ⟨-165200464392999372, 15⟩), (131, ⟨826002321964996859, 15⟩), (133, ⟨-881069143429329983, 15⟩), (135, ⟨188800530734856425, 15⟩), (146, ⟨13766705366083281, 16⟩), (148, ⟨-826002321964996859, 16⟩), (150, ⟨55066821464333124, 14⟩), (152, ⟨-881069143429329983, 15⟩), (154, ⟨37760106146971285, 14⟩), (156, ⟨-335645387973078089, 16⟩), (169, ⟨22944508943472135, 17⟩), (171, ⟨-165200464392999372, 16⟩), (173, ⟨13766705366083281, 14⟩), (175, ⟨-293689714476443328, 15⟩), (177, ⟨188800530734856425, 15⟩), (179, ⟨-335645387973078089, 16⟩), (181, ⟨101710723628205481, 17⟩)],
  [(0, ⟨22944508943472135, 17⟩), (3, ⟨13766705366083281, 16⟩), (5, ⟨-165200464392999372, 16⟩), (10, ⟨344167634152082025, 17⟩), (12, ⟨-826002321964996859, 16⟩), (14, ⟨13766705366083281, 14⟩), (21, ⟨4588901788694427, 15⟩), (23, ⟨-165200464392999372, 15⟩), (25, ⟨55066821464333124, 14⟩), (27, ⟨-293689714476443328, 15⟩), (36, ⟨344167634152082025, 17⟩), (38, ⟨-165200464392999372, 15⟩), (40, ⟨826002321964996859, 15⟩), (42, ⟨-881069143429329983, 15⟩), (44, ⟨188800530734856425, 15⟩), (55, ⟨13766705366083281, 16⟩), (57, ⟨-826002321964996859, 16⟩), (59, ⟨55066821464333124, 14⟩), (61, ⟨-881069143429329983, 15⟩), (63, ⟨37760106146971285, 14⟩), (65, ⟨-335645387973078089, 16⟩), (78, ⟨22944508943472135, 17⟩), (80, ⟨-165200464392999372, 16⟩), (82, ⟨13766705366083281, 14⟩), (84, ⟨-293689714476443328, 15⟩), (86, ⟨188800530734856425, 15⟩), (88, ⟨-335645387973078089, 16⟩), (90, ⟨101710723628205481, 17⟩), (93, ⟨27533410732166562, 16⟩), (98, ⟨13766705366083281, 15⟩), (100, ⟨-55066821464333124, 15⟩), (107, ⟨27533410732166562, 15⟩), (109, ⟨-220267285857332496, 15⟩), (111, ⟨220267285857332496, 15⟩), (120, ⟨27533410732166562, 15⟩), (122, ⟨-330400928785998744, 15⟩), (124, ⟨660801857571997488, 15⟩), (126, ⟨-251734040979808567, 15⟩), (137, ⟨13766705366083281, 15⟩), (139, ⟨-220267285857332496, 15⟩), (141, ⟨660801857571997488, 15⟩), (143, ⟨-503468081959617133, 15⟩), (145, ⟨839113469932695222, 16⟩), (158, ⟨27533410732166562, 16⟩), (160, ⟨-55066821464333124, 15⟩), (162, ⟨220267285857332496, 15⟩), (164, ⟨-251734040979808567, 15⟩), (166, ⟨839113469932695222, 16⟩), (168, ⟨-610264341769232889, 17⟩)],
  [(2, ⟨297394825829885999, 17⟩), (7, ⟨148697412914942999, 16⟩), (9, ⟨-594789651659771997, 16⟩), (16, ⟨297394825829885999, 16⟩), (18, ⟨-237915860663908799, 15⟩), (20, ⟨237915860663908799, 15⟩), (29, ⟨297394825829885999, 16⟩), (31, ⟨-356873790995863198, 15⟩), (33, ⟨713747581991726397, 15⟩), (35, ⟨-271903840758752913, 15⟩), (46, ⟨148697412914942999, 16⟩), (48, ⟨-237915860663908799, 15⟩), (50, ⟨713747581991726397, 15⟩), (52, ⟨-543807681517505826, 15⟩), (54, ⟨90634613586250971, 15⟩), (67, ⟨297394825829885999, 17⟩), (69, ⟨-594789651659771997, 16⟩), (71, ⟨237915860663908799, 15⟩), (73, ⟨-271903840758752913, 15⟩), (75, ⟨90634613586250971, 15⟩), (77, ⟨-659160826081825244, 17⟩), (91, ⟨-212424875592775713, 18⟩), (94, ⟨-849699502371102853, 18⟩), (96, ⟨148697412914942999, 16⟩), (101, ⟨-106212437796387857, 17⟩), (103, ⟨446092238744828998, 16⟩), (105, ⟨-118957930331954399, 15⟩), (114, ⟨297394825829885999, 16⟩), (116, ⟨-237915860663908799, 15⟩), (118, ⟨237915860663908799, 15⟩), (127, ⟨106212437796387857, 17⟩), (129, ⟨-297394825829885999, 16⟩), (133, ⟨237915860663908799, 15⟩), (135, ⟨-135951920379376457, 15⟩), (146, ⟨849699502371102853, 18⟩), (148, ⟨-446092238744828998, 16⟩), (150, ⟨237915860663908799, 15⟩), (152, ⟨-237915860663908799, 15⟩), (156, ⟨181269227172501942, 16⟩), (169, ⟨212424875592775713, 18⟩), (171, ⟨-148697412914942999, 16⟩), (173, ⟨118957930331954399, 15⟩), (175, ⟨-237915860663908799, 15⟩), (177, ⟨135951920379376457, 15⟩), (179, ⟨-181269227172501942, 16⟩)],
  [(0, ⟨-248058812043928146, 18⟩), (3, ⟨-992235248175712583, 18⟩), (5, ⟨173641168430749702, 16⟩), (10, ⟨-124029406021964073, 17⟩), (12, ⟨520923505292249106, 16⟩), (14, ⟨-138912934744599762, 15⟩), (23, ⟨347282336861499404, 16⟩), (25, ⟨-277825869489199523, 15⟩), (27, ⟨277825869489199523, 15⟩), (36, ⟨124029406021964073, 17⟩), (38, ⟨-347282336861499404, 16⟩), (42, ⟨277825869489199523, 15⟩), (44, ⟨-158757639708114013, 15⟩), (55, ⟨992235248175712583, 18⟩), (57, ⟨-520923505292249106, 16⟩), (59, ⟨277825869489199523, 15⟩), (61, ⟨-277825869489199523, 15⟩), (65, ⟨211676852944152018, 16⟩), (78, ⟨248058812043928146, 18⟩), (80, ⟨-173641168430749702, 16⟩), (82, ⟨138912934744599762, 15⟩), (84, ⟨-277825869489199523, 15⟩), (86, ⟨158757639708114013, 15⟩), (88, ⟨-211676852944152018, 16⟩), (93, ⟨-248058812043928146, 17⟩), (98, ⟨-248058812043928146, 17⟩), (100, ⟨463043115815332539, 16⟩), (107, ⟨148835287226356887, 16⟩), (111, ⟨-166695521693519714, 15⟩), (120, ⟨347282336861499404, 16⟩), (122, ⟨-277825869489199523, 15⟩), (124, ⟨166695521693519714, 15⟩), (126, ⟨158757639708114013, 15⟩), (137, ⟨27286469324832096, 15⟩), (139, ⟨-370434492652266031, 15⟩), (141, ⟨83347760846759857, 14⟩), (143, ⟨-317515279416228027, 15⟩), (145, ⟨-35279475490692003, 15⟩), (158, ⟨744176436131784437, 17⟩), (160, ⟨-138912934744599762, 15⟩), (162, ⟨500086565080559142, 15⟩), (164, ⟨-47627291912434204, 14⟩), (166, ⟨105838426472076009, 15⟩)],
  [(2, ⟨-313772335893768356, 17⟩), (7, ⟨-313772335893768356, 17⟩), (9, ⟨585708360335034265, 16⟩), (16, ⟨188263401536261014, 16⟩), (20, ⟨-210855009720612336, 15⟩), (29, ⟨439281270251275699, 16⟩), (31, ⟨-351425016201020559, 15⟩), (33, ⟨210855009720612336, 15⟩), (35, ⟨200814294972011748, 15⟩), (46, ⟨345149569483145192, 16⟩), (48, ⟨-468566688268027412, 15⟩), (50, ⟨105427504860306168, 14⟩), (52, ⟨-401628589944023496, 15⟩), (54, ⟨-446253988826692774, 16⟩), (67, ⟨941317007681305069, 17⟩), (69, ⟨-17571250810051028, 14⟩), (71, ⟨632565029161837007, 15⟩), (73, ⟨-602442884916035244, 15⟩), (75, ⟨133876196648007832, 15⟩), (91, ⟨196107709933605223, 18⟩), (94, ⟨-392215419867210446, 18⟩), (96, ⟨-125508934357507343, 16⟩), (101, ⟨-333383106887128879, 17⟩), (103, ⟨376526803072522028, 16⟩), (105, ⟨878562540502551398, 16⟩), (112, ⟨-549101587814094624, 17⟩), (114, ⟨17571250810051028, 14⟩), (116, ⟨-351425016201020559, 15⟩), (118, ⟨-140570006480408224, 15⟩), (127, ⟨-333383106887128879, 17⟩), (129, ⟨17571250810051028, 14⟩), (131, ⟨-878562540502551398, 15⟩), (133, ⟨702850032402041119, 15⟩), (135, ⟨50203573743002937, 15⟩), (146, ⟨-392215419867210446, 18⟩), (148, ⟨376526803072522028, 16⟩), (150, ⟨-351425016201020559, 15⟩), (152, ⟨702850032402041119, 15⟩), (154, ⟨-301221442458017622, 15⟩), (169, ⟨196107709933605223, 18⟩), (171, ⟨-125508934357507343, 16⟩), (173, ⟨878562540502551398, 16⟩), (175, ⟨-140570006480408224, 15⟩), (177, ⟨50203573743002937, 15⟩)],
  [(0, ⟨269524267351414689, 18⟩), (3, ⟨-539048534702829378, 18⟩), (5, ⟨-172495531104905401, 16⟩), (10, ⟨-458191254497404971, 17⟩), (12, ⟨517486593314716203, 16⟩), (14, ⟨120746871773433781, 15⟩), (21, ⟨-754667948583961129, 17⟩), (23, ⟨241493743546867561, 15⟩), (25, ⟨-482987487093735122, 15⟩), (27, ⟨-193194994837494049, 15⟩), (36, ⟨-458191254497404971, 17⟩), (38, ⟨241493743546867561, 15⟩), (40, ⟨-120746871773433781, 14⟩), (42, ⟨965974974187470245, 15⟩), (44, ⟨689982124419621604, 16⟩), (55, ⟨-539048534702829378, 18⟩), (57, ⟨517486593314716203, 16⟩), (59, ⟨-482987487093735122, 15⟩), (61, ⟨965974974187470245, 15⟩), (63, ⟨-413989274651772962, 15⟩), (78, ⟨269524267351414689, 18⟩), (80, ⟨-172495531104905401, 16⟩), (82, ⟨120746871773433781, 15⟩), (84, ⟨-193194994837494049, 15⟩), (86, ⟨689982124419621604, 16⟩), (93, ⟨215619413881131751, 17⟩), (98, ⟨-150933589716792226, 16⟩), (100, ⟨-344991062209810802, 16⟩), (107, ⟨-474362710538489852, 16⟩), (109, ⟨275992849767848641, 15⟩), (111, ⟨965974974187470245, 16⟩), (120, ⟨-301867179433584452, 16⟩), (122, ⟨482987487093735122, 15⟩), (124, ⟨-86937747676872322, 14⟩), (126, ⟨-551985699535697283, 16⟩), (137, ⟨107809706940565876, 16⟩), (141, ⟨-482987487093735122, 15⟩), (143, ⟨551985699535697283, 15⟩), (158, ⟨107809706940565876, 16⟩), (160, ⟨-172495531104905401, 15⟩), (162, ⟨482987487093735122, 15⟩), (164, ⟨-275992849767848641, 15⟩)],
  [(2, ⟨323429120821697627, 17⟩), (7, ⟨-226400384575188339, 16⟩), (9, ⟨-517486593314716203, 16⟩), (16, ⟨-711544065807734779, 16⟩), (18, ⟨413989274651772962, 15⟩), (20, ⟨144896246128120537, 15⟩), (29, ⟨-452800769150376677, 16⟩), (31, ⟨724481230640602684, 15⟩), (33, ⟨-130406621515308483, 14⟩), (35, ⟨-827978549303545924, 16⟩), (46, ⟨161714560410848813, 16⟩), (50, ⟨-724481230640602684, 15⟩), (52, ⟨827978549303545924, 15⟩), (67, ⟨161714560410848813, 16⟩), (69, ⟨-258743296657358101, 15⟩), (71, ⟨724481230640602684, 15⟩), (73, ⟨-413989274651772962, 15⟩), (91, ⟨-179682844900943126, 18⟩), (94, ⟨215619413881131751, 17⟩), (96, ⟨97028736246509288, 16⟩), (101, ⟨48514368123254644, 16⟩), (103, ⟨-126137357120462074, 15⟩), (105, ⟨-517486593314716203, 16⟩), (114, ⟨-135840230745113003, 15⟩), (116, ⟨724481230640602684, 15⟩), (118, ⟨482987487093735122, 16⟩), (127, ⟨-48514368123254644, 16⟩), (129, ⟨135840230745113003, 15⟩), (133, ⟨-724481230640602684, 15⟩), (146, ⟨-215619413881131751, 17⟩), (148, ⟨126137357120462074, 15⟩), (150, ⟨-724481230640602684, 15⟩), (152, ⟨724481230640602684, 15⟩), (169, ⟨179682844900943126, 18⟩), (171, ⟨-97028736246509288, 16⟩), (173, ⟨517486593314716203, 16⟩), (175, ⟨-482987487093735122, 16⟩)],
  [(0, ⟨-296029093715521549, 18⟩), (3, ⟨355234912458625859, 17⟩), (5, ⟨159855710606381636, 16⟩), (10, ⟨799278553031908182, 17⟩), (12, ⟨-207812423788296127, 15⟩), (14, ⟨-852563789900702061, 16⟩), (23, ⟨-223797994848934291, 15⟩), (25, ⟨119358930586098289, 14⟩), (27, ⟨795726203907321924, 16⟩), (36, ⟨-799278553031908182, 17⟩), (38, ⟨223797994848934291, 15⟩), (42, ⟨-119358930586098289, 14⟩), (55, ⟨-355234912458625859, 17⟩), (57, ⟨207812423788296127, 15⟩), (59, ⟨-119358930586098289, 14⟩), (61, ⟨119358930586098289, 14⟩), (78, ⟨296029093715521549, 18⟩), (80, ⟨-159855710606381636, 16⟩), (82, ⟨852563789900702061, 16⟩), (84, ⟨-795726203907321924, 16⟩), (93, ⟨-177617456229312929, 17⟩), (98, ⟨337473166835694566, 16⟩), (100, ⟨213140947475175515, 16⟩), (107, ⟨106570473737587758, 16⟩), (109, ⟨-426281894950351031, 15⟩), (111, ⟨-341025515960280824, 16⟩), (120, ⟨-745993316163114303, 16⟩), (122, ⟨298397326465245721, 15⟩), (124, ⟨716153583516589731, 15⟩), (137, ⟨-372996658081557152, 16⟩), (139, ⟨596794652930491443, 15⟩), (141, ⟨-119358930586098289, 14⟩), (158, ⟨124332219360519051, 16⟩), (160, ⟨-149198663232622861, 15⟩), (162, ⟨238717861172196577, 15⟩)],
  [(2, ⟨-32428362461160392, 16⟩), (7, ⟨616138886762047449, 16⟩), (9, ⟨389140349533924704, 16⟩), (16, ⟨194570174766962352, 16⟩), (18, ⟨-778280699067849409, 15⟩), (20, ⟨-622624559254279527, 16⟩), (29, ⟨-136199122336873647, 15⟩), (31, ⟨544796489347494586, 15⟩), (33, ⟨130751157443398701, 14⟩), (46, ⟨-680995611684368233, 16⟩), (48, ⟨108959297869498917, 14⟩), (50, ⟨-217918595738997834, 14⟩), (67, ⟨226998537228122744, 16⟩), (69, ⟨-272398244673747293, 15⟩), (71, ⟨435837191477995669, 15⟩), (91, ⟨16214181230580196, 17⟩), (94, ⟨-421568711995085096, 17⟩), (96, ⟨-648567249223207841, 17⟩), (101, ⟨24321271845870294, 16⟩), (103, ⟨175113157290266117, 15⟩), (105, ⟨194570174766962352, 16⟩), (112, ⟨136199122336873647, 16⟩), (114, ⟨-272398244673747293, 15⟩), (116, ⟨-544796489347494586, 15⟩), (127, ⟨24321271845870294, 16⟩), (129, ⟨-272398244673747293, 15⟩), (131, ⟨136199122336873647, 14⟩), (146, ⟨-421568711995085096, 17⟩), (148, ⟨175113157290266117, 15⟩), (150, ⟨-544796489347494586, 15⟩), (169, ⟨16214181230580196, 17⟩), (171, ⟨-648567249223207841, 17⟩), (173, ⟨194570174766962352, 16⟩)],
  [(0, ⟨332291833560202966, 18⟩), (3, ⟨-863958767256527712, 17⟩), (5, ⟨-132916733424081186, 16⟩), (10, ⟨498437750340304449, 17⟩), (12, ⟨358875180245019203, 15⟩), (14, ⟨398750200272243559, 16⟩), (21, ⟨279125140190570492, 16⟩), (23, ⟨-558250280381140983, 15⟩), (25, ⟨-111650056076228197, 14⟩), (36, ⟨498437750340304449, 17⟩), (38, ⟨-558250280381140983, 15⟩), (40, ⟨279125140190570492, 14⟩), (55, ⟨-863958767256527712, 17⟩), (57, ⟨358875180245019203, 15⟩), (59, ⟨-111650056076228197, 14⟩), (78, ⟨332291833560202966, 18⟩), (80, ⟨-132916733424081186, 16⟩), (82, ⟨398750200272243559, 16⟩), (93, ⟨132916733424081186, 17⟩), (98, ⟨-465208566984284153, 16⟩), (100, ⟨-886111556160541243, 17⟩), (107, ⟨119625060081673068, 15⟩), (109, ⟨319000160217794847, 15⟩), (120, ⟨558250280381140983, 16⟩), (122, ⟨-111650056076228197, 14⟩), (137, ⟨-996875500680608898, 16⟩), (139, ⟨744333707174854644, 15⟩), (158, ⟨119625060081673068, 16⟩), (160, ⟨-797500400544487119, 16⟩)],
  [(2, ⟨311717370598279997, 17⟩), (7, ⟨-109101079709397999, 15⟩), (9, ⟨-207811580398853331, 16⟩), (16, ⟨280545633538451997, 15⟩), (18, ⟨748121689435871992, 15⟩), (29, ⟨130921295651277599, 15⟩), (31, ⟨-261842591302555197, 14⟩), (46, ⟨-233788027948709998, 15⟩), (48, ⟨174561727535036798, 14⟩), (67, ⟨280545633538451997, 16⟩), (69, ⟨-187030422358967998, 15⟩), (91, ⟨-141689713908309089, 18⟩), (94, ⟨623434741196559994, 17⟩), (96, ⟨311717370598279997, 17⟩), (101, ⟨-233788027948709998, 16⟩), (103, ⟨-140272816769225999, 15⟩), (114, ⟨654606478256387993, 15⟩), (127, ⟨233788027948709998, 16⟩), (129, ⟨-654606478256387993, 15⟩), (146, ⟨-623434741196559994, 17⟩), (148, ⟨140272816769225999, 15⟩), (169, ⟨141689713908309089, 18⟩), (171, ⟨-311717370598279997, 17⟩)],
  [(0, ⟨-392321052893598442, 18⟩), (3, ⟨172621263273183314, 16⟩), (5, ⟨863106316365916572, 17⟩), (10, ⟨-647329737274437429, 16⟩), (12, ⟨-388397842364662457, 15⟩), (23, ⟨18125232643684248, 13⟩), (36, ⟨647329737274437429, 16⟩), (38, ⟨-18125232643684248, 13⟩), (55, ⟨-172621263273183314, 16⟩), (57, ⟨388397842364662457, 15⟩), (78, ⟨392321052893598442, 18⟩), (80, ⟨-863106316365916572, 17⟩), (93, ⟨-784642105787196884, 18⟩), (98, ⟨431553158182958286, 16⟩), (107, ⟨-258931894909774972, 15⟩), (120, ⟨36250465287368496, 14⟩), (137, ⟨-129465947454887486, 15⟩), (158, ⟨863106316365916572, 17⟩)],
  [(2, ⟨-271807998596251762, 17⟩), (7, ⟨149494399227938469, 15⟩), (16, ⟨-896966395367630815, 15⟩), (29, ⟨125575295351468314, 14⟩), (46, ⟨-448483197683815407, 15⟩), (67, ⟨298988798455876938, 16⟩), (91, ⟨113253332748438234, 18⟩), (94, ⟨-747471996139692346, 17⟩), (101, ⟨560603997104769259, 16⟩), (112, ⟨-104646079459556928, 15⟩), (127, ⟨560603997104769259, 16⟩), (146, ⟨-747471996139692346, 17⟩), (169, ⟨113253332748438234, 18⟩)],
  [(0, ⟨566266663742191171, 18⟩), (3, ⟨-373735998069846173, 16⟩), (10, ⟨28030199855238463, 14⟩), (21, ⟨-523230397297784642, 15⟩), (36, ⟨28030199855238463, 14⟩), (55, ⟨-373735998069846173, 16⟩), (78, ⟨566266663742191171, 18⟩)]]

/-- g_trans_cart2jR cut into its parts -/
def cjRowsR : List (List (List (Nat × Dec))) := [cjRowsR0, cjRowsR1, cjRowsR2, cjRowsR3, cjRowsR4, cjRowsR5, cjRowsR6, cjRowsR7, cjRowsR8, cjRowsR9, cjRowsR10, cjRowsR11, cjRowsR12]

/-- The part of g_trans_cart2jI (src/cart2sph.c:2176-3535, PYPZPX not defined) for l = 0: for every row of
2 literals the nonzero ones with their column. -/
def cjRowsI0 : List (List (Nat × Dec)) := [
  [],
  []]

/-- The part of g_trans_cart2jI (src/cart2sph.c:2176-3535, PYPZPX not defined) for l = 1: for every row of
6 literals the nonzero ones with their column. -/
def cjRowsI1 : List (List (Nat × Dec)) := [
  [(1, ⟨577350269189625764, 18⟩)],
  [(4, ⟨-577350269189625764, 18⟩)],
  [(4, ⟨-707106781186547524, 18⟩)],
  [(1, ⟨-408248290463863016, 18⟩)],
  [(4, ⟨-408248290463863016, 18⟩)],
  [(1, ⟨-707106781186547524, 18⟩)]]

/-- The part of g_trans_cart2jI (src/cart2sph.c:2176-3535, PYPZPX not defined) for l = 2: for every row of
12 literals the nonzero ones with their column. -/
def cjRowsI2 : List (List (Nat × Dec)) := [
  [(1, ⟨690988298942670958, 18⟩), (10, ⟨-345494149471335479, 18⟩)],
  [(4, ⟨598413420602149016, 18⟩)],
  [(10, ⟨-598413420602149016, 18⟩)],
  [(4, ⟨345494149471335479, 18⟩), (7, ⟨690988298942670958, 18⟩)],
  [(7, ⟨-772548404046379160, 18⟩)],
  [(1, ⟨-345494149471335479, 18⟩), (10, ⟨-690988298942670958, 18⟩)],
  [(4, ⟨-488602511902919921, 18⟩)],
  [(10, ⟨-488602511902919921, 18⟩)],
  [(4, ⟨-690988298942670958, 18⟩), (7, ⟨345494149471335479, 18⟩)],
  [(1, ⟨772548404046379160, 18⟩)]]

/-- The part of g_trans_cart2jI (src/cart2sph.c:2176-3535, PYPZPX not defined) for l = 3: for every row of
20 literals the nonzero ones with their column. -/
def cjRowsI3 : List (List (Nat × Dec)) := [
  [(1, ⟨1158822606069568741, 18⟩), (6, ⟨-386274202023189580, 18⟩), (14, ⟨-772548404046379160, 18⟩)],
  [(4, ⟨1727470747356677396, 18⟩), (11, ⟨172747074735667739, 18⟩), (16, ⟨172747074735667739, 18⟩), (18, ⟨-690988298942670958, 18⟩)],
  [(1, ⟨-244301255951459960, 18⟩), (6, ⟨-244301255951459960, 18⟩), (8, ⟨977205023805839843, 18⟩)],
  [(11, ⟨244301255951459960, 18⟩), (16, ⟨244301255951459960, 18⟩), (18, ⟨-977205023805839843, 18⟩)],
  [(1, ⟨-172747074735667739, 18⟩), (6, ⟨-172747074735667739, 18⟩), (8, ⟨690988298942670958, 18⟩), (14, ⟨1727470747356677396, 18⟩)],
  [(4, ⟨-772548404046379160, 18⟩), (11, ⟨-1158822606069568741, 18⟩), (16, ⟨386274202023189580, 18⟩)],
  [(11, ⟨-1251671470898352269, 18⟩), (16, ⟨417223823632784089, 18⟩)],
  [(1, ⟨-473087347878780009, 18⟩), (6, ⟨157695782626260003, 18⟩), (14, ⟨-1892349391515120036, 18⟩)],
  [(4, ⟨-1092548430592079070, 18⟩), (11, ⟨273137107648019767, 18⟩), (16, ⟨273137107648019767, 18⟩), (18, ⟨-1092548430592079070, 18⟩)],
  [(1, ⟨211571093830408607, 18⟩), (6, ⟨211571093830408607, 18⟩), (8, ⟨-846284375321634430, 18⟩)],
  [(11, ⟨211571093830408607, 18⟩), (16, ⟨211571093830408607, 18⟩), (18, ⟨-846284375321634430, 18⟩)],
  [(1, ⟨273137107648019767, 18⟩), (6, ⟨273137107648019767, 18⟩), (8, ⟨-1092548430592079070, 18⟩), (14, ⟨1092548430592079070, 18⟩)],
  [(4, ⟨1892349391515120036, 18⟩), (11, ⟨-473087347878780009, 18⟩), (16, ⟨157695782626260003, 18⟩)],
  [(1, ⟨-1251671470898352269, 18⟩), (6, ⟨417223823632784089, 18⟩)]]

/-- The part of g_trans_cart2jI (src/cart2sph.c:2176-3535, PYPZPX not defined) for l = 4: for every row of
30 literals the nonzero ones with their column. -/
def cjRowsI4 : List (List (Nat × Dec)) := [
  [(1, ⟨1668895294531136358, 18⟩), (6, ⟨-1668895294531136358, 18⟩), (19, ⟨-1251671470898352269, 18⟩), (26, ⟨417223823632784089, 18⟩)],
  [(4, ⟨3311611435151460063, 18⟩), (11, ⟨-1103870478383820021, 18⟩), (16, ⟨315391565252520006, 18⟩), (21, ⟨315391565252520006, 18⟩), (23, ⟨-1892349391515120036, 18⟩)],
  [(1, ⟨-546274215296039535, 18⟩), (6, ⟨-546274215296039535, 18⟩), (8, ⟨3277645291776237211, 18⟩), (19, ⟨819411322944059302, 18⟩), (26, ⟨819411322944059302, 18⟩), (28, ⟨-1092548430592079070, 18⟩)],
  [(4, ⟨-1057855469152043038, 18⟩), (11, ⟨-1057855469152043038, 18⟩), (13, ⟨1410473958869390717, 18⟩)],
  [(19, ⟨1057855469152043038, 18⟩), (26, ⟨1057855469152043038, 18⟩), (28, ⟨-1410473958869390717, 18⟩)],
  [(4, ⟨-819411322944059302, 18⟩), (11, ⟨-819411322944059302, 18⟩), (13, ⟨1092548430592079070, 18⟩), (16, ⟨-546274215296039535, 18⟩), (21, ⟨-546274215296039535, 18⟩), (23, ⟨3277645291776237211, 18⟩)],
  [(1, ⟨315391565252520006, 18⟩), (6, ⟨315391565252520006, 18⟩), (8, ⟨-1892349391515120036, 18⟩), (19, ⟨-3311611435151460063, 18⟩), (26, ⟨1103870478383820021, 18⟩)],
  [(4, ⟨1251671470898352269, 18⟩), (11, ⟨-417223823632784089, 18⟩), (16, ⟨1668895294531136358, 18⟩), (21, ⟨-1668895294531136358, 18⟩)],
  [(16, ⟨-1770130769779930531, 18⟩), (21, ⟨1770130769779930531, 18⟩)],
  [(1, ⟨-590043589926643510, 18⟩), (6, ⟨590043589926643510, 18⟩), (19, ⟨-3540261539559861062, 18⟩), (26, ⟨1180087179853287020, 18⟩)],
  [(4, ⟨-1770130769779930531, 18⟩), (11, ⟨590043589926643510, 18⟩), (16, ⟨590043589926643510, 18⟩), (21, ⟨590043589926643510, 18⟩), (23, ⟨-3540261539559861062, 18⟩)],
  [(1, ⟨386274202023189580, 18⟩), (6, ⟨386274202023189580, 18⟩), (8, ⟨-2317645212139137482, 18⟩), (19, ⟨1158822606069568741, 18⟩), (26, ⟨1158822606069568741, 18⟩), (28, ⟨-1545096808092758321, 18⟩)],
  [(4, ⟨946174695757560018, 18⟩), (11, ⟨946174695757560018, 18⟩), (13, ⟨-1261566261010080024, 18⟩)],
  [(19, ⟨946174695757560018, 18⟩), (26, ⟨946174695757560018, 18⟩), (28, ⟨-1261566261010080024, 18⟩)],
  [(4, ⟨1158822606069568741, 18⟩), (11, ⟨1158822606069568741, 18⟩), (13, ⟨-1545096808092758321, 18⟩), (16, ⟨-386274202023189580, 18⟩), (21, ⟨-386274202023189580, 18⟩), (23, ⟨2317645212139137482, 18⟩)],
  [(1, ⟨-590043589926643510, 18⟩), (6, ⟨-590043589926643510, 18⟩), (8, ⟨3540261539559861062, 18⟩), (19, ⟨-1770130769779930531, 18⟩), (26, ⟨590043589926643510, 18⟩)],
  [(4, ⟨-3540261539559861062, 18⟩), (11, ⟨1180087179853287020, 18⟩), (16, ⟨590043589926643510, 18⟩), (21, ⟨-590043589926643510, 18⟩)],
  [(1, ⟨1770130769779930531, 18⟩), (6, ⟨-1770130769779930531, 18⟩)]]

/-- The part of g_trans_cart2jI (src/cart2sph.c:2176-3535, PYPZPX not defined) for l = 5: for every row of
42 literals the nonzero ones with their column. -/
def cjRowsI5 : List (List (Nat × Dec)) := [
  [(1, ⟨2212663462224913163, 18⟩), (6, ⟨-4425326924449826327, 18⟩), (15, ⟨442532692444982632, 18⟩), (25, ⟨-1770130769779930531, 18⟩), (32, ⟨1770130769779930531, 18⟩)],
  [(4, ⟨5310392309339791593, 18⟩), (11, ⟨-5310392309339791593, 18⟩), (22, ⟨442532692444982632, 18⟩), (27, ⟨295021794963321755, 18⟩), (29, ⟨-3540261539559861062, 18⟩), (36, ⟨-147510897481660877, 18⟩), (38, ⟨1180087179853287020, 18⟩)],
  [(1, ⟨-885065384889965265, 18⟩), (6, ⟨-590043589926643510, 18⟩), (8, ⟨7080523079119722124, 18⟩), (15, ⟨295021794963321755, 18⟩), (17, ⟨-2360174359706574041, 18⟩), (25, ⟨1770130769779930531, 18⟩), (32, ⟨1770130769779930531, 18⟩), (34, ⟨-3540261539559861062, 18⟩)],
  [(4, ⟨-2703919414162327062, 18⟩), (11, ⟨-2703919414162327062, 18⟩), (13, ⟨5407838828324654124, 18⟩), (22, ⟨-193137101011594790, 18⟩), (27, ⟨-386274202023189580, 18⟩), (29, ⟨2317645212139137482, 18⟩), (36, ⟨-193137101011594790, 18⟩), (38, ⟨2317645212139137482, 18⟩), (40, ⟨-1545096808092758321, 18⟩)],
  [(1, ⟨236543673939390004, 18⟩), (6, ⟨473087347878780009, 18⟩), (8, ⟨-2838524087272680054, 18⟩), (15, ⟨236543673939390004, 18⟩), (17, ⟨-2838524087272680054, 18⟩), (19, ⟨1892349391515120036, 18⟩)],
  [(22, ⟨-236543673939390004, 18⟩), (27, ⟨-473087347878780009, 18⟩), (29, ⟨2838524087272680054, 18⟩), (36, ⟨-236543673939390004, 18⟩), (38, ⟨2838524087272680054, 18⟩), (40, ⟨-1892349391515120036, 18⟩)],
  [(1, ⟨193137101011594790, 18⟩), (6, ⟨386274202023189580, 18⟩), (8, ⟨-2317645212139137482, 18⟩), (15, ⟨193137101011594790, 18⟩), (17, ⟨-2317645212139137482, 18⟩), (19, ⟨1545096808092758321, 18⟩), (25, ⟨-2703919414162327062, 18⟩), (32, ⟨-2703919414162327062, 18⟩), (34, ⟨5407838828324654124, 18⟩)],
  [(4, ⟨1770130769779930531, 18⟩), (11, ⟨1770130769779930531, 18⟩), (13, ⟨-3540261539559861062, 18⟩), (22, ⟨885065384889965265, 18⟩), (27, ⟨590043589926643510, 18⟩), (29, ⟨-7080523079119722124, 18⟩), (36, ⟨-295021794963321755, 18⟩), (38, ⟨2360174359706574041, 18⟩)],
  [(1, ⟨-442532692444982632, 18⟩), (6, ⟨-295021794963321755, 18⟩), (8, ⟨3540261539559861062, 18⟩), (15, ⟨147510897481660877, 18⟩), (17, ⟨-1180087179853287020, 18⟩), (25, ⟨5310392309339791593, 18⟩), (32, ⟨-5310392309339791593, 18⟩)],
  [(4, ⟨-1770130769779930531, 18⟩), (11, ⟨1770130769779930531, 18⟩), (22, ⟨-2212663462224913163, 18⟩), (27, ⟨4425326924449826327, 18⟩), (36, ⟨-442532692444982632, 18⟩)],
  [(22, ⟨-2320661017204290803, 18⟩), (27, ⟨4641322034408581606, 18⟩), (36, ⟨-464132203440858160, 18⟩)],
  [(1, ⟨-699705623606466358, 18⟩), (6, ⟨1399411247212932717, 18⟩), (15, ⟨-139941124721293271, 18⟩), (25, ⟨-5597644988851730871, 18⟩), (32, ⟨5597644988851730871, 18⟩)],
  [(4, ⟨-2503342941796704538, 18⟩), (11, ⟨2503342941796704538, 18⟩), (22, ⟨938753603173764201, 18⟩), (27, ⟨625835735449176134, 18⟩), (29, ⟨-7510028825390113615, 18⟩), (36, ⟨-312917867724588067, 18⟩), (38, ⟨2503342941796704538, 18⟩)],
  [(1, ⟨541989645495103885, 18⟩), (6, ⟨361326430330069256, 18⟩), (8, ⟨-4335917163960831083, 18⟩), (15, ⟨-180663215165034628, 18⟩), (17, ⟨1445305721320277027, 18⟩), (25, ⟨2890611442640554055, 18⟩), (32, ⟨2890611442640554055, 18⟩), (34, ⟨-5781222885281108110, 18⟩)],
  [(4, ⟨2043970952866564726, 18⟩), (11, ⟨2043970952866564726, 18⟩), (13, ⟨-4087941905733129453, 18⟩), (22, ⟨-255496369108320590, 18⟩), (27, ⟨-510992738216641181, 18⟩), (29, ⟨3065956429299847090, 18⟩), (36, ⟨-255496369108320590, 18⟩), (38, ⟨3065956429299847090, 18⟩), (40, ⟨-2043970952866564726, 18⟩)],
  [(1, ⟨-215933843419584674, 18⟩), (6, ⟨-431867686839169349, 18⟩), (8, ⟨2591206121035016094, 18⟩), (15, ⟨-215933843419584674, 18⟩), (17, ⟨2591206121035016094, 18⟩), (19, ⟨-1727470747356677396, 18⟩)],
  [(22, ⟨-215933843419584674, 18⟩), (27, ⟨-431867686839169349, 18⟩), (29, ⟨2591206121035016094, 18⟩), (36, ⟨-215933843419584674, 18⟩), (38, ⟨2591206121035016094, 18⟩), (40, ⟨-1727470747356677396, 18⟩)],
  [(1, ⟨-255496369108320590, 18⟩), (6, ⟨-510992738216641181, 18⟩), (8, ⟨3065956429299847090, 18⟩), (15, ⟨-255496369108320590, 18⟩), (17, ⟨3065956429299847090, 18⟩), (19, ⟨-2043970952866564726, 18⟩), (25, ⟨-2043970952866564726, 18⟩), (32, ⟨-2043970952866564726, 18⟩), (34, ⟨4087941905733129453, 18⟩)],
  [(4, ⟨-2890611442640554055, 18⟩), (11, ⟨-2890611442640554055, 18⟩), (13, ⟨5781222885281108110, 18⟩), (22, ⟨541989645495103885, 18⟩), (27, ⟨361326430330069256, 18⟩), (29, ⟨-4335917163960831083, 18⟩), (36, ⟨-180663215165034628, 18⟩), (38, ⟨1445305721320277027, 18⟩)],
  [(1, ⟨938753603173764201, 18⟩), (6, ⟨625835735449176134, 18⟩), (8, ⟨-7510028825390113615, 18⟩), (15, ⟨-312917867724588067, 18⟩), (17, ⟨2503342941796704538, 18⟩), (25, ⟨2503342941796704538, 18⟩), (32, ⟨-2503342941796704538, 18⟩)],
  [(4, ⟨5597644988851730871, 18⟩), (11, ⟨-5597644988851730871, 18⟩), (22, ⟨-699705623606466358, 18⟩), (27, ⟨1399411247212932717, 18⟩), (36, ⟨-139941124721293271, 18⟩)],
  [(1, ⟨-2320661017204290803, 18⟩), (6, ⟨4641322034408581606, 18⟩), (15, ⟨-464132203440858160, 18⟩)]]

/-- The part of g_trans_cart2jI (src/cart2sph.c:2176-3535, PYPZPX not defined) for l = 6: for every row of
56 literals the nonzero ones with their column. -/
def cjRowsI6 : List (List (Nat × Dec)) := [
  [(1, ⟨27847932206451498, 16⟩), (6, ⟨-92826440688171665, 16⟩), (15, ⟨27847932206451498, 16⟩), (32, ⟨-23206610172042916, 16⟩), (39, ⟨46413220344085833, 16⟩), (50, ⟨-4641322034408583, 16⟩)],
  [(4, ⟨76967618596711320, 16⟩), (11, ⟨-153935237193422640, 16⟩), (22, ⟨15393523719342264, 16⟩), (29, ⟨5597644988851730, 16⟩), (36, ⟨-55976449888517319, 16⟩), (43, ⟨-5597644988851730, 16⟩), (45, ⟨55976449888517319, 16⟩)],
  [(1, ⟨-12516714708983521, 16⟩), (8, ⟨125167147089835247, 16⟩), (15, ⟨12516714708983521, 16⟩), (17, ⟨-125167147089835247, 16⟩), (32, ⟨28162608095212929, 16⟩), (39, ⟨18775072063475287, 16⟩), (41, ⟨-75100288253901146, 16⟩), (50, ⟨-9387536031737643, 16⟩), (52, ⟨25033429417967050, 16⟩)],
  [(4, ⟨-48779068094559346, 16⟩), (11, ⟨-32519378729706236, 16⟩), (13, ⟨130077514918824946, 16⟩), (22, ⟨16259689364853118, 16⟩), (24, ⟨-43359171639608318, 16⟩), (29, ⟨-3613264303300693, 16⟩), (34, ⟨-7226528606601387, 16⟩), (36, ⟨57812228852811094, 16⟩), (43, ⟨-3613264303300693, 16⟩), (45, ⟨57812228852811094, 16⟩), (47, ⟨-57812228852811094, 16⟩)],
  [(1, ⟨5109927382166413, 16⟩), (6, ⟨10219854764332825, 16⟩), (8, ⟨-81758838114662602, 16⟩), (15, ⟨5109927382166413, 16⟩), (17, ⟨-81758838114662602, 16⟩), (19, ⟨81758838114662602, 16⟩), (32, ⟨-12774818455416030, 16⟩), (39, ⟨-25549636910832061, 16⟩), (41, ⟨51099273821664122, 16⟩), (50, ⟨-12774818455416030, 16⟩), (52, ⟨51099273821664122, 16⟩), (54, ⟨-20439709528665646, 16⟩)],
  [(4, ⟨15115369039370925, 16⟩), (11, ⟨30230738078741850, 16⟩), (13, ⟨-60461476157483700, 16⟩), (22, ⟨15115369039370925, 16⟩), (24, ⟨-60461476157483700, 16⟩), (26, ⟨24184590462993478, 16⟩)],
  [(32, ⟨-15115369039370925, 16⟩), (39, ⟨-30230738078741850, 16⟩), (41, ⟨60461476157483700, 16⟩), (50, ⟨-15115369039370925, 16⟩), (52, ⟨60461476157483700, 16⟩), (54, ⟨-24184590462993478, 16⟩)],
  [(4, ⟨12774818455416030, 16⟩), (11, ⟨25549636910832061, 16⟩), (13, ⟨-51099273821664122, 16⟩), (22, ⟨12774818455416030, 16⟩), (24, ⟨-51099273821664122, 16⟩), (26, ⟨20439709528665646, 16⟩), (29, ⟨5109927382166413, 16⟩), (34, ⟨10219854764332825, 16⟩), (36, ⟨-81758838114662602, 16⟩), (43, ⟨5109927382166413, 16⟩), (45, ⟨-81758838114662602, 16⟩), (47, ⟨81758838114662602, 16⟩)],
  [(1, ⟨-3613264303300693, 16⟩), (6, ⟨-7226528606601387, 16⟩), (8, ⟨57812228852811094, 16⟩), (15, ⟨-3613264303300693, 16⟩), (17, ⟨57812228852811094, 16⟩), (19, ⟨-57812228852811094, 16⟩), (32, ⟨48779068094559346, 16⟩), (39, ⟨32519378729706236, 16⟩), (41, ⟨-130077514918824946, 16⟩), (50, ⟨-16259689364853118, 16⟩), (52, ⟨43359171639608318, 16⟩)],
  [(4, ⟨-28162608095212929, 16⟩), (11, ⟨-18775072063475287, 16⟩), (13, ⟨75100288253901146, 16⟩), (22, ⟨9387536031737643, 16⟩), (24, ⟨-25033429417967050, 16⟩), (29, ⟨-12516714708983521, 16⟩), (36, ⟨125167147089835247, 16⟩), (43, ⟨12516714708983521, 16⟩), (45, ⟨-125167147089835247, 16⟩)],
  [(1, ⟨5597644988851730, 16⟩), (8, ⟨-55976449888517319, 16⟩), (15, ⟨-5597644988851730, 16⟩), (17, ⟨55976449888517319, 16⟩), (32, ⟨-76967618596711320, 16⟩), (39, ⟨153935237193422640, 16⟩), (50, ⟨-15393523719342264, 16⟩)],
  [(4, ⟨23206610172042916, 16⟩), (11, ⟨-46413220344085833, 16⟩), (22, ⟨4641322034408583, 16⟩), (29, ⟨27847932206451498, 16⟩), (34, ⟨-92826440688171665, 16⟩), (43, ⟨27847932206451498, 16⟩)],
  [(29, ⟨-28985046814803979, 16⟩), (34, ⟨96616822716013271, 16⟩), (43, ⟨-28985046814803979, 16⟩)],
  [(1, ⟨-8039005577884609, 16⟩), (6, ⟨26796685259615369, 16⟩), (15, ⟨-8039005577884609, 16⟩), (32, ⟨-80390055778846108, 16⟩), (39, ⟨160780111557692216, 16⟩), (50, ⟨-16078011155769223, 16⟩)],
  [(4, ⟨-32819102842008516, 16⟩), (11, ⟨65638205684017032, 16⟩), (22, ⟨-6563820568401703, 16⟩), (29, ⟨13127641136803401, 16⟩), (36, ⟨-131276411368034029, 16⟩), (43, ⟨-13127641136803401, 16⟩), (45, ⟨131276411368034029, 16⟩)],
  [(1, ⟨6855686991966986, 16⟩), (8, ⟨-68556869919669872, 16⟩), (15, ⟨-6855686991966986, 16⟩), (17, ⟨68556869919669872, 16⟩), (32, ⟨51417652439752395, 16⟩), (39, ⟨34278434959834931, 16⟩), (41, ⟨-137113739839339726, 16⟩), (50, ⟨-17139217479917466, 16⟩), (52, ⟨45704579946446584, 16⟩)],
  [(4, ⟨32519378729706232, 16⟩), (11, ⟨21679585819804159, 16⟩), (13, ⟨-86718343279216636, 16⟩), (22, ⟨-10839792909902080, 16⟩), (24, ⟨28906114426405547, 16⟩), (29, ⟨-5419896454951040, 16⟩), (34, ⟨-10839792909902080, 16⟩), (36, ⟨86718343279216636, 16⟩), (43, ⟨-5419896454951040, 16⟩), (45, ⟨86718343279216636, 16⟩), (47, ⟨-86718343279216636, 16⟩)],
  [(1, ⟨-4039752301426884, 16⟩), (6, ⟨-8079504602853768, 16⟩), (8, ⟨64636036822830141, 16⟩), (15, ⟨-4039752301426884, 16⟩), (17, ⟨64636036822830141, 16⟩), (19, ⟨-64636036822830141, 16⟩), (32, ⟨-16159009205707533, 16⟩), (39, ⟨-32318018411415066, 16⟩), (41, ⟨64636036822830132, 16⟩), (50, ⟨-16159009205707533, 16⟩), (52, ⟨64636036822830132, 16⟩), (54, ⟨-25854414729132049, 16⟩)],
  [(4, ⟨-13994112472129328, 16⟩), (11, ⟨-27988224944258655, 16⟩), (13, ⟨55976449888517310, 16⟩), (22, ⟨-13994112472129328, 16⟩), (24, ⟨55976449888517310, 16⟩), (26, ⟨-22390579955406920, 16⟩)],
  [(32, ⟨-13994112472129328, 16⟩), (39, ⟨-27988224944258655, 16⟩), (41, ⟨55976449888517310, 16⟩), (50, ⟨-13994112472129328, 16⟩), (52, ⟨55976449888517310, 16⟩), (54, ⟨-22390579955406920, 16⟩)],
  [(4, ⟨-16159009205707533, 16⟩), (11, ⟨-32318018411415066, 16⟩), (13, ⟨64636036822830132, 16⟩), (22, ⟨-16159009205707533, 16⟩), (24, ⟨64636036822830132, 16⟩), (26, ⟨-25854414729132049, 16⟩), (29, ⟨4039752301426884, 16⟩), (34, ⟨8079504602853768, 16⟩), (36, ⟨-64636036822830141, 16⟩), (43, ⟨4039752301426884, 16⟩), (45, ⟨-64636036822830141, 16⟩), (47, ⟨64636036822830141, 16⟩)],
  [(1, ⟨5419896454951040, 16⟩), (6, ⟨10839792909902080, 16⟩), (8, ⟨-86718343279216636, 16⟩), (15, ⟨5419896454951040, 16⟩), (17, ⟨-86718343279216636, 16⟩), (19, ⟨86718343279216636, 16⟩), (32, ⟨32519378729706232, 16⟩), (39, ⟨21679585819804159, 16⟩), (41, ⟨-86718343279216636, 16⟩), (50, ⟨-10839792909902080, 16⟩), (52, ⟨28906114426405547, 16⟩)],
  [(4, ⟨51417652439752395, 16⟩), (11, ⟨34278434959834931, 16⟩), (13, ⟨-137113739839339726, 16⟩), (22, ⟨-17139217479917466, 16⟩), (24, ⟨45704579946446584, 16⟩), (29, ⟨-6855686991966986, 16⟩), (36, ⟨68556869919669872, 16⟩), (43, ⟨6855686991966986, 16⟩), (45, ⟨-68556869919669872, 16⟩)],
  [(1, ⟨-13127641136803401, 16⟩), (8, ⟨131276411368034029, 16⟩), (15, ⟨13127641136803401, 16⟩), (17, ⟨-131276411368034029, 16⟩), (32, ⟨-32819102842008516, 16⟩), (39, ⟨65638205684017032, 16⟩), (50, ⟨-6563820568401703, 16⟩)],
  [(4, ⟨-80390055778846108, 16⟩), (11, ⟨160780111557692216, 16⟩), (22, ⟨-16078011155769223, 16⟩), (29, ⟨8039005577884609, 16⟩), (34, ⟨-26796685259615369, 16⟩), (43, ⟨8039005577884609, 16⟩)],
  [(1, ⟨28985046814803979, 16⟩), (6, ⟨-96616822716013271, 16⟩), (15, ⟨28985046814803979, 16⟩)]]

/-- The part of g_trans_cart2jI (src/cart2sph.c:2176-3535, PYPZPX not defined) for l = 7: for every row of
72 literals the nonzero ones with their column. -/
def cjRowsI7 : List (List (Nat × Dec)) := [
  [(1, ⟨33815887950604644, 16⟩), (6, ⟨-169079439753023237, 16⟩), (15, ⟨101447663851813932, 16⟩), (28, ⟨-4830841135800663, 16⟩), (40, ⟨-28985046814803970, 16⟩), (47, ⟨96616822716013235, 16⟩), (58, ⟨-28985046814803970, 16⟩)],
  [(4, ⟨104507072512499910, 16⟩), (11, ⟨-348356908374999676, 16⟩), (22, ⟨104507072512499910, 16⟩), (37, ⟨6699171314903840, 16⟩), (42, ⟨-6699171314903840, 16⟩), (44, ⟨-80390055778846072, 16⟩), (51, ⟨-12058508366826914, 16⟩), (53, ⟨160780111557692145, 16⟩), (64, ⟨1339834262980768, 16⟩), (66, ⟨-16078011155769216, 16⟩)],
  [(1, ⟨-16409551421004256, 16⟩), (6, ⟨16409551421004256, 16⟩), (8, ⟨196914617052051071, 16⟩), (15, ⟨29537192557807663, 16⟩), (17, ⟨-393829234104102142, 16⟩), (28, ⟨-3281910284200851, 16⟩), (30, ⟨39382923410410213, 16⟩), (40, ⟨39382923410410213, 16⟩), (49, ⟨-131276411368034047, 16⟩), (58, ⟨-39382923410410213, 16⟩), (60, ⟨131276411368034047, 16⟩)],
  [(4, ⟨-75412556911636850, 16⟩), (13, ⟨251375189705456172, 16⟩), (22, ⟨75412556911636850, 16⟩), (24, ⟨-251375189705456172, 16⟩), (37, ⟨-5141765243975239, 16⟩), (42, ⟨-8569608739958733, 16⟩), (44, ⟨102835304879504772, 16⟩), (51, ⟨-1713921747991747, 16⟩), (53, ⟨68556869919669845, 16⟩), (55, ⟨-137113739839339726, 16⟩), (64, ⟨1713921747991747, 16⟩), (66, ⟨-34278434959834923, 16⟩), (68, ⟨45704579946446575, 16⟩)],
  [(1, ⟨8129844682426559, 16⟩), (6, ⟨13549741137377600, 16⟩), (8, ⟨-162596893648531164, 16⟩), (15, ⟨2709948227475520, 16⟩), (17, ⟨-108397929099020782, 16⟩), (19, ⟨216795858198041600, 16⟩), (28, ⟨-2709948227475520, 16⟩), (30, ⟨54198964549510391, 16⟩), (32, ⟨-72265286066013861, 16⟩), (40, ⟨-27099482274755200, 16⟩), (47, ⟨-54198964549510400, 16⟩), (49, ⟨144530572132027721, 16⟩), (58, ⟨-27099482274755200, 16⟩), (60, ⟨144530572132027721, 16⟩), (62, ⟨-86718343279216654, 16⟩)],
  [(4, ⟨36357770712841964, 16⟩), (11, ⟨72715541425683927, 16⟩), (13, ⟨-193908110468490449, 16⟩), (22, ⟨36357770712841964, 16⟩), (24, ⟨-193908110468490449, 16⟩), (26, ⟨116344866281094284, 16⟩), (37, ⟨2019876150713442, 16⟩), (42, ⟨6059628452140327, 16⟩), (44, ⟨-48477027617122603, 16⟩), (51, ⟨6059628452140327, 16⟩), (53, ⟨-96954055234245207, 16⟩), (55, ⟨96954055234245207, 16⟩), (64, ⟨2019876150713442, 16⟩), (66, ⟨-48477027617122603, 16⟩), (68, ⟨96954055234245207, 16⟩), (70, ⟨-25854414729132063, 16⟩)],
  [(1, ⟨-2332352078688221, 16⟩), (6, ⟨-6997056236064664, 16⟩), (8, ⟨55976449888517301, 16⟩), (15, ⟨-6997056236064664, 16⟩), (17, ⟨111952899777034602, 16⟩), (19, ⟨-111952899777034602, 16⟩), (28, ⟨-2332352078688221, 16⟩), (30, ⟨55976449888517301, 16⟩), (32, ⟨-111952899777034602, 16⟩), (34, ⟨29854106607209236, 16⟩)],
  [(37, ⟨2332352078688221, 16⟩), (42, ⟨6997056236064664, 16⟩), (44, ⟨-55976449888517301, 16⟩), (51, ⟨6997056236064664, 16⟩), (53, ⟨-111952899777034602, 16⟩), (55, ⟨111952899777034602, 16⟩), (64, ⟨2332352078688221, 16⟩), (66, ⟨-55976449888517301, 16⟩), (68, ⟨111952899777034602, 16⟩), (70, ⟨-29854106607209236, 16⟩)],
  [(1, ⟨-2019876150713442, 16⟩), (6, ⟨-6059628452140327, 16⟩), (8, ⟨48477027617122603, 16⟩), (15, ⟨-6059628452140327, 16⟩), (17, ⟨96954055234245207, 16⟩), (19, ⟨-96954055234245207, 16⟩), (28, ⟨-2019876150713442, 16⟩), (30, ⟨48477027617122603, 16⟩), (32, ⟨-96954055234245207, 16⟩), (34, ⟨25854414729132063, 16⟩), (40, ⟨36357770712841964, 16⟩), (47, ⟨72715541425683927, 16⟩), (49, ⟨-193908110468490449, 16⟩), (58, ⟨36357770712841964, 16⟩), (60, ⟨-193908110468490449, 16⟩), (62, ⟨116344866281094284, 16⟩)],
  [(4, ⟨-27099482274755200, 16⟩), (11, ⟨-54198964549510400, 16⟩), (13, ⟨144530572132027721, 16⟩), (22, ⟨-27099482274755200, 16⟩), (24, ⟨144530572132027721, 16⟩), (26, ⟨-86718343279216654, 16⟩), (37, ⟨-8129844682426559, 16⟩), (42, ⟨-13549741137377600, 16⟩), (44, ⟨162596893648531164, 16⟩), (51, ⟨-2709948227475520, 16⟩), (53, ⟨108397929099020782, 16⟩), (55, ⟨-216795858198041600, 16⟩), (64, ⟨2709948227475520, 16⟩), (66, ⟨-54198964549510391, 16⟩), (68, ⟨72265286066013861, 16⟩)],
  [(1, ⟨5141765243975239, 16⟩), (6, ⟨8569608739958733, 16⟩), (8, ⟨-102835304879504772, 16⟩), (15, ⟨1713921747991747, 16⟩), (17, ⟨-68556869919669845, 16⟩), (19, ⟨137113739839339726, 16⟩), (28, ⟨-1713921747991747, 16⟩), (30, ⟨34278434959834923, 16⟩), (32, ⟨-45704579946446575, 16⟩), (40, ⟨-75412556911636850, 16⟩), (49, ⟨251375189705456172, 16⟩), (58, ⟨75412556911636850, 16⟩), (60, ⟨-251375189705456172, 16⟩)],
  [(4, ⟨39382923410410213, 16⟩), (13, ⟨-131276411368034047, 16⟩), (22, ⟨-39382923410410213, 16⟩), (24, ⟨131276411368034047, 16⟩), (37, ⟨16409551421004256, 16⟩), (42, ⟨-16409551421004256, 16⟩), (44, ⟨-196914617052051071, 16⟩), (51, ⟨-29537192557807663, 16⟩), (53, ⟨393829234104102142, 16⟩), (64, ⟨3281910284200851, 16⟩), (66, ⟨-39382923410410213, 16⟩)],
  [(1, ⟨-6699171314903840, 16⟩), (6, ⟨6699171314903840, 16⟩), (8, ⟨80390055778846072, 16⟩), (15, ⟨12058508366826914, 16⟩), (17, ⟨-160780111557692145, 16⟩), (28, ⟨-1339834262980768, 16⟩), (30, ⟨16078011155769216, 16⟩), (40, ⟨104507072512499910, 16⟩), (47, ⟨-348356908374999676, 16⟩), (58, ⟨104507072512499910, 16⟩)],
  [(4, ⟨-28985046814803970, 16⟩), (11, ⟨96616822716013235, 16⟩), (22, ⟨-28985046814803970, 16⟩), (37, ⟨-33815887950604644, 16⟩), (42, ⟨169079439753023237, 16⟩), (51, ⟨-101447663851813932, 16⟩), (64, ⟨4830841135800663, 16⟩)],
  [(37, ⟨-35002769449938556, 16⟩), (42, ⟨175013847249692773, 16⟩), (51, ⟨-105008308349815653, 16⟩), (64, ⟨5000395635705508, 16⟩)],
  [(1, ⟨-9037676210049984, 16⟩), (6, ⟨45188381050249919, 16⟩), (15, ⟨-27113028630149949, 16⟩), (28, ⟨1291096601435712, 16⟩), (40, ⟨-108452114520599796, 16⟩), (47, ⟨361507048401999356, 16⟩), (58, ⟨-108452114520599796, 16⟩)],
  [(4, ⟨-40991046311514854, 16⟩), (11, ⟨136636821038382852, 16⟩), (22, ⟨-40991046311514854, 16⟩), (37, ⟨17079602629797861, 16⟩), (42, ⟨-17079602629797861, 16⟩), (44, ⟨-204955231557574322, 16⟩), (51, ⟨-30743284733636154, 16⟩), (53, ⟨409910463115148644, 16⟩), (64, ⟨3415920525959572, 16⟩), (66, ⟨-40991046311514863, 16⟩)],
  [(1, ⟨8204775710502128, 16⟩), (6, ⟨-8204775710502128, 16⟩), (8, ⟨-98457308526025535, 16⟩), (15, ⟨-14768596278903832, 16⟩), (17, ⟨196914617052051071, 16⟩), (28, ⟨1640955142100426, 16⟩), (30, ⟨-19691461705205107, 16⟩), (40, ⟨78765846820820427, 16⟩), (49, ⟨-262552822736068094, 16⟩), (58, ⟨-78765846820820427, 16⟩), (60, ⟨262552822736068094, 16⟩)],
  [(4, ⟨45475482864949495, 16⟩), (13, ⟨-151584942883164988, 16⟩), (22, ⟨-45475482864949495, 16⟩), (24, ⟨151584942883164988, 16⟩), (37, ⟨-8526653037178029, 16⟩), (42, ⟨-14211088395296716, 16⟩), (44, ⟨170533060743560583, 16⟩), (51, ⟨-2842217679059343, 16⟩), (53, ⟨113688707162373710, 16⟩), (55, ⟨-227377414324747456, 16⟩), (64, ⟨2842217679059343, 16⟩), (66, ⟨-56844353581186855, 16⟩), (68, ⟨75792471441582485, 16⟩)],
  [(1, ⟨-5748668304937213, 16⟩), (6, ⟨-9581113841562022, 16⟩), (8, ⟨114973366098744254, 16⟩), (15, ⟨-1916222768312404, 16⟩), (17, ⟨76648910732496169, 16⟩), (19, ⟨-153297821464992357, 16⟩), (28, ⟨1916222768312404, 16⟩), (30, ⟨-38324455366248085, 16⟩), (32, ⟨51099273821664122, 16⟩), (40, ⟨-38324455366248107, 16⟩), (47, ⟨-76648910732496214, 16⟩), (49, ⟨204397095286656523, 16⟩), (58, ⟨-38324455366248107, 16⟩), (60, ⟨204397095286656523, 16⟩), (62, ⟨-122638257171993938, 16⟩)],
  [(4, ⟨-29685995477189673, 16⟩), (11, ⟨-59371990954379346, 16⟩), (13, ⟨158325309211678249, 16⟩), (22, ⟨-29685995477189673, 16⟩), (24, ⟨158325309211678249, 16⟩), (26, ⟨-94995185527006960, 16⟩), (37, ⟨2473832956432473, 16⟩), (42, ⟨7421498869297418, 16⟩), (44, ⟨-59371990954379337, 16⟩), (51, ⟨7421498869297418, 16⟩), (53, ⟨-118743981908758673, 16⟩), (55, ⟨118743981908758673, 16⟩), (64, ⟨2473832956432473, 16⟩), (66, ⟨-59371990954379337, 16⟩), (68, ⟨118743981908758673, 16⟩), (70, ⟨-31665061842335653, 16⟩)],
  [(1, ⟨2181715595945335, 16⟩), (6, ⟨6545146787836006, 16⟩), (8, ⟨-52361174302688038, 16⟩), (15, ⟨6545146787836006, 16⟩), (17, ⟨-104722348605376077, 16⟩), (19, ⟨104722348605376077, 16⟩), (28, ⟨2181715595945335, 16⟩), (30, ⟨-52361174302688038, 16⟩), (32, ⟨104722348605376077, 16⟩), (34, ⟨-27925959628100294, 16⟩)],
  [(37, ⟨2181715595945335, 16⟩), (42, ⟨6545146787836006, 16⟩), (44, ⟨-52361174302688038, 16⟩), (51, ⟨6545146787836006, 16⟩), (53, ⟨-104722348605376077, 16⟩), (55, ⟨104722348605376077, 16⟩), (64, ⟨2181715595945335, 16⟩), (66, ⟨-52361174302688038, 16⟩), (68, ⟨104722348605376077, 16⟩), (70, ⟨-27925959628100294, 16⟩)],
  [(1, ⟨2473832956432473, 16⟩), (6, ⟨7421498869297418, 16⟩), (8, ⟨-59371990954379337, 16⟩), (15, ⟨7421498869297418, 16⟩), (17, ⟨-118743981908758673, 16⟩), (19, ⟨118743981908758673, 16⟩), (28, ⟨2473832956432473, 16⟩), (30, ⟨-59371990954379337, 16⟩), (32, ⟨118743981908758673, 16⟩), (34, ⟨-31665061842335653, 16⟩), (40, ⟨29685995477189673, 16⟩), (47, ⟨59371990954379346, 16⟩), (49, ⟨-158325309211678249, 16⟩), (58, ⟨29685995477189673, 16⟩), (60, ⟨-158325309211678249, 16⟩), (62, ⟨94995185527006960, 16⟩)],
  [(4, ⟨38324455366248107, 16⟩), (11, ⟨76648910732496214, 16⟩), (13, ⟨-204397095286656523, 16⟩), (22, ⟨38324455366248107, 16⟩), (24, ⟨-204397095286656523, 16⟩), (26, ⟨122638257171993938, 16⟩), (37, ⟨-5748668304937213, 16⟩), (42, ⟨-9581113841562022, 16⟩), (44, ⟨114973366098744254, 16⟩), (51, ⟨-1916222768312404, 16⟩), (53, ⟨76648910732496169, 16⟩), (55, ⟨-153297821464992357, 16⟩), (64, ⟨1916222768312404, 16⟩), (66, ⟨-38324455366248085, 16⟩), (68, ⟨51099273821664122, 16⟩)],
  [(1, ⟨-8526653037178029, 16⟩), (6, ⟨-14211088395296716, 16⟩), (8, ⟨170533060743560583, 16⟩), (15, ⟨-2842217679059343, 16⟩), (17, ⟨113688707162373710, 16⟩), (19, ⟨-227377414324747456, 16⟩), (28, ⟨2842217679059343, 16⟩), (30, ⟨-56844353581186855, 16⟩), (32, ⟨75792471441582485, 16⟩), (40, ⟨-45475482864949495, 16⟩), (49, ⟨151584942883164988, 16⟩), (58, ⟨45475482864949495, 16⟩), (60, ⟨-151584942883164988, 16⟩)],
  [(4, ⟨-78765846820820427, 16⟩), (13, ⟨262552822736068094, 16⟩), (22, ⟨78765846820820427, 16⟩), (24, ⟨-262552822736068094, 16⟩), (37, ⟨8204775710502128, 16⟩), (42, ⟨-8204775710502128, 16⟩), (44, ⟨-98457308526025535, 16⟩), (51, ⟨-14768596278903832, 16⟩), (53, ⟨196914617052051071, 16⟩), (64, ⟨1640955142100426, 16⟩), (66, ⟨-19691461705205107, 16⟩)],
  [(1, ⟨17079602629797861, 16⟩), (6, ⟨-17079602629797861, 16⟩), (8, ⟨-204955231557574322, 16⟩), (15, ⟨-30743284733636154, 16⟩), (17, ⟨409910463115148644, 16⟩), (28, ⟨3415920525959572, 16⟩), (30, ⟨-40991046311514863, 16⟩), (40, ⟨40991046311514854, 16⟩), (47, ⟨-136636821038382852, 16⟩), (58, ⟨40991046311514854, 16⟩)],
  [(4, ⟨108452114520599796, 16⟩), (11, ⟨-361507048401999356, 16⟩), (22, ⟨108452114520599796, 16⟩), (37, ⟨-9037676210049984, 16⟩), (42, ⟨45188381050249919, 16⟩), (51, ⟨-27113028630149949, 16⟩), (64, ⟨1291096601435712, 16⟩)],
  [(1, ⟨-35002769449938556, 16⟩), (6, ⟨175013847249692773, 16⟩), (15, ⟨-105008308349815653, 16⟩), (28, ⟨5000395635705508, 16⟩)]]

/-- The part of g_trans_cart2jI (src/cart2sph.c:2176-3535, PYPZPX not defined) for l = 8: for every row of
90 literals the nonzero ones with their column. -/
def cjRowsI8 : List (List (Nat × Dec)) := [
  [(1, ⟨400031650856440531, 17⟩), (6, ⟨-280022155599508372, 16⟩), (15, ⟨280022155599508372, 16⟩), (28, ⟨-400031650856440531, 17⟩), (49, ⟨-350027694499385465, 17⟩), (56, ⟨175013847249692732, 16⟩), (67, ⟨-105008308349815639, 16⟩), (82, ⟨500039563570550664, 18⟩)],
  [(4, ⟨135565143150749737, 16⟩), (11, ⟨-677825715753748683, 16⟩), (22, ⟨40669542945224921, 15⟩), (37, ⟨-193664490215356767, 17⟩), (46, ⟨774657960861427067, 18⟩), (51, ⟨-180753524200999649, 17⟩), (53, ⟨-108452114520599789, 16⟩), (60, ⟨-180753524200999649, 17⟩), (62, ⟨361507048401999298, 16⟩), (73, ⟨774657960861427067, 18⟩), (75, ⟨-108452114520599789, 16⟩)],
  [(1, ⟨-204955231557574297, 17⟩), (6, ⟨478228873634340025, 17⟩), (8, ⟨286937324180604015, 16⟩), (15, ⟨478228873634340025, 17⟩), (17, ⟨-956457747268680051, 16⟩), (28, ⟨-204955231557574297, 17⟩), (30, ⟨286937324180604015, 16⟩), (49, ⟨512388078893935741, 17⟩), (56, ⟨-512388078893935741, 17⟩), (58, ⟨-204955231557574297, 16⟩), (67, ⟨-922298542009084335, 17⟩), (69, ⟨409910463115148593, 16⟩), (82, ⟨102477615778787148, 17⟩), (84, ⟨-409910463115148593, 17⟩)],
  [(4, ⟨-106662084236527642, 16⟩), (11, ⟨106662084236527642, 16⟩), (13, ⟨426648336946110567, 16⟩), (22, ⟨191991751625749755, 16⟩), (24, ⟨-853296673892221134, 16⟩), (37, ⟨-213324168473055283, 17⟩), (39, ⟨853296673892221134, 17⟩), (46, ⟨-656382056840170103, 18⟩), (51, ⟨-656382056840170103, 18⟩), (53, ⟨157531693641640825, 16⟩), (60, ⟨656382056840170103, 18⟩), (64, ⟨-262552822736068041, 16⟩), (73, ⟨656382056840170103, 18⟩), (75, ⟨-157531693641640825, 16⟩), (77, ⟨262552822736068041, 16⟩)],
  [(1, ⟨113688707162373734, 17⟩), (6, ⟨113688707162373734, 17⟩), (8, ⟨-272852897189696963, 16⟩), (15, ⟨-113688707162373734, 17⟩), (19, ⟨454754828649494938, 16⟩), (28, ⟨-113688707162373734, 17⟩), (30, ⟨272852897189696963, 16⟩), (32, ⟨-454754828649494938, 16⟩), (49, ⟨-426332651858901504, 17⟩), (56, ⟨-71055441976483584, 16⟩), (58, ⟨284221767905934336, 16⟩), (67, ⟨-142110883952967168, 17⟩), (69, ⟨189481178603956224, 16⟩), (71, ⟨-227377414324747469, 16⟩), (82, ⟨142110883952967168, 17⟩), (84, ⟨-947405893019781121, 17⟩), (86, ⟨757924714415824896, 17⟩)],
  [(4, ⟨632353513543093462, 17⟩), (11, ⟨105392252257182244, 16⟩), (13, ⟨-421569009028728975, 16⟩), (22, ⟨210784504514364487, 17⟩), (24, ⟨-28104600601915265, 15⟩), (26, ⟨33725520722298318, 15⟩), (37, ⟨-210784504514364487, 17⟩), (39, ⟨140523003009576325, 16⟩), (41, ⟨-11241840240766106, 15⟩), (46, ⟨383244553662480886, 18⟩), (51, ⟨114973366098744266, 17⟩), (53, ⟨-114973366098744266, 16⟩), (60, ⟨114973366098744266, 17⟩), (62, ⟨-229946732197488532, 16⟩), (64, ⟨306595642929984709, 16⟩), (73, ⟨383244553662480886, 18⟩), (75, ⟨-114973366098744266, 16⟩), (77, ⟨306595642929984709, 16⟩), (79, ⟨-122638257171993884, 16⟩)],
  [(1, ⟨-49476659128649439, 17⟩), (6, ⟨-148429977385948317, 17⟩), (8, ⟨148429977385948317, 16⟩), (15, ⟨-148429977385948317, 17⟩), (17, ⟨296859954771896634, 16⟩), (19, ⟨-395813273029195512, 16⟩), (28, ⟨-49476659128649439, 17⟩), (30, ⟨148429977385948317, 16⟩), (32, ⟨-395813273029195512, 16⟩), (34, ⟨158325309211678205, 16⟩), (49, ⟨173168306950273036, 17⟩), (56, ⟨519504920850819109, 17⟩), (58, ⟨-138534645560218429, 16⟩), (67, ⟨519504920850819109, 17⟩), (69, ⟨-277069291120436858, 16⟩), (71, ⟨166241574672262115, 16⟩), (82, ⟨173168306950273036, 17⟩), (84, ⟨-138534645560218429, 16⟩), (86, ⟨166241574672262115, 16⟩), (88, ⟨-316650618423356409, 17⟩)],
  [(4, ⟨-196354403635080146, 17⟩), (11, ⟨-589063210905240439, 17⟩), (13, ⟨157083522908064117, 16⟩), (22, ⟨-589063210905240439, 17⟩), (24, ⟨314167045816128234, 16⟩), (26, ⟨-18850022748967694, 15⟩), (37, ⟨-196354403635080146, 17⟩), (39, ⟨157083522908064117, 16⟩), (41, ⟨-18850022748967694, 15⟩), (43, ⟨35904805236128941, 16⟩)],
  [(49, ⟨196354403635080146, 17⟩), (56, ⟨589063210905240439, 17⟩), (58, ⟨-157083522908064117, 16⟩), (67, ⟨589063210905240439, 17⟩), (69, ⟨-314167045816128234, 16⟩), (71, ⟨18850022748967694, 15⟩), (82, ⟨196354403635080146, 17⟩), (84, ⟨-157083522908064117, 16⟩), (86, ⟨18850022748967694, 15⟩), (88, ⟨-35904805236128941, 16⟩)],
  [(4, ⟨-173168306950273036, 17⟩), (11, ⟨-519504920850819109, 17⟩), (13, ⟨138534645560218429, 16⟩), (22, ⟨-519504920850819109, 17⟩), (24, ⟨277069291120436858, 16⟩), (26, ⟨-166241574672262115, 16⟩), (37, ⟨-173168306950273036, 17⟩), (39, ⟨138534645560218429, 16⟩), (41, ⟨-166241574672262115, 16⟩), (43, ⟨316650618423356409, 17⟩), (46, ⟨-49476659128649439, 17⟩), (51, ⟨-148429977385948317, 17⟩), (53, ⟨148429977385948317, 16⟩), (60, ⟨-148429977385948317, 17⟩), (62, ⟨296859954771896634, 16⟩), (64, ⟨-395813273029195512, 16⟩), (73, ⟨-49476659128649439, 17⟩), (75, ⟨148429977385948317, 16⟩), (77, ⟨-395813273029195512, 16⟩), (79, ⟨158325309211678205, 16⟩)],
  [(1, ⟨383244553662480886, 18⟩), (6, ⟨114973366098744266, 17⟩), (8, ⟨-114973366098744266, 16⟩), (15, ⟨114973366098744266, 17⟩), (17, ⟨-229946732197488532, 16⟩), (19, ⟨306595642929984709, 16⟩), (28, ⟨383244553662480886, 18⟩), (30, ⟨-114973366098744266, 16⟩), (32, ⟨306595642929984709, 16⟩), (34, ⟨-122638257171993884, 16⟩), (49, ⟨-632353513543093462, 17⟩), (56, ⟨-105392252257182244, 16⟩), (58, ⟨421569009028728975, 16⟩), (67, ⟨-210784504514364487, 17⟩), (69, ⟨28104600601915265, 15⟩), (71, ⟨-33725520722298318, 15⟩), (82, ⟨210784504514364487, 17⟩), (84, ⟨-140523003009576325, 16⟩), (86, ⟨11241840240766106, 15⟩)],
  [(4, ⟨426332651858901504, 17⟩), (11, ⟨71055441976483584, 16⟩), (13, ⟨-284221767905934336, 16⟩), (22, ⟨142110883952967168, 17⟩), (24, ⟨-189481178603956224, 16⟩), (26, ⟨227377414324747469, 16⟩), (37, ⟨-142110883952967168, 17⟩), (39, ⟨947405893019781121, 17⟩), (41, ⟨-757924714415824896, 17⟩), (46, ⟨113688707162373734, 17⟩), (51, ⟨113688707162373734, 17⟩), (53, ⟨-272852897189696963, 16⟩), (60, ⟨-113688707162373734, 17⟩), (64, ⟨454754828649494938, 16⟩), (73, ⟨-113688707162373734, 17⟩), (75, ⟨272852897189696963, 16⟩), (77, ⟨-454754828649494938, 16⟩)],
  [(1, ⟨-656382056840170103, 18⟩), (6, ⟨-656382056840170103, 18⟩), (8, ⟨157531693641640825, 16⟩), (15, ⟨656382056840170103, 18⟩), (19, ⟨-262552822736068041, 16⟩), (28, ⟨656382056840170103, 18⟩), (30, ⟨-157531693641640825, 16⟩), (32, ⟨262552822736068041, 16⟩), (49, ⟨106662084236527642, 16⟩), (56, ⟨-106662084236527642, 16⟩), (58, ⟨-426648336946110567, 16⟩), (67, ⟨-191991751625749755, 16⟩), (69, ⟨853296673892221134, 16⟩), (82, ⟨213324168473055283, 17⟩), (84, ⟨-853296673892221134, 17⟩)],
  [(4, ⟨-512388078893935741, 17⟩), (11, ⟨512388078893935741, 17⟩), (13, ⟨204955231557574297, 16⟩), (22, ⟨922298542009084335, 17⟩), (24, ⟨-409910463115148593, 16⟩), (37, ⟨-102477615778787148, 17⟩), (39, ⟨409910463115148593, 17⟩), (46, ⟨-204955231557574297, 17⟩), (51, ⟨478228873634340025, 17⟩), (53, ⟨286937324180604015, 16⟩), (60, ⟨478228873634340025, 17⟩), (62, ⟨-956457747268680051, 16⟩), (73, ⟨-204955231557574297, 17⟩), (75, ⟨286937324180604015, 16⟩)],
  [(1, ⟨774657960861427067, 18⟩), (6, ⟨-180753524200999649, 17⟩), (8, ⟨-108452114520599789, 16⟩), (15, ⟨-180753524200999649, 17⟩), (17, ⟨361507048401999298, 16⟩), (28, ⟨774657960861427067, 18⟩), (30, ⟨-108452114520599789, 16⟩), (49, ⟨-135565143150749737, 16⟩), (56, ⟨677825715753748683, 16⟩), (67, ⟨-40669542945224921, 15⟩), (82, ⟨193664490215356767, 17⟩)],
  [(4, ⟨350027694499385465, 17⟩), (11, ⟨-175013847249692732, 16⟩), (22, ⟨105008308349815639, 16⟩), (37, ⟨-500039563570550664, 18⟩), (46, ⟨400031650856440531, 17⟩), (51, ⟨-280022155599508372, 16⟩), (60, ⟨280022155599508372, 16⟩), (73, ⟨-400031650856440531, 17⟩)],
  [(46, ⟨-412343187517827448, 17⟩), (51, ⟨288640231262479213, 16⟩), (60, ⟨-288640231262479213, 16⟩), (73, ⟨412343187517827448, 17⟩)],
  [(1, ⟨-100007912714110133, 17⟩), (6, ⟨70005538899877093, 16⟩), (15, ⟨-70005538899877093, 16⟩), (28, ⟨100007912714110133, 17⟩), (49, ⟨-140011077799754186, 16⟩), (56, ⟨70005538899877093, 15⟩), (67, ⟨-420033233399262558, 16⟩), (82, ⟨200015825428220266, 17⟩)],
  [(4, ⟨-495013912767217325, 17⟩), (11, ⟨247506956383608662, 16⟩), (22, ⟨-148504173830165197, 16⟩), (37, ⟨707162732524596178, 18⟩), (46, ⟨212148819757378853, 17⟩), (51, ⟨-495013912767217325, 17⟩), (53, ⟨-297008347660330395, 16⟩), (60, ⟨-495013912767217325, 17⟩), (62, ⟨99002782553443465, 15⟩), (73, ⟨212148819757378853, 17⟩), (75, ⟨-297008347660330395, 16⟩)],
  [(1, ⟨948758364647699116, 18⟩), (6, ⟨-221376951751129794, 17⟩), (8, ⟨-132826171050677876, 16⟩), (15, ⟨-221376951751129794, 17⟩), (17, ⟨442753903502259587, 16⟩), (28, ⟨948758364647699116, 18⟩), (30, ⟨-132826171050677876, 16⟩), (49, ⟨110688475875564897, 16⟩), (56, ⟨-110688475875564897, 16⟩), (58, ⟨-442753903502259587, 16⟩), (67, ⟨-199239256576016814, 16⟩), (69, ⟨885507807004519175, 16⟩), (82, ⟨221376951751129794, 17⟩), (84, ⟨-885507807004519175, 17⟩)],
  [(4, ⟨591654790557938008, 17⟩), (11, ⟨-591654790557938008, 17⟩), (13, ⟨-236661916223175203, 16⟩), (22, ⟨-106497862300428841, 16⟩), (24, ⟨473323832446350406, 16⟩), (37, ⟨118330958111587602, 17⟩), (39, ⟨-473323832446350406, 17⟩), (46, ⟨-118330958111587602, 17⟩), (51, ⟨-118330958111587602, 17⟩), (53, ⟨283994299467810244, 16⟩), (60, ⟨118330958111587602, 17⟩), (64, ⟨-473323832446350406, 16⟩), (73, ⟨118330958111587602, 17⟩), (75, ⟨-283994299467810244, 16⟩), (77, ⟨473323832446350406, 16⟩)],
  [(1, ⟨-733857449152875582, 18⟩), (6, ⟨-733857449152875582, 18⟩), (8, ⟨17612578779669014, 15⟩), (15, ⟨733857449152875582, 18⟩), (19, ⟨-293542979661150233, 16⟩), (28, ⟨733857449152875582, 18⟩), (30, ⟨-17612578779669014, 15⟩), (32, ⟨293542979661150233, 16⟩), (49, ⟨-660471704237588023, 17⟩), (56, ⟨-110078617372931337, 16⟩), (58, ⟨440314469491725349, 16⟩), (67, ⟨-220157234745862674, 17⟩), (69, ⟨293542979661150233, 16⟩), (71, ⟨-352251575593380279, 16⟩), (82, ⟨220157234745862674, 17⟩), (84, ⟨-146771489830575116, 16⟩), (86, ⟨117417191864460093, 16⟩)],
  [(4, ⟨-467024020848234288, 17⟩), (11, ⟨-77837336808039048, 16⟩), (13, ⟨311349347232156192, 16⟩), (22, ⟨-155674673616078096, 17⟩), (24, ⟨207566231488104128, 16⟩), (26, ⟨-249079477785724953, 16⟩), (37, ⟨155674673616078096, 17⟩), (39, ⟨-103783115744052064, 16⟩), (41, ⟨830264925952416512, 17⟩), (46, ⟨51891557872026032, 17⟩), (51, ⟨155674673616078096, 17⟩), (53, ⟨-155674673616078096, 16⟩), (60, ⟨155674673616078096, 17⟩), (62, ⟨-311349347232156192, 16⟩), (64, ⟨415132462976208256, 16⟩), (73, ⟨51891557872026032, 17⟩), (75, ⟨-155674673616078096, 16⟩), (77, ⟨415132462976208256, 16⟩), (79, ⟨-166052985190483302, 16⟩)],
  [(1, ⟨413951429393932508, 18⟩), (6, ⟨124185428818179752, 17⟩), (8, ⟨-124185428818179752, 16⟩), (15, ⟨124185428818179752, 17⟩), (17, ⟨-248370857636359505, 16⟩), (19, ⟨331161143515146006, 16⟩), (28, ⟨413951429393932508, 18⟩), (30, ⟨-124185428818179752, 16⟩), (32, ⟨331161143515146006, 16⟩), (34, ⟨-132464457406058403, 16⟩), (49, ⟨206975714696966254, 17⟩), (56, ⟨620927144090898762, 17⟩), (58, ⟨-165580571757573003, 16⟩), (67, ⟨620927144090898762, 17⟩), (69, ⟨-331161143515146006, 16⟩), (71, ⟨198696686109087604, 16⟩), (82, ⟨206975714696966254, 17⟩), (84, ⟨-165580571757573003, 16⟩), (86, ⟨198696686109087604, 16⟩), (88, ⟨-378469878303024007, 17⟩)],
  [(4, ⟨185124707101607532, 17⟩), (11, ⟨555374121304822595, 17⟩), (13, ⟨-148099765681286025, 16⟩), (22, ⟨555374121304822595, 17⟩), (24, ⟨-296199531362572051, 16⟩), (26, ⟨17771971881754323, 15⟩), (37, ⟨185124707101607532, 17⟩), (39, ⟨-148099765681286025, 16⟩), (41, ⟨17771971881754323, 15⟩), (43, ⟨-338513750128653772, 17⟩)],
  [(49, ⟨185124707101607532, 17⟩), (56, ⟨555374121304822595, 17⟩), (58, ⟨-148099765681286025, 16⟩), (67, ⟨555374121304822595, 17⟩), (69, ⟨-296199531362572051, 16⟩), (71, ⟨17771971881754323, 15⟩), (82, ⟨185124707101607532, 17⟩), (84, ⟨-148099765681286025, 16⟩), (86, ⟨17771971881754323, 15⟩), (88, ⟨-338513750128653772, 17⟩)],
  [(4, ⟨206975714696966254, 17⟩), (11, ⟨620927144090898762, 17⟩), (13, ⟨-165580571757573003, 16⟩), (22, ⟨620927144090898762, 17⟩), (24, ⟨-331161143515146006, 16⟩), (26, ⟨198696686109087604, 16⟩), (37, ⟨206975714696966254, 17⟩), (39, ⟨-165580571757573003, 16⟩), (41, ⟨198696686109087604, 16⟩), (43, ⟨-378469878303024007, 17⟩), (46, ⟨-413951429393932508, 18⟩), (51, ⟨-124185428818179752, 17⟩), (53, ⟨124185428818179752, 16⟩), (60, ⟨-124185428818179752, 17⟩), (62, ⟨248370857636359505, 16⟩), (64, ⟨-331161143515146006, 16⟩), (73, ⟨-413951429393932508, 18⟩), (75, ⟨124185428818179752, 16⟩), (77, ⟨-331161143515146006, 16⟩), (79, ⟨132464457406058403, 16⟩)],
  [(1, ⟨-51891557872026032, 17⟩), (6, ⟨-155674673616078096, 17⟩), (8, ⟨155674673616078096, 16⟩), (15, ⟨-155674673616078096, 17⟩), (17, ⟨311349347232156192, 16⟩), (19, ⟨-415132462976208256, 16⟩), (28, ⟨-51891557872026032, 17⟩), (30, ⟨155674673616078096, 16⟩), (32, ⟨-415132462976208256, 16⟩), (34, ⟨166052985190483302, 16⟩), (49, ⟨-467024020848234288, 17⟩), (56, ⟨-77837336808039048, 16⟩), (58, ⟨311349347232156192, 16⟩), (67, ⟨-155674673616078096, 17⟩), (69, ⟨207566231488104128, 16⟩), (71, ⟨-249079477785724953, 16⟩), (82, ⟨155674673616078096, 17⟩), (84, ⟨-103783115744052064, 16⟩), (86, ⟨830264925952416512, 17⟩)],
  [(4, ⟨-660471704237588023, 17⟩), (11, ⟨-110078617372931337, 16⟩), (13, ⟨440314469491725349, 16⟩), (22, ⟨-220157234745862674, 17⟩), (24, ⟨293542979661150233, 16⟩), (26, ⟨-352251575593380279, 16⟩), (37, ⟨220157234745862674, 17⟩), (39, ⟨-146771489830575116, 16⟩), (41, ⟨117417191864460093, 16⟩), (46, ⟨733857449152875582, 18⟩), (51, ⟨733857449152875582, 18⟩), (53, ⟨-17612578779669014, 15⟩), (60, ⟨-733857449152875582, 18⟩), (64, ⟨293542979661150233, 16⟩), (73, ⟨-733857449152875582, 18⟩), (75, ⟨17612578779669014, 15⟩), (77, ⟨-293542979661150233, 16⟩)],
  [(1, ⟨118330958111587602, 17⟩), (6, ⟨118330958111587602, 17⟩), (8, ⟨-283994299467810244, 16⟩), (15, ⟨-118330958111587602, 17⟩), (19, ⟨473323832446350406, 16⟩), (28, ⟨-118330958111587602, 17⟩), (30, ⟨283994299467810244, 16⟩), (32, ⟨-473323832446350406, 16⟩), (49, ⟨591654790557938008, 17⟩), (56, ⟨-591654790557938008, 17⟩), (58, ⟨-236661916223175203, 16⟩), (67, ⟨-106497862300428841, 16⟩), (69, ⟨473323832446350406, 16⟩), (82, ⟨118330958111587602, 17⟩), (84, ⟨-473323832446350406, 17⟩)],
  [(4, ⟨110688475875564897, 16⟩), (11, ⟨-110688475875564897, 16⟩), (13, ⟨-442753903502259587, 16⟩), (22, ⟨-199239256576016814, 16⟩), (24, ⟨885507807004519175, 16⟩), (37, ⟨221376951751129794, 17⟩), (39, ⟨-885507807004519175, 17⟩), (46, ⟨-948758364647699116, 18⟩), (51, ⟨221376951751129794, 17⟩), (53, ⟨132826171050677876, 16⟩), (60, ⟨221376951751129794, 17⟩), (62, ⟨-442753903502259587, 16⟩), (73, ⟨-948758364647699116, 18⟩), (75, ⟨132826171050677876, 16⟩)],
  [(1, ⟨-212148819757378853, 17⟩), (6, ⟨495013912767217325, 17⟩), (8, ⟨297008347660330395, 16⟩), (15, ⟨495013912767217325, 17⟩), (17, ⟨-99002782553443465, 15⟩), (28, ⟨-212148819757378853, 17⟩), (30, ⟨297008347660330395, 16⟩), (49, ⟨-495013912767217325, 17⟩), (56, ⟨247506956383608662, 16⟩), (67, ⟨-148504173830165197, 16⟩), (82, ⟨707162732524596178, 18⟩)],
  [(4, ⟨-140011077799754186, 16⟩), (11, ⟨70005538899877093, 15⟩), (22, ⟨-420033233399262558, 16⟩), (37, ⟨200015825428220266, 17⟩), (46, ⟨100007912714110133, 17⟩), (51, ⟨-70005538899877093, 16⟩), (60, ⟨70005538899877093, 16⟩), (73, ⟨-100007912714110133, 17⟩)],
  [(1, ⟨412343187517827448, 17⟩), (6, ⟨-288640231262479213, 16⟩), (15, ⟨288640231262479213, 16⟩), (28, ⟨-412343187517827448, 17⟩)]]

/-- The part of g_trans_cart2jI (src/cart2sph.c:2176-3535, PYPZPX not defined) for l = 9: for every row of
110 literals the nonzero ones with their column. -/
def cjRowsI9 : List (List (Nat × Dec)) := [
  [(1, ⟨463886085957555879, 17⟩), (6, ⟨-43296034689371882, 15⟩), (15, ⟨64944052034057823, 15⟩), (28, ⟨-185554434383022352, 16⟩), (45, ⟨51542898439728431, 17⟩), (59, ⟨-412343187517827448, 17⟩), (66, ⟨288640231262479213, 16⟩), (77, ⟨-288640231262479213, 16⟩), (92, ⟨412343187517827448, 17⟩)],
  [(4, ⟨170013451613987226, 16⟩), (11, ⟨-119009416129791058, 15⟩), (22, ⟨119009416129791058, 15⟩), (37, ⟨-170013451613987226, 16⟩), (56, ⟨875069236248463662, 18⟩), (61, ⟨-350027694499385465, 17⟩), (63, ⟨-140011077799754186, 16⟩), (70, ⟨-175013847249692732, 17⟩), (72, ⟨70005538899877093, 15⟩), (83, ⟨250019781785275332, 17⟩), (85, ⟨-420033233399262558, 16⟩), (100, ⟨-125009890892637666, 18⟩), (102, ⟨200015825428220266, 17⟩)],
  [(1, ⟨-247506956383608662, 17⟩), (6, ⟨99002782553443465, 16⟩), (8, ⟨39601113021377386, 15⟩), (15, ⟨495013912767217325, 17⟩), (17, ⟨-19800556510688693, 14⟩), (28, ⟨-707162732524596178, 17⟩), (30, ⟨118803339064132158, 15⟩), (45, ⟨353581366262298089, 18⟩), (47, ⟨-565730186019676943, 17⟩), (59, ⟨63644645927213656, 16⟩), (66, ⟨-148504173830165197, 16⟩), (68, ⟨-297008347660330395, 16⟩), (77, ⟨-148504173830165197, 16⟩), (79, ⟨99002782553443465, 15⟩), (92, ⟨63644645927213656, 16⟩), (94, ⟨-297008347660330395, 16⟩)],
  [(4, ⟨-142313754697154867, 16⟩), (11, ⟨332065427626694691, 16⟩), (13, ⟨664130855253389381, 16⟩), (22, ⟨332065427626694691, 16⟩), (24, ⟨-221376951751129794, 15⟩), (37, ⟨-142313754697154867, 16⟩), (39, ⟨664130855253389381, 16⟩), (56, ⟨-790631970539749263, 18⟩), (63, ⟨221376951751129794, 16⟩), (70, ⟨221376951751129794, 17⟩), (72, ⟨-221376951751129794, 16⟩), (74, ⟨-442753903502259587, 16⟩), (83, ⟨126501115286359882, 17⟩), (85, ⟨-398478513152033629, 16⟩), (87, ⟨885507807004519175, 16⟩), (100, ⟨-158126394107949853, 18⟩), (102, ⟨442753903502259587, 17⟩), (104, ⟨-885507807004519175, 17⟩)],
  [(1, ⟨147913697639484502, 17⟩), (8, ⟨-414158353390556606, 16⟩), (15, ⟨-414158353390556606, 17⟩), (17, ⟨414158353390556606, 16⟩), (19, ⟨828316706781113211, 16⟩), (28, ⟨-236661916223175203, 17⟩), (30, ⟨74548503610300189, 15⟩), (32, ⟨-165663341356222642, 15⟩), (45, ⟨295827395278969004, 18⟩), (47, ⟨-828316706781113211, 17⟩), (49, ⟨165663341356222642, 16⟩), (59, ⟨-591654790557938008, 17⟩), (66, ⟨-591654790557938008, 17⟩), (68, ⟨473323832446350406, 16⟩), (77, ⟨591654790557938008, 17⟩), (81, ⟨-473323832446350406, 16⟩), (92, ⟨591654790557938008, 17⟩), (94, ⟨-473323832446350406, 16⟩), (96, ⟨473323832446350406, 16⟩)],
  [(4, ⟨954014683898738256, 17⟩), (11, ⟨954014683898738256, 17⟩), (13, ⟨-763211747118990605, 16⟩), (22, ⟨-954014683898738256, 17⟩), (26, ⟨763211747118990605, 16⟩), (37, ⟨-954014683898738256, 17⟩), (39, ⟨763211747118990605, 16⟩), (41, ⟨-763211747118990605, 16⟩), (56, ⟨550393086864656686, 18⟩), (61, ⟨146771489830575116, 17⟩), (63, ⟨-198141511271276407, 16⟩), (70, ⟨110078617372931337, 17⟩), (72, ⟨-330235852118794012, 16⟩), (74, ⟨660471704237588023, 16⟩), (85, ⟨-660471704237588023, 17⟩), (87, ⟨440314469491725349, 16⟩), (89, ⟨-352251575593380279, 16⟩), (100, ⟨-183464362288218895, 18⟩), (102, ⟨660471704237588023, 17⟩), (104, ⟨-220157234745862674, 16⟩), (106, ⟨117417191864460093, 16⟩)],
  [(1, ⟨-77837336808039048, 17⟩), (6, ⟨-207566231488104128, 17⟩), (8, ⟨280214412508940573, 16⟩), (15, ⟨-155674673616078096, 17⟩), (17, ⟨467024020848234288, 16⟩), (19, ⟨-934048041696468576, 16⟩), (30, ⟨934048041696468576, 17⟩), (32, ⟨-622698694464312384, 16⟩), (34, ⟨498158955571449907, 16⟩), (45, ⟨25945778936013016, 17⟩), (47, ⟨-934048041696468576, 17⟩), (49, ⟨311349347232156192, 16⟩), (51, ⟨-166052985190483302, 16⟩), (59, ⟨363240905104182224, 17⟩), (66, ⟨108972271531254667, 16⟩), (68, ⟨-363240905104182224, 16⟩), (77, ⟨108972271531254667, 16⟩), (79, ⟨-726481810208364448, 16⟩), (81, ⟨581185448166691558, 16⟩), (92, ⟨363240905104182224, 17⟩), (94, ⟨-363240905104182224, 16⟩), (96, ⟨581185448166691558, 16⟩), (98, ⟨-166052985190483302, 16⟩)],
  [(4, ⟨-455346572333325759, 17⟩), (11, ⟨-136603971699997728, 16⟩), (13, ⟨455346572333325759, 16⟩), (22, ⟨-136603971699997728, 16⟩), (24, ⟨910693144666651517, 16⟩), (26, ⟨-728554515733321214, 16⟩), (37, ⟨-455346572333325759, 17⟩), (39, ⟨455346572333325759, 16⟩), (41, ⟨-728554515733321214, 16⟩), (43, ⟨208158433066663204, 16⟩), (56, ⟨-206975714696966254, 18⟩), (61, ⟨-827902858787865016, 18⟩), (63, ⟨827902858787865016, 17⟩), (70, ⟨-124185428818179752, 17⟩), (72, ⟨248370857636359505, 16⟩), (74, ⟨-331161143515146006, 16⟩), (83, ⟨-827902858787865016, 18⟩), (85, ⟨248370857636359505, 16⟩), (87, ⟨-662322287030292013, 16⟩), (89, ⟨264928914812116805, 16⟩), (100, ⟨-206975714696966254, 18⟩), (102, ⟨827902858787865016, 17⟩), (104, ⟨-331161143515146006, 16⟩), (106, ⟨264928914812116805, 16⟩), (108, ⟨-378469878303024007, 17⟩)],
  [(1, ⟨231405883877009415, 18⟩), (6, ⟨925623535508037658, 18⟩), (8, ⟨-925623535508037658, 17⟩), (15, ⟨138843530326205649, 17⟩), (17, ⟨-277687060652411297, 16⟩), (19, ⟨370249414203215063, 16⟩), (28, ⟨925623535508037658, 18⟩), (30, ⟨-277687060652411297, 16⟩), (32, ⟨740498828406430127, 16⟩), (34, ⟨-296199531362572051, 16⟩), (45, ⟨231405883877009415, 18⟩), (47, ⟨-925623535508037658, 17⟩), (49, ⟨370249414203215063, 16⟩), (51, ⟨-296199531362572051, 16⟩), (53, ⟨423142187660817215, 17⟩)],
  [(56, ⟨-231405883877009415, 18⟩), (61, ⟨-925623535508037658, 18⟩), (63, ⟨925623535508037658, 17⟩), (70, ⟨-138843530326205649, 17⟩), (72, ⟨277687060652411297, 16⟩), (74, ⟨-370249414203215063, 16⟩), (83, ⟨-925623535508037658, 18⟩), (85, ⟨277687060652411297, 16⟩), (87, ⟨-740498828406430127, 16⟩), (89, ⟨296199531362572051, 16⟩), (100, ⟨-231405883877009415, 18⟩), (102, ⟨925623535508037658, 17⟩), (104, ⟨-370249414203215063, 16⟩), (106, ⟨296199531362572051, 16⟩), (108, ⟨-423142187660817215, 17⟩)],
  [(1, ⟨206975714696966254, 18⟩), (6, ⟨827902858787865016, 18⟩), (8, ⟨-827902858787865016, 17⟩), (15, ⟨124185428818179752, 17⟩), (17, ⟨-248370857636359505, 16⟩), (19, ⟨331161143515146006, 16⟩), (28, ⟨827902858787865016, 18⟩), (30, ⟨-248370857636359505, 16⟩), (32, ⟨662322287030292013, 16⟩), (34, ⟨-264928914812116805, 16⟩), (45, ⟨206975714696966254, 18⟩), (47, ⟨-827902858787865016, 17⟩), (49, ⟨331161143515146006, 16⟩), (51, ⟨-264928914812116805, 16⟩), (53, ⟨378469878303024007, 17⟩), (59, ⟨-455346572333325759, 17⟩), (66, ⟨-136603971699997728, 16⟩), (68, ⟨455346572333325759, 16⟩), (77, ⟨-136603971699997728, 16⟩), (79, ⟨910693144666651517, 16⟩), (81, ⟨-728554515733321214, 16⟩), (92, ⟨-455346572333325759, 17⟩), (94, ⟨455346572333325759, 16⟩), (96, ⟨-728554515733321214, 16⟩), (98, ⟨208158433066663204, 16⟩)],
  [(4, ⟨363240905104182224, 17⟩), (11, ⟨108972271531254667, 16⟩), (13, ⟨-363240905104182224, 16⟩), (22, ⟨108972271531254667, 16⟩), (24, ⟨-726481810208364448, 16⟩), (26, ⟨581185448166691558, 16⟩), (37, ⟨363240905104182224, 17⟩), (39, ⟨-363240905104182224, 16⟩), (41, ⟨581185448166691558, 16⟩), (43, ⟨-166052985190483302, 16⟩), (56, ⟨77837336808039048, 17⟩), (61, ⟨207566231488104128, 17⟩), (63, ⟨-280214412508940573, 16⟩), (70, ⟨155674673616078096, 17⟩), (72, ⟨-467024020848234288, 16⟩), (74, ⟨934048041696468576, 16⟩), (85, ⟨-934048041696468576, 17⟩), (87, ⟨622698694464312384, 16⟩), (89, ⟨-498158955571449907, 16⟩), (100, ⟨-25945778936013016, 17⟩), (102, ⟨934048041696468576, 17⟩), (104, ⟨-311349347232156192, 16⟩), (106, ⟨166052985190483302, 16⟩)],
  [(1, ⟨-550393086864656686, 18⟩), (6, ⟨-146771489830575116, 17⟩), (8, ⟨198141511271276407, 16⟩), (15, ⟨-110078617372931337, 17⟩), (17, ⟨330235852118794012, 16⟩), (19, ⟨-660471704237588023, 16⟩), (30, ⟨660471704237588023, 17⟩), (32, ⟨-440314469491725349, 16⟩), (34, ⟨352251575593380279, 16⟩), (45, ⟨183464362288218895, 18⟩), (47, ⟨-660471704237588023, 17⟩), (49, ⟨220157234745862674, 16⟩), (51, ⟨-117417191864460093, 16⟩), (59, ⟨954014683898738256, 17⟩), (66, ⟨954014683898738256, 17⟩), (68, ⟨-763211747118990605, 16⟩), (77, ⟨-954014683898738256, 17⟩), (81, ⟨763211747118990605, 16⟩), (92, ⟨-954014683898738256, 17⟩), (94, ⟨763211747118990605, 16⟩), (96, ⟨-763211747118990605, 16⟩)],
  [(4, ⟨-591654790557938008, 17⟩), (11, ⟨-591654790557938008, 17⟩), (13, ⟨473323832446350406, 16⟩), (22, ⟨591654790557938008, 17⟩), (26, ⟨-473323832446350406, 16⟩), (37, ⟨591654790557938008, 17⟩), (39, ⟨-473323832446350406, 16⟩), (41, ⟨473323832446350406, 16⟩), (56, ⟨-147913697639484502, 17⟩), (63, ⟨414158353390556606, 16⟩), (70, ⟨414158353390556606, 17⟩), (72, ⟨-414158353390556606, 16⟩), (74, ⟨-828316706781113211, 16⟩), (83, ⟨236661916223175203, 17⟩), (85, ⟨-74548503610300189, 15⟩), (87, ⟨165663341356222642, 15⟩), (100, ⟨-295827395278969004, 18⟩), (102, ⟨828316706781113211, 17⟩), (104, ⟨-165663341356222642, 16⟩)],
  [(1, ⟨790631970539749263, 18⟩), (8, ⟨-221376951751129794, 16⟩), (15, ⟨-221376951751129794, 17⟩), (17, ⟨221376951751129794, 16⟩), (19, ⟨442753903502259587, 16⟩), (28, ⟨-126501115286359882, 17⟩), (30, ⟨398478513152033629, 16⟩), (32, ⟨-885507807004519175, 16⟩), (45, ⟨158126394107949853, 18⟩), (47, ⟨-442753903502259587, 17⟩), (49, ⟨885507807004519175, 17⟩), (59, ⟨-142313754697154867, 16⟩), (66, ⟨332065427626694691, 16⟩), (68, ⟨664130855253389381, 16⟩), (77, ⟨332065427626694691, 16⟩), (79, ⟨-221376951751129794, 15⟩), (92, ⟨-142313754697154867, 16⟩), (94, ⟨664130855253389381, 16⟩)],
  [(4, ⟨63644645927213656, 16⟩), (11, ⟨-148504173830165197, 16⟩), (13, ⟨-297008347660330395, 16⟩), (22, ⟨-148504173830165197, 16⟩), (24, ⟨99002782553443465, 15⟩), (37, ⟨63644645927213656, 16⟩), (39, ⟨-297008347660330395, 16⟩), (56, ⟨247506956383608662, 17⟩), (61, ⟨-99002782553443465, 16⟩), (63, ⟨-39601113021377386, 15⟩), (70, ⟨-495013912767217325, 17⟩), (72, ⟨19800556510688693, 14⟩), (83, ⟨707162732524596178, 17⟩), (85, ⟨-118803339064132158, 15⟩), (100, ⟨-353581366262298089, 18⟩), (102, ⟨565730186019676943, 17⟩)],
  [(1, ⟨-875069236248463662, 18⟩), (6, ⟨350027694499385465, 17⟩), (8, ⟨140011077799754186, 16⟩), (15, ⟨175013847249692732, 17⟩), (17, ⟨-70005538899877093, 15⟩), (28, ⟨-250019781785275332, 17⟩), (30, ⟨420033233399262558, 16⟩), (45, ⟨125009890892637666, 18⟩), (47, ⟨-200015825428220266, 17⟩), (59, ⟨170013451613987226, 16⟩), (66, ⟨-119009416129791058, 15⟩), (77, ⟨119009416129791058, 15⟩), (92, ⟨-170013451613987226, 16⟩)],
  [(4, ⟨-412343187517827448, 17⟩), (11, ⟨288640231262479213, 16⟩), (22, ⟨-288640231262479213, 16⟩), (37, ⟨412343187517827448, 17⟩), (56, ⟨-463886085957555879, 17⟩), (61, ⟨43296034689371882, 15⟩), (70, ⟨-64944052034057823, 15⟩), (83, ⟨185554434383022352, 16⟩), (100, ⟨-51542898439728431, 17⟩)],
  [(56, ⟨-476597647343204622, 17⟩), (61, ⟨444824470853657647, 16⟩), (70, ⟨-66723670628048647, 15⟩), (83, ⟨190639058937281849, 16⟩), (100, ⟨-52955294149244958, 17⟩)],
  [(1, ⟨-10933899902622448, 16⟩), (6, ⟨102049732424476182, 16⟩), (15, ⟨-153074598636714272, 16⟩), (28, ⟨437355996104897921, 17⟩), (45, ⟨-121487776695804978, 18⟩), (59, ⟨-174942398441959169, 16⟩), (66, ⟨122459678909371418, 15⟩), (77, ⟨-122459678909371418, 15⟩), (92, ⟨174942398441959169, 16⟩)],
  [(4, ⟨-583141328139863895, 17⟩), (11, ⟨408198929697904727, 16⟩), (22, ⟨-408198929697904727, 16⟩), (37, ⟨583141328139863895, 17⟩), (56, ⟨255124331061190454, 17⟩), (61, ⟨-102049732424476182, 16⟩), (63, ⟨-408198929697904727, 16⟩), (70, ⟨-510248662122380908, 17⟩), (72, ⟨204099464848952363, 15⟩), (83, ⟨728926660174829869, 17⟩), (85, ⟨-122459678909371418, 15⟩), (100, ⟨-364463330087414934, 18⟩), (102, ⟨583141328139863895, 17⟩)],
  [(1, ⟨107173655920786068, 17⟩), (6, ⟨-428694623683144273, 17⟩), (8, ⟨-171477849473257709, 16⟩), (15, ⟨-214347311841572136, 17⟩), (17, ⟨857389247366288545, 16⟩), (28, ⟨306210445487960195, 17⟩), (30, ⟨-514433548419773127, 16⟩), (45, ⟨-153105222743980097, 18⟩), (47, ⟨244968356390368156, 17⟩), (59, ⟨146981013834220894, 16⟩), (66, ⟨-342955698946515418, 16⟩), (68, ⟨-685911397893030836, 16⟩), (77, ⟨-342955698946515418, 16⟩), (79, ⟨228637132631010279, 15⟩), (92, ⟨146981013834220894, 16⟩), (94, ⟨-685911397893030836, 16⟩)],
  [(4, ⟨734905069171104468, 17⟩), (11, ⟨-171477849473257709, 16⟩), (13, ⟨-342955698946515418, 16⟩), (22, ⟨-171477849473257709, 16⟩), (24, ⟨114318566315505139, 15⟩), (37, ⟨734905069171104468, 17⟩), (39, ⟨-342955698946515418, 16⟩), (56, ⟨-153105222743980097, 17⟩), (63, ⟨428694623683144273, 16⟩), (70, ⟨428694623683144273, 17⟩), (72, ⟨-428694623683144273, 16⟩), (74, ⟨-857389247366288545, 16⟩), (83, ⟨244968356390368156, 17⟩), (85, ⟨-771650322629659691, 16⟩), (87, ⟨171477849473257709, 15⟩), (100, ⟨-306210445487960195, 18⟩), (102, ⟨857389247366288545, 17⟩), (104, ⟨-171477849473257709, 16⟩)],
  [(1, ⟨-883953415655745223, 18⟩), (8, ⟨247506956383608662, 16⟩), (15, ⟨247506956383608662, 17⟩), (17, ⟨-247506956383608662, 16⟩), (19, ⟨-495013912767217325, 16⟩), (28, ⟨141432546504919236, 17⟩), (30, ⟨-445512521490495592, 16⟩), (32, ⟨99002782553443465, 15⟩), (45, ⟨-176790683131149045, 18⟩), (47, ⟨495013912767217325, 17⟩), (49, ⟨-99002782553443465, 16⟩), (59, ⟨-99002782553443465, 16⟩), (66, ⟨-99002782553443465, 16⟩), (68, ⟨79202226042754772, 15⟩), (77, ⟨99002782553443465, 16⟩), (81, ⟨-79202226042754772, 15⟩), (92, ⟨99002782553443465, 16⟩), (94, ⟨-79202226042754772, 15⟩), (96, ⟨79202226042754772, 15⟩)],
  [(4, ⟨-648125350089154427, 17⟩), (11, ⟨-648125350089154427, 17⟩), (13, ⟨518500280071323542, 16⟩), (22, ⟨648125350089154427, 17⟩), (26, ⟨-518500280071323542, 16⟩), (37, ⟨648125350089154427, 17⟩), (39, ⟨-518500280071323542, 16⟩), (41, ⟨518500280071323542, 16⟩), (56, ⟨810156687611443034, 18⟩), (61, ⟨216041783363051476, 17⟩), (63, ⟨-291656407540119492, 16⟩), (70, ⟨162031337522288607, 17⟩), (72, ⟨-48609401256686582, 15⟩), (74, ⟨97218802513373164, 15⟩), (85, ⟨-97218802513373164, 16⟩), (87, ⟨648125350089154427, 16⟩), (89, ⟨-518500280071323542, 16⟩), (100, ⟨-270052229203814345, 18⟩), (102, ⟨97218802513373164, 16⟩), (104, ⟨-324062675044577213, 16⟩), (106, ⟨172833426690441181, 16⟩)],
  [(1, ⟨594492479694352209, 18⟩), (6, ⟨158531327918493922, 17⟩), (8, ⟨-214017292689966795, 16⟩), (15, ⟨118898495938870442, 17⟩), (17, ⟨-356695487816611326, 16⟩), (19, ⟨713390975633222651, 16⟩), (30, ⟨-713390975633222651, 17⟩), (32, ⟨475593983755481767, 16⟩), (34, ⟨-380475187004385414, 16⟩), (45, ⟨-198164159898117403, 18⟩), (47, ⟨713390975633222651, 17⟩), (49, ⟨-237796991877740884, 16⟩), (51, ⟨126825062334795138, 16⟩), (59, ⟨475593983755481767, 17⟩), (66, ⟨14267819512664453, 15⟩), (68, ⟨-475593983755481767, 16⟩), (77, ⟨14267819512664453, 15⟩), (79, ⟨-951187967510963535, 16⟩), (81, ⟨760950374008770828, 16⟩), (92, ⟨475593983755481767, 17⟩), (94, ⟨-475593983755481767, 16⟩), (96, ⟨760950374008770828, 16⟩), (98, ⟨-217414392573934522, 16⟩)],
  [(4, ⟨388320861646147339, 17⟩), (11, ⟨116496258493844202, 16⟩), (13, ⟨-388320861646147339, 16⟩), (22, ⟨116496258493844202, 16⟩), (24, ⟨-776641723292294678, 16⟩), (26, ⟨621313378633835742, 16⟩), (37, ⟨388320861646147339, 17⟩), (39, ⟨-388320861646147339, 16⟩), (41, ⟨621313378633835742, 16⟩), (43, ⟨-177518108181095926, 16⟩), (56, ⟨-242700538528842087, 18⟩), (61, ⟨-970802154115368348, 18⟩), (63, ⟨970802154115368348, 17⟩), (70, ⟨-145620323117305252, 17⟩), (72, ⟨291240646234610504, 16⟩), (74, ⟨-388320861646147339, 16⟩), (83, ⟨-970802154115368348, 18⟩), (85, ⟨291240646234610504, 16⟩), (87, ⟨-776641723292294678, 16⟩), (89, ⟨310656689316917871, 16⟩), (100, ⟨-242700538528842087, 18⟩), (102, ⟨970802154115368348, 17⟩), (104, ⟨-388320861646147339, 16⟩), (106, ⟨310656689316917871, 16⟩), (108, ⟨-443795270452739816, 17⟩)],
  [(1, ⟨-219530897104735508, 18⟩), (6, ⟨-878123588418942033, 18⟩), (8, ⟨878123588418942033, 17⟩), (15, ⟨-131718538262841305, 17⟩), (17, ⟨26343707652568261, 15⟩), (19, ⟨-351249435367576813, 16⟩), (28, ⟨-878123588418942033, 18⟩), (30, ⟨26343707652568261, 15⟩), (32, ⟨-702498870735153626, 16⟩), (34, ⟨280999548294061451, 16⟩), (45, ⟨-219530897104735508, 18⟩), (47, ⟨878123588418942033, 17⟩), (49, ⟨-351249435367576813, 16⟩), (51, ⟨280999548294061451, 16⟩), (53, ⟨-401427926134373501, 17⟩)],
  [(56, ⟨-219530897104735508, 18⟩), (61, ⟨-878123588418942033, 18⟩), (63, ⟨878123588418942033, 17⟩), (70, ⟨-131718538262841305, 17⟩), (72, ⟨26343707652568261, 15⟩), (74, ⟨-351249435367576813, 16⟩), (83, ⟨-878123588418942033, 18⟩), (85, ⟨26343707652568261, 15⟩), (87, ⟨-702498870735153626, 16⟩), (89, ⟨280999548294061451, 16⟩), (100, ⟨-219530897104735508, 18⟩), (102, ⟨878123588418942033, 17⟩), (104, ⟨-351249435367576813, 16⟩), (106, ⟨280999548294061451, 16⟩), (108, ⟨-401427926134373501, 17⟩)],
  [(1, ⟨-242700538528842087, 18⟩), (6, ⟨-970802154115368348, 18⟩), (8, ⟨970802154115368348, 17⟩), (15, ⟨-145620323117305252, 17⟩), (17, ⟨291240646234610504, 16⟩), (19, ⟨-388320861646147339, 16⟩), (28, ⟨-970802154115368348, 18⟩), (30, ⟨291240646234610504, 16⟩), (32, ⟨-776641723292294678, 16⟩), (34, ⟨310656689316917871, 16⟩), (45, ⟨-242700538528842087, 18⟩), (47, ⟨970802154115368348, 17⟩), (49, ⟨-388320861646147339, 16⟩), (51, ⟨310656689316917871, 16⟩), (53, ⟨-443795270452739816, 17⟩), (59, ⟨-388320861646147339, 17⟩), (66, ⟨-116496258493844202, 16⟩), (68, ⟨388320861646147339, 16⟩), (77, ⟨-116496258493844202, 16⟩), (79, ⟨776641723292294678, 16⟩), (81, ⟨-621313378633835742, 16⟩), (92, ⟨-388320861646147339, 17⟩), (94, ⟨388320861646147339, 16⟩), (96, ⟨-621313378633835742, 16⟩), (98, ⟨177518108181095926, 16⟩)],
  [(4, ⟨-475593983755481767, 17⟩), (11, ⟨-14267819512664453, 15⟩), (13, ⟨475593983755481767, 16⟩), (22, ⟨-14267819512664453, 15⟩), (24, ⟨951187967510963535, 16⟩), (26, ⟨-760950374008770828, 16⟩), (37, ⟨-475593983755481767, 17⟩), (39, ⟨475593983755481767, 16⟩), (41, ⟨-760950374008770828, 16⟩), (43, ⟨217414392573934522, 16⟩), (56, ⟨594492479694352209, 18⟩), (61, ⟨158531327918493922, 17⟩), (63, ⟨-214017292689966795, 16⟩), (70, ⟨118898495938870442, 17⟩), (72, ⟨-356695487816611326, 16⟩), (74, ⟨713390975633222651, 16⟩), (85, ⟨-713390975633222651, 17⟩), (87, ⟨475593983755481767, 16⟩), (89, ⟨-380475187004385414, 16⟩), (100, ⟨-198164159898117403, 18⟩), (102, ⟨713390975633222651, 17⟩), (104, ⟨-237796991877740884, 16⟩), (106, ⟨126825062334795138, 16⟩)],
  [(1, ⟨810156687611443034, 18⟩), (6, ⟨216041783363051476, 17⟩), (8, ⟨-291656407540119492, 16⟩), (15, ⟨162031337522288607, 17⟩), (17, ⟨-48609401256686582, 15⟩), (19, ⟨97218802513373164, 15⟩), (30, ⟨-97218802513373164, 16⟩), (32, ⟨648125350089154427, 16⟩), (34, ⟨-518500280071323542, 16⟩), (45, ⟨-270052229203814345, 18⟩), (47, ⟨97218802513373164, 16⟩), (49, ⟨-324062675044577213, 16⟩), (51, ⟨172833426690441181, 16⟩), (59, ⟨648125350089154427, 17⟩), (66, ⟨648125350089154427, 17⟩), (68, ⟨-518500280071323542, 16⟩), (77, ⟨-648125350089154427, 17⟩), (81, ⟨518500280071323542, 16⟩), (92, ⟨-648125350089154427, 17⟩), (94, ⟨518500280071323542, 16⟩), (96, ⟨-518500280071323542, 16⟩)],
  [(4, ⟨99002782553443465, 16⟩), (11, ⟨99002782553443465, 16⟩), (13, ⟨-79202226042754772, 15⟩), (22, ⟨-99002782553443465, 16⟩), (26, ⟨79202226042754772, 15⟩), (37, ⟨-99002782553443465, 16⟩), (39, ⟨79202226042754772, 15⟩), (41, ⟨-79202226042754772, 15⟩), (56, ⟨-883953415655745223, 18⟩), (63, ⟨247506956383608662, 16⟩), (70, ⟨247506956383608662, 17⟩), (72, ⟨-247506956383608662, 16⟩), (74, ⟨-495013912767217325, 16⟩), (83, ⟨141432546504919236, 17⟩), (85, ⟨-445512521490495592, 16⟩), (87, ⟨99002782553443465, 15⟩), (100, ⟨-176790683131149045, 18⟩), (102, ⟨495013912767217325, 17⟩), (104, ⟨-99002782553443465, 16⟩)],
  [(1, ⟨-153105222743980097, 17⟩), (8, ⟨428694623683144273, 16⟩), (15, ⟨428694623683144273, 17⟩), (17, ⟨-428694623683144273, 16⟩), (19, ⟨-857389247366288545, 16⟩), (28, ⟨244968356390368156, 17⟩), (30, ⟨-771650322629659691, 16⟩), (32, ⟨171477849473257709, 15⟩), (45, ⟨-306210445487960195, 18⟩), (47, ⟨857389247366288545, 17⟩), (49, ⟨-171477849473257709, 16⟩), (59, ⟨-734905069171104468, 17⟩), (66, ⟨171477849473257709, 16⟩), (68, ⟨342955698946515418, 16⟩), (77, ⟨171477849473257709, 16⟩), (79, ⟨-114318566315505139, 15⟩), (92, ⟨-734905069171104468, 17⟩), (94, ⟨342955698946515418, 16⟩)],
  [(4, ⟨-146981013834220894, 16⟩), (11, ⟨342955698946515418, 16⟩), (13, ⟨685911397893030836, 16⟩), (22, ⟨342955698946515418, 16⟩), (24, ⟨-228637132631010279, 15⟩), (37, ⟨-146981013834220894, 16⟩), (39, ⟨685911397893030836, 16⟩), (56, ⟨107173655920786068, 17⟩), (61, ⟨-428694623683144273, 17⟩), (63, ⟨-171477849473257709, 16⟩), (70, ⟨-214347311841572136, 17⟩), (72, ⟨857389247366288545, 16⟩), (83, ⟨306210445487960195, 17⟩), (85, ⟨-514433548419773127, 16⟩), (100, ⟨-153105222743980097, 18⟩), (102, ⟨244968356390368156, 17⟩)],
  [(1, ⟨255124331061190454, 17⟩), (6, ⟨-102049732424476182, 16⟩), (8, ⟨-408198929697904727, 16⟩), (15, ⟨-510248662122380908, 17⟩), (17, ⟨204099464848952363, 15⟩), (28, ⟨728926660174829869, 17⟩), (30, ⟨-122459678909371418, 15⟩), (45, ⟨-364463330087414934, 18⟩), (47, ⟨583141328139863895, 17⟩), (59, ⟨583141328139863895, 17⟩), (66, ⟨-408198929697904727, 16⟩), (77, ⟨408198929697904727, 16⟩), (92, ⟨-583141328139863895, 17⟩)],
  [(4, ⟨174942398441959169, 16⟩), (11, ⟨-122459678909371418, 15⟩), (22, ⟨122459678909371418, 15⟩), (37, ⟨-174942398441959169, 16⟩), (56, ⟨-10933899902622448, 16⟩), (61, ⟨102049732424476182, 16⟩), (70, ⟨-153074598636714272, 16⟩), (83, ⟨437355996104897921, 17⟩), (100, ⟨-121487776695804978, 18⟩)],
  [(1, ⟨-476597647343204622, 17⟩), (6, ⟨444824470853657647, 16⟩), (15, ⟨-66723670628048647, 15⟩), (28, ⟨190639058937281849, 16⟩), (45, ⟨-52955294149244958, 17⟩)]]

/-- The part of g_trans_cart2jI (src/cart2sph.c:2176-3535, PYPZPX not defined) for l = 10: for every row of
132 literals the nonzero ones with their column. -/
def cjRowsI10 : List (List (Nat × Dec)) := [
  [(1, ⟨52955294149244958, 16⟩), (6, ⟨-635463529790939495, 16⟩), (15, ⟨133447341256097294, 15⟩), (28, ⟨-635463529790939495, 16⟩), (45, ⟨52955294149244958, 16⟩), (70, ⟨-476597647343204622, 17⟩), (77, ⟨444824470853657647, 16⟩), (88, ⟨-66723670628048647, 15⟩), (103, ⟨190639058937281849, 16⟩), (122, ⟨-52955294149244958, 17⟩)],
  [(4, ⟨207744098149826513, 16⟩), (11, ⟨-193894491606504745, 15⟩), (22, ⟨290841737409757118, 15⟩), (37, ⟨-830976392599306051, 16⟩), (56, ⟨230826775722029458, 17⟩), (67, ⟨971902213566439825, 18⟩), (72, ⟨-583141328139863895, 17⟩), (74, ⟨-174942398441959169, 16⟩), (83, ⟨122459678909371418, 15⟩), (94, ⟨583141328139863895, 17⟩), (96, ⟨-122459678909371418, 15⟩), (111, ⟨-971902213566439825, 18⟩), (113, ⟨174942398441959169, 16⟩)],
  [(1, ⟨-291570664069931948, 17⟩), (6, ⟨174942398441959169, 16⟩), (8, ⟨524827195325877506, 16⟩), (17, ⟨-367379036728114254, 15⟩), (28, ⟨-174942398441959169, 16⟩), (30, ⟨367379036728114254, 15⟩), (45, ⟨291570664069931948, 17⟩), (47, ⟨-524827195325877506, 16⟩), (70, ⟨765372993183571362, 17⟩), (77, ⟨-306149197273428545, 16⟩), (79, ⟨-408198929697904727, 16⟩), (88, ⟨-153074598636714272, 16⟩), (90, ⟨204099464848952363, 15⟩), (103, ⟨218677998052448961, 16⟩), (105, ⟨-122459678909371418, 15⟩), (122, ⟨-10933899902622448, 16⟩), (124, ⟨583141328139863895, 17⟩)],
  [(4, ⟨-182195215065336316, 16⟩), (11, ⟨728780860261345264, 16⟩), (13, ⟨971707813681793685, 16⟩), (22, ⟨364390430130672632, 16⟩), (24, ⟨-485853906840896842, 15⟩), (37, ⟨-520557757329532331, 16⟩), (39, ⟨291512344104538105, 15⟩), (56, ⟨260278878664766166, 17⟩), (58, ⟨-138815401954541955, 16⟩), (67, ⟨-918631336463880584, 18⟩), (72, ⟨122484178195184078, 17⟩), (74, ⟨293962027668441787, 16⟩), (81, ⟨428694623683144273, 17⟩), (83, ⟨-685911397893030836, 16⟩), (85, ⟨-685911397893030836, 16⟩), (94, ⟨122484178195184078, 17⟩), (96, ⟨-685911397893030836, 16⟩), (98, ⟨228637132631010279, 15⟩), (111, ⟨-918631336463880584, 18⟩), (113, ⟨293962027668441787, 16⟩), (115, ⟨-685911397893030836, 16⟩)],
  [(1, ⟨183726267292776117, 17⟩), (6, ⟨-244968356390368156, 17⟩), (8, ⟨-587924055336883574, 16⟩), (15, ⟨-857389247366288545, 17⟩), (17, ⟨137182279578606167, 15⟩), (19, ⟨137182279578606167, 15⟩), (28, ⟨-244968356390368156, 17⟩), (30, ⟨137182279578606167, 15⟩), (32, ⟨-457274265262020558, 15⟩), (45, ⟨183726267292776117, 17⟩), (47, ⟨-587924055336883574, 16⟩), (49, ⟨137182279578606167, 15⟩), (70, ⟨-765526113719900487, 17⟩), (79, ⟨714491039471907121, 16⟩), (88, ⟨214347311841572136, 16⟩), (90, ⟨-714491039471907121, 16⟩), (92, ⟨-857389247366288545, 16⟩), (103, ⟨122484178195184078, 16⟩), (105, ⟨-128608387104943282, 15⟩), (107, ⟨171477849473257709, 15⟩), (122, ⟨-153105222743980097, 17⟩), (124, ⟨142898207894381424, 16⟩), (126, ⟨-171477849473257709, 16⟩)],
  [(4, ⟨132593012348361783, 16⟩), (13, ⟨-123753478191804331, 15⟩), (22, ⟨-371260434575412994, 16⟩), (24, ⟨123753478191804331, 15⟩), (26, ⟨148504173830165197, 15⟩), (37, ⟨-212148819757378853, 16⟩), (39, ⟨222756260745247796, 15⟩), (41, ⟨-297008347660330395, 15⟩), (56, ⟨265186024696723567, 17⟩), (58, ⟨-247506956383608662, 16⟩), (60, ⟨297008347660330395, 16⟩), (67, ⟨707162732524596178, 18⟩), (72, ⟨141432546504919236, 17⟩), (74, ⟨-297008347660330395, 16⟩), (83, ⟨-297008347660330395, 16⟩), (85, ⟨118803339064132158, 15⟩), (94, ⟨-141432546504919236, 17⟩), (96, ⟨297008347660330395, 16⟩), (100, ⟨-79202226042754772, 15⟩), (111, ⟨-707162732524596178, 18⟩), (113, ⟨297008347660330395, 16⟩), (115, ⟨-118803339064132158, 15⟩), (117, ⟨79202226042754772, 15⟩)],
  [(1, ⟨-108020891681525738, 17⟩), (6, ⟨-216041783363051476, 17⟩), (8, ⟨453687745062408099, 16⟩), (17, ⟨453687745062408099, 16⟩), (19, ⟨-18147509802496324, 14⟩), (28, ⟨216041783363051476, 17⟩), (30, ⟨-453687745062408099, 16⟩), (34, ⟨120983398683308826, 15⟩), (45, ⟨108020891681525738, 17⟩), (47, ⟨-453687745062408099, 16⟩), (49, ⟨18147509802496324, 14⟩), (51, ⟨-120983398683308826, 15⟩), (70, ⟨567109681328010124, 17⟩), (77, ⟨151229248354136033, 16⟩), (79, ⟨-680531617593612148, 16⟩), (88, ⟨113421936265602025, 16⟩), (90, ⟨-113421936265602025, 15⟩), (92, ⟨13610632351872243, 14⟩), (105, ⟨-226843872531204049, 16⟩), (107, ⟨907375490124816198, 16⟩), (109, ⟨-518500280071323542, 16⟩), (122, ⟨-189036560442670041, 17⟩), (124, ⟨226843872531204049, 16⟩), (126, ⟨-453687745062408099, 16⟩), (128, ⟨172833426690441181, 16⟩)],
  [(4, ⟨-772840223602657872, 17⟩), (11, ⟨-206090726294042099, 16⟩), (13, ⟨927408268323189446, 16⟩), (22, ⟨-154568044720531574, 16⟩), (24, ⟨154568044720531574, 15⟩), (26, ⟨-185481653664637889, 15⟩), (39, ⟨309136089441063149, 16⟩), (41, ⟨-12365443577642526, 14⟩), (43, ⟨706596775865287197, 16⟩), (56, ⟨257613407867552624, 17⟩), (58, ⟨-309136089441063149, 16⟩), (60, ⟨618272178882126298, 16⟩), (62, ⟨-235532258621762399, 16⟩), (67, ⟨-396328319796234806, 18⟩), (72, ⟨-158531327918493922, 17⟩), (74, ⟨190237593502192707, 16⟩), (81, ⟨-237796991877740884, 17⟩), (83, ⟨570712780506578121, 16⟩), (85, ⟨-951187967510963535, 16⟩), (94, ⟨-158531327918493922, 17⟩), (96, ⟨570712780506578121, 16⟩), (98, ⟨-190237593502192707, 15⟩), (100, ⟨10146004986783611, 14⟩), (111, ⟨-396328319796234806, 18⟩), (113, ⟨190237593502192707, 16⟩), (115, ⟨-951187967510963535, 16⟩), (117, ⟨10146004986783611, 14⟩), (119, ⟨-217414392573934522, 16⟩)],
  [(1, ⟨485401077057684174, 18⟩), (6, ⟨19416043082307367, 16⟩), (8, ⟨-232992516987688403, 16⟩), (15, ⟨291240646234610504, 17⟩), (17, ⟨-69897755096306521, 15⟩), (19, ⟨116496258493844202, 15⟩), (28, ⟨19416043082307367, 16⟩), (30, ⟨-69897755096306521, 15⟩), (32, ⟨232992516987688403, 15⟩), (34, ⟨-124262675726767148, 15⟩), (45, ⟨485401077057684174, 18⟩), (47, ⟨-232992516987688403, 16⟩), (49, ⟨116496258493844202, 15⟩), (51, ⟨-124262675726767148, 15⟩), (53, ⟨26627716227164389, 15⟩), (70, ⟨-218430484675957878, 17⟩), (77, ⟨-873721938703831513, 17⟩), (79, ⟨291240646234610504, 16⟩), (88, ⟨-131058290805574727, 16⟩), (90, ⟨873721938703831513, 16⟩), (92, ⟨-69897755096306521, 15⟩), (103, ⟨-873721938703831513, 17⟩), (105, ⟨873721938703831513, 16⟩), (107, ⟨-139795510192613042, 15⟩), (109, ⟨399415743407465834, 16⟩), (122, ⟨-218430484675957878, 17⟩), (124, ⟨291240646234610504, 16⟩), (126, ⟨-69897755096306521, 15⟩), (128, ⟨399415743407465834, 16⟩), (130, ⟨-443795270452739816, 17⟩)],
  [(4, ⟨241483986815209059, 17⟩), (11, ⟨965935947260836236, 17⟩), (13, ⟨-321978649086945412, 16⟩), (22, ⟨144890392089125435, 16⟩), (24, ⟨-965935947260836236, 16⟩), (26, ⟨772748757808668989, 16⟩), (37, ⟨965935947260836236, 17⟩), (39, ⟨-965935947260836236, 16⟩), (41, ⟨154549751561733798, 15⟩), (43, ⟨-441570718747810851, 16⟩), (56, ⟨241483986815209059, 17⟩), (58, ⟨-321978649086945412, 16⟩), (60, ⟨772748757808668989, 16⟩), (62, ⟨-441570718747810851, 16⟩), (64, ⟨490634131942012056, 17⟩)],
  [(70, ⟨-241483986815209059, 17⟩), (77, ⟨-965935947260836236, 17⟩), (79, ⟨321978649086945412, 16⟩), (88, ⟨-144890392089125435, 16⟩), (90, ⟨965935947260836236, 16⟩), (92, ⟨-772748757808668989, 16⟩), (103, ⟨-965935947260836236, 17⟩), (105, ⟨965935947260836236, 16⟩), (107, ⟨-154549751561733798, 15⟩), (109, ⟨441570718747810851, 16⟩), (122, ⟨-241483986815209059, 17⟩), (124, ⟨321978649086945412, 16⟩), (126, ⟨-772748757808668989, 16⟩), (128, ⟨441570718747810851, 16⟩), (130, ⟨-490634131942012056, 17⟩)],
  [(4, ⟨218430484675957878, 17⟩), (11, ⟨873721938703831513, 17⟩), (13, ⟨-291240646234610504, 16⟩), (22, ⟨131058290805574727, 16⟩), (24, ⟨-873721938703831513, 16⟩), (26, ⟨69897755096306521, 15⟩), (37, ⟨873721938703831513, 17⟩), (39, ⟨-873721938703831513, 16⟩), (41, ⟨139795510192613042, 15⟩), (43, ⟨-399415743407465834, 16⟩), (56, ⟨218430484675957878, 17⟩), (58, ⟨-291240646234610504, 16⟩), (60, ⟨69897755096306521, 15⟩), (62, ⟨-399415743407465834, 16⟩), (64, ⟨443795270452739816, 17⟩), (67, ⟨485401077057684174, 18⟩), (72, ⟨19416043082307367, 16⟩), (74, ⟨-232992516987688403, 16⟩), (81, ⟨291240646234610504, 17⟩), (83, ⟨-69897755096306521, 15⟩), (85, ⟨116496258493844202, 15⟩), (94, ⟨19416043082307367, 16⟩), (96, ⟨-69897755096306521, 15⟩), (98, ⟨232992516987688403, 15⟩), (100, ⟨-124262675726767148, 15⟩), (111, ⟨485401077057684174, 18⟩), (113, ⟨-232992516987688403, 16⟩), (115, ⟨116496258493844202, 15⟩), (117, ⟨-124262675726767148, 15⟩), (119, ⟨26627716227164389, 15⟩)],
  [(1, ⟨-396328319796234806, 18⟩), (6, ⟨-158531327918493922, 17⟩), (8, ⟨190237593502192707, 16⟩), (15, ⟨-237796991877740884, 17⟩), (17, ⟨570712780506578121, 16⟩), (19, ⟨-951187967510963535, 16⟩), (28, ⟨-158531327918493922, 17⟩), (30, ⟨570712780506578121, 16⟩), (32, ⟨-190237593502192707, 15⟩), (34, ⟨10146004986783611, 14⟩), (45, ⟨-396328319796234806, 18⟩), (47, ⟨190237593502192707, 16⟩), (49, ⟨-951187967510963535, 16⟩), (51, ⟨10146004986783611, 14⟩), (53, ⟨-217414392573934522, 16⟩), (70, ⟨772840223602657872, 17⟩), (77, ⟨206090726294042099, 16⟩), (79, ⟨-927408268323189446, 16⟩), (88, ⟨154568044720531574, 16⟩), (90, ⟨-154568044720531574, 15⟩), (92, ⟨185481653664637889, 15⟩), (105, ⟨-309136089441063149, 16⟩), (107, ⟨12365443577642526, 14⟩), (109, ⟨-706596775865287197, 16⟩), (122, ⟨-257613407867552624, 17⟩), (124, ⟨309136089441063149, 16⟩), (126, ⟨-618272178882126298, 16⟩), (128, ⟨235532258621762399, 16⟩)],
  [(4, ⟨-567109681328010124, 17⟩), (11, ⟨-151229248354136033, 16⟩), (13, ⟨680531617593612148, 16⟩), (22, ⟨-113421936265602025, 16⟩), (24, ⟨113421936265602025, 15⟩), (26, ⟨-13610632351872243, 14⟩), (39, ⟨226843872531204049, 16⟩), (41, ⟨-907375490124816198, 16⟩), (43, ⟨518500280071323542, 16⟩), (56, ⟨189036560442670041, 17⟩), (58, ⟨-226843872531204049, 16⟩), (60, ⟨453687745062408099, 16⟩), (62, ⟨-172833426690441181, 16⟩), (67, ⟨-108020891681525738, 17⟩), (72, ⟨-216041783363051476, 17⟩), (74, ⟨453687745062408099, 16⟩), (83, ⟨453687745062408099, 16⟩), (85, ⟨-18147509802496324, 14⟩), (94, ⟨216041783363051476, 17⟩), (96, ⟨-453687745062408099, 16⟩), (100, ⟨120983398683308826, 15⟩), (111, ⟨108020891681525738, 17⟩), (113, ⟨-453687745062408099, 16⟩), (115, ⟨18147509802496324, 14⟩), (117, ⟨-120983398683308826, 15⟩)],
  [(1, ⟨707162732524596178, 18⟩), (6, ⟨141432546504919236, 17⟩), (8, ⟨-297008347660330395, 16⟩), (17, ⟨-297008347660330395, 16⟩), (19, ⟨118803339064132158, 15⟩), (28, ⟨-141432546504919236, 17⟩), (30, ⟨297008347660330395, 16⟩), (34, ⟨-79202226042754772, 15⟩), (45, ⟨-707162732524596178, 18⟩), (47, ⟨297008347660330395, 16⟩), (49, ⟨-118803339064132158, 15⟩), (51, ⟨79202226042754772, 15⟩), (70, ⟨-132593012348361783, 16⟩), (79, ⟨123753478191804331, 15⟩), (88, ⟨371260434575412994, 16⟩), (90, ⟨-123753478191804331, 15⟩), (92, ⟨-148504173830165197, 15⟩), (103, ⟨212148819757378853, 16⟩), (105, ⟨-222756260745247796, 15⟩), (107, ⟨297008347660330395, 15⟩), (122, ⟨-265186024696723567, 17⟩), (124, ⟨247506956383608662, 16⟩), (126, ⟨-297008347660330395, 16⟩)],
  [(4, ⟨765526113719900487, 17⟩), (13, ⟨-714491039471907121, 16⟩), (22, ⟨-214347311841572136, 16⟩), (24, ⟨714491039471907121, 16⟩), (26, ⟨857389247366288545, 16⟩), (37, ⟨-122484178195184078, 16⟩), (39, ⟨128608387104943282, 15⟩), (41, ⟨-171477849473257709, 15⟩), (56, ⟨153105222743980097, 17⟩), (58, ⟨-142898207894381424, 16⟩), (60, ⟨171477849473257709, 16⟩), (67, ⟨183726267292776117, 17⟩), (72, ⟨-244968356390368156, 17⟩), (74, ⟨-587924055336883574, 16⟩), (81, ⟨-857389247366288545, 17⟩), (83, ⟨137182279578606167, 15⟩), (85, ⟨137182279578606167, 15⟩), (94, ⟨-244968356390368156, 17⟩), (96, ⟨137182279578606167, 15⟩), (98, ⟨-457274265262020558, 15⟩), (111, ⟨183726267292776117, 17⟩), (113, ⟨-587924055336883574, 16⟩), (115, ⟨137182279578606167, 15⟩)],
  [(1, ⟨-918631336463880584, 18⟩), (6, ⟨122484178195184078, 17⟩), (8, ⟨293962027668441787, 16⟩), (15, ⟨428694623683144273, 17⟩), (17, ⟨-685911397893030836, 16⟩), (19, ⟨-685911397893030836, 16⟩), (28, ⟨122484178195184078, 17⟩), (30, ⟨-685911397893030836, 16⟩), (32, ⟨228637132631010279, 15⟩), (45, ⟨-918631336463880584, 18⟩), (47, ⟨293962027668441787, 16⟩), (49, ⟨-685911397893030836, 16⟩), (70, ⟨182195215065336316, 16⟩), (77, ⟨-728780860261345264, 16⟩), (79, ⟨-971707813681793685, 16⟩), (88, ⟨-364390430130672632, 16⟩), (90, ⟨485853906840896842, 15⟩), (103, ⟨520557757329532331, 16⟩), (105, ⟨-291512344104538105, 15⟩), (122, ⟨-260278878664766166, 17⟩), (124, ⟨138815401954541955, 16⟩)],
  [(4, ⟨-765372993183571362, 17⟩), (11, ⟨306149197273428545, 16⟩), (13, ⟨408198929697904727, 16⟩), (22, ⟨153074598636714272, 16⟩), (24, ⟨-204099464848952363, 15⟩), (37, ⟨-218677998052448961, 16⟩), (39, ⟨122459678909371418, 15⟩), (56, ⟨10933899902622448, 16⟩), (58, ⟨-583141328139863895, 17⟩), (67, ⟨-291570664069931948, 17⟩), (72, ⟨174942398441959169, 16⟩), (74, ⟨524827195325877506, 16⟩), (83, ⟨-367379036728114254, 15⟩), (94, ⟨-174942398441959169, 16⟩), (96, ⟨367379036728114254, 15⟩), (111, ⟨291570664069931948, 17⟩), (113, ⟨-524827195325877506, 16⟩)],
  [(1, ⟨971902213566439825, 18⟩), (6, ⟨-583141328139863895, 17⟩), (8, ⟨-174942398441959169, 16⟩), (17, ⟨122459678909371418, 15⟩), (28, ⟨583141328139863895, 17⟩), (30, ⟨-122459678909371418, 15⟩), (45, ⟨-971902213566439825, 18⟩), (47, ⟨174942398441959169, 16⟩), (70, ⟨-207744098149826513, 16⟩), (77, ⟨193894491606504745, 15⟩), (88, ⟨-290841737409757118, 15⟩), (103, ⟨830976392599306051, 16⟩), (122, ⟨-230826775722029458, 17⟩)],
  [(4, ⟨476597647343204622, 17⟩), (11, ⟨-444824470853657647, 16⟩), (22, ⟨66723670628048647, 15⟩), (37, ⟨-190639058937281849, 16⟩), (56, ⟨52955294149244958, 17⟩), (67, ⟨52955294149244958, 16⟩), (72, ⟨-635463529790939495, 16⟩), (81, ⟨133447341256097294, 15⟩), (94, ⟨-635463529790939495, 16⟩), (111, ⟨52955294149244958, 16⟩)],
  [(67, ⟨-542630291944221461, 17⟩), (72, ⟨651156350333065753, 16⟩), (81, ⟨-136742833569943808, 15⟩), (94, ⟨651156350333065753, 16⟩), (111, ⟨-542630291944221461, 17⟩)],
  [(1, ⟨-11841163748620862, 16⟩), (6, ⟨142093964983450344, 16⟩), (15, ⟨-298397326465245721, 16⟩), (28, ⟨142093964983450344, 16⟩), (45, ⟨-11841163748620862, 16⟩), (70, ⟨-213140947475175515, 16⟩), (77, ⟨198931550976830481, 15⟩), (88, ⟨-298397326465245721, 15⟩), (103, ⟨852563789900702061, 16⟩), (122, ⟨-236823274972417239, 17⟩)],
  [(4, ⟨-674010856667869467, 17⟩), (11, ⟨629076799556678169, 16⟩), (22, ⟨-943615199335017254, 16⟩), (37, ⟨269604342667147787, 16⟩), (56, ⟨-748900951853188297, 18⟩), (67, ⟨299560380741275319, 17⟩), (72, ⟨-179736228444765191, 16⟩), (74, ⟨-539208685334295574, 16⟩), (83, ⟨377446079734006901, 15⟩), (94, ⟨179736228444765191, 16⟩), (96, ⟨-377446079734006901, 15⟩), (111, ⟨-299560380741275319, 17⟩), (113, ⟨539208685334295574, 16⟩)],
  [(1, ⟨119033225155963006, 17⟩), (6, ⟨-714199350935778034, 17⟩), (8, ⟨-21425980528073341, 15⟩), (17, ⟨149981863696513387, 15⟩), (28, ⟨714199350935778034, 17⟩), (30, ⟨-149981863696513387, 15⟩), (45, ⟨-119033225155963006, 17⟩), (47, ⟨21425980528073341, 15⟩), (70, ⟨187477329620641734, 16⟩), (77, ⟨-749909318482566936, 16⟩), (79, ⟨-999879091310089248, 16⟩), (88, ⟨-374954659241283468, 16⟩), (90, ⟨499939545655044624, 15⟩), (103, ⟨535649513201833526, 16⟩), (105, ⟨-299963727393026774, 15⟩), (122, ⟨-267824756600916763, 17⟩), (124, ⟨142839870187155607, 16⟩)],
  [(4, ⟨883776607290009063, 17⟩), (11, ⟨-353510642916003625, 16⟩), (13, ⟨-471347523888004833, 16⟩), (22, ⟨-176755321458001813, 16⟩), (24, ⟨235673761944002417, 15⟩), (37, ⟨252507602082859732, 16⟩), (39, ⟨-14140425716640145, 14⟩), (56, ⟨-126253801041429866, 17⟩), (58, ⟨673353605554292619, 17⟩), (67, ⟨-189380701562144799, 17⟩), (72, ⟨252507602082859732, 17⟩), (74, ⟨606018244998863357, 16⟩), (81, ⟨883776607290009063, 17⟩), (83, ⟨-14140425716640145, 14⟩), (85, ⟨-14140425716640145, 14⟩), (94, ⟨252507602082859732, 17⟩), (96, ⟨-14140425716640145, 14⟩), (98, ⟨471347523888004833, 15⟩), (111, ⟨-189380701562144799, 17⟩), (113, ⟨606018244998863357, 16⟩), (115, ⟨-14140425716640145, 14⟩)],
  [(1, ⟨-102706105729735913, 17⟩), (6, ⟨136941474306314551, 17⟩), (8, ⟨328659538335154923, 16⟩), (15, ⟨479295160072100929, 17⟩), (17, ⟨-766872256115361487, 16⟩), (19, ⟨-766872256115361487, 16⟩), (28, ⟨136941474306314551, 17⟩), (30, ⟨-766872256115361487, 16⟩), (32, ⟨255624085371787162, 15⟩), (45, ⟨-102706105729735913, 17⟩), (47, ⟨328659538335154923, 16⟩), (49, ⟨-766872256115361487, 16⟩), (70, ⟨-136941474306314551, 16⟩), (79, ⟨127812042685893581, 15⟩), (88, ⟨383436128057680743, 16⟩), (90, ⟨-127812042685893581, 15⟩), (92, ⟨-153374451223072297, 15⟩), (103, ⟨219106358890103282, 16⟩), (105, ⟨-230061676834608446, 15⟩), (107, ⟨306748902446144595, 15⟩), (122, ⟨-273882948612629102, 17⟩), (124, ⟨255624085371787162, 16⟩), (126, ⟨-306748902446144595, 16⟩)],
  [(4, ⟨-838591841687309056, 17⟩), (13, ⟨782685718908155119, 16⟩), (22, ⟨234805715672446536, 16⟩), (24, ⟨-782685718908155119, 16⟩), (26, ⟨-939222862689786143, 16⟩), (37, ⟨134174694669969449, 16⟩), (39, ⟨-140883429403467921, 15⟩), (41, ⟨187844572537957229, 15⟩), (56, ⟨-167718368337461811, 17⟩), (58, ⟨156537143781631024, 16⟩), (60, ⟨-187844572537957229, 16⟩), (67, ⟨111812245558307874, 17⟩), (72, ⟨223624491116615748, 17⟩), (74, ⟨-469611431344893072, 16⟩), (83, ⟨-469611431344893072, 16⟩), (85, ⟨187844572537957229, 15⟩), (94, ⟨-223624491116615748, 17⟩), (96, ⟨469611431344893072, 16⟩), (100, ⟨-125229715025304819, 15⟩), (111, ⟨-111812245558307874, 17⟩), (113, ⟨469611431344893072, 16⟩), (115, ⟨-187844572537957229, 15⟩), (117, ⟨125229715025304819, 15⟩)],
  [(1, ⟨763823050178243716, 18⟩), (6, ⟨152764610035648743, 17⟩), (8, ⟨-320805681074862361, 16⟩), (17, ⟨-320805681074862361, 16⟩), (19, ⟨128322272429944944, 15⟩), (28, ⟨-152764610035648743, 17⟩), (30, ⟨320805681074862361, 16⟩), (34, ⟨-855481816199632961, 16⟩), (45, ⟨-763823050178243716, 18⟩), (47, ⟨320805681074862361, 16⟩), (49, ⟨-128322272429944944, 15⟩), (51, ⟨855481816199632961, 16⟩), (70, ⟨802014202687155901, 17⟩), (77, ⟨21387045404990824, 15⟩), (79, ⟨-962417043224587082, 16⟩), (88, ⟨16040284053743118, 15⟩), (90, ⟨-16040284053743118, 14⟩), (92, ⟨192483408644917416, 15⟩), (105, ⟨-320805681074862361, 16⟩), (107, ⟨128322272429944944, 15⟩), (109, ⟨-733270128171113967, 16⟩), (122, ⟨-2673380675623853, 15⟩), (124, ⟨320805681074862361, 16⟩), (126, ⟨-641611362149724721, 16⟩), (128, ⟨244423376057037989, 16⟩)],
  [(4, ⟨606265750929132863, 17⟩), (11, ⟨16167086691443543, 15⟩), (13, ⟨-727518901114959435, 16⟩), (22, ⟨121253150185826573, 16⟩), (24, ⟨-121253150185826573, 15⟩), (26, ⟨145503780222991887, 15⟩), (39, ⟨-242506300371653145, 16⟩), (41, ⟨970025201486612581, 16⟩), (43, ⟨-554300115135207189, 16⟩), (56, ⟨-202088583643044288, 17⟩), (58, ⟨242506300371653145, 16⟩), (60, ⟨-48501260074330629, 15⟩), (62, ⟨184766705045069063, 16⟩), (67, ⟨-505221459107610719, 18⟩), (72, ⟨-202088583643044288, 17⟩), (74, ⟨242506300371653145, 16⟩), (81, ⟨-303132875464566431, 17⟩), (83, ⟨727518901114959435, 16⟩), (85, ⟨-121253150185826573, 15⟩), (94, ⟨-202088583643044288, 17⟩), (96, ⟨727518901114959435, 16⟩), (98, ⟨-242506300371653145, 15⟩), (100, ⟨129336693531548344, 15⟩), (111, ⟨-505221459107610719, 18⟩), (113, ⟨242506300371653145, 16⟩), (115, ⟨-121253150185826573, 15⟩), (117, ⟨129336693531548344, 15⟩), (119, ⟨-277150057567603594, 16⟩)],
  [(1, ⟨-420369663756282355, 18⟩), (6, ⟨-168147865502512942, 17⟩), (8, ⟨20177743860301553, 15⟩), (15, ⟨-252221798253769413, 17⟩), (17, ⟨605332315809046591, 16⟩), (19, ⟨-100888719301507765, 15⟩), (28, ⟨-168147865502512942, 17⟩), (30, ⟨605332315809046591, 16⟩), (32, ⟨-20177743860301553, 14⟩), (34, ⟨107614633921608283, 15⟩), (45, ⟨-420369663756282355, 18⟩), (47, ⟨20177743860301553, 15⟩), (49, ⟨-100888719301507765, 15⟩), (51, ⟨107614633921608283, 15⟩), (53, ⟨-230602786974874892, 16⟩), (70, ⟨-252221798253769413, 17⟩), (77, ⟨-100888719301507765, 16⟩), (79, ⟨336295731005025884, 16⟩), (88, ⟨-151333078952261648, 16⟩), (90, ⟨100888719301507765, 15⟩), (92, ⟨-807109754412062121, 16⟩), (103, ⟨-100888719301507765, 16⟩), (105, ⟨100888719301507765, 15⟩), (107, ⟨-161421950882412424, 15⟩), (109, ⟨461205573949749784, 16⟩), (122, ⟨-252221798253769413, 17⟩), (124, ⟨336295731005025884, 16⟩), (126, ⟨-807109754412062121, 16⟩), (128, ⟨461205573949749784, 16⟩), (130, ⟨-512450637721944204, 17⟩)],
  [(4, ⟨-230245947330177705, 17⟩), (11, ⟨-920983789320710822, 17⟩), (13, ⟨306994596440236941, 16⟩), (22, ⟨-138147568398106623, 16⟩), (24, ⟨920983789320710822, 16⟩), (26, ⟨-736787031456568658, 16⟩), (37, ⟨-920983789320710822, 17⟩), (39, ⟨920983789320710822, 16⟩), (41, ⟨-147357406291313732, 15⟩), (43, ⟨421021160832324947, 16⟩), (56, ⟨-230245947330177705, 17⟩), (58, ⟨306994596440236941, 16⟩), (60, ⟨-736787031456568658, 16⟩), (62, ⟨421021160832324947, 16⟩), (64, ⟨-467801289813694386, 17⟩)],
  [(70, ⟨-230245947330177705, 17⟩), (77, ⟨-920983789320710822, 17⟩), (79, ⟨306994596440236941, 16⟩), (88, ⟨-138147568398106623, 16⟩), (90, ⟨920983789320710822, 16⟩), (92, ⟨-736787031456568658, 16⟩), (103, ⟨-920983789320710822, 17⟩), (105, ⟨920983789320710822, 16⟩), (107, ⟨-147357406291313732, 15⟩), (109, ⟨421021160832324947, 16⟩), (122, ⟨-230245947330177705, 17⟩), (124, ⟨306994596440236941, 16⟩), (126, ⟨-736787031456568658, 16⟩), (128, ⟨421021160832324947, 16⟩), (130, ⟨-467801289813694386, 17⟩)],
  [(4, ⟨-252221798253769413, 17⟩), (11, ⟨-100888719301507765, 16⟩), (13, ⟨336295731005025884, 16⟩), (22, ⟨-151333078952261648, 16⟩), (24, ⟨100888719301507765, 15⟩), (26, ⟨-807109754412062121, 16⟩), (37, ⟨-100888719301507765, 16⟩), (39, ⟨100888719301507765, 15⟩), (41, ⟨-161421950882412424, 15⟩), (43, ⟨461205573949749784, 16⟩), (56, ⟨-252221798253769413, 17⟩), (58, ⟨336295731005025884, 16⟩), (60, ⟨-807109754412062121, 16⟩), (62, ⟨461205573949749784, 16⟩), (64, ⟨-512450637721944204, 17⟩), (67, ⟨420369663756282355, 18⟩), (72, ⟨168147865502512942, 17⟩), (74, ⟨-20177743860301553, 15⟩), (81, ⟨252221798253769413, 17⟩), (83, ⟨-605332315809046591, 16⟩), (85, ⟨100888719301507765, 15⟩), (94, ⟨168147865502512942, 17⟩), (96, ⟨-605332315809046591, 16⟩), (98, ⟨20177743860301553, 14⟩), (100, ⟨-107614633921608283, 15⟩), (111, ⟨420369663756282355, 18⟩), (113, ⟨-20177743860301553, 15⟩), (115, ⟨100888719301507765, 15⟩), (117, ⟨-107614633921608283, 15⟩), (119, ⟨230602786974874892, 16⟩)],
  [(1, ⟨505221459107610719, 18⟩), (6, ⟨202088583643044288, 17⟩), (8, ⟨-242506300371653145, 16⟩), (15, ⟨303132875464566431, 17⟩), (17, ⟨-727518901114959435, 16⟩), (19, ⟨121253150185826573, 15⟩), (28, ⟨202088583643044288, 17⟩), (30, ⟨-727518901114959435, 16⟩), (32, ⟨242506300371653145, 15⟩), (34, ⟨-129336693531548344, 15⟩), (45, ⟨505221459107610719, 18⟩), (47, ⟨-242506300371653145, 16⟩), (49, ⟨121253150185826573, 15⟩), (51, ⟨-129336693531548344, 15⟩), (53, ⟨277150057567603594, 16⟩), (70, ⟨606265750929132863, 17⟩), (77, ⟨16167086691443543, 15⟩), (79, ⟨-727518901114959435, 16⟩), (88, ⟨121253150185826573, 16⟩), (90, ⟨-121253150185826573, 15⟩), (92, ⟨145503780222991887, 15⟩), (105, ⟨-242506300371653145, 16⟩), (107, ⟨970025201486612581, 16⟩), (109, ⟨-554300115135207189, 16⟩), (122, ⟨-202088583643044288, 17⟩), (124, ⟨242506300371653145, 16⟩), (126, ⟨-48501260074330629, 15⟩), (128, ⟨184766705045069063, 16⟩)],
  [(4, ⟨802014202687155901, 17⟩), (11, ⟨21387045404990824, 15⟩), (13, ⟨-962417043224587082, 16⟩), (22, ⟨16040284053743118, 15⟩), (24, ⟨-16040284053743118, 14⟩), (26, ⟨192483408644917416, 15⟩), (39, ⟨-320805681074862361, 16⟩), (41, ⟨128322272429944944, 15⟩), (43, ⟨-733270128171113967, 16⟩), (56, ⟨-2673380675623853, 15⟩), (58, ⟨320805681074862361, 16⟩), (60, ⟨-641611362149724721, 16⟩), (62, ⟨244423376057037989, 16⟩), (67, ⟨-763823050178243716, 18⟩), (72, ⟨-152764610035648743, 17⟩), (74, ⟨320805681074862361, 16⟩), (83, ⟨320805681074862361, 16⟩), (85, ⟨-128322272429944944, 15⟩), (94, ⟨152764610035648743, 17⟩), (96, ⟨-320805681074862361, 16⟩), (100, ⟨855481816199632961, 16⟩), (111, ⟨763823050178243716, 18⟩), (113, ⟨-320805681074862361, 16⟩), (115, ⟨128322272429944944, 15⟩), (117, ⟨-855481816199632961, 16⟩)],
  [(1, ⟨-111812245558307874, 17⟩), (6, ⟨-223624491116615748, 17⟩), (8, ⟨469611431344893072, 16⟩), (17, ⟨469611431344893072, 16⟩), (19, ⟨-187844572537957229, 15⟩), (28, ⟨223624491116615748, 17⟩), (30, ⟨-469611431344893072, 16⟩), (34, ⟨125229715025304819, 15⟩), (45, ⟨111812245558307874, 17⟩), (47, ⟨-469611431344893072, 16⟩), (49, ⟨187844572537957229, 15⟩), (51, ⟨-125229715025304819, 15⟩), (70, ⟨-838591841687309056, 17⟩), (79, ⟨782685718908155119, 16⟩), (88, ⟨234805715672446536, 16⟩), (90, ⟨-782685718908155119, 16⟩), (92, ⟨-939222862689786143, 16⟩), (103, ⟨134174694669969449, 16⟩), (105, ⟨-140883429403467921, 15⟩), (107, ⟨187844572537957229, 15⟩), (122, ⟨-167718368337461811, 17⟩), (124, ⟨156537143781631024, 16⟩), (126, ⟨-187844572537957229, 16⟩)],
  [(4, ⟨-136941474306314551, 16⟩), (13, ⟨127812042685893581, 15⟩), (22, ⟨383436128057680743, 16⟩), (24, ⟨-127812042685893581, 15⟩), (26, ⟨-153374451223072297, 15⟩), (37, ⟨219106358890103282, 16⟩), (39, ⟨-230061676834608446, 15⟩), (41, ⟨306748902446144595, 15⟩), (56, ⟨-273882948612629102, 17⟩), (58, ⟨255624085371787162, 16⟩), (60, ⟨-306748902446144595, 16⟩), (67, ⟨102706105729735913, 17⟩), (72, ⟨-136941474306314551, 17⟩), (74, ⟨-328659538335154923, 16⟩), (81, ⟨-479295160072100929, 17⟩), (83, ⟨766872256115361487, 16⟩), (85, ⟨766872256115361487, 16⟩), (94, ⟨-136941474306314551, 17⟩), (96, ⟨766872256115361487, 16⟩), (98, ⟨-255624085371787162, 15⟩), (111, ⟨102706105729735913, 17⟩), (113, ⟨-328659538335154923, 16⟩), (115, ⟨766872256115361487, 16⟩)],
  [(1, ⟨189380701562144799, 17⟩), (6, ⟨-252507602082859732, 17⟩), (8, ⟨-606018244998863357, 16⟩), (15, ⟨-883776607290009063, 17⟩), (17, ⟨14140425716640145, 14⟩), (19, ⟨14140425716640145, 14⟩), (28, ⟨-252507602082859732, 17⟩), (30, ⟨14140425716640145, 14⟩), (32, ⟨-471347523888004833, 15⟩), (45, ⟨189380701562144799, 17⟩), (47, ⟨-606018244998863357, 16⟩), (49, ⟨14140425716640145, 14⟩), (70, ⟨883776607290009063, 17⟩), (77, ⟨-353510642916003625, 16⟩), (79, ⟨-471347523888004833, 16⟩), (88, ⟨-176755321458001813, 16⟩), (90, ⟨235673761944002417, 15⟩), (103, ⟨252507602082859732, 16⟩), (105, ⟨-14140425716640145, 14⟩), (122, ⟨-126253801041429866, 17⟩), (124, ⟨673353605554292619, 17⟩)],
  [(4, ⟨187477329620641734, 16⟩), (11, ⟨-749909318482566936, 16⟩), (13, ⟨-999879091310089248, 16⟩), (22, ⟨-374954659241283468, 16⟩), (24, ⟨499939545655044624, 15⟩), (37, ⟨535649513201833526, 16⟩), (39, ⟨-299963727393026774, 15⟩), (56, ⟨-267824756600916763, 17⟩), (58, ⟨142839870187155607, 16⟩), (67, ⟨-119033225155963006, 17⟩), (72, ⟨714199350935778034, 17⟩), (74, ⟨21425980528073341, 15⟩), (83, ⟨-149981863696513387, 15⟩), (94, ⟨-714199350935778034, 17⟩), (96, ⟨149981863696513387, 15⟩), (111, ⟨119033225155963006, 17⟩), (113, ⟨-21425980528073341, 15⟩)],
  [(1, ⟨-299560380741275319, 17⟩), (6, ⟨179736228444765191, 16⟩), (8, ⟨539208685334295574, 16⟩), (17, ⟨-377446079734006901, 15⟩), (28, ⟨-179736228444765191, 16⟩), (30, ⟨377446079734006901, 15⟩), (45, ⟨299560380741275319, 17⟩), (47, ⟨-539208685334295574, 16⟩), (70, ⟨-674010856667869467, 17⟩), (77, ⟨629076799556678169, 16⟩), (88, ⟨-943615199335017254, 16⟩), (103, ⟨269604342667147787, 16⟩), (122, ⟨-748900951853188297, 18⟩)],
  [(4, ⟨-213140947475175515, 16⟩), (11, ⟨198931550976830481, 15⟩), (22, ⟨-298397326465245721, 15⟩), (37, ⟨852563789900702061, 16⟩), (56, ⟨-236823274972417239, 17⟩), (67, ⟨11841163748620862, 16⟩), (72, ⟨-142093964983450344, 16⟩), (81, ⟨298397326465245721, 16⟩), (94, ⟨-142093964983450344, 16⟩), (111, ⟨11841163748620862, 16⟩)],
  [(1, ⟨542630291944221461, 17⟩), (6, ⟨-651156350333065753, 16⟩), (15, ⟨136742833569943808, 15⟩), (28, ⟨-651156350333065753, 16⟩), (45, ⟨542630291944221461, 17⟩)]]

/-- The part of g_trans_cart2jI (src/cart2sph.c:2176-3535, PYPZPX not defined) for l = 11: for every row of
156 literals the nonzero ones with their column. -/
def cjRowsI11 : List (List (Nat × Dec)) := [
  [(1, ⟨596893321138643607, 17⟩), (6, ⟨-89533998170796541, 15⟩), (15, ⟨250695194878230315, 15⟩), (28, ⟨-179067996341593082, 15⟩), (45, ⟨298446660569321803, 16⟩), (66, ⟨-542630291944221461, 18⟩), (82, ⟨-542630291944221461, 17⟩), (89, ⟨651156350333065753, 16⟩), (100, ⟨-136742833569943808, 15⟩), (115, ⟨651156350333065753, 16⟩), (134, ⟨-542630291944221461, 17⟩)],
  [(4, ⟨248664438721038101, 16⟩), (11, ⟨-298397326465245721, 15⟩), (22, ⟨626634385577016015, 15⟩), (37, ⟨-298397326465245721, 15⟩), (56, ⟨248664438721038101, 16⟩), (79, ⟨106570473737587758, 17⟩), (84, ⟨-888087281146564647, 17⟩), (86, ⟨-213140947475175515, 16⟩), (93, ⟨497328877442076202, 17⟩), (95, ⟨198931550976830481, 15⟩), (106, ⟨106570473737587758, 16⟩), (108, ⟨-298397326465245721, 15⟩), (123, ⟨-414440731201730169, 17⟩), (125, ⟨852563789900702061, 16⟩), (144, ⟨11841163748620862, 17⟩), (146, ⟨-236823274972417239, 17⟩)],
  [(1, ⟨-337005428333934733, 17⟩), (6, ⟨280837856944945611, 16⟩), (8, ⟨674010856667869467, 16⟩), (15, ⟨-157269199889169542, 16⟩), (17, ⟨-629076799556678169, 15⟩), (28, ⟨-337005428333934733, 16⟩), (30, ⟨943615199335017254, 15⟩), (45, ⟨131057666574307952, 16⟩), (47, ⟨-269604342667147787, 15⟩), (66, ⟨-374450475926594148, 18⟩), (68, ⟨748900951853188297, 17⟩), (82, ⟨898681142223825956, 17⟩), (89, ⟨-539208685334295574, 16⟩), (91, ⟨-539208685334295574, 16⟩), (102, ⟨377446079734006901, 15⟩), (115, ⟨539208685334295574, 16⟩), (117, ⟨-377446079734006901, 15⟩), (134, ⟨-898681142223825956, 17⟩), (136, ⟨539208685334295574, 16⟩)],
  [(4, ⟨-226163127796329711, 16⟩), (11, ⟨135697876677797827, 15⟩), (13, ⟨135697876677797827, 15⟩), (24, ⟨-949885136744584786, 15⟩), (37, ⟨-135697876677797827, 15⟩), (39, ⟨949885136744584786, 15⟩), (56, ⟨226163127796329711, 16⟩), (58, ⟨-135697876677797827, 15⟩), (79, ⟨-10415407201146763, 16⟩), (84, ⟨31246221603440289, 16⟩), (86, ⟨374954659241283468, 16⟩), (93, ⟨62492443206880578, 16⟩), (95, ⟨-149981863696513387, 15⟩), (97, ⟨-999879091310089248, 16⟩), (106, ⟨-892749188669722543, 18⟩), (108, ⟨-749909318482566936, 16⟩), (110, ⟨499939545655044624, 15⟩), (123, ⟨-282703909745412139, 17⟩), (125, ⟨107129902640366705, 15⟩), (127, ⟨-299963727393026774, 15⟩), (144, ⟨148791531444953757, 18⟩), (146, ⟨-535649513201833526, 17⟩), (148, ⟨142839870187155607, 16⟩)],
  [(1, ⟨220944151822502266, 17⟩), (6, ⟨-662832455467506797, 17⟩), (8, ⟨-795398946561008156, 16⟩), (15, ⟨-132566491093501359, 16⟩), (17, ⟨318159578624403263, 15⟩), (19, ⟨212106385749602175, 15⟩), (28, ⟨189380701562144799, 17⟩), (30, ⟨159079789312201631, 15⟩), (32, ⟨-106053192874801088, 14⟩), (45, ⟨599705554946791864, 17⟩), (47, ⟨-227256841874573759, 15⟩), (49, ⟨636319157248806525, 15⟩), (66, ⟨-315634502603574665, 18⟩), (68, ⟨113628420937286879, 16⟩), (70, ⟨-303009122499431679, 16⟩), (82, ⟨-946903507810723996, 17⟩), (89, ⟨126253801041429866, 16⟩), (91, ⟨101003040833143893, 15⟩), (100, ⟨441888303645004531, 16⟩), (102, ⟨-235673761944002417, 15⟩), (104, ⟨-14140425716640145, 14⟩), (115, ⟨126253801041429866, 16⟩), (117, ⟨-235673761944002417, 15⟩), (119, ⟨471347523888004833, 15⟩), (134, ⟨-946903507810723996, 17⟩), (136, ⟨101003040833143893, 15⟩), (138, ⟨-14140425716640145, 14⟩)],
  [(4, ⟨174600379740551053, 16⟩), (11, ⟨-232800506320734737, 16⟩), (13, ⟨-18624040505658779, 14⟩), (22, ⟨-81480177212257158, 15⟩), (24, ⟨434560945132038176, 15⟩), (26, ⟨260736567079222906, 15⟩), (37, ⟨-232800506320734737, 16⟩), (39, ⟨434560945132038176, 15⟩), (41, ⟨-869121890264076352, 15⟩), (56, ⟨174600379740551053, 16⟩), (58, ⟨-18624040505658779, 14⟩), (60, ⟨260736567079222906, 15⟩), (79, ⟨855884214414465945, 18⟩), (84, ⟨855884214414465945, 18⟩), (86, ⟨-410824422918943654, 16⟩), (93, ⟨-239647580036050465, 17⟩), (97, ⟨191718064028840372, 15⟩), (106, ⟨-376589054342365016, 17⟩), (108, ⟨115030838417304223, 15⟩), (110, ⟨-191718064028840372, 15⟩), (112, ⟨-153374451223072297, 15⟩), (123, ⟨-119823790018025232, 17⟩), (125, ⟨657319076670309846, 16⟩), (127, ⟨-345092515251912669, 15⟩), (129, ⟨306748902446144595, 15⟩), (144, ⟨171176842882893189, 18⟩), (146, ⟨-821648845837887307, 17⟩), (148, ⟨383436128057680743, 16⟩), (150, ⟨-306748902446144595, 16⟩)],
  [(1, ⟨-139765306947884843, 17⟩), (6, ⟨-139765306947884843, 17⟩), (8, ⟨670873473349847245, 16⟩), (15, ⟨39134285945407756, 16⟩), (19, ⟨-313074287563262048, 15⟩), (28, ⟨614967350570693308, 17⟩), (30, ⟨-187844572537957229, 15⟩), (32, ⟨313074287563262048, 15⟩), (34, ⟨250459430050609638, 15⟩), (45, ⟨19567142972703878, 16⟩), (47, ⟨-107339755735975559, 15⟩), (49, ⟨563533717613871686, 15⟩), (51, ⟨-500918860101219276, 15⟩), (66, ⟨-279530613895769685, 18⟩), (68, ⟨134174694669969449, 16⟩), (70, ⟨-626148575126524095, 16⟩), (72, ⟨500918860101219276, 16⟩), (82, ⟨782685718908155119, 17⟩), (89, ⟨156537143781631024, 16⟩), (91, ⟨-109576000647141717, 15⟩), (102, ⟨-109576000647141717, 15⟩), (104, ⟨26298240155314012, 14⟩), (115, ⟨-156537143781631024, 16⟩), (117, ⟨109576000647141717, 15⟩), (121, ⟨-125229715025304819, 15⟩), (134, ⟨-782685718908155119, 17⟩), (136, ⟨109576000647141717, 15⟩), (138, ⟨-26298240155314012, 14⟩), (140, ⟨125229715025304819, 15⟩)],
  [(4, ⟨-114573457526736557, 16⟩), (11, ⟨-229146915053473115, 16⟩), (13, ⟨16040284053743118, 14⟩), (24, ⟨16040284053743118, 14⟩), (26, ⟨-384966817289834833, 15⟩), (37, ⟨229146915053473115, 16⟩), (39, ⟨-16040284053743118, 14⟩), (43, ⟨183317532042778492, 15⟩), (56, ⟨114573457526736557, 16⟩), (58, ⟨-16040284053743118, 14⟩), (60, ⟨384966817289834833, 15⟩), (62, ⟨-183317532042778492, 15⟩), (79, ⟨-572867287633682787, 18⟩), (84, ⟨-210051338799017022, 17⟩), (86, ⟨320805681074862361, 16⟩), (93, ⟨-2673380675623853, 15⟩), (95, ⟨855481816199632961, 16⟩), (97, ⟨-192483408644917416, 15⟩), (106, ⟨-114573457526736557, 17⟩), (108, ⟨641611362149724721, 16⟩), (110, ⟨-320805681074862361, 15⟩), (112, ⟨256644544859889888, 15⟩), (123, ⟨190955762544560929, 18⟩), (127, ⟨-641611362149724721, 16⟩), (129, ⟨171096363239926592, 15⟩), (131, ⟨-733270128171113967, 16⟩), (144, ⟨190955762544560929, 18⟩), (146, ⟨-10693522702495412, 15⟩), (148, ⟨641611362149724721, 16⟩), (150, ⟨-855481816199632961, 16⟩), (152, ⟨244423376057037989, 16⟩)],
  [(1, ⟨757832188661416079, 18⟩), (6, ⟨277871802509185895, 17⟩), (8, ⟨-424386025650393004, 16⟩), (15, ⟨353655021375327503, 17⟩), (17, ⟨-113169606840104801, 15⟩), (19, ⟨254631615390235802, 15⟩), (28, ⟨151566437732283216, 17⟩), (30, ⟨-848772051300786008, 16⟩), (32, ⟨424386025650393004, 15⟩), (34, ⟨-339508820520314403, 15⟩), (45, ⟨-25261072955380536, 17⟩), (49, ⟨848772051300786008, 16⟩), (51, ⟨-226339213680209602, 15⟩), (53, ⟨970025201486612581, 16⟩), (66, ⟨-25261072955380536, 17⟩), (68, ⟨141462008550131001, 16⟩), (70, ⟨-848772051300786008, 16⟩), (72, ⟨113169606840104801, 15⟩), (74, ⟨-32334173382887086, 15⟩), (82, ⟨-454699313196849647, 17⟩), (89, ⟨-181879725278739859, 16⟩), (91, ⟨727518901114959435, 16⟩), (100, ⟨-272819587918109788, 16⟩), (102, ⟨218255670334487831, 15⟩), (104, ⟨-218255670334487831, 15⟩), (115, ⟨-181879725278739859, 16⟩), (117, ⟨218255670334487831, 15⟩), (119, ⟨-436511340668975661, 15⟩), (121, ⟨166290034540562157, 15⟩), (134, ⟨-454699313196849647, 17⟩), (136, ⟨727518901114959435, 16⟩), (138, ⟨-218255670334487831, 15⟩), (140, ⟨166290034540562157, 15⟩), (142, ⟨-277150057567603594, 16⟩)],
  [(4, ⟨546480562883167061, 17⟩), (11, ⟨218592225153266825, 16⟩), (13, ⟨-874368900613067298, 16⟩), (22, ⟨327888337729900237, 16⟩), (24, ⟨-262310670183920189, 15⟩), (26, ⟨262310670183920189, 15⟩), (37, ⟨218592225153266825, 16⟩), (39, ⟨-262310670183920189, 15⟩), (41, ⟨524621340367840379, 15⟩), (43, ⟨-19985574871155824, 14⟩), (56, ⟨546480562883167061, 17⟩), (58, ⟨-874368900613067298, 16⟩), (60, ⟨262310670183920189, 15⟩), (62, ⟨-19985574871155824, 14⟩), (64, ⟨333092914519263733, 16⟩), (79, ⟨210184831878141177, 18⟩), (84, ⟨105092415939070589, 17⟩), (86, ⟨-126110899126884706, 16⟩), (93, ⟨210184831878141177, 17⟩), (95, ⟨-504443596507538826, 16⟩), (97, ⟨84073932751256471, 15⟩), (106, ⟨210184831878141177, 17⟩), (108, ⟨-756665394761308239, 16⟩), (110, ⟨252221798253769413, 15⟩), (112, ⟨-134518292402010354, 15⟩), (123, ⟨105092415939070589, 17⟩), (125, ⟨-504443596507538826, 16⟩), (127, ⟨252221798253769413, 15⟩), (129, ⟨-269036584804020707, 15⟩), (131, ⟨57650696743718723, 15⟩), (144, ⟨210184831878141177, 18⟩), (146, ⟨-126110899126884706, 16⟩), (148, ⟨84073932751256471, 15⟩), (150, ⟨-134518292402010354, 15⟩), (152, ⟨57650696743718723, 15⟩), (154, ⟨-512450637721944204, 17⟩)],
  [(1, ⟨-230245947330177705, 18⟩), (6, ⟨-115122973665088853, 17⟩), (8, ⟨138147568398106623, 16⟩), (15, ⟨-230245947330177705, 17⟩), (17, ⟨552590273592426493, 16⟩), (19, ⟨-920983789320710822, 16⟩), (28, ⟨-230245947330177705, 17⟩), (30, ⟨82888541038863974, 15⟩), (32, ⟨-276295136796213247, 15⟩), (34, ⟨147357406291313732, 15⟩), (45, ⟨-115122973665088853, 17⟩), (47, ⟨552590273592426493, 16⟩), (49, ⟨-276295136796213247, 15⟩), (51, ⟨294714812582627463, 15⟩), (53, ⟨-631531741248487421, 16⟩), (66, ⟨-230245947330177705, 18⟩), (68, ⟨138147568398106623, 16⟩), (70, ⟨-920983789320710822, 16⟩), (72, ⟨147357406291313732, 15⟩), (74, ⟨-631531741248487421, 16⟩), (76, ⟨561361547776433263, 17⟩)],
  [(79, ⟨230245947330177705, 18⟩), (84, ⟨115122973665088853, 17⟩), (86, ⟨-138147568398106623, 16⟩), (93, ⟨230245947330177705, 17⟩), (95, ⟨-552590273592426493, 16⟩), (97, ⟨920983789320710822, 16⟩), (106, ⟨230245947330177705, 17⟩), (108, ⟨-82888541038863974, 15⟩), (110, ⟨276295136796213247, 15⟩), (112, ⟨-147357406291313732, 15⟩), (123, ⟨115122973665088853, 17⟩), (125, ⟨-552590273592426493, 16⟩), (127, ⟨276295136796213247, 15⟩), (129, ⟨-294714812582627463, 15⟩), (131, ⟨631531741248487421, 16⟩), (144, ⟨230245947330177705, 18⟩), (146, ⟨-138147568398106623, 16⟩), (148, ⟨920983789320710822, 16⟩), (150, ⟨-147357406291313732, 15⟩), (152, ⟨631531741248487421, 16⟩), (154, ⟨-561361547776433263, 17⟩)],
  [(1, ⟨-210184831878141177, 18⟩), (6, ⟨-105092415939070589, 17⟩), (8, ⟨126110899126884706, 16⟩), (15, ⟨-210184831878141177, 17⟩), (17, ⟨504443596507538826, 16⟩), (19, ⟨-84073932751256471, 15⟩), (28, ⟨-210184831878141177, 17⟩), (30, ⟨756665394761308239, 16⟩), (32, ⟨-252221798253769413, 15⟩), (34, ⟨134518292402010354, 15⟩), (45, ⟨-105092415939070589, 17⟩), (47, ⟨504443596507538826, 16⟩), (49, ⟨-252221798253769413, 15⟩), (51, ⟨269036584804020707, 15⟩), (53, ⟨-57650696743718723, 15⟩), (66, ⟨-210184831878141177, 18⟩), (68, ⟨126110899126884706, 16⟩), (70, ⟨-84073932751256471, 15⟩), (72, ⟨134518292402010354, 15⟩), (74, ⟨-57650696743718723, 15⟩), (76, ⟨512450637721944204, 17⟩), (82, ⟨546480562883167061, 17⟩), (89, ⟨218592225153266825, 16⟩), (91, ⟨-874368900613067298, 16⟩), (100, ⟨327888337729900237, 16⟩), (102, ⟨-262310670183920189, 15⟩), (104, ⟨262310670183920189, 15⟩), (115, ⟨218592225153266825, 16⟩), (117, ⟨-262310670183920189, 15⟩), (119, ⟨524621340367840379, 15⟩), (121, ⟨-19985574871155824, 14⟩), (134, ⟨546480562883167061, 17⟩), (136, ⟨-874368900613067298, 16⟩), (138, ⟨262310670183920189, 15⟩), (140, ⟨-19985574871155824, 14⟩), (142, ⟨333092914519263733, 16⟩)],
  [(4, ⟨-454699313196849647, 17⟩), (11, ⟨-181879725278739859, 16⟩), (13, ⟨727518901114959435, 16⟩), (22, ⟨-272819587918109788, 16⟩), (24, ⟨218255670334487831, 15⟩), (26, ⟨-218255670334487831, 15⟩), (37, ⟨-181879725278739859, 16⟩), (39, ⟨218255670334487831, 15⟩), (41, ⟨-436511340668975661, 15⟩), (43, ⟨166290034540562157, 15⟩), (56, ⟨-454699313196849647, 17⟩), (58, ⟨727518901114959435, 16⟩), (60, ⟨-218255670334487831, 15⟩), (62, ⟨166290034540562157, 15⟩), (64, ⟨-277150057567603594, 16⟩), (79, ⟨-757832188661416079, 18⟩), (84, ⟨-277871802509185895, 17⟩), (86, ⟨424386025650393004, 16⟩), (93, ⟨-353655021375327503, 17⟩), (95, ⟨113169606840104801, 15⟩), (97, ⟨-254631615390235802, 15⟩), (106, ⟨-151566437732283216, 17⟩), (108, ⟨848772051300786008, 16⟩), (110, ⟨-424386025650393004, 15⟩), (112, ⟨339508820520314403, 15⟩), (123, ⟨25261072955380536, 17⟩), (127, ⟨-848772051300786008, 16⟩), (129, ⟨226339213680209602, 15⟩), (131, ⟨-970025201486612581, 16⟩), (144, ⟨25261072955380536, 17⟩), (146, ⟨-141462008550131001, 16⟩), (148, ⟨848772051300786008, 16⟩), (150, ⟨-113169606840104801, 15⟩), (152, ⟨32334173382887086, 15⟩)],
  [(1, ⟨572867287633682787, 18⟩), (6, ⟨210051338799017022, 17⟩), (8, ⟨-320805681074862361, 16⟩), (15, ⟨2673380675623853, 15⟩), (17, ⟨-855481816199632961, 16⟩), (19, ⟨192483408644917416, 15⟩), (28, ⟨114573457526736557, 17⟩), (30, ⟨-641611362149724721, 16⟩), (32, ⟨320805681074862361, 15⟩), (34, ⟨-256644544859889888, 15⟩), (45, ⟨-190955762544560929, 18⟩), (49, ⟨641611362149724721, 16⟩), (51, ⟨-171096363239926592, 15⟩), (53, ⟨733270128171113967, 16⟩), (66, ⟨-190955762544560929, 18⟩), (68, ⟨10693522702495412, 15⟩), (70, ⟨-641611362149724721, 16⟩), (72, ⟨855481816199632961, 16⟩), (74, ⟨-244423376057037989, 16⟩), (82, ⟨-114573457526736557, 16⟩), (89, ⟨-229146915053473115, 16⟩), (91, ⟨16040284053743118, 14⟩), (102, ⟨16040284053743118, 14⟩), (104, ⟨-384966817289834833, 15⟩), (115, ⟨229146915053473115, 16⟩), (117, ⟨-16040284053743118, 14⟩), (121, ⟨183317532042778492, 15⟩), (134, ⟨114573457526736557, 16⟩), (136, ⟨-16040284053743118, 14⟩), (138, ⟨384966817289834833, 15⟩), (140, ⟨-183317532042778492, 15⟩)],
  [(4, ⟨782685718908155119, 17⟩), (11, ⟨156537143781631024, 16⟩), (13, ⟨-109576000647141717, 15⟩), (24, ⟨-109576000647141717, 15⟩), (26, ⟨26298240155314012, 14⟩), (37, ⟨-156537143781631024, 16⟩), (39, ⟨109576000647141717, 15⟩), (43, ⟨-125229715025304819, 15⟩), (56, ⟨-782685718908155119, 17⟩), (58, ⟨109576000647141717, 15⟩), (60, ⟨-26298240155314012, 14⟩), (62, ⟨125229715025304819, 15⟩), (79, ⟨139765306947884843, 17⟩), (84, ⟨139765306947884843, 17⟩), (86, ⟨-670873473349847245, 16⟩), (93, ⟨-39134285945407756, 16⟩), (97, ⟨313074287563262048, 15⟩), (106, ⟨-614967350570693308, 17⟩), (108, ⟨187844572537957229, 15⟩), (110, ⟨-313074287563262048, 15⟩), (112, ⟨-250459430050609638, 15⟩), (123, ⟨-19567142972703878, 16⟩), (125, ⟨107339755735975559, 15⟩), (127, ⟨-563533717613871686, 15⟩), (129, ⟨500918860101219276, 15⟩), (144, ⟨279530613895769685, 18⟩), (146, ⟨-134174694669969449, 16⟩), (148, ⟨626148575126524095, 16⟩), (150, ⟨-500918860101219276, 16⟩)],
  [(1, ⟨-855884214414465945, 18⟩), (6, ⟨-855884214414465945, 18⟩), (8, ⟨410824422918943654, 16⟩), (15, ⟨239647580036050465, 17⟩), (19, ⟨-191718064028840372, 15⟩), (28, ⟨376589054342365016, 17⟩), (30, ⟨-115030838417304223, 15⟩), (32, ⟨191718064028840372, 15⟩), (34, ⟨153374451223072297, 15⟩), (45, ⟨119823790018025232, 17⟩), (47, ⟨-657319076670309846, 16⟩), (49, ⟨345092515251912669, 15⟩), (51, ⟨-306748902446144595, 15⟩), (66, ⟨-171176842882893189, 18⟩), (68, ⟨821648845837887307, 17⟩), (70, ⟨-383436128057680743, 16⟩), (72, ⟨306748902446144595, 16⟩), (82, ⟨174600379740551053, 16⟩), (89, ⟨-232800506320734737, 16⟩), (91, ⟨-18624040505658779, 14⟩), (100, ⟨-81480177212257158, 15⟩), (102, ⟨434560945132038176, 15⟩), (104, ⟨260736567079222906, 15⟩), (115, ⟨-232800506320734737, 16⟩), (117, ⟨434560945132038176, 15⟩), (119, ⟨-869121890264076352, 15⟩), (134, ⟨174600379740551053, 16⟩), (136, ⟨-18624040505658779, 14⟩), (138, ⟨260736567079222906, 15⟩)],
  [(4, ⟨-946903507810723996, 17⟩), (11, ⟨126253801041429866, 16⟩), (13, ⟨101003040833143893, 15⟩), (22, ⟨441888303645004531, 16⟩), (24, ⟨-235673761944002417, 15⟩), (26, ⟨-14140425716640145, 14⟩), (37, ⟨126253801041429866, 16⟩), (39, ⟨-235673761944002417, 15⟩), (41, ⟨471347523888004833, 15⟩), (56, ⟨-946903507810723996, 17⟩), (58, ⟨101003040833143893, 15⟩), (60, ⟨-14140425716640145, 14⟩), (79, ⟨-220944151822502266, 17⟩), (84, ⟨662832455467506797, 17⟩), (86, ⟨795398946561008156, 16⟩), (93, ⟨132566491093501359, 16⟩), (95, ⟨-318159578624403263, 15⟩), (97, ⟨-212106385749602175, 15⟩), (106, ⟨-189380701562144799, 17⟩), (108, ⟨-159079789312201631, 15⟩), (110, ⟨106053192874801088, 14⟩), (123, ⟨-599705554946791864, 17⟩), (125, ⟨227256841874573759, 15⟩), (127, ⟨-636319157248806525, 15⟩), (144, ⟨315634502603574665, 18⟩), (146, ⟨-113628420937286879, 16⟩), (148, ⟨303009122499431679, 16⟩)],
  [(1, ⟨10415407201146763, 16⟩), (6, ⟨-31246221603440289, 16⟩), (8, ⟨-374954659241283468, 16⟩), (15, ⟨-62492443206880578, 16⟩), (17, ⟨149981863696513387, 15⟩), (19, ⟨999879091310089248, 16⟩), (28, ⟨892749188669722543, 18⟩), (30, ⟨749909318482566936, 16⟩), (32, ⟨-499939545655044624, 15⟩), (45, ⟨282703909745412139, 17⟩), (47, ⟨-107129902640366705, 15⟩), (49, ⟨299963727393026774, 15⟩), (66, ⟨-148791531444953757, 18⟩), (68, ⟨535649513201833526, 17⟩), (70, ⟨-142839870187155607, 16⟩), (82, ⟨-226163127796329711, 16⟩), (89, ⟨135697876677797827, 15⟩), (91, ⟨135697876677797827, 15⟩), (102, ⟨-949885136744584786, 15⟩), (115, ⟨-135697876677797827, 15⟩), (117, ⟨949885136744584786, 15⟩), (134, ⟨226163127796329711, 16⟩), (136, ⟨-135697876677797827, 15⟩)],
  [(4, ⟨898681142223825956, 17⟩), (11, ⟨-539208685334295574, 16⟩), (13, ⟨-539208685334295574, 16⟩), (24, ⟨377446079734006901, 15⟩), (37, ⟨539208685334295574, 16⟩), (39, ⟨-377446079734006901, 15⟩), (56, ⟨-898681142223825956, 17⟩), (58, ⟨539208685334295574, 16⟩), (79, ⟨337005428333934733, 17⟩), (84, ⟨-280837856944945611, 16⟩), (86, ⟨-674010856667869467, 16⟩), (93, ⟨157269199889169542, 16⟩), (95, ⟨629076799556678169, 15⟩), (106, ⟨337005428333934733, 16⟩), (108, ⟨-943615199335017254, 15⟩), (123, ⟨-131057666574307952, 16⟩), (125, ⟨269604342667147787, 15⟩), (144, ⟨374450475926594148, 18⟩), (146, ⟨-748900951853188297, 17⟩)],
  [(1, ⟨-106570473737587758, 17⟩), (6, ⟨888087281146564647, 17⟩), (8, ⟨213140947475175515, 16⟩), (15, ⟨-497328877442076202, 17⟩), (17, ⟨-198931550976830481, 15⟩), (28, ⟨-106570473737587758, 16⟩), (30, ⟨298397326465245721, 15⟩), (45, ⟨414440731201730169, 17⟩), (47, ⟨-852563789900702061, 16⟩), (66, ⟨-11841163748620862, 17⟩), (68, ⟨236823274972417239, 17⟩), (82, ⟨248664438721038101, 16⟩), (89, ⟨-298397326465245721, 15⟩), (100, ⟨626634385577016015, 15⟩), (115, ⟨-298397326465245721, 15⟩), (134, ⟨248664438721038101, 16⟩)],
  [(4, ⟨-542630291944221461, 17⟩), (11, ⟨651156350333065753, 16⟩), (22, ⟨-136742833569943808, 15⟩), (37, ⟨651156350333065753, 16⟩), (56, ⟨-542630291944221461, 17⟩), (79, ⟨-596893321138643607, 17⟩), (84, ⟨89533998170796541, 15⟩), (93, ⟨-250695194878230315, 15⟩), (106, ⟨179067996341593082, 15⟩), (123, ⟨-298446660569321803, 16⟩), (144, ⟨542630291944221461, 18⟩)],
  [(79, ⟨-610308329187281232, 17⟩), (84, ⟨915462493780921848, 16⟩), (93, ⟨-256329498258658117, 15⟩), (106, ⟨18309249875618437, 14⟩), (123, ⟨-305154164593640616, 16⟩), (144, ⟨554825753806619302, 18⟩)],
  [(1, ⟨-127258083654638245, 17⟩), (6, ⟨190887125481957368, 16⟩), (15, ⟨-534483951349480631, 16⟩), (28, ⟨381774250963914736, 16⟩), (45, ⟨-636290418273191227, 17⟩), (66, ⟨115689166958762041, 18⟩), (82, ⟨-254516167309276491, 16⟩), (89, ⟨305419400771131789, 15⟩), (100, ⟨-641380741619376757, 15⟩), (115, ⟨305419400771131789, 15⟩), (134, ⟨-254516167309276491, 16⟩)],
  [(4, ⟨-767395118221990013, 17⟩), (11, ⟨920874141866388015, 16⟩), (22, ⟨-193383569791941483, 15⟩), (37, ⟨920874141866388015, 16⟩), (56, ⟨-767395118221990013, 17⟩), (79, ⟨345327803199895506, 17⟩), (84, ⟨-287773169333246255, 16⟩), (86, ⟨-690655606399791011, 16⟩), (93, ⟨161152974826617903, 16⟩), (95, ⟨644611899306471611, 15⟩), (106, ⟨345327803199895506, 16⟩), (108, ⟨-966917848959707416, 15⟩), (123, ⟨-134294145688848252, 16⟩), (125, ⟨276262242559916405, 15⟩), (144, ⟨383697559110995006, 18⟩), (146, ⟨-767395118221990013, 17⟩)],
  [(1, ⟨130521641151882637, 17⟩), (6, ⟨-10876803429323553, 15⟩), (8, ⟨-261043282303765273, 16⟩), (15, ⟨609100992042118971, 17⟩), (17, ⟨243640396816847588, 15⟩), (28, ⟨130521641151882637, 16⟩), (30, ⟨-365460595225271382, 15⟩), (45, ⟨-507584160035099142, 17⟩), (47, ⟨104417312921506109, 15⟩), (66, ⟨145024045724314041, 18⟩), (68, ⟨-290048091448628081, 17⟩), (82, ⟨232038473158902465, 16⟩), (89, ⟨-139223083895341479, 15⟩), (91, ⟨-139223083895341479, 15⟩), (102, ⟨974561587267390353, 15⟩), (115, ⟨139223083895341479, 15⟩), (117, ⟨-974561587267390353, 15⟩), (134, ⟨-232038473158902465, 16⟩), (136, ⟨139223083895341479, 15⟩)],
  [(4, ⟨103770759875713254, 16⟩), (11, ⟨-622624559254279527, 16⟩), (13, ⟨-622624559254279527, 16⟩), (24, ⟨435837191477995669, 15⟩), (37, ⟨622624559254279527, 16⟩), (39, ⟨-435837191477995669, 15⟩), (56, ⟨-103770759875713254, 16⟩), (58, ⟨622624559254279527, 16⟩), (79, ⟨-226998537228122744, 17⟩), (84, ⟨680995611684368233, 17⟩), (86, ⟨817194734021241879, 16⟩), (93, ⟨136199122336873647, 16⟩), (95, ⟨-326877893608496752, 15⟩), (97, ⟨-217918595738997834, 15⟩), (106, ⟨-194570174766962352, 17⟩), (108, ⟨-163438946804248376, 15⟩), (110, ⟨108959297869498917, 14⟩), (123, ⟨-616138886762047449, 17⟩), (125, ⟨233484209720354823, 15⟩), (127, ⟨-653755787216993503, 15⟩), (144, ⟨32428362461160392, 17⟩), (146, ⟨-116742104860177411, 16⟩), (148, ⟨311312279627139763, 16⟩)],
  [(1, ⟨-116447792575524938, 17⟩), (6, ⟨349343377726574814, 17⟩), (8, ⟨419212053271889777, 16⟩), (15, ⟨698686755453149629, 17⟩), (17, ⟨-167684821308755911, 15⟩), (19, ⟨-111789880872503941, 15⟩), (28, ⟨-998123936361642327, 18⟩), (30, ⟨-838424106543779555, 16⟩), (32, ⟨558949404362519703, 15⟩), (45, ⟨-316072579847853403, 17⟩), (47, ⟨119774872363397079, 15⟩), (49, ⟨-335369642617511822, 15⟩), (66, ⟨166353989393607054, 18⟩), (68, ⟨-598874361816985396, 17⟩), (70, ⟨159699829817862772, 16⟩), (82, ⟨-179662308545095619, 16⟩), (89, ⟨239549744726794158, 16⟩), (91, ⟨191639795781435327, 15⟩), (100, ⟨838424106543779555, 16⟩), (102, ⟨-447159523490015762, 15⟩), (104, ⟨-268295714094009457, 15⟩), (115, ⟨239549744726794158, 16⟩), (117, ⟨-447159523490015762, 15⟩), (119, ⟨894319046980031525, 15⟩), (134, ⟨-179662308545095619, 16⟩), (136, ⟨191639795781435327, 15⟩), (138, ⟨-268295714094009457, 15⟩)],
  [(4, ⟨-103728082201740557, 16⟩), (11, ⟨138304109602320742, 16⟩), (13, ⟨110643287681856594, 15⟩), (22, ⟨484064383608122598, 16⟩), (24, ⟨-258167671257665386, 15⟩), (26, ⟨-154900602754599231, 15⟩), (37, ⟨138304109602320742, 16⟩), (39, ⟨-258167671257665386, 15⟩), (41, ⟨516335342515330771, 15⟩), (56, ⟨-103728082201740557, 16⟩), (58, ⟨110643287681856594, 15⟩), (60, ⟨-154900602754599231, 15⟩), (79, ⟨144066780835750773, 17⟩), (84, ⟨144066780835750773, 17⟩), (86, ⟨-691520548011603712, 16⟩), (93, ⟨-403386986340102165, 17⟩), (97, ⟨322709589072081732, 15⟩), (106, ⟨-633893835677303403, 17⟩), (108, ⟨193625753443249039, 15⟩), (110, ⟨-322709589072081732, 15⟩), (112, ⟨-258167671257665386, 15⟩), (123, ⟨-201693493170051083, 17⟩), (125, ⟨110643287681856594, 15⟩), (127, ⟨-580877260329747118, 15⟩), (129, ⟨516335342515330771, 15⟩), (144, ⟨288133561671501547, 18⟩), (146, ⟨-138304109602320742, 16⟩), (148, ⟨645419178144163464, 16⟩), (150, ⟨-516335342515330771, 16⟩)],
  [(1, ⟨924460610246778137, 18⟩), (6, ⟨924460610246778137, 18⟩), (8, ⟨-443741092918453506, 16⟩), (15, ⟨-258848970869097878, 17⟩), (19, ⟨207079176695278303, 15⟩), (28, ⟨-40676266850858238, 16⟩), (30, ⟨124247506017166982, 15⟩), (32, ⟨-207079176695278303, 15⟩), (34, ⟨-165663341356222642, 15⟩), (45, ⟨-129424485434548939, 17⟩), (47, ⟨70998574866952561, 15⟩), (49, ⟨-372742518051500945, 15⟩), (51, ⟨331326682712445284, 15⟩), (66, ⟨184892122049355627, 18⟩), (68, ⟨-887482185836907012, 17⟩), (70, ⟨414158353390556606, 16⟩), (72, ⟨-331326682712445284, 16⟩), (82, ⟨118330958111587602, 16⟩), (89, ⟨236661916223175203, 16⟩), (91, ⟨-165663341356222642, 15⟩), (102, ⟨-165663341356222642, 15⟩), (104, ⟨397592019254934341, 15⟩), (115, ⟨-236661916223175203, 16⟩), (117, ⟨165663341356222642, 15⟩), (121, ⟨-189329532978540163, 15⟩), (134, ⟨-118330958111587602, 16⟩), (136, ⟨165663341356222642, 15⟩), (138, ⟨-397592019254934341, 15⟩), (140, ⟨189329532978540163, 15⟩)],
  [(4, ⟨836726229050048951, 17⟩), (11, ⟨16734524581000979, 15⟩), (13, ⟨-117141672067006853, 15⟩), (24, ⟨-117141672067006853, 15⟩), (26, ⟨281140012960816447, 15⟩), (37, ⟨-16734524581000979, 15⟩), (39, ⟨117141672067006853, 15⟩), (43, ⟨-133876196648007832, 15⟩), (56, ⟨-836726229050048951, 17⟩), (58, ⟨117141672067006853, 15⟩), (60, ⟨-281140012960816447, 15⟩), (62, ⟨133876196648007832, 15⟩), (79, ⟨-784430839734420891, 18⟩), (84, ⟨-287624641235954327, 17⟩), (86, ⟨439281270251275699, 16⟩), (93, ⟨-366067725209396416, 17⟩), (95, ⟨117141672067006853, 15⟩), (97, ⟨-263568762150765419, 15⟩), (106, ⟨-156886167946884178, 17⟩), (108, ⟨878562540502551398, 16⟩), (110, ⟨-439281270251275699, 15⟩), (112, ⟨351425016201020559, 15⟩), (123, ⟨261476946578140297, 18⟩), (127, ⟨-878562540502551398, 16⟩), (129, ⟨234283344134013706, 15⟩), (131, ⟨-100407147486005874, 15⟩), (144, ⟨261476946578140297, 18⟩), (146, ⟨-146427090083758566, 16⟩), (148, ⟨878562540502551398, 16⟩), (150, ⟨-117141672067006853, 15⟩), (152, ⟨33469049162001958, 15⟩)],
  [(1, ⟨-607617515708582275, 18⟩), (6, ⟨-222793089093146834, 17⟩), (8, ⟨340265808796806074, 16⟩), (15, ⟨-283554840664005062, 17⟩), (17, ⟨907375490124816198, 16⟩), (19, ⟨-204159485278083644, 15⟩), (28, ⟨-121523503141716455, 17⟩), (30, ⟨680531617593612148, 16⟩), (32, ⟨-340265808796806074, 15⟩), (34, ⟨272212647037444859, 15⟩), (45, ⟨202539171902860758, 18⟩), (49, ⟨-680531617593612148, 16⟩), (51, ⟨18147509802496324, 14⟩), (53, ⟨-777750420106985312, 16⟩), (66, ⟨202539171902860758, 18⟩), (68, ⟨-113421936265602025, 16⟩), (70, ⟨680531617593612148, 16⟩), (72, ⟨-907375490124816198, 16⟩), (74, ⟨259250140035661771, 16⟩), (82, ⟨-567109681328010124, 17⟩), (89, ⟨-226843872531204049, 16⟩), (91, ⟨907375490124816198, 16⟩), (100, ⟨-340265808796806074, 16⟩), (102, ⟨272212647037444859, 15⟩), (104, ⟨-272212647037444859, 15⟩), (115, ⟨-226843872531204049, 16⟩), (117, ⟨272212647037444859, 15⟩), (119, ⟨-544425294074889719, 15⟩), (121, ⟨207400112028529417, 15⟩), (134, ⟨-567109681328010124, 17⟩), (136, ⟨907375490124816198, 16⟩), (138, ⟨-272212647037444859, 15⟩), (140, ⟨207400112028529417, 15⟩), (142, ⟨-345666853380882361, 16⟩)],
  [(4, ⟨-479295160072100929, 17⟩), (11, ⟨-191718064028840372, 16⟩), (13, ⟨766872256115361487, 16⟩), (22, ⟨-287577096043260558, 16⟩), (24, ⟨230061676834608446, 15⟩), (26, ⟨-230061676834608446, 15⟩), (37, ⟨-191718064028840372, 16⟩), (39, ⟨230061676834608446, 15⟩), (41, ⟨-460123353669216892, 15⟩), (43, ⟨175285087112082626, 15⟩), (56, ⟨-479295160072100929, 17⟩), (58, ⟨766872256115361487, 16⟩), (60, ⟨-230061676834608446, 15⟩), (62, ⟨175285087112082626, 15⟩), (64, ⟨-292141811853471043, 16⟩), (79, ⟨239647580036050465, 18⟩), (84, ⟨119823790018025232, 17⟩), (86, ⟨-143788548021630279, 16⟩), (93, ⟨239647580036050465, 17⟩), (95, ⟨-575154192086521115, 16⟩), (97, ⟨958590320144201859, 16⟩), (106, ⟨239647580036050465, 17⟩), (108, ⟨-862731288129781673, 16⟩), (110, ⟨287577096043260558, 15⟩), (112, ⟨-153374451223072297, 15⟩), (123, ⟨119823790018025232, 17⟩), (125, ⟨-575154192086521115, 16⟩), (127, ⟨287577096043260558, 15⟩), (129, ⟨-306748902446144595, 15⟩), (131, ⟨657319076670309846, 16⟩), (144, ⟨239647580036050465, 18⟩), (146, ⟨-143788548021630279, 16⟩), (148, ⟨958590320144201859, 16⟩), (150, ⟨-153374451223072297, 15⟩), (152, ⟨657319076670309846, 16⟩), (154, ⟨-584283623706942085, 17⟩)],
  [(1, ⟨220443711424950199, 18⟩), (6, ⟨110221855712475099, 17⟩), (8, ⟨-132266226854970119, 16⟩), (15, ⟨220443711424950199, 17⟩), (17, ⟨-529064907419880478, 16⟩), (19, ⟨881774845699800796, 16⟩), (28, ⟨220443711424950199, 17⟩), (30, ⟨-793597361129820716, 16⟩), (32, ⟨264532453709940239, 15⟩), (34, ⟨-141083975311968127, 15⟩), (45, ⟨110221855712475099, 17⟩), (47, ⟨-529064907419880478, 16⟩), (49, ⟨264532453709940239, 15⟩), (51, ⟨-282167950623936255, 15⟩), (53, ⟨604645608479863403, 16⟩), (66, ⟨220443711424950199, 18⟩), (68, ⟨-132266226854970119, 16⟩), (70, ⟨881774845699800796, 16⟩), (72, ⟨-141083975311968127, 15⟩), (74, ⟨604645608479863403, 16⟩), (76, ⟨-537462763093211914, 17⟩)],
  [(79, ⟨220443711424950199, 18⟩), (84, ⟨110221855712475099, 17⟩), (86, ⟨-132266226854970119, 16⟩), (93, ⟨220443711424950199, 17⟩), (95, ⟨-529064907419880478, 16⟩), (97, ⟨881774845699800796, 16⟩), (106, ⟨220443711424950199, 17⟩), (108, ⟨-793597361129820716, 16⟩), (110, ⟨264532453709940239, 15⟩), (112, ⟨-141083975311968127, 15⟩), (123, ⟨110221855712475099, 17⟩), (125, ⟨-529064907419880478, 16⟩), (127, ⟨264532453709940239, 15⟩), (129, ⟨-282167950623936255, 15⟩), (131, ⟨604645608479863403, 16⟩), (144, ⟨220443711424950199, 18⟩), (146, ⟨-132266226854970119, 16⟩), (148, ⟨881774845699800796, 16⟩), (150, ⟨-141083975311968127, 15⟩), (152, ⟨604645608479863403, 16⟩), (154, ⟨-537462763093211914, 17⟩)],
  [(1, ⟨239647580036050465, 18⟩), (6, ⟨119823790018025232, 17⟩), (8, ⟨-143788548021630279, 16⟩), (15, ⟨239647580036050465, 17⟩), (17, ⟨-575154192086521115, 16⟩), (19, ⟨958590320144201859, 16⟩), (28, ⟨239647580036050465, 17⟩), (30, ⟨-862731288129781673, 16⟩), (32, ⟨287577096043260558, 15⟩), (34, ⟨-153374451223072297, 15⟩), (45, ⟨119823790018025232, 17⟩), (47, ⟨-575154192086521115, 16⟩), (49, ⟨287577096043260558, 15⟩), (51, ⟨-306748902446144595, 15⟩), (53, ⟨657319076670309846, 16⟩), (66, ⟨239647580036050465, 18⟩), (68, ⟨-143788548021630279, 16⟩), (70, ⟨958590320144201859, 16⟩), (72, ⟨-153374451223072297, 15⟩), (74, ⟨657319076670309846, 16⟩), (76, ⟨-584283623706942085, 17⟩), (82, ⟨479295160072100929, 17⟩), (89, ⟨191718064028840372, 16⟩), (91, ⟨-766872256115361487, 16⟩), (100, ⟨287577096043260558, 16⟩), (102, ⟨-230061676834608446, 15⟩), (104, ⟨230061676834608446, 15⟩), (115, ⟨191718064028840372, 16⟩), (117, ⟨-230061676834608446, 15⟩), (119, ⟨460123353669216892, 15⟩), (121, ⟨-175285087112082626, 15⟩), (134, ⟨479295160072100929, 17⟩), (136, ⟨-766872256115361487, 16⟩), (138, ⟨230061676834608446, 15⟩), (140, ⟨-175285087112082626, 15⟩), (142, ⟨292141811853471043, 16⟩)],
  [(4, ⟨567109681328010124, 17⟩), (11, ⟨226843872531204049, 16⟩), (13, ⟨-907375490124816198, 16⟩), (22, ⟨340265808796806074, 16⟩), (24, ⟨-272212647037444859, 15⟩), (26, ⟨272212647037444859, 15⟩), (37, ⟨226843872531204049, 16⟩), (39, ⟨-272212647037444859, 15⟩), (41, ⟨544425294074889719, 15⟩), (43, ⟨-207400112028529417, 15⟩), (56, ⟨567109681328010124, 17⟩), (58, ⟨-907375490124816198, 16⟩), (60, ⟨272212647037444859, 15⟩), (62, ⟨-207400112028529417, 15⟩), (64, ⟨345666853380882361, 16⟩), (79, ⟨-607617515708582275, 18⟩), (84, ⟨-222793089093146834, 17⟩), (86, ⟨340265808796806074, 16⟩), (93, ⟨-283554840664005062, 17⟩), (95, ⟨907375490124816198, 16⟩), (97, ⟨-204159485278083644, 15⟩), (106, ⟨-121523503141716455, 17⟩), (108, ⟨680531617593612148, 16⟩), (110, ⟨-340265808796806074, 15⟩), (112, ⟨272212647037444859, 15⟩), (123, ⟨202539171902860758, 18⟩), (127, ⟨-680531617593612148, 16⟩), (129, ⟨18147509802496324, 14⟩), (131, ⟨-777750420106985312, 16⟩), (144, ⟨202539171902860758, 18⟩), (146, ⟨-113421936265602025, 16⟩), (148, ⟨680531617593612148, 16⟩), (150, ⟨-907375490124816198, 16⟩), (152, ⟨259250140035661771, 16⟩)],
  [(1, ⟨-784430839734420891, 18⟩), (6, ⟨-287624641235954327, 17⟩), (8, ⟨439281270251275699, 16⟩), (15, ⟨-366067725209396416, 17⟩), (17, ⟨117141672067006853, 15⟩), (19, ⟨-263568762150765419, 15⟩), (28, ⟨-156886167946884178, 17⟩), (30, ⟨878562540502551398, 16⟩), (32, ⟨-439281270251275699, 15⟩), (34, ⟨351425016201020559, 15⟩), (45, ⟨261476946578140297, 18⟩), (49, ⟨-878562540502551398, 16⟩), (51, ⟨234283344134013706, 15⟩), (53, ⟨-100407147486005874, 15⟩), (66, ⟨261476946578140297, 18⟩), (68, ⟨-146427090083758566, 16⟩), (70, ⟨878562540502551398, 16⟩), (72, ⟨-117141672067006853, 15⟩), (74, ⟨33469049162001958, 15⟩), (82, ⟨-836726229050048951, 17⟩), (89, ⟨-16734524581000979, 15⟩), (91, ⟨117141672067006853, 15⟩), (102, ⟨117141672067006853, 15⟩), (104, ⟨-281140012960816447, 15⟩), (115, ⟨16734524581000979, 15⟩), (117, ⟨-117141672067006853, 15⟩), (121, ⟨133876196648007832, 15⟩), (134, ⟨836726229050048951, 17⟩), (136, ⟨-117141672067006853, 15⟩), (138, ⟨281140012960816447, 15⟩), (140, ⟨-133876196648007832, 15⟩)],
  [(4, ⟨-118330958111587602, 16⟩), (11, ⟨-236661916223175203, 16⟩), (13, ⟨165663341356222642, 15⟩), (24, ⟨165663341356222642, 15⟩), (26, ⟨-397592019254934341, 15⟩), (37, ⟨236661916223175203, 16⟩), (39, ⟨-165663341356222642, 15⟩), (43, ⟨189329532978540163, 15⟩), (56, ⟨118330958111587602, 16⟩), (58, ⟨-165663341356222642, 15⟩), (60, ⟨397592019254934341, 15⟩), (62, ⟨-189329532978540163, 15⟩), (79, ⟨924460610246778137, 18⟩), (84, ⟨924460610246778137, 18⟩), (86, ⟨-443741092918453506, 16⟩), (93, ⟨-258848970869097878, 17⟩), (97, ⟨207079176695278303, 15⟩), (106, ⟨-40676266850858238, 16⟩), (108, ⟨124247506017166982, 15⟩), (110, ⟨-207079176695278303, 15⟩), (112, ⟨-165663341356222642, 15⟩), (123, ⟨-129424485434548939, 17⟩), (125, ⟨70998574866952561, 15⟩), (127, ⟨-372742518051500945, 15⟩), (129, ⟨331326682712445284, 15⟩), (144, ⟨184892122049355627, 18⟩), (146, ⟨-887482185836907012, 17⟩), (148, ⟨414158353390556606, 16⟩), (150, ⟨-331326682712445284, 16⟩)],
  [(1, ⟨144066780835750773, 17⟩), (6, ⟨144066780835750773, 17⟩), (8, ⟨-691520548011603712, 16⟩), (15, ⟨-403386986340102165, 17⟩), (19, ⟨322709589072081732, 15⟩), (28, ⟨-633893835677303403, 17⟩), (30, ⟨193625753443249039, 15⟩), (32, ⟨-322709589072081732, 15⟩), (34, ⟨-258167671257665386, 15⟩), (45, ⟨-201693493170051083, 17⟩), (47, ⟨110643287681856594, 15⟩), (49, ⟨-580877260329747118, 15⟩), (51, ⟨516335342515330771, 15⟩), (66, ⟨288133561671501547, 18⟩), (68, ⟨-138304109602320742, 16⟩), (70, ⟨645419178144163464, 16⟩), (72, ⟨-516335342515330771, 16⟩), (82, ⟨103728082201740557, 16⟩), (89, ⟨-138304109602320742, 16⟩), (91, ⟨-110643287681856594, 15⟩), (100, ⟨-484064383608122598, 16⟩), (102, ⟨258167671257665386, 15⟩), (104, ⟨154900602754599231, 15⟩), (115, ⟨-138304109602320742, 16⟩), (117, ⟨258167671257665386, 15⟩), (119, ⟨-516335342515330771, 15⟩), (134, ⟨103728082201740557, 16⟩), (136, ⟨-110643287681856594, 15⟩), (138, ⟨154900602754599231, 15⟩)],
  [(4, ⟨179662308545095619, 16⟩), (11, ⟨-239549744726794158, 16⟩), (13, ⟨-191639795781435327, 15⟩), (22, ⟨-838424106543779555, 16⟩), (24, ⟨447159523490015762, 15⟩), (26, ⟨268295714094009457, 15⟩), (37, ⟨-239549744726794158, 16⟩), (39, ⟨447159523490015762, 15⟩), (41, ⟨-894319046980031525, 15⟩), (56, ⟨179662308545095619, 16⟩), (58, ⟨-191639795781435327, 15⟩), (60, ⟨268295714094009457, 15⟩), (79, ⟨-116447792575524938, 17⟩), (84, ⟨349343377726574814, 17⟩), (86, ⟨419212053271889777, 16⟩), (93, ⟨698686755453149629, 17⟩), (95, ⟨-167684821308755911, 15⟩), (97, ⟨-111789880872503941, 15⟩), (106, ⟨-998123936361642327, 18⟩), (108, ⟨-838424106543779555, 16⟩), (110, ⟨558949404362519703, 15⟩), (123, ⟨-316072579847853403, 17⟩), (125, ⟨119774872363397079, 15⟩), (127, ⟨-335369642617511822, 15⟩), (144, ⟨166353989393607054, 18⟩), (146, ⟨-598874361816985396, 17⟩), (148, ⟨159699829817862772, 16⟩)],
  [(1, ⟨-226998537228122744, 17⟩), (6, ⟨680995611684368233, 17⟩), (8, ⟨817194734021241879, 16⟩), (15, ⟨136199122336873647, 16⟩), (17, ⟨-326877893608496752, 15⟩), (19, ⟨-217918595738997834, 15⟩), (28, ⟨-194570174766962352, 17⟩), (30, ⟨-163438946804248376, 15⟩), (32, ⟨108959297869498917, 14⟩), (45, ⟨-616138886762047449, 17⟩), (47, ⟨233484209720354823, 15⟩), (49, ⟨-653755787216993503, 15⟩), (66, ⟨32428362461160392, 17⟩), (68, ⟨-116742104860177411, 16⟩), (70, ⟨311312279627139763, 16⟩), (82, ⟨-103770759875713254, 16⟩), (89, ⟨622624559254279527, 16⟩), (91, ⟨622624559254279527, 16⟩), (102, ⟨-435837191477995669, 15⟩), (115, ⟨-622624559254279527, 16⟩), (117, ⟨435837191477995669, 15⟩), (134, ⟨103770759875713254, 16⟩), (136, ⟨-622624559254279527, 16⟩)],
  [(4, ⟨-232038473158902465, 16⟩), (11, ⟨139223083895341479, 15⟩), (13, ⟨139223083895341479, 15⟩), (24, ⟨-974561587267390353, 15⟩), (37, ⟨-139223083895341479, 15⟩), (39, ⟨974561587267390353, 15⟩), (56, ⟨232038473158902465, 16⟩), (58, ⟨-139223083895341479, 15⟩), (79, ⟨130521641151882637, 17⟩), (84, ⟨-10876803429323553, 15⟩), (86, ⟨-261043282303765273, 16⟩), (93, ⟨609100992042118971, 17⟩), (95, ⟨243640396816847588, 15⟩), (106, ⟨130521641151882637, 16⟩), (108, ⟨-365460595225271382, 15⟩), (123, ⟨-507584160035099142, 17⟩), (125, ⟨104417312921506109, 15⟩), (144, ⟨145024045724314041, 18⟩), (146, ⟨-290048091448628081, 17⟩)],
  [(1, ⟨345327803199895506, 17⟩), (6, ⟨-287773169333246255, 16⟩), (8, ⟨-690655606399791011, 16⟩), (15, ⟨161152974826617903, 16⟩), (17, ⟨644611899306471611, 15⟩), (28, ⟨345327803199895506, 16⟩), (30, ⟨-966917848959707416, 15⟩), (45, ⟨-134294145688848252, 16⟩), (47, ⟨276262242559916405, 15⟩), (66, ⟨383697559110995006, 18⟩), (68, ⟨-767395118221990013, 17⟩), (82, ⟨767395118221990013, 17⟩), (89, ⟨-920874141866388015, 16⟩), (100, ⟨193383569791941483, 15⟩), (115, ⟨-920874141866388015, 16⟩), (134, ⟨767395118221990013, 17⟩)],
  [(4, ⟨254516167309276491, 16⟩), (11, ⟨-305419400771131789, 15⟩), (22, ⟨641380741619376757, 15⟩), (37, ⟨-305419400771131789, 15⟩), (56, ⟨254516167309276491, 16⟩), (79, ⟨-127258083654638245, 17⟩), (84, ⟨190887125481957368, 16⟩), (93, ⟨-534483951349480631, 16⟩), (106, ⟨381774250963914736, 16⟩), (123, ⟨-636290418273191227, 17⟩), (144, ⟨115689166958762041, 18⟩)],
  [(1, ⟨-610308329187281232, 17⟩), (6, ⟨915462493780921848, 16⟩), (15, ⟨-256329498258658117, 15⟩), (28, ⟨18309249875618437, 14⟩), (45, ⟨-305154164593640616, 16⟩), (66, ⟨554825753806619302, 18⟩)]]

/-- The part of g_trans_cart2jI (src/cart2sph.c:2176-3535, PYPZPX not defined) for l = 12: for every row of
182 literals the nonzero ones with their column. -/
def cjRowsI12 : List (List (Nat × Dec)) := [
  [(1, ⟨665790904567943162, 17⟩), (6, ⟨-122061665837456246, 15⟩), (15, ⟨439421997014842487, 15⟩), (28, ⟨-439421997014842487, 15⟩), (45, ⟨122061665837456246, 15⟩), (66, ⟨-665790904567943162, 17⟩), (95, ⟨-610308329187281232, 17⟩), (102, ⟨915462493780921848, 16⟩), (113, ⟨-256329498258658117, 15⟩), (128, ⟨18309249875618437, 14⟩), (147, ⟨-305154164593640616, 16⟩), (170, ⟨554825753806619302, 18⟩)],
  [(4, ⟨292693592405667964, 16⟩), (11, ⟨-439040388608501947, 15⟩), (22, ⟨122931308810380545, 14⟩), (37, ⟨-878080777217003893, 15⟩), (56, ⟨146346796202833982, 15⟩), (79, ⟨-266085084005152695, 17⟩), (92, ⟨115689166958762041, 17⟩), (97, ⟨-127258083654638245, 16⟩), (99, ⟨-254516167309276491, 16⟩), (106, ⟨152709700385565894, 16⟩), (108, ⟨305419400771131789, 15⟩), (119, ⟨152709700385565894, 16⟩), (121, ⟨-641380741619376757, 15⟩), (136, ⟨-127258083654638245, 16⟩), (138, ⟨305419400771131789, 15⟩), (157, ⟨115689166958762041, 17⟩), (159, ⟨-254516167309276491, 16⟩)],
  [(1, ⟨-383697559110995006, 17⟩), (6, ⟨422067315022094507, 16⟩), (8, ⟨844134630044189014, 16⟩), (15, ⟨-506480778026513408, 16⟩), (17, ⟨-101296155605302682, 14⟩), (28, ⟨-506480778026513408, 16⟩), (30, ⟨212721926771135631, 14⟩), (45, ⟨422067315022094507, 16⟩), (47, ⟨-101296155605302682, 14⟩), (66, ⟨-383697559110995006, 17⟩), (68, ⟨844134630044189014, 16⟩), (95, ⟨103598340959968652, 16⟩), (102, ⟨-863319507999738764, 16⟩), (104, ⟨-690655606399791011, 16⟩), (113, ⟨483458924479853708, 16⟩), (115, ⟨644611899306471611, 15⟩), (128, ⟨103598340959968652, 15⟩), (130, ⟨-966917848959707416, 15⟩), (147, ⟨-402882437066544757, 16⟩), (149, ⟨276262242559916405, 15⟩), (170, ⟨115109267733298502, 17⟩), (172, ⟨-767395118221990013, 17⟩)],
  [(4, ⟨-274095446418953537, 16⟩), (11, ⟨228412872015794614, 15⟩), (13, ⟨182730297612635691, 15⟩), (22, ⟨-127911208328844984, 15⟩), (24, ⟨-170548277771793312, 14⟩), (37, ⟨-274095446418953537, 15⟩), (39, ⟨255822416657689968, 14⟩), (56, ⟨10659267360737082, 14⟩), (58, ⟨-730921190450542765, 15⟩), (79, ⟨-304550496021059485, 17⟩), (81, ⟨203033664014039657, 16⟩), (92, ⟨-116019236579451232, 17⟩), (97, ⟨580096182897256162, 17⟩), (99, ⟨46407694631780493, 15⟩), (106, ⟨696115419476707395, 17⟩), (108, ⟨-278446167790682958, 15⟩), (110, ⟨-139223083895341479, 15⟩), (119, ⟨-696115419476707395, 17⟩), (123, ⟨974561587267390353, 15⟩), (136, ⟨-580096182897256162, 17⟩), (138, ⟨278446167790682958, 15⟩), (140, ⟨-974561587267390353, 15⟩), (157, ⟨116019236579451232, 17⟩), (159, ⟨-46407694631780493, 15⟩), (161, ⟨139223083895341479, 15⟩)],
  [(1, ⟨259426899689283136, 17⟩), (6, ⟨-129713449844641568, 16⟩), (8, ⟨-103770759875713254, 15⟩), (15, ⟨-155656139813569882, 16⟩), (17, ⟨622624559254279527, 15⟩), (19, ⟨311312279627139763, 15⟩), (28, ⟨155656139813569882, 16⟩), (32, ⟨-217918595738997834, 14⟩), (45, ⟨129713449844641568, 16⟩), (47, ⟨-622624559254279527, 15⟩), (49, ⟨217918595738997834, 14⟩), (66, ⟨-259426899689283136, 17⟩), (68, ⟨103770759875713254, 15⟩), (70, ⟨-311312279627139763, 15⟩), (95, ⟨-113499268614061372, 16⟩), (102, ⟨340497805842184116, 16⟩), (104, ⟨136199122336873647, 15⟩), (113, ⟨680995611684368233, 16⟩), (115, ⟨-544796489347494586, 15⟩), (117, ⟨-217918595738997834, 15⟩), (128, ⟨-972850873834811761, 17⟩), (130, ⟨-272398244673747293, 15⟩), (132, ⟨108959297869498917, 14⟩), (147, ⟨-308069443381023724, 16⟩), (149, ⟨389140349533924704, 15⟩), (151, ⟨-653755787216993503, 15⟩), (170, ⟨16214181230580196, 16⟩), (172, ⟨-194570174766962352, 16⟩), (174, ⟨311312279627139763, 16⟩)],
  [(4, ⟨221250805893497382, 16⟩), (11, ⟨-663752417680492147, 16⟩), (13, ⟨-265500967072196859, 15⟩), (22, ⟨-132750483536098429, 15⟩), (24, ⟨106200386828878744, 14⟩), (26, ⟨424801547315514974, 15⟩), (37, ⟨189643547908712042, 16⟩), (39, ⟨531001934144393718, 15⟩), (41, ⟨-212400773657757487, 14⟩), (56, ⟨600537901710921467, 16⟩), (58, ⟨-758574191634848168, 15⟩), (60, ⟨127440464194654492, 14⟩), (79, ⟨-316072579847853403, 17⟩), (81, ⟨379287095817424084, 16⟩), (83, ⟨-606859353307878535, 16⟩), (92, ⟨998123936361642327, 18⟩), (97, ⟨-332707978787214109, 18⟩), (99, ⟨-538986925635286856, 16⟩), (106, ⟨-598874361816985396, 17⟩), (108, ⟨718649234180382475, 16⟩), (110, ⟨28745969367215299, 14⟩), (119, ⟨-598874361816985396, 17⟩), (121, ⟨251527231963133866, 15⟩), (123, ⟨-670739285235023644, 15⟩), (125, ⟨-268295714094009457, 15⟩), (136, ⟨-332707978787214109, 18⟩), (138, ⟨718649234180382475, 16⟩), (140, ⟨-670739285235023644, 15⟩), (142, ⟨894319046980031525, 15⟩), (157, ⟨998123936361642327, 18⟩), (159, ⟨-538986925635286856, 16⟩), (161, ⟨28745969367215299, 14⟩), (163, ⟨-268295714094009457, 15⟩)],
  [(1, ⟨-172880137002900928, 17⟩), (6, ⟨576267123343003093, 18⟩), (8, ⟨933552739815665011, 16⟩), (15, ⟨103728082201740557, 16⟩), (17, ⟨-124473698642088668, 15⟩), (19, ⟨-497894794568354673, 15⟩), (28, ⟨103728082201740557, 16⟩), (30, ⟨-435657945247310338, 15⟩), (32, ⟨116175452065949424, 14⟩), (34, ⟨464701808263797694, 15⟩), (45, ⟨576267123343003093, 18⟩), (47, ⟨-124473698642088668, 15⟩), (49, ⟨116175452065949424, 14⟩), (51, ⟨-154900602754599231, 14⟩), (66, ⟨-172880137002900928, 17⟩), (68, ⟨933552739815665011, 16⟩), (70, ⟨-497894794568354673, 15⟩), (72, ⟨464701808263797694, 15⟩), (95, ⟨100846746585025541, 16⟩), (102, ⟨100846746585025541, 16⟩), (104, ⟨-161354794536040866, 15⟩), (113, ⟨-282370890438071516, 16⟩), (117, ⟨451793424700914425, 15⟩), (128, ⟨-443725684974112382, 16⟩), (130, ⟨451793424700914425, 15⟩), (132, ⟨-451793424700914425, 15⟩), (134, ⟨-258167671257665386, 15⟩), (147, ⟨-141185445219035758, 16⟩), (149, ⟨258167671257665386, 15⟩), (151, ⟨-813228164461645965, 15⟩), (153, ⟨516335342515330771, 15⟩), (170, ⟨201693493170051083, 17⟩), (172, ⟨-322709589072081732, 16⟩), (174, ⟨90358684940182885, 15⟩), (176, ⟨-516335342515330771, 16⟩)],
  [(4, ⟨-157158303741952283, 16⟩), (11, ⟨-157158303741952283, 16⟩), (13, ⟨251453285987123653, 15⟩), (22, ⟨440043250477466393, 16⟩), (26, ⟨-70406920076394623, 14⟩), (37, ⟨691496536464590047, 16⟩), (39, ⟨-70406920076394623, 14⟩), (41, ⟨70406920076394623, 14⟩), (43, ⟨402325257579397845, 15⟩), (56, ⟨220021625238733197, 16⟩), (58, ⟨-402325257579397845, 15⟩), (60, ⟨126732456137510321, 14⟩), (62, ⟨-804650515158795691, 15⟩), (79, ⟨-314316607483904567, 17⟩), (81, ⟨502906571974247307, 16⟩), (83, ⟨-140813840152789246, 15⟩), (85, ⟨804650515158795691, 16⟩), (92, ⟨-73956848819742251, 17⟩), (97, ⟨-221870546459226753, 17⟩), (99, ⟨473323832446350406, 16⟩), (106, ⟨-147913697639484502, 17⟩), (108, ⟨946647664892700813, 16⟩), (110, ⟨-331326682712445284, 15⟩), (119, ⟨147913697639484502, 17⟩), (123, ⟨-331326682712445284, 15⟩), (125, ⟨530122692339912455, 15⟩), (136, ⟨221870546459226753, 17⟩), (138, ⟨-946647664892700813, 16⟩), (140, ⟨331326682712445284, 15⟩), (144, ⟨-189329532978540163, 15⟩), (157, ⟨73956848819742251, 17⟩), (159, ⟨-473323832446350406, 16⟩), (161, ⟨331326682712445284, 15⟩), (163, ⟨-530122692339912455, 15⟩), (165, ⟨189329532978540163, 15⟩)],
  [(1, ⟨104590778631256119, 17⟩), (6, ⟨313772335893768356, 17⟩), (8, ⟨-66938098324003916, 15⟩), (15, ⟨209181557262512238, 17⟩), (17, ⟨-133876196648007832, 15⟩), (19, ⟨468566688268027412, 15⟩), (28, ⟨-209181557262512238, 17⟩), (32, ⟨468566688268027412, 15⟩), (34, ⟨-74970670122884386, 14⟩), (45, ⟨-313772335893768356, 17⟩), (47, ⟨133876196648007832, 15⟩), (49, ⟨-468566688268027412, 15⟩), (53, ⟨267752393296015664, 15⟩), (66, ⟨-104590778631256119, 17⟩), (68, ⟨66938098324003916, 15⟩), (70, ⟨-468566688268027412, 15⟩), (72, ⟨74970670122884386, 14⟩), (74, ⟨-267752393296015664, 15⟩), (95, ⟨-705987755760978802, 17⟩), (102, ⟨-258862177112358894, 16⟩), (104, ⟨13178438107538271, 14⟩), (113, ⟨-329460952688456774, 16⟩), (115, ⟨351425016201020559, 15⟩), (117, ⟨-474423771871377755, 15⟩), (128, ⟨-14119755115219576, 15⟩), (130, ⟨263568762150765419, 15⟩), (132, ⟨-790706286452296258, 15⟩), (134, ⟨451832163687026433, 15⟩), (147, ⟨235329251920326267, 17⟩), (151, ⟨-158141257290459252, 15⟩), (153, ⟨301221442458017622, 15⟩), (155, ⟨-100407147486005874, 15⟩), (170, ⟨235329251920326267, 17⟩), (172, ⟨-439281270251275699, 16⟩), (174, ⟨158141257290459252, 15⟩), (176, ⟨-150610721229008811, 15⟩), (178, ⟨33469049162001958, 15⟩)],
  [(4, ⟨911426273562873413, 17⟩), (11, ⟨334189633639720251, 16⟩), (13, ⟨-170132904398403037, 15⟩), (22, ⟨425332260996007593, 16⟩), (24, ⟨-453687745062408099, 15⟩), (26, ⟨612478455834250933, 15⟩), (37, ⟨182285254712574683, 16⟩), (39, ⟨-340265808796806074, 15⟩), (41, ⟨102079742639041822, 14⟩), (43, ⟨-583312815080238984, 15⟩), (56, ⟨-303808757854291138, 17⟩), (60, ⟨204159485278083644, 15⟩), (62, ⟨-388875210053492656, 15⟩), (64, ⟨129625070017830885, 15⟩), (79, ⟨-303808757854291138, 17⟩), (81, ⟨567109681328010124, 16⟩), (83, ⟨-204159485278083644, 15⟩), (85, ⟨194437605026746328, 15⟩), (87, ⟨-432083566726102951, 16⟩), (92, ⟨405078343805721517, 18⟩), (97, ⟨202539171902860758, 17⟩), (99, ⟨-283554840664005062, 16⟩), (106, ⟨405078343805721517, 17⟩), (108, ⟨-113421936265602025, 15⟩), (110, ⟨226843872531204049, 15⟩), (119, ⟨405078343805721517, 17⟩), (121, ⟨-170132904398403037, 15⟩), (123, ⟨680531617593612148, 15⟩), (125, ⟨-453687745062408099, 15⟩), (136, ⟨202539171902860758, 17⟩), (138, ⟨-113421936265602025, 15⟩), (140, ⟨680531617593612148, 15⟩), (142, ⟨-907375490124816198, 15⟩), (144, ⟨259250140035661771, 15⟩), (157, ⟨405078343805721517, 18⟩), (159, ⟨-283554840664005062, 16⟩), (161, ⟨226843872531204049, 15⟩), (163, ⟨-453687745062408099, 15⟩), (165, ⟨259250140035661771, 15⟩), (167, ⟨-345666853380882361, 16⟩)],
  [(1, ⟨-479295160072100929, 18⟩), (6, ⟨-239647580036050465, 17⟩), (8, ⟨335506612050470651, 16⟩), (15, ⟨-479295160072100929, 17⟩), (17, ⟨13420264482018826, 14⟩), (19, ⟨-26840528964037652, 14⟩), (28, ⟨-479295160072100929, 17⟩), (30, ⟨20130396723028239, 14⟩), (32, ⟨-805215868921129561, 15⟩), (34, ⟨536810579280753041, 15⟩), (45, ⟨-239647580036050465, 17⟩), (47, ⟨13420264482018826, 14⟩), (49, ⟨-805215868921129561, 15⟩), (51, ⟨107362115856150608, 14⟩), (53, ⟨-306748902446144595, 15⟩), (66, ⟨-479295160072100929, 18⟩), (68, ⟨335506612050470651, 16⟩), (70, ⟨-26840528964037652, 14⟩), (72, ⟨536810579280753041, 15⟩), (74, ⟨-306748902446144595, 15⟩), (76, ⟨40899853659485946, 15⟩), (95, ⟨263612338039655511, 17⟩), (102, ⟨131806169019827756, 16⟩), (104, ⟨-527224676079311022, 16⟩), (113, ⟨263612338039655511, 16⟩), (115, ⟨-210889870431724409, 15⟩), (117, ⟨210889870431724409, 15⟩), (128, ⟨263612338039655511, 16⟩), (130, ⟨-316334805647586613, 15⟩), (132, ⟨632669611295173227, 15⟩), (134, ⟨-24101699477911361, 14⟩), (147, ⟨131806169019827756, 16⟩), (149, ⟨-210889870431724409, 15⟩), (151, ⟨632669611295173227, 15⟩), (153, ⟨-48203398955822722, 14⟩), (155, ⟨803389982597045367, 16⟩), (170, ⟨263612338039655511, 17⟩), (172, ⟨-527224676079311022, 16⟩), (174, ⟨210889870431724409, 15⟩), (176, ⟨-24101699477911361, 14⟩), (178, ⟨803389982597045367, 16⟩), (180, ⟨-584283623706942085, 17⟩)],
  [(4, ⟨-286576824852435259, 17⟩), (11, ⟨-143288412426217629, 16⟩), (13, ⟨573153649704870517, 16⟩), (22, ⟨-286576824852435259, 16⟩), (24, ⟨229261459881948207, 15⟩), (26, ⟨-229261459881948207, 15⟩), (37, ⟨-286576824852435259, 16⟩), (39, ⟨34389218982292231, 14⟩), (41, ⟨-687784379645844621, 15⟩), (43, ⟨262013097007940808, 15⟩), (56, ⟨-143288412426217629, 16⟩), (58, ⟨229261459881948207, 15⟩), (60, ⟨-687784379645844621, 15⟩), (62, ⟨524026194015881616, 15⟩), (64, ⟨-87337699002646936, 15⟩), (79, ⟨-286576824852435259, 17⟩), (81, ⟨573153649704870517, 16⟩), (83, ⟨-229261459881948207, 15⟩), (85, ⟨262013097007940808, 15⟩), (87, ⟨-87337699002646936, 15⟩), (89, ⟨635183265473795898, 17⟩)],
  [(95, ⟨286576824852435259, 17⟩), (102, ⟨143288412426217629, 16⟩), (104, ⟨-573153649704870517, 16⟩), (113, ⟨286576824852435259, 16⟩), (115, ⟨-229261459881948207, 15⟩), (117, ⟨229261459881948207, 15⟩), (128, ⟨286576824852435259, 16⟩), (130, ⟨-34389218982292231, 14⟩), (132, ⟨687784379645844621, 15⟩), (134, ⟨-262013097007940808, 15⟩), (147, ⟨143288412426217629, 16⟩), (149, ⟨-229261459881948207, 15⟩), (151, ⟨687784379645844621, 15⟩), (153, ⟨-524026194015881616, 15⟩), (155, ⟨87337699002646936, 15⟩), (170, ⟨286576824852435259, 17⟩), (172, ⟨-573153649704870517, 16⟩), (174, ⟨229261459881948207, 15⟩), (176, ⟨-262013097007940808, 15⟩), (178, ⟨87337699002646936, 15⟩), (180, ⟨-635183265473795898, 17⟩)],
  [(4, ⟨-263612338039655511, 17⟩), (11, ⟨-131806169019827756, 16⟩), (13, ⟨527224676079311022, 16⟩), (22, ⟨-263612338039655511, 16⟩), (24, ⟨210889870431724409, 15⟩), (26, ⟨-210889870431724409, 15⟩), (37, ⟨-263612338039655511, 16⟩), (39, ⟨316334805647586613, 15⟩), (41, ⟨-632669611295173227, 15⟩), (43, ⟨24101699477911361, 14⟩), (56, ⟨-131806169019827756, 16⟩), (58, ⟨210889870431724409, 15⟩), (60, ⟨-632669611295173227, 15⟩), (62, ⟨48203398955822722, 14⟩), (64, ⟨-803389982597045367, 16⟩), (79, ⟨-263612338039655511, 17⟩), (81, ⟨527224676079311022, 16⟩), (83, ⟨-210889870431724409, 15⟩), (85, ⟨24101699477911361, 14⟩), (87, ⟨-803389982597045367, 16⟩), (89, ⟨584283623706942085, 17⟩), (92, ⟨-479295160072100929, 18⟩), (97, ⟨-239647580036050465, 17⟩), (99, ⟨335506612050470651, 16⟩), (106, ⟨-479295160072100929, 17⟩), (108, ⟨13420264482018826, 14⟩), (110, ⟨-26840528964037652, 14⟩), (119, ⟨-479295160072100929, 17⟩), (121, ⟨20130396723028239, 14⟩), (123, ⟨-805215868921129561, 15⟩), (125, ⟨536810579280753041, 15⟩), (136, ⟨-239647580036050465, 17⟩), (138, ⟨13420264482018826, 14⟩), (140, ⟨-805215868921129561, 15⟩), (142, ⟨107362115856150608, 14⟩), (144, ⟨-306748902446144595, 15⟩), (157, ⟨-479295160072100929, 18⟩), (159, ⟨335506612050470651, 16⟩), (161, ⟨-26840528964037652, 14⟩), (163, ⟨536810579280753041, 15⟩), (165, ⟨-306748902446144595, 15⟩), (167, ⟨40899853659485946, 15⟩)],
  [(1, ⟨405078343805721517, 18⟩), (6, ⟨202539171902860758, 17⟩), (8, ⟨-283554840664005062, 16⟩), (15, ⟨405078343805721517, 17⟩), (17, ⟨-113421936265602025, 15⟩), (19, ⟨226843872531204049, 15⟩), (28, ⟨405078343805721517, 17⟩), (30, ⟨-170132904398403037, 15⟩), (32, ⟨680531617593612148, 15⟩), (34, ⟨-453687745062408099, 15⟩), (45, ⟨202539171902860758, 17⟩), (47, ⟨-113421936265602025, 15⟩), (49, ⟨680531617593612148, 15⟩), (51, ⟨-907375490124816198, 15⟩), (53, ⟨259250140035661771, 15⟩), (66, ⟨405078343805721517, 18⟩), (68, ⟨-283554840664005062, 16⟩), (70, ⟨226843872531204049, 15⟩), (72, ⟨-453687745062408099, 15⟩), (74, ⟨259250140035661771, 15⟩), (76, ⟨-345666853380882361, 16⟩), (95, ⟨-911426273562873413, 17⟩), (102, ⟨-334189633639720251, 16⟩), (104, ⟨170132904398403037, 15⟩), (113, ⟨-425332260996007593, 16⟩), (115, ⟨453687745062408099, 15⟩), (117, ⟨-612478455834250933, 15⟩), (128, ⟨-182285254712574683, 16⟩), (130, ⟨340265808796806074, 15⟩), (132, ⟨-102079742639041822, 14⟩), (134, ⟨583312815080238984, 15⟩), (147, ⟨303808757854291138, 17⟩), (151, ⟨-204159485278083644, 15⟩), (153, ⟨388875210053492656, 15⟩), (155, ⟨-129625070017830885, 15⟩), (170, ⟨303808757854291138, 17⟩), (172, ⟨-567109681328010124, 16⟩), (174, ⟨204159485278083644, 15⟩), (176, ⟨-194437605026746328, 15⟩), (178, ⟨432083566726102951, 16⟩)],
  [(4, ⟨705987755760978802, 17⟩), (11, ⟨258862177112358894, 16⟩), (13, ⟨-13178438107538271, 14⟩), (22, ⟨329460952688456774, 16⟩), (24, ⟨-351425016201020559, 15⟩), (26, ⟨474423771871377755, 15⟩), (37, ⟨14119755115219576, 15⟩), (39, ⟨-263568762150765419, 15⟩), (41, ⟨790706286452296258, 15⟩), (43, ⟨-451832163687026433, 15⟩), (56, ⟨-235329251920326267, 17⟩), (60, ⟨158141257290459252, 15⟩), (62, ⟨-301221442458017622, 15⟩), (64, ⟨100407147486005874, 15⟩), (79, ⟨-235329251920326267, 17⟩), (81, ⟨439281270251275699, 16⟩), (83, ⟨-158141257290459252, 15⟩), (85, ⟨150610721229008811, 15⟩), (87, ⟨-33469049162001958, 15⟩), (92, ⟨104590778631256119, 17⟩), (97, ⟨313772335893768356, 17⟩), (99, ⟨-66938098324003916, 15⟩), (106, ⟨209181557262512238, 17⟩), (108, ⟨-133876196648007832, 15⟩), (110, ⟨468566688268027412, 15⟩), (119, ⟨-209181557262512238, 17⟩), (123, ⟨468566688268027412, 15⟩), (125, ⟨-74970670122884386, 14⟩), (136, ⟨-313772335893768356, 17⟩), (138, ⟨133876196648007832, 15⟩), (140, ⟨-468566688268027412, 15⟩), (144, ⟨267752393296015664, 15⟩), (157, ⟨-104590778631256119, 17⟩), (159, ⟨66938098324003916, 15⟩), (161, ⟨-468566688268027412, 15⟩), (163, ⟨74970670122884386, 14⟩), (165, ⟨-267752393296015664, 15⟩)],
  [(1, ⟨-73956848819742251, 17⟩), (6, ⟨-221870546459226753, 17⟩), (8, ⟨473323832446350406, 16⟩), (15, ⟨-147913697639484502, 17⟩), (17, ⟨946647664892700813, 16⟩), (19, ⟨-331326682712445284, 15⟩), (28, ⟨147913697639484502, 17⟩), (32, ⟨-331326682712445284, 15⟩), (34, ⟨530122692339912455, 15⟩), (45, ⟨221870546459226753, 17⟩), (47, ⟨-946647664892700813, 16⟩), (49, ⟨331326682712445284, 15⟩), (53, ⟨-189329532978540163, 15⟩), (66, ⟨73956848819742251, 17⟩), (68, ⟨-473323832446350406, 16⟩), (70, ⟨331326682712445284, 15⟩), (72, ⟨-530122692339912455, 15⟩), (74, ⟨189329532978540163, 15⟩), (95, ⟨157158303741952283, 16⟩), (102, ⟨157158303741952283, 16⟩), (104, ⟨-251453285987123653, 15⟩), (113, ⟨-440043250477466393, 16⟩), (117, ⟨70406920076394623, 14⟩), (128, ⟨-691496536464590047, 16⟩), (130, ⟨70406920076394623, 14⟩), (132, ⟨-70406920076394623, 14⟩), (134, ⟨-402325257579397845, 15⟩), (147, ⟨-220021625238733197, 16⟩), (149, ⟨402325257579397845, 15⟩), (151, ⟨-126732456137510321, 14⟩), (153, ⟨804650515158795691, 15⟩), (170, ⟨314316607483904567, 17⟩), (172, ⟨-502906571974247307, 16⟩), (174, ⟨140813840152789246, 15⟩), (176, ⟨-804650515158795691, 16⟩)],
  [(4, ⟨-100846746585025541, 16⟩), (11, ⟨-100846746585025541, 16⟩), (13, ⟨161354794536040866, 15⟩), (22, ⟨282370890438071516, 16⟩), (26, ⟨-451793424700914425, 15⟩), (37, ⟨443725684974112382, 16⟩), (39, ⟨-451793424700914425, 15⟩), (41, ⟨451793424700914425, 15⟩), (43, ⟨258167671257665386, 15⟩), (56, ⟨141185445219035758, 16⟩), (58, ⟨-258167671257665386, 15⟩), (60, ⟨813228164461645965, 15⟩), (62, ⟨-516335342515330771, 15⟩), (79, ⟨-201693493170051083, 17⟩), (81, ⟨322709589072081732, 16⟩), (83, ⟨-90358684940182885, 15⟩), (85, ⟨516335342515330771, 16⟩), (92, ⟨-172880137002900928, 17⟩), (97, ⟨576267123343003093, 18⟩), (99, ⟨933552739815665011, 16⟩), (106, ⟨103728082201740557, 16⟩), (108, ⟨-124473698642088668, 15⟩), (110, ⟨-497894794568354673, 15⟩), (119, ⟨103728082201740557, 16⟩), (121, ⟨-435657945247310338, 15⟩), (123, ⟨116175452065949424, 14⟩), (125, ⟨464701808263797694, 15⟩), (136, ⟨576267123343003093, 18⟩), (138, ⟨-124473698642088668, 15⟩), (140, ⟨116175452065949424, 14⟩), (142, ⟨-154900602754599231, 14⟩), (157, ⟨-172880137002900928, 17⟩), (159, ⟨933552739815665011, 16⟩), (161, ⟨-497894794568354673, 15⟩), (163, ⟨464701808263797694, 15⟩)],
  [(1, ⟨998123936361642327, 18⟩), (6, ⟨-332707978787214109, 18⟩), (8, ⟨-538986925635286856, 16⟩), (15, ⟨-598874361816985396, 17⟩), (17, ⟨718649234180382475, 16⟩), (19, ⟨28745969367215299, 14⟩), (28, ⟨-598874361816985396, 17⟩), (30, ⟨251527231963133866, 15⟩), (32, ⟨-670739285235023644, 15⟩), (34, ⟨-268295714094009457, 15⟩), (45, ⟨-332707978787214109, 18⟩), (47, ⟨718649234180382475, 16⟩), (49, ⟨-670739285235023644, 15⟩), (51, ⟨894319046980031525, 15⟩), (66, ⟨998123936361642327, 18⟩), (68, ⟨-538986925635286856, 16⟩), (70, ⟨28745969367215299, 14⟩), (72, ⟨-268295714094009457, 15⟩), (95, ⟨-221250805893497382, 16⟩), (102, ⟨663752417680492147, 16⟩), (104, ⟨265500967072196859, 15⟩), (113, ⟨132750483536098429, 15⟩), (115, ⟨-106200386828878744, 14⟩), (117, ⟨-424801547315514974, 15⟩), (128, ⟨-189643547908712042, 16⟩), (130, ⟨-531001934144393718, 15⟩), (132, ⟨212400773657757487, 14⟩), (147, ⟨-600537901710921467, 16⟩), (149, ⟨758574191634848168, 15⟩), (151, ⟨-127440464194654492, 14⟩), (170, ⟨316072579847853403, 17⟩), (172, ⟨-379287095817424084, 16⟩), (174, ⟨606859353307878535, 16⟩)],
  [(4, ⟨113499268614061372, 16⟩), (11, ⟨-340497805842184116, 16⟩), (13, ⟨-136199122336873647, 15⟩), (22, ⟨-680995611684368233, 16⟩), (24, ⟨544796489347494586, 15⟩), (26, ⟨217918595738997834, 15⟩), (37, ⟨972850873834811761, 17⟩), (39, ⟨272398244673747293, 15⟩), (41, ⟨-108959297869498917, 14⟩), (56, ⟨308069443381023724, 16⟩), (58, ⟨-389140349533924704, 15⟩), (60, ⟨653755787216993503, 15⟩), (79, ⟨-16214181230580196, 16⟩), (81, ⟨194570174766962352, 16⟩), (83, ⟨-311312279627139763, 16⟩), (92, ⟨259426899689283136, 17⟩), (97, ⟨-129713449844641568, 16⟩), (99, ⟨-103770759875713254, 15⟩), (106, ⟨-155656139813569882, 16⟩), (108, ⟨622624559254279527, 15⟩), (110, ⟨311312279627139763, 15⟩), (119, ⟨155656139813569882, 16⟩), (123, ⟨-217918595738997834, 14⟩), (136, ⟨129713449844641568, 16⟩), (138, ⟨-622624559254279527, 15⟩), (140, ⟨217918595738997834, 14⟩), (157, ⟨-259426899689283136, 17⟩), (159, ⟨103770759875713254, 15⟩), (161, ⟨-311312279627139763, 15⟩)],
  [(1, ⟨-116019236579451232, 17⟩), (6, ⟨580096182897256162, 17⟩), (8, ⟨46407694631780493, 15⟩), (15, ⟨696115419476707395, 17⟩), (17, ⟨-278446167790682958, 15⟩), (19, ⟨-139223083895341479, 15⟩), (28, ⟨-696115419476707395, 17⟩), (32, ⟨974561587267390353, 15⟩), (45, ⟨-580096182897256162, 17⟩), (47, ⟨278446167790682958, 15⟩), (49, ⟨-974561587267390353, 15⟩), (66, ⟨116019236579451232, 17⟩), (68, ⟨-46407694631780493, 15⟩), (70, ⟨139223083895341479, 15⟩), (95, ⟨274095446418953537, 16⟩), (102, ⟨-228412872015794614, 15⟩), (104, ⟨-182730297612635691, 15⟩), (113, ⟨127911208328844984, 15⟩), (115, ⟨170548277771793312, 14⟩), (128, ⟨274095446418953537, 15⟩), (130, ⟨-255822416657689968, 14⟩), (147, ⟨-10659267360737082, 14⟩), (149, ⟨730921190450542765, 15⟩), (170, ⟨304550496021059485, 17⟩), (172, ⟨-203033664014039657, 16⟩)],
  [(4, ⟨-103598340959968652, 16⟩), (11, ⟨863319507999738764, 16⟩), (13, ⟨690655606399791011, 16⟩), (22, ⟨-483458924479853708, 16⟩), (24, ⟨-644611899306471611, 15⟩), (37, ⟨-103598340959968652, 15⟩), (39, ⟨966917848959707416, 15⟩), (56, ⟨402882437066544757, 16⟩), (58, ⟨-276262242559916405, 15⟩), (79, ⟨-115109267733298502, 17⟩), (81, ⟨767395118221990013, 17⟩), (92, ⟨-383697559110995006, 17⟩), (97, ⟨422067315022094507, 16⟩), (99, ⟨844134630044189014, 16⟩), (106, ⟨-506480778026513408, 16⟩), (108, ⟨-101296155605302682, 14⟩), (119, ⟨-506480778026513408, 16⟩), (121, ⟨212721926771135631, 14⟩), (136, ⟨422067315022094507, 16⟩), (138, ⟨-101296155605302682, 14⟩), (157, ⟨-383697559110995006, 17⟩), (159, ⟨844134630044189014, 16⟩)],
  [(1, ⟨115689166958762041, 17⟩), (6, ⟨-127258083654638245, 16⟩), (8, ⟨-254516167309276491, 16⟩), (15, ⟨152709700385565894, 16⟩), (17, ⟨305419400771131789, 15⟩), (28, ⟨152709700385565894, 16⟩), (30, ⟨-641380741619376757, 15⟩), (45, ⟨-127258083654638245, 16⟩), (47, ⟨305419400771131789, 15⟩), (66, ⟨115689166958762041, 17⟩), (68, ⟨-254516167309276491, 16⟩), (95, ⟨-292693592405667964, 16⟩), (102, ⟨439040388608501947, 15⟩), (113, ⟨-122931308810380545, 14⟩), (128, ⟨878080777217003893, 15⟩), (147, ⟨-146346796202833982, 15⟩), (170, ⟨266085084005152695, 17⟩)],
  [(4, ⟨610308329187281232, 17⟩), (11, ⟨-915462493780921848, 16⟩), (22, ⟨256329498258658117, 15⟩), (37, ⟨-18309249875618437, 14⟩), (56, ⟨305154164593640616, 16⟩), (79, ⟨-554825753806619302, 18⟩), (92, ⟨665790904567943162, 17⟩), (97, ⟨-122061665837456246, 15⟩), (106, ⟨439421997014842487, 15⟩), (119, ⟨-439421997014842487, 15⟩), (136, ⟨122061665837456246, 15⟩), (157, ⟨-665790904567943162, 17⟩)],
  [(92, ⟨-679519996490629405, 17⟩), (97, ⟨124578666023282058, 15⟩), (106, ⟨-448483197683815407, 15⟩), (119, ⟨448483197683815407, 15⟩), (136, ⟨-124578666023282058, 15⟩), (157, ⟨679519996490629405, 17⟩)],
  [(1, ⟨-135903999298125881, 17⟩), (6, ⟨249157332046564115, 16⟩), (15, ⟨-896966395367630815, 16⟩), (28, ⟨896966395367630815, 16⟩), (45, ⟨-249157332046564115, 16⟩), (66, ⟨135903999298125881, 17⟩), (95, ⟨-298988798455876938, 16⟩), (102, ⟨448483197683815407, 15⟩), (113, ⟨-125575295351468314, 14⟩), (128, ⟨896966395367630815, 15⟩), (147, ⟨-149494399227938469, 15⟩), (170, ⟨271807998596251762, 17⟩)],
  [(4, ⟨-863106316365916572, 17⟩), (11, ⟨129465947454887486, 15⟩), (22, ⟨-36250465287368496, 14⟩), (37, ⟨258931894909774972, 15⟩), (56, ⟨-431553158182958286, 16⟩), (79, ⟨784642105787196884, 18⟩), (92, ⟨392321052893598442, 17⟩), (97, ⟨-431553158182958286, 16⟩), (99, ⟨-863106316365916572, 16⟩), (106, ⟨517863789819549943, 16⟩), (108, ⟨103572757963909989, 14⟩), (119, ⟨517863789819549943, 16⟩), (121, ⟨-217502791724210976, 14⟩), (136, ⟨-431553158182958286, 16⟩), (138, ⟨103572757963909989, 14⟩), (157, ⟨392321052893598442, 17⟩), (159, ⟨-863106316365916572, 16⟩)],
  [(1, ⟨141689713908309089, 17⟩), (6, ⟨-155858685299139998, 16⟩), (8, ⟨-311717370598279997, 16⟩), (15, ⟨187030422358967998, 16⟩), (17, ⟨374060844717935996, 15⟩), (28, ⟨187030422358967998, 16⟩), (30, ⟨-785527773907665592, 15⟩), (45, ⟨-155858685299139998, 16⟩), (47, ⟨374060844717935996, 15⟩), (66, ⟨141689713908309089, 17⟩), (68, ⟨-311717370598279997, 16⟩), (95, ⟨280545633538451997, 16⟩), (102, ⟨-233788027948709998, 15⟩), (104, ⟨-187030422358967998, 15⟩), (113, ⟨130921295651277599, 15⟩), (115, ⟨174561727535036798, 14⟩), (128, ⟨280545633538451997, 15⟩), (130, ⟨-261842591302555197, 14⟩), (147, ⟨-109101079709397999, 15⟩), (149, ⟨748121689435871992, 15⟩), (170, ⟨311717370598279997, 17⟩), (172, ⟨-207811580398853331, 16⟩)],
  [(4, ⟨119625060081673068, 16⟩), (11, ⟨-996875500680608898, 16⟩), (13, ⟨-797500400544487119, 16⟩), (22, ⟨558250280381140983, 16⟩), (24, ⟨744333707174854644, 15⟩), (37, ⟨119625060081673068, 15⟩), (39, ⟨-111650056076228197, 14⟩), (56, ⟨-465208566984284153, 16⟩), (58, ⟨319000160217794847, 15⟩), (79, ⟨132916733424081186, 17⟩), (81, ⟨-886111556160541243, 17⟩), (92, ⟨-265833466848162373, 17⟩), (97, ⟨132916733424081186, 16⟩), (99, ⟨106333386739264949, 15⟩), (106, ⟨159500080108897424, 16⟩), (108, ⟨-638000320435589695, 15⟩), (110, ⟨-319000160217794847, 15⟩), (119, ⟨-159500080108897424, 16⟩), (123, ⟨223300112152456393, 14⟩), (136, ⟨-132916733424081186, 16⟩), (138, ⟨638000320435589695, 15⟩), (140, ⟨-223300112152456393, 14⟩), (157, ⟨265833466848162373, 17⟩), (159, ⟨-106333386739264949, 15⟩), (161, ⟨319000160217794847, 15⟩)],
  [(1, ⟨-129713449844641568, 17⟩), (6, ⟨648567249223207841, 17⟩), (8, ⟨518853799378566272, 16⟩), (15, ⟨778280699067849409, 17⟩), (17, ⟨-311312279627139763, 15⟩), (19, ⟨-155656139813569882, 15⟩), (28, ⟨-778280699067849409, 17⟩), (32, ⟨108959297869498917, 14⟩), (45, ⟨-648567249223207841, 17⟩), (47, ⟨311312279627139763, 15⟩), (49, ⟨-108959297869498917, 14⟩), (66, ⟨129713449844641568, 17⟩), (68, ⟨-518853799378566272, 16⟩), (70, ⟨155656139813569882, 15⟩), (95, ⟨-226998537228122744, 16⟩), (102, ⟨680995611684368233, 16⟩), (104, ⟨272398244673747293, 15⟩), (113, ⟨136199122336873647, 15⟩), (115, ⟨-108959297869498917, 14⟩), (117, ⟨-435837191477995669, 15⟩), (128, ⟨-194570174766962352, 16⟩), (130, ⟨-544796489347494586, 15⟩), (132, ⟨217918595738997834, 14⟩), (147, ⟨-616138886762047449, 16⟩), (149, ⟨778280699067849409, 15⟩), (151, ⟨-130751157443398701, 14⟩), (170, ⟨32428362461160392, 16⟩), (172, ⟨-389140349533924704, 16⟩), (174, ⟨622624559254279527, 16⟩)],
  [(4, ⟨-124332219360519051, 16⟩), (11, ⟨372996658081557152, 16⟩), (13, ⟨149198663232622861, 15⟩), (22, ⟨745993316163114303, 16⟩), (24, ⟨-596794652930491443, 15⟩), (26, ⟨-238717861172196577, 15⟩), (37, ⟨-106570473737587758, 16⟩), (39, ⟨-298397326465245721, 15⟩), (41, ⟨119358930586098289, 14⟩), (56, ⟨-337473166835694566, 16⟩), (58, ⟨426281894950351031, 15⟩), (60, ⟨-716153583516589731, 15⟩), (79, ⟨177617456229312929, 17⟩), (81, ⟨-213140947475175515, 16⟩), (83, ⟨341025515960280824, 16⟩), (92, ⟨177617456229312929, 17⟩), (97, ⟨-592058187431043098, 18⟩), (99, ⟨-959134263638289819, 16⟩), (106, ⟨-106570473737587758, 16⟩), (108, ⟨127884568485105309, 15⟩), (110, ⟨511538273940421237, 15⟩), (119, ⟨-106570473737587758, 16⟩), (121, ⟨447595989697868582, 15⟩), (123, ⟨-119358930586098289, 14⟩), (125, ⟨-477435722344393154, 15⟩), (136, ⟨-592058187431043098, 18⟩), (138, ⟨127884568485105309, 15⟩), (140, ⟨-119358930586098289, 14⟩), (142, ⟨159145240781464385, 14⟩), (157, ⟨177617456229312929, 17⟩), (159, ⟨-959134263638289819, 16⟩), (161, ⟨511538273940421237, 15⟩), (163, ⟨-477435722344393154, 15⟩)],
  [(1, ⟨107809706940565876, 17⟩), (6, ⟨-359365689801886252, 18⟩), (8, ⟨-582172417479055728, 16⟩), (15, ⟨-646858241643395253, 17⟩), (17, ⟨776229889972074304, 16⟩), (19, ⟨310491955988829722, 15⟩), (28, ⟨-646858241643395253, 17⟩), (30, ⟨271680461490226006, 15⟩), (32, ⟨-724481230640602684, 15⟩), (34, ⟨-289792492256241073, 15⟩), (45, ⟨-359365689801886252, 18⟩), (47, ⟨776229889972074304, 16⟩), (49, ⟨-724481230640602684, 15⟩), (51, ⟨965974974187470245, 15⟩), (66, ⟨107809706940565876, 17⟩), (68, ⟨-582172417479055728, 16⟩), (70, ⟨310491955988829722, 15⟩), (72, ⟨-289792492256241073, 15⟩), (95, ⟨161714560410848813, 16⟩), (102, ⟨161714560410848813, 16⟩), (104, ⟨-258743296657358101, 15⟩), (113, ⟨-452800769150376677, 16⟩), (117, ⟨724481230640602684, 15⟩), (128, ⟨-711544065807734779, 16⟩), (130, ⟨724481230640602684, 15⟩), (132, ⟨-724481230640602684, 15⟩), (134, ⟨-413989274651772962, 15⟩), (147, ⟨-226400384575188339, 16⟩), (149, ⟨413989274651772962, 15⟩), (151, ⟨-130406621515308483, 14⟩), (153, ⟨827978549303545924, 15⟩), (170, ⟨323429120821697627, 17⟩), (172, ⟨-517486593314716203, 16⟩), (174, ⟨144896246128120537, 15⟩), (176, ⟨-827978549303545924, 16⟩)],
  [(4, ⟨107809706940565876, 16⟩), (11, ⟨107809706940565876, 16⟩), (13, ⟨-172495531104905401, 15⟩), (22, ⟨-301867179433584452, 16⟩), (26, ⟨482987487093735122, 15⟩), (37, ⟨-474362710538489852, 16⟩), (39, ⟨482987487093735122, 15⟩), (41, ⟨-482987487093735122, 15⟩), (43, ⟨-275992849767848641, 15⟩), (56, ⟨-150933589716792226, 16⟩), (58, ⟨275992849767848641, 15⟩), (60, ⟨-86937747676872322, 14⟩), (62, ⟨551985699535697283, 15⟩), (79, ⟨215619413881131751, 17⟩), (81, ⟨-344991062209810802, 16⟩), (83, ⟨965974974187470245, 16⟩), (85, ⟨-551985699535697283, 16⟩), (92, ⟨-107809706940565876, 17⟩), (97, ⟨-323429120821697627, 17⟩), (99, ⟨689982124419621604, 16⟩), (106, ⟨-215619413881131751, 17⟩), (108, ⟨137996424883924321, 15⟩), (110, ⟨-482987487093735122, 15⟩), (119, ⟨215619413881131751, 17⟩), (123, ⟨-482987487093735122, 15⟩), (125, ⟨772779979349976196, 15⟩), (136, ⟨323429120821697627, 17⟩), (138, ⟨-137996424883924321, 15⟩), (140, ⟨482987487093735122, 15⟩), (144, ⟨-275992849767848641, 15⟩), (157, ⟨107809706940565876, 17⟩), (159, ⟨-689982124419621604, 16⟩), (161, ⟨482987487093735122, 15⟩), (163, ⟨-772779979349976196, 15⟩), (165, ⟨275992849767848641, 15⟩)],
  [(1, ⟨-784430839734420891, 18⟩), (6, ⟨-235329251920326267, 17⟩), (8, ⟨50203573743002937, 15⟩), (15, ⟨-156886167946884178, 17⟩), (17, ⟨100407147486005874, 15⟩), (19, ⟨-351425016201020559, 15⟩), (28, ⟨156886167946884178, 17⟩), (32, ⟨-351425016201020559, 15⟩), (34, ⟨562280025921632895, 15⟩), (45, ⟨235329251920326267, 17⟩), (47, ⟨-100407147486005874, 15⟩), (49, ⟨351425016201020559, 15⟩), (53, ⟨-200814294972011748, 15⟩), (66, ⟨784430839734420891, 18⟩), (68, ⟨-50203573743002937, 15⟩), (70, ⟨351425016201020559, 15⟩), (72, ⟨-562280025921632895, 15⟩), (74, ⟨200814294972011748, 15⟩), (95, ⟨-941317007681305069, 17⟩), (102, ⟨-345149569483145192, 16⟩), (104, ⟨17571250810051028, 14⟩), (113, ⟨-439281270251275699, 16⟩), (115, ⟨468566688268027412, 15⟩), (117, ⟨-632565029161837007, 15⟩), (128, ⟨-188263401536261014, 16⟩), (130, ⟨351425016201020559, 15⟩), (132, ⟨-105427504860306168, 14⟩), (134, ⟨602442884916035244, 15⟩), (147, ⟨313772335893768356, 17⟩), (151, ⟨-210855009720612336, 15⟩), (153, ⟨401628589944023496, 15⟩), (155, ⟨-133876196648007832, 15⟩), (170, ⟨313772335893768356, 17⟩), (172, ⟨-585708360335034265, 16⟩), (174, ⟨210855009720612336, 15⟩), (176, ⟨-200814294972011748, 15⟩), (178, ⟨446253988826692774, 16⟩)],
  [(4, ⟨-744176436131784437, 17⟩), (11, ⟨-27286469324832096, 15⟩), (13, ⟨138912934744599762, 15⟩), (22, ⟨-347282336861499404, 16⟩), (24, ⟨370434492652266031, 15⟩), (26, ⟨-500086565080559142, 15⟩), (37, ⟨-148835287226356887, 16⟩), (39, ⟨277825869489199523, 15⟩), (41, ⟨-83347760846759857, 14⟩), (43, ⟨47627291912434204, 14⟩), (56, ⟨248058812043928146, 17⟩), (60, ⟨-166695521693519714, 15⟩), (62, ⟨317515279416228027, 15⟩), (64, ⟨-105838426472076009, 15⟩), (79, ⟨248058812043928146, 17⟩), (81, ⟨-463043115815332539, 16⟩), (83, ⟨166695521693519714, 15⟩), (85, ⟨-158757639708114013, 15⟩), (87, ⟨35279475490692003, 15⟩), (92, ⟨496117624087856292, 18⟩), (97, ⟨248058812043928146, 17⟩), (99, ⟨-347282336861499404, 16⟩), (106, ⟨496117624087856292, 17⟩), (108, ⟨-138912934744599762, 15⟩), (110, ⟨277825869489199523, 15⟩), (119, ⟨496117624087856292, 17⟩), (121, ⟨-208369402116899642, 15⟩), (123, ⟨83347760846759857, 14⟩), (125, ⟨-555651738978399047, 15⟩), (136, ⟨248058812043928146, 17⟩), (138, ⟨-138912934744599762, 15⟩), (140, ⟨83347760846759857, 14⟩), (142, ⟨-111130347795679809, 14⟩), (144, ⟨317515279416228027, 15⟩), (157, ⟨496117624087856292, 18⟩), (159, ⟨-347282336861499404, 16⟩), (161, ⟨277825869489199523, 15⟩), (163, ⟨-555651738978399047, 15⟩), (165, ⟨317515279416228027, 15⟩), (167, ⟨-423353705888304036, 16⟩)],
  [(1, ⟨424849751185551427, 18⟩), (6, ⟨212424875592775713, 17⟩), (8, ⟨-297394825829885999, 16⟩), (15, ⟨424849751185551427, 17⟩), (17, ⟨-118957930331954399, 15⟩), (19, ⟨237915860663908799, 15⟩), (28, ⟨424849751185551427, 17⟩), (30, ⟨-178436895497931599, 15⟩), (32, ⟨713747581991726397, 15⟩), (34, ⟨-475831721327817598, 15⟩), (45, ⟨212424875592775713, 17⟩), (47, ⟨-118957930331954399, 15⟩), (49, ⟨713747581991726397, 15⟩), (51, ⟨-951663442655635196, 15⟩), (53, ⟨271903840758752913, 15⟩), (66, ⟨424849751185551427, 18⟩), (68, ⟨-297394825829885999, 16⟩), (70, ⟨237915860663908799, 15⟩), (72, ⟨-475831721327817598, 15⟩), (74, ⟨271903840758752913, 15⟩), (76, ⟨-362538454345003884, 16⟩), (95, ⟨297394825829885999, 17⟩), (102, ⟨148697412914942999, 16⟩), (104, ⟨-594789651659771997, 16⟩), (113, ⟨297394825829885999, 16⟩), (115, ⟨-237915860663908799, 15⟩), (117, ⟨237915860663908799, 15⟩), (128, ⟨297394825829885999, 16⟩), (130, ⟨-356873790995863198, 15⟩), (132, ⟨713747581991726397, 15⟩), (134, ⟨-271903840758752913, 15⟩), (147, ⟨148697412914942999, 16⟩), (149, ⟨-237915860663908799, 15⟩), (151, ⟨713747581991726397, 15⟩), (153, ⟨-543807681517505826, 15⟩), (155, ⟨90634613586250971, 15⟩), (170, ⟨297394825829885999, 17⟩), (172, ⟨-594789651659771997, 16⟩), (174, ⟨237915860663908799, 15⟩), (176, ⟨-271903840758752913, 15⟩), (178, ⟨90634613586250971, 15⟩), (180, ⟨-659160826081825244, 17⟩)],
  [(4, ⟨27533410732166562, 16⟩), (11, ⟨13766705366083281, 15⟩), (13, ⟨-55066821464333124, 15⟩), (22, ⟨27533410732166562, 15⟩), (24, ⟨-220267285857332496, 15⟩), (26, ⟨220267285857332496, 15⟩), (37, ⟨27533410732166562, 15⟩), (39, ⟨-330400928785998744, 15⟩), (41, ⟨660801857571997488, 15⟩), (43, ⟨-251734040979808567, 15⟩), (56, ⟨13766705366083281, 15⟩), (58, ⟨-220267285857332496, 15⟩), (60, ⟨660801857571997488, 15⟩), (62, ⟨-503468081959617133, 15⟩), (64, ⟨839113469932695222, 16⟩), (79, ⟨27533410732166562, 16⟩), (81, ⟨-55066821464333124, 15⟩), (83, ⟨220267285857332496, 15⟩), (85, ⟨-251734040979808567, 15⟩), (87, ⟨839113469932695222, 16⟩), (89, ⟨-610264341769232889, 17⟩)],
  [(95, ⟨27533410732166562, 16⟩), (102, ⟨13766705366083281, 15⟩), (104, ⟨-55066821464333124, 15⟩), (113, ⟨27533410732166562, 15⟩), (115, ⟨-220267285857332496, 15⟩), (117, ⟨220267285857332496, 15⟩), (128, ⟨27533410732166562, 15⟩), (130, ⟨-330400928785998744, 15⟩), (132, ⟨660801857571997488, 15⟩), (134, ⟨-251734040979808567, 15⟩), (147, ⟨13766705366083281, 15⟩), (149, ⟨-220267285857332496, 15⟩), (151, ⟨660801857571997488, 15⟩), (153, ⟨-503468081959617133, 15⟩), (155, ⟨839113469932695222, 16⟩), (170, ⟨27533410732166562, 16⟩), (172, ⟨-55066821464333124, 15⟩), (174, ⟨220267285857332496, 15⟩), (176, ⟨-251734040979808567, 15⟩), (178, ⟨839113469932695222, 16⟩), (180, ⟨-610264341769232889, 17⟩)],
  [(4, ⟨297394825829885999, 17⟩), (11, ⟨148697412914942999, 16⟩), (13, ⟨-594789651659771997, 16⟩), (22, ⟨297394825829885999, 16⟩), (24, ⟨-237915860663908799, 15⟩), (26, ⟨237915860663908799, 15⟩), (37, ⟨297394825829885999, 16⟩), (39, ⟨-356873790995863198, 15⟩), (41, ⟨713747581991726397, 15⟩), (43, ⟨-271903840758752913, 15⟩), (56, ⟨148697412914942999, 16⟩), (58, ⟨-237915860663908799, 15⟩), (60, ⟨713747581991726397, 15⟩), (62, ⟨-543807681517505826, 15⟩), (64, ⟨90634613586250971, 15⟩), (79, ⟨297394825829885999, 17⟩), (81, ⟨-594789651659771997, 16⟩), (83, ⟨237915860663908799, 15⟩), (85, ⟨-271903840758752913, 15⟩), (87, ⟨90634613586250971, 15⟩), (89, ⟨-659160826081825244, 17⟩), (92, ⟨-424849751185551427, 18⟩), (97, ⟨-212424875592775713, 17⟩), (99, ⟨297394825829885999, 16⟩), (106, ⟨-424849751185551427, 17⟩), (108, ⟨118957930331954399, 15⟩), (110, ⟨-237915860663908799, 15⟩), (119, ⟨-424849751185551427, 17⟩), (121, ⟨178436895497931599, 15⟩), (123, ⟨-713747581991726397, 15⟩), (125, ⟨475831721327817598, 15⟩), (136, ⟨-212424875592775713, 17⟩), (138, ⟨118957930331954399, 15⟩), (140, ⟨-713747581991726397, 15⟩), (142, ⟨951663442655635196, 15⟩), (144, ⟨-271903840758752913, 15⟩), (157, ⟨-424849751185551427, 18⟩), (159, ⟨297394825829885999, 16⟩), (161, ⟨-237915860663908799, 15⟩), (163, ⟨475831721327817598, 15⟩), (165, ⟨-271903840758752913, 15⟩), (167, ⟨362538454345003884, 16⟩)],
  [(1, ⟨-496117624087856292, 18⟩), (6, ⟨-248058812043928146, 17⟩), (8, ⟨347282336861499404, 16⟩), (15, ⟨-496117624087856292, 17⟩), (17, ⟨138912934744599762, 15⟩), (19, ⟨-277825869489199523, 15⟩), (28, ⟨-496117624087856292, 17⟩), (30, ⟨208369402116899642, 15⟩), (32, ⟨-83347760846759857, 14⟩), (34, ⟨555651738978399047, 15⟩), (45, ⟨-248058812043928146, 17⟩), (47, ⟨138912934744599762, 15⟩), (49, ⟨-83347760846759857, 14⟩), (51, ⟨111130347795679809, 14⟩), (53, ⟨-317515279416228027, 15⟩), (66, ⟨-496117624087856292, 18⟩), (68, ⟨347282336861499404, 16⟩), (70, ⟨-277825869489199523, 15⟩), (72, ⟨555651738978399047, 15⟩), (74, ⟨-317515279416228027, 15⟩), (76, ⟨423353705888304036, 16⟩), (95, ⟨-744176436131784437, 17⟩), (102, ⟨-27286469324832096, 15⟩), (104, ⟨138912934744599762, 15⟩), (113, ⟨-347282336861499404, 16⟩), (115, ⟨370434492652266031, 15⟩), (117, ⟨-500086565080559142, 15⟩), (128, ⟨-148835287226356887, 16⟩), (130, ⟨277825869489199523, 15⟩), (132, ⟨-83347760846759857, 14⟩), (134, ⟨47627291912434204, 14⟩), (147, ⟨248058812043928146, 17⟩), (151, ⟨-166695521693519714, 15⟩), (153, ⟨317515279416228027, 15⟩), (155, ⟨-105838426472076009, 15⟩), (170, ⟨248058812043928146, 17⟩), (172, ⟨-463043115815332539, 16⟩), (174, ⟨166695521693519714, 15⟩), (176, ⟨-158757639708114013, 15⟩), (178, ⟨35279475490692003, 15⟩)],
  [(4, ⟨-941317007681305069, 17⟩), (11, ⟨-345149569483145192, 16⟩), (13, ⟨17571250810051028, 14⟩), (22, ⟨-439281270251275699, 16⟩), (24, ⟨468566688268027412, 15⟩), (26, ⟨-632565029161837007, 15⟩), (37, ⟨-188263401536261014, 16⟩), (39, ⟨351425016201020559, 15⟩), (41, ⟨-105427504860306168, 14⟩), (43, ⟨602442884916035244, 15⟩), (56, ⟨313772335893768356, 17⟩), (60, ⟨-210855009720612336, 15⟩), (62, ⟨401628589944023496, 15⟩), (64, ⟨-133876196648007832, 15⟩), (79, ⟨313772335893768356, 17⟩), (81, ⟨-585708360335034265, 16⟩), (83, ⟨210855009720612336, 15⟩), (85, ⟨-200814294972011748, 15⟩), (87, ⟨446253988826692774, 16⟩), (92, ⟨784430839734420891, 18⟩), (97, ⟨235329251920326267, 17⟩), (99, ⟨-50203573743002937, 15⟩), (106, ⟨156886167946884178, 17⟩), (108, ⟨-100407147486005874, 15⟩), (110, ⟨351425016201020559, 15⟩), (119, ⟨-156886167946884178, 17⟩), (123, ⟨351425016201020559, 15⟩), (125, ⟨-562280025921632895, 15⟩), (136, ⟨-235329251920326267, 17⟩), (138, ⟨100407147486005874, 15⟩), (140, ⟨-351425016201020559, 15⟩), (144, ⟨200814294972011748, 15⟩), (157, ⟨-784430839734420891, 18⟩), (159, ⟨50203573743002937, 15⟩), (161, ⟨-351425016201020559, 15⟩), (163, ⟨562280025921632895, 15⟩), (165, ⟨-200814294972011748, 15⟩)],
  [(1, ⟨107809706940565876, 17⟩), (6, ⟨323429120821697627, 17⟩), (8, ⟨-689982124419621604, 16⟩), (15, ⟨215619413881131751, 17⟩), (17, ⟨-137996424883924321, 15⟩), (19, ⟨482987487093735122, 15⟩), (28, ⟨-215619413881131751, 17⟩), (32, ⟨482987487093735122, 15⟩), (34, ⟨-772779979349976196, 15⟩), (45, ⟨-323429120821697627, 17⟩), (47, ⟨137996424883924321, 15⟩), (49, ⟨-482987487093735122, 15⟩), (53, ⟨275992849767848641, 15⟩), (66, ⟨-107809706940565876, 17⟩), (68, ⟨689982124419621604, 16⟩), (70, ⟨-482987487093735122, 15⟩), (72, ⟨772779979349976196, 15⟩), (74, ⟨-275992849767848641, 15⟩), (95, ⟨107809706940565876, 16⟩), (102, ⟨107809706940565876, 16⟩), (104, ⟨-172495531104905401, 15⟩), (113, ⟨-301867179433584452, 16⟩), (117, ⟨482987487093735122, 15⟩), (128, ⟨-474362710538489852, 16⟩), (130, ⟨482987487093735122, 15⟩), (132, ⟨-482987487093735122, 15⟩), (134, ⟨-275992849767848641, 15⟩), (147, ⟨-150933589716792226, 16⟩), (149, ⟨275992849767848641, 15⟩), (151, ⟨-86937747676872322, 14⟩), (153, ⟨551985699535697283, 15⟩), (170, ⟨215619413881131751, 17⟩), (172, ⟨-344991062209810802, 16⟩), (174, ⟨965974974187470245, 16⟩), (176, ⟨-551985699535697283, 16⟩)],
  [(4, ⟨161714560410848813, 16⟩), (11, ⟨161714560410848813, 16⟩), (13, ⟨-258743296657358101, 15⟩), (22, ⟨-452800769150376677, 16⟩), (26, ⟨724481230640602684, 15⟩), (37, ⟨-711544065807734779, 16⟩), (39, ⟨724481230640602684, 15⟩), (41, ⟨-724481230640602684, 15⟩), (43, ⟨-413989274651772962, 15⟩), (56, ⟨-226400384575188339, 16⟩), (58, ⟨413989274651772962, 15⟩), (60, ⟨-130406621515308483, 14⟩), (62, ⟨827978549303545924, 15⟩), (79, ⟨323429120821697627, 17⟩), (81, ⟨-517486593314716203, 16⟩), (83, ⟨144896246128120537, 15⟩), (85, ⟨-827978549303545924, 16⟩), (92, ⟨-107809706940565876, 17⟩), (97, ⟨359365689801886252, 18⟩), (99, ⟨582172417479055728, 16⟩), (106, ⟨646858241643395253, 17⟩), (108, ⟨-776229889972074304, 16⟩), (110, ⟨-310491955988829722, 15⟩), (119, ⟨646858241643395253, 17⟩), (121, ⟨-271680461490226006, 15⟩), (123, ⟨724481230640602684, 15⟩), (125, ⟨289792492256241073, 15⟩), (136, ⟨359365689801886252, 18⟩), (138, ⟨-776229889972074304, 16⟩), (140, ⟨724481230640602684, 15⟩), (142, ⟨-965974974187470245, 15⟩), (157, ⟨-107809706940565876, 17⟩), (159, ⟨582172417479055728, 16⟩), (161, ⟨-310491955988829722, 15⟩), (163, ⟨289792492256241073, 15⟩)],
  [(1, ⟨-177617456229312929, 17⟩), (6, ⟨592058187431043098, 18⟩), (8, ⟨959134263638289819, 16⟩), (15, ⟨106570473737587758, 16⟩), (17, ⟨-127884568485105309, 15⟩), (19, ⟨-511538273940421237, 15⟩), (28, ⟨106570473737587758, 16⟩), (30, ⟨-447595989697868582, 15⟩), (32, ⟨119358930586098289, 14⟩), (34, ⟨477435722344393154, 15⟩), (45, ⟨592058187431043098, 18⟩), (47, ⟨-127884568485105309, 15⟩), (49, ⟨119358930586098289, 14⟩), (51, ⟨-159145240781464385, 14⟩), (66, ⟨-177617456229312929, 17⟩), (68, ⟨959134263638289819, 16⟩), (70, ⟨-511538273940421237, 15⟩), (72, ⟨477435722344393154, 15⟩), (95, ⟨-124332219360519051, 16⟩), (102, ⟨372996658081557152, 16⟩), (104, ⟨149198663232622861, 15⟩), (113, ⟨745993316163114303, 16⟩), (115, ⟨-596794652930491443, 15⟩), (117, ⟨-238717861172196577, 15⟩), (128, ⟨-106570473737587758, 16⟩), (130, ⟨-298397326465245721, 15⟩), (132, ⟨119358930586098289, 14⟩), (147, ⟨-337473166835694566, 16⟩), (149, ⟨426281894950351031, 15⟩), (151, ⟨-716153583516589731, 15⟩), (170, ⟨177617456229312929, 17⟩), (172, ⟨-213140947475175515, 16⟩), (174, ⟨341025515960280824, 16⟩)],
  [(4, ⟨-226998537228122744, 16⟩), (11, ⟨680995611684368233, 16⟩), (13, ⟨272398244673747293, 15⟩), (22, ⟨136199122336873647, 15⟩), (24, ⟨-108959297869498917, 14⟩), (26, ⟨-435837191477995669, 15⟩), (37, ⟨-194570174766962352, 16⟩), (39, ⟨-544796489347494586, 15⟩), (41, ⟨217918595738997834, 14⟩), (56, ⟨-616138886762047449, 16⟩), (58, ⟨778280699067849409, 15⟩), (60, ⟨-130751157443398701, 14⟩), (79, ⟨32428362461160392, 16⟩), (81, ⟨-389140349533924704, 16⟩), (83, ⟨622624559254279527, 16⟩), (92, ⟨129713449844641568, 17⟩), (97, ⟨-648567249223207841, 17⟩), (99, ⟨-518853799378566272, 16⟩), (106, ⟨-778280699067849409, 17⟩), (108, ⟨311312279627139763, 15⟩), (110, ⟨155656139813569882, 15⟩), (119, ⟨778280699067849409, 17⟩), (123, ⟨-108959297869498917, 14⟩), (136, ⟨648567249223207841, 17⟩), (138, ⟨-311312279627139763, 15⟩), (140, ⟨108959297869498917, 14⟩), (157, ⟨-129713449844641568, 17⟩), (159, ⟨518853799378566272, 16⟩), (161, ⟨-155656139813569882, 15⟩)],
  [(1, ⟨265833466848162373, 17⟩), (6, ⟨-132916733424081186, 16⟩), (8, ⟨-106333386739264949, 15⟩), (15, ⟨-159500080108897424, 16⟩), (17, ⟨638000320435589695, 15⟩), (19, ⟨319000160217794847, 15⟩), (28, ⟨159500080108897424, 16⟩), (32, ⟨-223300112152456393, 14⟩), (45, ⟨132916733424081186, 16⟩), (47, ⟨-638000320435589695, 15⟩), (49, ⟨223300112152456393, 14⟩), (66, ⟨-265833466848162373, 17⟩), (68, ⟨106333386739264949, 15⟩), (70, ⟨-319000160217794847, 15⟩), (95, ⟨119625060081673068, 16⟩), (102, ⟨-996875500680608898, 16⟩), (104, ⟨-797500400544487119, 16⟩), (113, ⟨558250280381140983, 16⟩), (115, ⟨744333707174854644, 15⟩), (128, ⟨119625060081673068, 15⟩), (130, ⟨-111650056076228197, 14⟩), (147, ⟨-465208566984284153, 16⟩), (149, ⟨319000160217794847, 15⟩), (170, ⟨132916733424081186, 17⟩), (172, ⟨-886111556160541243, 17⟩)],
  [(4, ⟨280545633538451997, 16⟩), (11, ⟨-233788027948709998, 15⟩), (13, ⟨-187030422358967998, 15⟩), (22, ⟨130921295651277599, 15⟩), (24, ⟨174561727535036798, 14⟩), (37, ⟨280545633538451997, 15⟩), (39, ⟨-261842591302555197, 14⟩), (56, ⟨-109101079709397999, 15⟩), (58, ⟨748121689435871992, 15⟩), (79, ⟨311717370598279997, 17⟩), (81, ⟨-207811580398853331, 16⟩), (92, ⟨-141689713908309089, 17⟩), (97, ⟨155858685299139998, 16⟩), (99, ⟨311717370598279997, 16⟩), (106, ⟨-187030422358967998, 16⟩), (108, ⟨-374060844717935996, 15⟩), (119, ⟨-187030422358967998, 16⟩), (121, ⟨785527773907665592, 15⟩), (136, ⟨155858685299139998, 16⟩), (138, ⟨-374060844717935996, 15⟩), (157, ⟨-141689713908309089, 17⟩), (159, ⟨311717370598279997, 16⟩)],
  [(1, ⟨-392321052893598442, 17⟩), (6, ⟨431553158182958286, 16⟩), (8, ⟨863106316365916572, 16⟩), (15, ⟨-517863789819549943, 16⟩), (17, ⟨-103572757963909989, 14⟩), (28, ⟨-517863789819549943, 16⟩), (30, ⟨217502791724210976, 14⟩), (45, ⟨431553158182958286, 16⟩), (47, ⟨-103572757963909989, 14⟩), (66, ⟨-392321052893598442, 17⟩), (68, ⟨863106316365916572, 16⟩), (95, ⟨-863106316365916572, 17⟩), (102, ⟨129465947454887486, 15⟩), (113, ⟨-36250465287368496, 14⟩), (128, ⟨258931894909774972, 15⟩), (147, ⟨-431553158182958286, 16⟩), (170, ⟨784642105787196884, 18⟩)],
  [(4, ⟨-298988798455876938, 16⟩), (11, ⟨448483197683815407, 15⟩), (22, ⟨-125575295351468314, 14⟩), (37, ⟨896966395367630815, 15⟩), (56, ⟨-149494399227938469, 15⟩), (79, ⟨271807998596251762, 17⟩), (92, ⟨135903999298125881, 17⟩), (97, ⟨-249157332046564115, 16⟩), (106, ⟨896966395367630815, 16⟩), (119, ⟨-896966395367630815, 16⟩), (136, ⟨249157332046564115, 16⟩), (157, ⟨-135903999298125881, 17⟩)],
  [(1, ⟨679519996490629405, 17⟩), (6, ⟨-124578666023282058, 15⟩), (15, ⟨448483197683815407, 15⟩), (28, ⟨-448483197683815407, 15⟩), (45, ⟨124578666023282058, 15⟩), (66, ⟨-679519996490629405, 17⟩)]]

/-- g_trans_cart2jI cut into its parts -/
def cjRowsI : List (List (List (Nat × Dec))) := [cjRowsI0, cjRowsI1, cjRowsI2, cjRowsI3, cjRowsI4, cjRowsI5, cjRowsI6, cjRowsI7, cjRowsI8, cjRowsI9, cjRowsI10, cjRowsI11, cjRowsI12]

end Verif.Model
