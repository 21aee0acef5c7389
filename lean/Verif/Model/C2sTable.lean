/-! Generated by tools/c2s.py from src/cart2sph.c. -/
namespace Verif.Model

/-- the offsets into g_trans_cart2sph in g_c2s, src/cart2sph.c:3561-3578 -/
def c2sOff : List Nat := [0, 1, 10, 40, 110, 245, 476, 840, 1380, 2145, 3190, 4576, 6370, 8645, 11480, 14960]

/-- A decimal literal `man / 10^dec`. -/
structure Dec where
  man : Int
  dec : Nat
deriving DecidableEq

/-- The part of g_trans_cart2sph (src/cart2sph.c:21-806, PYPZPX not defined) for l = 0: for every row of
1 literals the nonzero ones with their column. -/
def c2sRows0 : List (List (Nat × Dec)) := [
  [(0, ⟨1, 0⟩)]]

/-- The part of g_trans_cart2sph (src/cart2sph.c:21-806, PYPZPX not defined) for l = 1: for every row of
3 literals the nonzero ones with their column. -/
def c2sRows1 : List (List (Nat × Dec)) := [
  [(0, ⟨1, 0⟩)],
  [(1, ⟨1, 0⟩)],
  [(2, ⟨1, 0⟩)]]

/-- The part of g_trans_cart2sph (src/cart2sph.c:21-806, PYPZPX not defined) for l = 2: for every row of
6 literals the nonzero ones with their column. -/
def c2sRows2 : List (List (Nat × Dec)) := [
  [(1, ⟨1092548430592079070, 18⟩)],
  [(4, ⟨1092548430592079070, 18⟩)],
  [(0, ⟨-315391565252520002, 18⟩), (3, ⟨-315391565252520002, 18⟩), (5, ⟨630783130505040012, 18⟩)],
  [(2, ⟨1092548430592079070, 18⟩)],
  [(0, ⟨546274215296039535, 18⟩), (3, ⟨-546274215296039535, 18⟩)]]

/-- The part of g_trans_cart2sph (src/cart2sph.c:21-806, PYPZPX not defined) for l = 3: for every row of
10 literals the nonzero ones with their column. -/
def c2sRows3 : List (List (Nat × Dec)) := [
  [(1, ⟨1770130769779930531, 18⟩), (6, ⟨-590043589926643510, 18⟩)],
  [(4, ⟨2890611442640554055, 18⟩)],
  [(1, ⟨-457045799464465739, 18⟩), (6, ⟨-457045799464465739, 18⟩), (8, ⟨1828183197857862944, 18⟩)],
  [(2, ⟨-1119528997770346170, 18⟩), (7, ⟨-1119528997770346170, 18⟩), (9, ⟨746352665180230782, 18⟩)],
  [(0, ⟨-457045799464465739, 18⟩), (3, ⟨-457045799464465739, 18⟩), (5, ⟨1828183197857862944, 18⟩)],
  [(2, ⟨1445305721320277020, 18⟩), (7, ⟨-1445305721320277020, 18⟩)],
  [(0, ⟨590043589926643510, 18⟩), (3, ⟨-1770130769779930530, 18⟩)]]

/-- The part of g_trans_cart2sph (src/cart2sph.c:21-806, PYPZPX not defined) for l = 4: for every row of
15 literals the nonzero ones with their column. -/
def c2sRows4 : List (List (Nat × Dec)) := [
  [(1, ⟨2503342941796704538, 18⟩), (6, ⟨-2503342941796704530, 18⟩)],
  [(4, ⟨5310392309339791593, 18⟩), (11, ⟨-1770130769779930530, 18⟩)],
  [(1, ⟨-946174695757560014, 18⟩), (6, ⟨-946174695757560014, 18⟩), (8, ⟨5677048174545360108, 18⟩)],
  [(4, ⟨-2007139630671867500, 18⟩), (11, ⟨-2007139630671867500, 18⟩), (13, ⟨2676186174229156671, 18⟩)],
  [(0, ⟨317356640745612911, 18⟩), (3, ⟨634713281491225822, 18⟩), (5, ⟨-2538853125964903290, 18⟩), (10, ⟨317356640745612911, 18⟩), (12, ⟨-2538853125964903290, 18⟩), (14, ⟨846284375321634430, 18⟩)],
  [(2, ⟨-2007139630671867500, 18⟩), (7, ⟨-2007139630671867500, 18⟩), (9, ⟨2676186174229156671, 18⟩)],
  [(0, ⟨-473087347878780002, 18⟩), (5, ⟨2838524087272680054, 18⟩), (10, ⟨473087347878780009, 18⟩), (12, ⟨-2838524087272680050, 18⟩)],
  [(2, ⟨1770130769779930531, 18⟩), (7, ⟨-5310392309339791590, 18⟩)],
  [(0, ⟨625835735449176134, 18⟩), (3, ⟨-3755014412695056800, 18⟩), (10, ⟨625835735449176134, 18⟩)]]

/-- The part of g_trans_cart2sph (src/cart2sph.c:21-806, PYPZPX not defined) for l = 5: for every row of
21 literals the nonzero ones with their column. -/
def c2sRows5 : List (List (Nat × Dec)) := [
  [(1, ⟨3281910284200850514, 18⟩), (6, ⟨-6563820568401701020, 18⟩), (15, ⟨656382056840170102, 18⟩)],
  [(4, ⟨8302649259524165115, 18⟩), (11, ⟨-8302649259524165110, 18⟩)],
  [(1, ⟨-1467714898305751160, 18⟩), (6, ⟨-978476598870500779, 18⟩), (8, ⟨11741719186446009300, 18⟩), (15, ⟨489238299435250387, 18⟩), (17, ⟨-3913906395482003100, 18⟩)],
  [(4, ⟨-4793536784973323750, 18⟩), (11, ⟨-4793536784973323750, 18⟩), (13, ⟨9587073569946647510, 18⟩)],
  [(1, ⟨452946651195696921, 18⟩), (6, ⟨905893302391393842, 18⟩), (8, ⟨-5435359814348363050, 18⟩), (15, ⟨452946651195696921, 18⟩), (17, ⟨-5435359814348363050, 18⟩), (19, ⟨3623573209565575370, 18⟩)],
  [(2, ⟨1754254836801353946, 18⟩), (7, ⟨3508509673602707893, 18⟩), (9, ⟨-4678012898136943850, 18⟩), (16, ⟨1754254836801353946, 18⟩), (18, ⟨-4678012898136943850, 18⟩), (20, ⟨935602579627388771, 18⟩)],
  [(0, ⟨452946651195696921, 18⟩), (3, ⟨905893302391393842, 18⟩), (5, ⟨-5435359814348363050, 18⟩), (10, ⟨452946651195696921, 18⟩), (12, ⟨-5435359814348363050, 18⟩), (14, ⟨3623573209565575370, 18⟩)],
  [(2, ⟨-2396768392486661870, 18⟩), (9, ⟨4793536784973323755, 18⟩), (16, ⟨2396768392486661877, 18⟩), (18, ⟨-4793536784973323750, 18⟩)],
  [(0, ⟨-489238299435250389, 18⟩), (3, ⟨978476598870500775, 18⟩), (5, ⟨3913906395482003101, 18⟩), (10, ⟨1467714898305751163, 18⟩), (12, ⟨-11741719186446009300, 18⟩)],
  [(2, ⟨2075662314881041278, 18⟩), (7, ⟨-12453973889286247600, 18⟩), (16, ⟨2075662314881041278, 18⟩)],
  [(0, ⟨656382056840170102, 18⟩), (3, ⟨-6563820568401701020, 18⟩), (10, ⟨3281910284200850514, 18⟩)]]

/-- The part of g_trans_cart2sph (src/cart2sph.c:21-806, PYPZPX not defined) for l = 6: for every row of
28 literals the nonzero ones with their column. -/
def c2sRows6 : List (List (Nat × Dec)) := [
  [(1, ⟨40991046311514863, 16⟩), (6, ⟨-136636821038382887, 16⟩), (15, ⟨40991046311514863, 16⟩)],
  [(4, ⟨118330958111587634, 16⟩), (11, ⟨-236661916223175268, 16⟩), (22, ⟨23666191622317525, 16⟩)],
  [(1, ⟨-20182596029148963, 16⟩), (8, ⟨201825960291489679, 16⟩), (15, ⟨20182596029148963, 16⟩), (17, ⟨-201825960291489679, 16⟩)],
  [(4, ⟨-82908473356343109, 16⟩), (11, ⟨-55272315570895412, 16⟩), (13, ⟨221089262283581647, 16⟩), (22, ⟨27636157785447706, 16⟩), (24, ⟨-73696420761193888, 16⟩)],
  [(1, ⟨9212052595149236, 16⟩), (6, ⟨18424105190298472, 16⟩), (8, ⟨-147392841522387776, 16⟩), (15, ⟨9212052595149236, 16⟩), (17, ⟨-147392841522387776, 16⟩), (19, ⟨147392841522387776, 16⟩)],
  [(4, ⟨29131068125936568, 16⟩), (11, ⟨58262136251873136, 16⟩), (13, ⟨-116524272503746271, 16⟩), (22, ⟨29131068125936568, 16⟩), (24, ⟨-116524272503746271, 16⟩), (26, ⟨46609709001498505, 16⟩)],
  [(0, ⟨-3178460113381421, 16⟩), (3, ⟨-9535380340144264, 16⟩), (5, ⟨57212282040865583, 16⟩), (10, ⟨-9535380340144264, 16⟩), (12, ⟨114424564081731166, 16⟩), (14, ⟨-76283042721154111, 16⟩), (21, ⟨-3178460113381421, 16⟩), (23, ⟨57212282040865583, 16⟩), (25, ⟨-76283042721154111, 16⟩), (27, ⟨10171072362820548, 16⟩)],
  [(2, ⟨29131068125936568, 16⟩), (7, ⟨58262136251873136, 16⟩), (9, ⟨-116524272503746271, 16⟩), (16, ⟨29131068125936568, 16⟩), (18, ⟨-116524272503746271, 16⟩), (20, ⟨46609709001498505, 16⟩)],
  [(0, ⟨4606026297574618, 16⟩), (3, ⟨4606026297574618, 16⟩), (5, ⟨-73696420761193888, 16⟩), (10, ⟨-4606026297574618, 16⟩), (14, ⟨73696420761193888, 16⟩), (21, ⟨-4606026297574618, 16⟩), (23, ⟨73696420761193888, 16⟩), (25, ⟨-73696420761193888, 16⟩)],
  [(2, ⟨-27636157785447706, 16⟩), (7, ⟨55272315570895412, 16⟩), (9, ⟨73696420761193888, 16⟩), (16, ⟨82908473356343109, 16⟩), (18, ⟨-221089262283581647, 16⟩)],
  [(0, ⟨-5045649007287241, 16⟩), (3, ⟨25228245036436201, 16⟩), (5, ⟨50456490072872420, 16⟩), (10, ⟨25228245036436201, 16⟩), (12, ⟨-302738940437234518, 16⟩), (21, ⟨-5045649007287241, 16⟩), (23, ⟨50456490072872420, 16⟩)],
  [(2, ⟨23666191622317525, 16⟩), (7, ⟨-236661916223175268, 16⟩), (16, ⟨118330958111587634, 16⟩)],
  [(0, ⟨6831841051919144, 16⟩), (3, ⟨-102477615778787161, 16⟩), (10, ⟨102477615778787161, 16⟩), (21, ⟨-6831841051919144, 16⟩)]]

/-- The part of g_trans_cart2sph (src/cart2sph.c:21-806, PYPZPX not defined) for l = 7: for every row of
36 literals the nonzero ones with their column. -/
def c2sRows7 : List (List (Nat × Dec)) := [
  [(1, ⟨49501391276721742, 16⟩), (6, ⟨-247506956383608703, 16⟩), (15, ⟨148504173830165218, 16⟩), (28, ⟨-7071627325245963, 16⟩)],
  [(4, ⟨158757639708114002, 16⟩), (11, ⟨-529192132360380043, 16⟩), (22, ⟨158757639708114002, 16⟩)],
  [(1, ⟨-25945778936013020, 16⟩), (6, ⟨25945778936013020, 16⟩), (8, ⟨311349347232156219, 16⟩), (15, ⟨46702402084823440, 16⟩), (17, ⟨-622698694464312439, 16⟩), (28, ⟨-5189155787202604, 16⟩), (30, ⟨62269869446431247, 16⟩)],
  [(4, ⟨-124539738892862495, 16⟩), (13, ⟨415132462976208316, 16⟩), (22, ⟨124539738892862495, 16⟩), (24, ⟨-415132462976208316, 16⟩)],
  [(1, ⟨14081304047606462, 16⟩), (6, ⟨23468840079344107, 16⟩), (8, ⟨-281626080952129243, 16⟩), (15, ⟨4693768015868821, 16⟩), (17, ⟨-187750720634752817, 16⟩), (19, ⟨375501441269505705, 16⟩), (28, ⟨-4693768015868821, 16⟩), (30, ⟨93875360317376408, 16⟩), (32, ⟨-125167147089835229, 16⟩)],
  [(4, ⟨66379903866747414, 16⟩), (11, ⟨132759807733494828, 16⟩), (13, ⟨-354026153955986160, 16⟩), (22, ⟨66379903866747414, 16⟩), (24, ⟨-354026153955986160, 16⟩), (26, ⟨212415692373591725, 16⟩)],
  [(1, ⟨-4516580379125866, 16⟩), (6, ⟨-13549741137377600, 16⟩), (8, ⟨108397929099020782, 16⟩), (15, ⟨-13549741137377600, 16⟩), (17, ⟨216795858198041564, 16⟩), (19, ⟨-216795858198041564, 16⟩), (28, ⟨-4516580379125866, 16⟩), (30, ⟨108397929099020782, 16⟩), (32, ⟨-216795858198041564, 16⟩), (34, ⟨57812228852811094, 16⟩)],
  [(2, ⟨-23899496919201728, 16⟩), (7, ⟨-71698490757605189, 16⟩), (9, ⟨143396981515210360, 16⟩), (16, ⟨-71698490757605189, 16⟩), (18, ⟨286793963030420720, 16⟩), (20, ⟨-114717585212168292, 16⟩), (29, ⟨-23899496919201728, 16⟩), (31, ⟨143396981515210360, 16⟩), (33, ⟨-114717585212168292, 16⟩), (35, ⟨10925484305920790, 16⟩)],
  [(0, ⟨-4516580379125866, 16⟩), (3, ⟨-13549741137377600, 16⟩), (5, ⟨108397929099020782, 16⟩), (10, ⟨-13549741137377600, 16⟩), (12, ⟨216795858198041564, 16⟩), (14, ⟨-216795858198041564, 16⟩), (21, ⟨-4516580379125866, 16⟩), (23, ⟨108397929099020782, 16⟩), (25, ⟨-216795858198041564, 16⟩), (27, ⟨57812228852811094, 16⟩)],
  [(2, ⟨33189951933373707, 16⟩), (7, ⟨33189951933373707, 16⟩), (9, ⟨-177013076977993080, 16⟩), (16, ⟨-33189951933373707, 16⟩), (20, ⟨106207846186795862, 16⟩), (29, ⟨-33189951933373707, 16⟩), (31, ⟨177013076977993080, 16⟩), (33, ⟨-106207846186795862, 16⟩)],
  [(0, ⟨4693768015868821, 16⟩), (3, ⟨-4693768015868821, 16⟩), (5, ⟨-93875360317376408, 16⟩), (10, ⟨-23468840079344107, 16⟩), (12, ⟨187750720634752817, 16⟩), (14, ⟨125167147089835229, 16⟩), (21, ⟨-14081304047606462, 16⟩), (23, ⟨281626080952129243, 16⟩), (25, ⟨-375501441269505705, 16⟩)],
  [(2, ⟨-31134934723215624, 16⟩), (7, ⟨155674673616078110, 16⟩), (9, ⟨103783115744052079, 16⟩), (16, ⟨155674673616078110, 16⟩), (18, ⟨-622698694464312439, 16⟩), (29, ⟨-31134934723215624, 16⟩), (31, ⟨103783115744052079, 16⟩)],
  [(0, ⟨-5189155787202604, 16⟩), (3, ⟨46702402084823440, 16⟩), (5, ⟨62269869446431247, 16⟩), (10, ⟨25945778936013020, 16⟩), (12, ⟨-622698694464312439, 16⟩), (21, ⟨-25945778936013020, 16⟩), (23, ⟨311349347232156219, 16⟩)],
  [(2, ⟨26459606618019000, 16⟩), (7, ⟨-396894099270284997, 16⟩), (16, ⟨396894099270284997, 16⟩), (29, ⟨-26459606618019000, 16⟩)],
  [(0, ⟨7071627325245963, 16⟩), (3, ⟨-148504173830165218, 16⟩), (10, ⟨247506956383608703, 16⟩), (21, ⟨-49501391276721742, 16⟩)]]

/-- The part of g_trans_cart2sph (src/cart2sph.c:21-806, PYPZPX not defined) for l = 8: for every row of
45 literals the nonzero ones with their column. -/
def c2sRows8 : List (List (Nat × Dec)) := [
  [(1, ⟨583141328139864, 14⟩), (6, ⟨-4081989296979048, 14⟩), (15, ⟨4081989296979048, 14⟩), (28, ⟨-583141328139864, 14⟩)],
  [(4, ⟨2040994648489524, 14⟩), (11, ⟨-1020497324244762, 13⟩), (22, ⟨6122983945468572, 14⟩), (37, ⟨-291570664069932, 14⟩)],
  [(1, ⟨-3193996596357255, 15⟩), (6, ⟨7452658724833595, 15⟩), (8, ⟨4471595234900157, 14⟩), (15, ⟨7452658724833595, 15⟩), (17, ⟨-1490531744966719, 13⟩), (28, ⟨-3193996596357255, 15⟩), (30, ⟨4471595234900157, 14⟩)],
  [(4, ⟨-1724955311049054, 14⟩), (11, ⟨1724955311049054, 14⟩), (13, ⟨6899821244196217, 14⟩), (22, ⟨3104919559888297, 14⟩), (24, ⟨-1379964248839243, 13⟩), (37, ⟨-3449910622098108, 15⟩), (39, ⟨1379964248839243, 14⟩)],
  [(1, ⟨1913666099037323, 15⟩), (6, ⟨1913666099037323, 15⟩), (8, ⟨-4592798637689575, 14⟩), (15, ⟨-1913666099037323, 15⟩), (19, ⟨7654664396149292, 14⟩), (28, ⟨-1913666099037323, 15⟩), (30, ⟨4592798637689575, 14⟩), (32, ⟨-7654664396149292, 14⟩)],
  [(4, ⟨111173953976599, 13⟩), (11, ⟨1852899232943316, 14⟩), (13, ⟨-7411596931773265, 14⟩), (22, ⟨3705798465886632, 15⟩), (24, ⟨-4941064621182176, 14⟩), (26, ⟨5929277545418611, 14⟩), (37, ⟨-3705798465886632, 15⟩), (39, ⟨2470532310591088, 14⟩), (41, ⟨-197642584847287, 13⟩)],
  [(1, ⟨-9123045168698189, 16⟩), (6, ⟨-2736913550609457, 15⟩), (8, ⟨2736913550609457, 14⟩), (15, ⟨-2736913550609457, 15⟩), (17, ⟨5473827101218914, 14⟩), (19, ⟨-7298436134958553, 14⟩), (28, ⟨-9123045168698189, 16⟩), (30, ⟨2736913550609457, 14⟩), (32, ⟨-7298436134958553, 14⟩), (34, ⟨2919374453983421, 14⟩)],
  [(4, ⟨-38164436064573, 13⟩), (11, ⟨-114493308193719, 13⟩), (13, ⟨305315488516584, 13⟩), (22, ⟨-114493308193719, 13⟩), (24, ⟨6106309770331679, 14⟩), (26, ⟨-3663785862199007, 14⟩), (37, ⟨-38164436064573, 13⟩), (39, ⟨305315488516584, 13⟩), (41, ⟨-3663785862199007, 14⟩), (43, ⟨6978639737521918, 15⟩)],
  [(0, ⟨3180369672047749, 16⟩), (3, ⟨1272147868819099, 15⟩), (5, ⟨-101771829505528, 13⟩), (10, ⟨1908221803228649, 15⟩), (12, ⟨-3053154885165839, 14⟩), (14, ⟨3053154885165839, 14⟩), (21, ⟨1272147868819099, 15⟩), (23, ⟨-3053154885165839, 14⟩), (25, ⟨6106309770331677, 14⟩), (27, ⟨-1628349272088447, 14⟩), (36, ⟨3180369672047749, 16⟩), (38, ⟨-101771829505528, 13⟩), (40, ⟨3053154885165839, 14⟩), (42, ⟨-1628349272088447, 14⟩), (44, ⟨116310662292032, 14⟩)],
  [(2, ⟨-38164436064573, 13⟩), (7, ⟨-114493308193719, 13⟩), (9, ⟨305315488516584, 13⟩), (16, ⟨-114493308193719, 13⟩), (18, ⟨6106309770331679, 14⟩), (20, ⟨-3663785862199007, 14⟩), (29, ⟨-38164436064573, 13⟩), (31, ⟨305315488516584, 13⟩), (33, ⟨-3663785862199007, 14⟩), (35, ⟨6978639737521918, 15⟩)],
  [(0, ⟨-4561522584349095, 16⟩), (3, ⟨-9123045168698189, 16⟩), (5, ⟨1368456775304729, 14⟩), (12, ⟨1368456775304729, 14⟩), (14, ⟨-3649218067479276, 14⟩), (21, ⟨9123045168698189, 16⟩), (23, ⟨-1368456775304729, 14⟩), (27, ⟨145968722699171, 13⟩), (36, ⟨4561522584349095, 16⟩), (38, ⟨-1368456775304729, 14⟩), (40, ⟨3649218067479276, 14⟩), (42, ⟨-145968722699171, 13⟩)],
  [(2, ⟨3705798465886632, 15⟩), (7, ⟨-3705798465886632, 15⟩), (9, ⟨-2470532310591088, 14⟩), (16, ⟨-1852899232943316, 14⟩), (18, ⟨4941064621182176, 14⟩), (20, ⟨197642584847287, 13⟩), (29, ⟨-111173953976599, 13⟩), (31, ⟨7411596931773265, 14⟩), (33, ⟨-5929277545418611, 14⟩)],
  [(0, ⟨4784165247593308, 16⟩), (3, ⟨-1913666099037323, 15⟩), (5, ⟨-1148199659422394, 14⟩), (10, ⟨-4784165247593307, 15⟩), (12, ⟨5740998297111968, 14⟩), (14, ⟨1913666099037323, 14⟩), (21, ⟨-1913666099037323, 15⟩), (23, ⟨5740998297111968, 14⟩), (25, ⟨-1148199659422394, 13⟩), (36, ⟨4784165247593308, 16⟩), (38, ⟨-1148199659422394, 14⟩), (40, ⟨1913666099037323, 14⟩)],
  [(2, ⟨-3449910622098108, 15⟩), (7, ⟨3104919559888297, 14⟩), (9, ⟨1379964248839243, 14⟩), (16, ⟨1724955311049054, 14⟩), (18, ⟨-1379964248839243, 13⟩), (29, ⟨-1724955311049054, 14⟩), (31, ⟨6899821244196217, 14⟩)],
  [(0, ⟨-5323327660595425, 16⟩), (3, ⟨7452658724833595, 15⟩), (5, ⟨7452658724833595, 15⟩), (12, ⟨-1117898808725039, 13⟩), (21, ⟨-7452658724833595, 15⟩), (23, ⟨1117898808725039, 13⟩), (36, ⟨5323327660595425, 16⟩), (38, ⟨-7452658724833595, 15⟩)],
  [(2, ⟨291570664069932, 14⟩), (7, ⟨-6122983945468572, 14⟩), (16, ⟨1020497324244762, 13⟩), (29, ⟨-2040994648489524, 14⟩)],
  [(0, ⟨72892666017483, 14⟩), (3, ⟨-2040994648489524, 14⟩), (10, ⟨510248662122381, 13⟩), (21, ⟨-2040994648489524, 14⟩), (36, ⟨72892666017483, 14⟩)]]

/-- The part of g_trans_cart2sph (src/cart2sph.c:21-806, PYPZPX not defined) for l = 9: for every row of
55 literals the nonzero ones with their column. -/
def c2sRows9 : List (List (Nat × Dec)) := [
  [(1, ⟨6740108566678694, 15⟩), (6, ⟨-629076799556678, 13⟩), (15, ⟨9436151993350171, 14⟩), (28, ⟨-2696043426671477, 14⟩), (45, ⟨7489009518531882, 16⟩)],
  [(4, ⟨2541854119163758, 14⟩), (11, ⟨-1779297883414631, 13⟩), (22, ⟨1779297883414631, 13⟩), (37, ⟨-2541854119163758, 14⟩)],
  [(1, ⟨-3814338369408373, 15⟩), (6, ⟨1525735347763349, 14⟩), (8, ⟨6102941391053396, 14⟩), (15, ⟨7628676738816745, 15⟩), (17, ⟨-3051470695526698, 13⟩), (28, ⟨-1089810962688107, 14⟩), (30, ⟨1830882417316019, 13⟩), (45, ⟨5449054813440533, 16⟩), (47, ⟨-8718487701504852, 15⟩)],
  [(4, ⟨-2265129549625621, 14⟩), (11, ⟨5285302282459782, 14⟩), (13, ⟨1057060456491956, 13⟩), (22, ⟨5285302282459782, 14⟩), (24, ⟨-3523534854973187, 13⟩), (37, ⟨-2265129549625621, 14⟩), (39, ⟨1057060456491956, 13⟩)],
  [(1, ⟨2436891395195093, 15⟩), (8, ⟨-6823295906546261, 14⟩), (15, ⟨-682329590654626, 14⟩), (17, ⟨6823295906546261, 14⟩), (19, ⟨1364659181309252, 13⟩), (28, ⟨-3899026232312149, 15⟩), (30, ⟨1228193263178327, 13⟩), (32, ⟨-2729318362618504, 13⟩), (45, ⟨4873782790390186, 16⟩), (47, ⟨-1364659181309252, 14⟩), (49, ⟨2729318362618504, 14⟩)],
  [(4, ⟨1631079695491669, 14⟩), (11, ⟨1631079695491669, 14⟩), (13, ⟨-1304863756393335, 13⟩), (22, ⟨-1631079695491669, 14⟩), (26, ⟨1304863756393335, 13⟩), (37, ⟨-1631079695491669, 14⟩), (39, ⟨1304863756393335, 13⟩), (41, ⟨-1304863756393335, 13⟩)],
  [(1, ⟨-1385125560048583, 15⟩), (6, ⟨-3693668160129556, 15⟩), (8, ⟨49864520161749, 12⟩), (15, ⟨-2770251120097167, 15⟩), (17, ⟨83107533602915, 12⟩), (19, ⟨-16621506720583, 11⟩), (30, ⟨16621506720583, 12⟩), (32, ⟨-1108100448038867, 13⟩), (34, ⟨8864803584310934, 14⟩), (45, ⟨4617085200161945, 16⟩), (47, ⟨-16621506720583, 12⟩), (49, ⟨5540502240194333, 14⟩), (51, ⟨-2954934528103645, 14⟩)],
  [(4, ⟨-846325696792098, 14⟩), (11, ⟨-2538977090376294, 14⟩), (13, ⟨8463256967920979, 14⟩), (22, ⟨-2538977090376294, 14⟩), (24, ⟨1692651393584196, 13⟩), (26, ⟨-1354121114867357, 13⟩), (37, ⟨-846325696792098, 14⟩), (39, ⟨8463256967920979, 14⟩), (41, ⟨-1354121114867357, 13⟩), (43, ⟨3868917471049591, 14⟩)],
  [(1, ⟨451093112065591, 15⟩), (6, ⟨1804372448262364, 15⟩), (8, ⟨-1804372448262364, 14⟩), (15, ⟨2706558672393546, 15⟩), (17, ⟨-5413117344787092, 14⟩), (19, ⟨7217489793049457, 14⟩), (28, ⟨1804372448262364, 15⟩), (30, ⟨-5413117344787092, 14⟩), (32, ⟨1443497958609891, 13⟩), (34, ⟨-5773991834439565, 14⟩), (45, ⟨451093112065591, 15⟩), (47, ⟨-1804372448262364, 14⟩), (49, ⟨7217489793049457, 14⟩), (51, ⟨-5773991834439565, 14⟩), (53, ⟨8248559763485094, 15⟩)],
  [(2, ⟨3026024588281776, 15⟩), (7, ⟨121040983531271, 13⟩), (9, ⟨-3227759560833895, 14⟩), (16, ⟨1815614752969066, 14⟩), (18, ⟨-9683278682501685, 14⟩), (20, ⟨580996720950101, 13⟩), (29, ⟨121040983531271, 13⟩), (31, ⟨-9683278682501685, 14⟩), (33, ⟨1161993441900202, 13⟩), (35, ⟨-221332084171467, 13⟩), (46, ⟨3026024588281776, 15⟩), (48, ⟨-3227759560833895, 14⟩), (50, ⟨580996720950101, 13⟩), (52, ⟨-221332084171467, 13⟩), (54, ⟨1229622689841484, 15⟩)],
  [(0, ⟨451093112065591, 15⟩), (3, ⟨1804372448262364, 15⟩), (5, ⟨-1804372448262364, 14⟩), (10, ⟨2706558672393546, 15⟩), (12, ⟨-5413117344787092, 14⟩), (14, ⟨7217489793049457, 14⟩), (21, ⟨1804372448262364, 15⟩), (23, ⟨-5413117344787092, 14⟩), (25, ⟨1443497958609891, 13⟩), (27, ⟨-5773991834439565, 14⟩), (36, ⟨451093112065591, 15⟩), (38, ⟨-1804372448262364, 14⟩), (40, ⟨7217489793049457, 14⟩), (42, ⟨-5773991834439565, 14⟩), (44, ⟨8248559763485094, 15⟩)],
  [(2, ⟨-423162848396049, 14⟩), (7, ⟨-846325696792098, 14⟩), (9, ⟨423162848396049, 13⟩), (18, ⟨423162848396049, 13⟩), (20, ⟨-6770605574336784, 14⟩), (29, ⟨846325696792098, 14⟩), (31, ⟨-423162848396049, 13⟩), (35, ⟨1934458735524795, 14⟩), (46, ⟨423162848396049, 14⟩), (48, ⟨-423162848396049, 13⟩), (50, ⟨6770605574336784, 14⟩), (52, ⟨-1934458735524795, 14⟩)],
  [(0, ⟨-4617085200161945, 16⟩), (5, ⟨16621506720583, 12⟩), (10, ⟨2770251120097167, 15⟩), (12, ⟨-16621506720583, 12⟩), (14, ⟨-5540502240194333, 14⟩), (21, ⟨3693668160129556, 15⟩), (23, ⟨-83107533602915, 12⟩), (25, ⟨1108100448038867, 13⟩), (27, ⟨2954934528103645, 14⟩), (36, ⟨1385125560048583, 15⟩), (38, ⟨-49864520161749, 12⟩), (40, ⟨16621506720583, 11⟩), (42, ⟨-8864803584310934, 14⟩)],
  [(2, ⟨4077699238729173, 15⟩), (7, ⟨-1631079695491669, 14⟩), (9, ⟨-3262159390983339, 14⟩), (16, ⟨-4077699238729173, 14⟩), (18, ⟨1631079695491669, 13⟩), (20, ⟨3262159390983339, 14⟩), (29, ⟨-1631079695491669, 14⟩), (31, ⟨1631079695491669, 13⟩), (33, ⟨-1957295634590003, 13⟩), (46, ⟨4077699238729173, 15⟩), (48, ⟨-3262159390983339, 14⟩), (50, ⟨3262159390983339, 14⟩)],
  [(0, ⟨4873782790390186, 16⟩), (3, ⟨-3899026232312149, 15⟩), (5, ⟨-1364659181309252, 14⟩), (10, ⟨-682329590654626, 14⟩), (12, ⟨1228193263178327, 13⟩), (14, ⟨2729318362618504, 14⟩), (23, ⟨6823295906546261, 14⟩), (25, ⟨-2729318362618504, 13⟩), (36, ⟨2436891395195093, 15⟩), (38, ⟨-6823295906546261, 14⟩), (40, ⟨1364659181309252, 13⟩)],
  [(2, ⟨-3775215916042701, 15⟩), (7, ⟨5285302282459782, 14⟩), (9, ⟨1761767427486594, 14⟩), (18, ⟨-2642651141229891, 13⟩), (29, ⟨-5285302282459782, 14⟩), (31, ⟨2642651141229891, 13⟩), (46, ⟨3775215916042701, 15⟩), (48, ⟨-1761767427486594, 14⟩)],
  [(0, ⟨-5449054813440533, 16⟩), (3, ⟨1089810962688107, 14⟩), (5, ⟨8718487701504852, 15⟩), (10, ⟨-7628676738816745, 15⟩), (12, ⟨-1830882417316019, 13⟩), (21, ⟨-1525735347763349, 14⟩), (23, ⟨3051470695526698, 13⟩), (36, ⟨3814338369408373, 15⟩), (38, ⟨-6102941391053396, 14⟩)],
  [(2, ⟨3177317648954698, 15⟩), (7, ⟨-8896489417073154, 14⟩), (16, ⟨2224122354268289, 13⟩), (29, ⟨-8896489417073154, 14⟩), (46, ⟨3177317648954698, 15⟩)],
  [(0, ⟨7489009518531882, 16⟩), (3, ⟨-2696043426671477, 14⟩), (10, ⟨9436151993350171, 14⟩), (21, ⟨-629076799556678, 13⟩), (36, ⟨6740108566678694, 15⟩)]]

/-- The part of g_trans_cart2sph (src/cart2sph.c:21-806, PYPZPX not defined) for l = 10: for every row of
66 literals the nonzero ones with their column. -/
def c2sRows10 : List (List (Nat × Dec)) := [
  [(1, ⟨7673951182219901, 15⟩), (6, ⟨-9208741418663881, 14⟩), (15, ⟨1933835697919415, 13⟩), (28, ⟨-9208741418663881, 14⟩), (45, ⟨7673951182219901, 15⟩)],
  [(4, ⟨3088705769902543, 14⟩), (11, ⟨-2882792051909041, 13⟩), (22, ⟨4324188077863561, 13⟩), (37, ⟨-1235482307961017, 13⟩), (56, ⟨3431895299891715, 15⟩)],
  [(1, ⟨-4453815461763347, 15⟩), (6, ⟨2672289277058008, 14⟩), (8, ⟨8016867831174027, 14⟩), (17, ⟨-5611807481821819, 13⟩), (28, ⟨-2672289277058008, 14⟩), (30, ⟨5611807481821819, 13⟩), (45, ⟨4453815461763347, 15⟩), (47, ⟨-8016867831174027, 14⟩)],
  [(4, ⟨-2863763513582592, 14⟩), (11, ⟨1145505405433037, 13⟩), (13, ⟨1527340540577382, 13⟩), (22, ⟨5727527027165184, 14⟩), (24, ⟨-7636702702886912, 13⟩), (37, ⟨-8182181467378834, 14⟩), (39, ⟨4582021621732147, 13⟩), (56, ⟨4091090733689417, 15⟩), (58, ⟨-2181915057967689, 14⟩)],
  [(1, ⟨2976705744527138, 15⟩), (6, ⟨-3968940992702851, 15⟩), (8, ⟨-9525458382486842, 14⟩), (15, ⟨-1389129347445998, 14⟩), (17, ⟨2222606955913596, 13⟩), (19, ⟨2222606955913597, 13⟩), (28, ⟨-3968940992702851, 15⟩), (30, ⟨2222606955913596, 13⟩), (32, ⟨-7408689853045323, 13⟩), (45, ⟨2976705744527138, 15⟩), (47, ⟨-9525458382486842, 14⟩), (49, ⟨2222606955913597, 13⟩)],
  [(4, ⟨2218705464592268, 14⟩), (13, ⟨-2070791766952783, 13⟩), (22, ⟨-6212375300858349, 14⟩), (24, ⟨2070791766952783, 13⟩), (26, ⟨248495012034334, 12⟩), (37, ⟨-3549928743347628, 14⟩), (39, ⟨372742518051501, 12⟩), (41, ⟨-496990024068668, 12⟩), (56, ⟨4437410929184535, 15⟩), (58, ⟨-4141583533905566, 14⟩), (60, ⟨496990024068668, 13⟩)],
  [(1, ⟨-1870976726712969, 15⟩), (6, ⟨-3741953453425937, 15⟩), (8, ⟨7858102252194469, 14⟩), (17, ⟨7858102252194469, 14⟩), (19, ⟨-3143240900877788, 13⟩), (28, ⟨3741953453425937, 15⟩), (30, ⟨-7858102252194469, 14⟩), (34, ⟨2095493933918525, 13⟩), (45, ⟨1870976726712969, 15⟩), (47, ⟨-7858102252194469, 14⟩), (49, ⟨3143240900877788, 13⟩), (51, ⟨-2095493933918525, 13⟩)],
  [(4, ⟨-1389129347445998, 14⟩), (11, ⟨-3704344926522661, 14⟩), (13, ⟨1666955216935197, 13⟩), (22, ⟨-2778258694891996, 14⟩), (24, ⟨2778258694891996, 13⟩), (26, ⟨-3333910433870395, 13⟩), (39, ⟨5556517389783991, 14⟩), (41, ⟨-2222606955913596, 13⟩), (43, ⟨1270061117664912, 13⟩), (56, ⟨4630431158153326, 15⟩), (58, ⟨-5556517389783991, 14⟩), (60, ⟨1111303477956798, 13⟩), (62, ⟨-4233537058883041, 14⟩)],
  [(1, ⟨9081022627604556, 16⟩), (6, ⟨3632409051041822, 15⟩), (8, ⟨-4358890861250187, 14⟩), (15, ⟨5448613576562733, 15⟩), (17, ⟨-1307667258375056, 13⟩), (19, ⟨2179445430625093, 13⟩), (28, ⟨3632409051041822, 15⟩), (30, ⟨-1307667258375056, 13⟩), (32, ⟨4358890861250187, 13⟩), (34, ⟨-2324741792666766, 13⟩), (45, ⟨9081022627604556, 16⟩), (47, ⟨-4358890861250187, 14⟩), (49, ⟨2179445430625093, 13⟩), (51, ⟨-2324741792666766, 13⟩), (53, ⟨49815895557145, 12⟩)],
  [(4, ⟨4718637772708116, 15⟩), (11, ⟨1887455109083247, 14⟩), (13, ⟨-6291517030277488, 14⟩), (22, ⟨283118266362487, 13⟩), (24, ⟨-1887455109083247, 13⟩), (26, ⟨1509964087266597, 13⟩), (37, ⟨1887455109083247, 14⟩), (39, ⟨-1887455109083247, 13⟩), (41, ⟨3019928174533194, 13⟩), (43, ⟨-8628366212951984, 14⟩), (56, ⟨4718637772708116, 15⟩), (58, ⟨-6291517030277488, 14⟩), (60, ⟨1509964087266597, 13⟩), (62, ⟨-8628366212951984, 14⟩), (64, ⟨9587073569946648, 15⟩)],
  [(0, ⟨-3181304937373671, 16⟩), (3, ⟨-1590652468686835, 15⟩), (5, ⟨1590652468686835, 14⟩), (10, ⟨-3181304937373671, 15⟩), (12, ⟨6362609874747341, 14⟩), (14, ⟨-8483479832996456, 14⟩), (21, ⟨-3181304937373671, 15⟩), (23, ⟨9543914812121012, 14⟩), (25, ⟨-2545043949898937, 13⟩), (27, ⟨1018017579959575, 13⟩), (36, ⟨-1590652468686835, 15⟩), (38, ⟨6362609874747341, 14⟩), (40, ⟨-2545043949898937, 13⟩), (42, ⟨2036035159919149, 13⟩), (44, ⟨-2908621657027356, 14⟩), (55, ⟨-3181304937373671, 16⟩), (57, ⟨1590652468686835, 14⟩), (59, ⟨-8483479832996456, 14⟩), (61, ⟨1018017579959575, 13⟩), (63, ⟨-2908621657027356, 14⟩), (65, ⟨1292720736456603, 15⟩)],
  [(2, ⟨4718637772708116, 15⟩), (7, ⟨1887455109083247, 14⟩), (9, ⟨-6291517030277488, 14⟩), (16, ⟨283118266362487, 13⟩), (18, ⟨-1887455109083247, 13⟩), (20, ⟨1509964087266597, 13⟩), (29, ⟨1887455109083247, 14⟩), (31, ⟨-1887455109083247, 13⟩), (33, ⟨3019928174533194, 13⟩), (35, ⟨-8628366212951984, 14⟩), (46, ⟨4718637772708116, 15⟩), (48, ⟨-6291517030277488, 14⟩), (50, ⟨1509964087266597, 13⟩), (52, ⟨-8628366212951984, 14⟩), (54, ⟨9587073569946648, 15⟩)],
  [(0, ⟨4540511313802278, 16⟩), (3, ⟨1362153394140683, 15⟩), (5, ⟨-2179445430625093, 14⟩), (10, ⟨9081022627604556, 16⟩), (12, ⟨-4358890861250187, 14⟩), (14, ⟨1089722715312547, 13⟩), (21, ⟨-9081022627604556, 16⟩), (25, ⟨1089722715312547, 13⟩), (27, ⟨-1162370896333383, 13⟩), (36, ⟨-1362153394140683, 15⟩), (38, ⟨4358890861250187, 14⟩), (40, ⟨-1089722715312547, 13⟩), (44, ⟨249079477785725, 13⟩), (55, ⟨-4540511313802278, 16⟩), (57, ⟨2179445430625093, 14⟩), (59, ⟨-1089722715312547, 13⟩), (61, ⟨1162370896333383, 13⟩), (63, ⟨-249079477785725, 13⟩)],
  [(2, ⟨-4630431158153326, 15⟩), (9, ⟨5556517389783991, 14⟩), (16, ⟨2778258694891996, 14⟩), (18, ⟨-5556517389783991, 14⟩), (20, ⟨-1111303477956798, 13⟩), (29, ⟨3704344926522661, 14⟩), (31, ⟨-2778258694891996, 13⟩), (33, ⟨2222606955913596, 13⟩), (35, ⟨4233537058883041, 14⟩), (46, ⟨1389129347445998, 14⟩), (48, ⟨-1666955216935197, 13⟩), (50, ⟨3333910433870395, 13⟩), (52, ⟨-1270061117664912, 13⟩)],
  [(0, ⟨-4677441816782422, 16⟩), (3, ⟨1403232545034726, 15⟩), (5, ⟨1964525563048617, 14⟩), (10, ⟨6548418543495391, 15⟩), (12, ⟨-7858102252194469, 14⟩), (14, ⟨-7858102252194469, 14⟩), (21, ⟨6548418543495391, 15⟩), (23, ⟨-1964525563048617, 13⟩), (25, ⟨3929051126097235, 13⟩), (27, ⟨5238734834796313, 14⟩), (36, ⟨1403232545034726, 15⟩), (38, ⟨-7858102252194469, 14⟩), (40, ⟨3929051126097235, 13⟩), (42, ⟨-3143240900877788, 13⟩), (55, ⟨-4677441816782422, 16⟩), (57, ⟨1964525563048617, 14⟩), (59, ⟨-7858102252194469, 14⟩), (61, ⟨5238734834796313, 14⟩)],
  [(2, ⟨4437410929184535, 15⟩), (7, ⟨-3549928743347628, 14⟩), (9, ⟨-4141583533905566, 14⟩), (16, ⟨-6212375300858349, 14⟩), (18, ⟨372742518051501, 12⟩), (20, ⟨496990024068668, 13⟩), (31, ⟨2070791766952783, 13⟩), (33, ⟨-496990024068668, 12⟩), (46, ⟨2218705464592268, 14⟩), (48, ⟨-2070791766952783, 13⟩), (50, ⟨248495012034334, 12⟩)],
  [(0, ⟨4961176240878564, 16⟩), (3, ⟨-6449529113142133, 15⟩), (5, ⟨-158757639708114, 13⟩), (10, ⟨-6945646737229989, 15⟩), (12, ⟨2222606955913596, 13⟩), (14, ⟨3704344926522661, 14⟩), (21, ⟨6945646737229989, 15⟩), (25, ⟨-5556517389783992, 13⟩), (36, ⟨6449529113142133, 15⟩), (38, ⟨-2222606955913596, 13⟩), (40, ⟨5556517389783992, 13⟩), (55, ⟨-4961176240878564, 16⟩), (57, ⟨158757639708114, 13⟩), (59, ⟨-3704344926522661, 14⟩)],
  [(2, ⟨-4091090733689417, 15⟩), (7, ⟨8182181467378834, 14⟩), (9, ⟨2181915057967689, 14⟩), (16, ⟨-5727527027165184, 14⟩), (18, ⟨-4582021621732147, 13⟩), (29, ⟨-1145505405433037, 13⟩), (31, ⟨7636702702886912, 13⟩), (46, ⟨2863763513582592, 14⟩), (48, ⟨-1527340540577382, 13⟩)],
  [(0, ⟨-5567269327204184, 16⟩), (3, ⟨150316271834513, 13⟩), (5, ⟨1002108478896753, 14⟩), (10, ⟨-2338253117425757, 14⟩), (12, ⟨-280590374091091, 12⟩), (21, ⟨-2338253117425757, 14⟩), (23, ⟨7014759352277273, 13⟩), (36, ⟨150316271834513, 13⟩), (38, ⟨-280590374091091, 12⟩), (55, ⟨-5567269327204184, 16⟩), (57, ⟨1002108478896753, 14⟩)],
  [(2, ⟨3431895299891715, 15⟩), (7, ⟨-1235482307961017, 13⟩), (16, ⟨4324188077863561, 13⟩), (29, ⟨-2882792051909041, 13⟩), (46, ⟨3088705769902543, 14⟩)],
  [(0, ⟨7673951182219901, 16⟩), (3, ⟨-3453278031998956, 14⟩), (10, ⟨1611529748266179, 13⟩), (21, ⟨-1611529748266179, 13⟩), (36, ⟨3453278031998956, 14⟩), (55, ⟨-7673951182219901, 16⟩)]]

/-- The part of g_trans_cart2sph (src/cart2sph.c:21-806, PYPZPX not defined) for l = 11: for every row of
78 literals the nonzero ones with their column. -/
def c2sRows11 : List (List (Nat × Dec)) := [
  [(1, ⟨8631063163659167, 15⟩), (6, ⟨-1294659474548875, 13⟩), (15, ⟨362504652873685, 12⟩), (28, ⟨-2589318949097751, 13⟩), (45, ⟨4315531581829584, 14⟩), (66, ⟨-7846421057871971, 16⟩)],
  [(4, ⟨3680297698805311, 14⟩), (11, ⟨-4416357238566373, 13⟩), (22, ⟨9274350200989384, 13⟩), (37, ⟨-4416357238566373, 13⟩), (56, ⟨3680297698805311, 14⟩)],
  [(1, ⟨-5110940374050938, 15⟩), (6, ⟨4259116978375781, 14⟩), (8, ⟨1022188074810188, 13⟩), (15, ⟨-2385105507890438, 14⟩), (17, ⟨-9540422031561751, 13⟩), (28, ⟨-5110940374050938, 14⟩), (30, ⟨1431063304734263, 12⟩), (45, ⟨1987587923242031, 14⟩), (47, ⟨-408875229924075, 12⟩), (66, ⟨-5678822637834375, 16⟩), (68, ⟨1135764527566875, 14⟩)],
  [(4, ⟨-3519037680383713, 14⟩), (11, ⟨2111422608230228, 13⟩), (13, ⟨2111422608230228, 13⟩), (24, ⟨-1477995825761159, 12⟩), (37, ⟨-2111422608230228, 13⟩), (39, ⟨1477995825761159, 12⟩), (56, ⟨3519037680383713, 14⟩), (58, ⟨-2111422608230228, 13⟩)],
  [(1, ⟨3532036427339827, 15⟩), (6, ⟨-1059610928201948, 14⟩), (8, ⟨-1271533113842337, 13⟩), (15, ⟨-2119221856403896, 14⟩), (17, ⟨508613245536935, 12⟩), (19, ⟨3390754970246234, 13⟩), (28, ⟨3027459794862709, 15⟩), (30, ⟨2543066227684675, 13⟩), (32, ⟨-1695377485123117, 12⟩), (45, ⟨9586956017065244, 15⟩), (47, ⟨-363295175383525, 12⟩), (49, ⟨101722649107387, 11⟩), (66, ⟨-5045766324771181, 16⟩), (68, ⟨1816475876917625, 14⟩), (70, ⟨-4843935671780334, 14⟩)],
  [(4, ⟨2872100542905686, 14⟩), (11, ⟨-3829467390540915, 14⟩), (13, ⟨-3063573912432732, 13⟩), (22, ⟨-134031358668932, 12⟩), (24, ⟨7148339129009709, 13⟩), (26, ⟨4289003477405824, 13⟩), (37, ⟨-3829467390540915, 14⟩), (39, ⟨7148339129009709, 13⟩), (41, ⟨-1429667825801941, 12⟩), (56, ⟨2872100542905686, 14⟩), (58, ⟨-3063573912432732, 13⟩), (60, ⟨4289003477405824, 13⟩)],
  [(1, ⟨-2369836079783365, 15⟩), (6, ⟨-2369836079783365, 15⟩), (8, ⟨1137521318296015, 13⟩), (15, ⟨663554102339342, 14⟩), (19, ⟨-5308432818714737, 13⟩), (28, ⟨104272787510468, 13⟩), (30, ⟨-3185059691228842, 13⟩), (32, ⟨5308432818714737, 13⟩), (34, ⟨424674625497179, 12⟩), (45, ⟨331777051169671, 14⟩), (47, ⟨-1820034109273624, 13⟩), (49, ⟨9555179073686526, 13⟩), (51, ⟨-849349250994358, 12⟩), (66, ⟨-4739672159566729, 16⟩), (68, ⟨227504263659203, 13⟩), (70, ⟨-1061686563742947, 13⟩), (72, ⟨849349250994358, 13⟩)],
  [(4, ⟨-2006399012830402, 14⟩), (11, ⟨-4012798025660804, 14⟩), (13, ⟨2808958617962563, 13⟩), (24, ⟨2808958617962563, 13⟩), (26, ⟨-674150068311015, 12⟩), (37, ⟨4012798025660804, 14⟩), (39, ⟨-2808958617962563, 13⟩), (43, ⟨3210238420528643, 13⟩), (56, ⟨2006399012830402, 14⟩), (58, ⟨-2808958617962563, 13⟩), (60, ⟨674150068311015, 12⟩), (62, ⟨-3210238420528643, 13⟩)],
  [(1, ⟨1373687498354136, 15⟩), (6, ⟨5036854160631831, 15⟩), (8, ⟨-7692649990783158, 14⟩), (15, ⟨6410541658985967, 15⟩), (17, ⟨-2051373330875509, 13⟩), (19, ⟨4615589994469895, 13⟩), (28, ⟨2747374996708271, 15⟩), (30, ⟨-1538529998156632, 13⟩), (32, ⟨7692649990783159, 13⟩), (34, ⟨-6154119992626527, 13⟩), (45, ⟨-4578958327847119, 16⟩), (49, ⟨1538529998156632, 13⟩), (51, ⟨-4102746661751018, 13⟩), (53, ⟨1758319997893294, 13⟩), (66, ⟨-4578958327847119, 16⟩), (68, ⟨2564216663594386, 14⟩), (70, ⟨-1538529998156632, 13⟩), (72, ⟨2051373330875509, 13⟩), (74, ⟨-5861066659644312, 14⟩)],
  [(4, ⟨1027973595067153, 14⟩), (11, ⟨4111894380268614, 14⟩), (13, ⟨-1644757752107446, 13⟩), (22, ⟨6167841570402921, 14⟩), (24, ⟨-4934273256322336, 13⟩), (26, ⟨4934273256322337, 13⟩), (37, ⟨4111894380268614, 14⟩), (39, ⟨-4934273256322336, 13⟩), (41, ⟨9868546512644674, 13⟩), (43, ⟨-3759446290531304, 13⟩), (56, ⟨1027973595067153, 14⟩), (58, ⟨-1644757752107446, 13⟩), (60, ⟨4934273256322337, 13⟩), (62, ⟨-3759446290531304, 13⟩), (64, ⟨6265743817552173, 14⟩)],
  [(1, ⟨-4507962425947618, 16⟩), (6, ⟨-2253981212973809, 15⟩), (8, ⟨2704777455568571, 14⟩), (15, ⟨-4507962425947618, 15⟩), (17, ⟨1081910982227429, 13⟩), (19, ⟨-1803184970379047, 13⟩), (28, ⟨-4507962425947618, 15⟩), (30, ⟨1622866473341143, 13⟩), (32, ⟨-5409554911137142, 13⟩), (34, ⟨2885095952606476, 13⟩), (45, ⟨-2253981212973809, 15⟩), (47, ⟨1081910982227429, 13⟩), (49, ⟨-5409554911137142, 13⟩), (51, ⟨5770191905212952, 13⟩), (53, ⟨-1236469693974204, 13⟩), (66, ⟨-4507962425947618, 16⟩), (68, ⟨2704777455568571, 14⟩), (70, ⟨-1803184970379047, 13⟩), (72, ⟨2885095952606476, 13⟩), (74, ⟨-1236469693974204, 13⟩), (76, ⟨1099084172421515, 14⟩)],
  [(2, ⟨-3662285987505434, 15⟩), (7, ⟨-1831142993752717, 14⟩), (9, ⟨6103809979175723, 14⟩), (16, ⟨-3662285987505434, 14⟩), (18, ⟨2441523991670289, 13⟩), (20, ⟨-1953219193336232, 13⟩), (29, ⟨-3662285987505434, 14⟩), (31, ⟨3662285987505434, 13⟩), (33, ⟨-5859657580008695, 13⟩), (35, ⟨1674187880002484, 13⟩), (46, ⟨-1831142993752717, 14⟩), (48, ⟨2441523991670289, 13⟩), (50, ⟨-5859657580008695, 13⟩), (52, ⟨3348375760004968, 13⟩), (54, ⟨-3720417511116631, 14⟩), (67, ⟨-3662285987505434, 15⟩), (69, ⟨6103809979175723, 14⟩), (71, ⟨-1953219193336232, 13⟩), (73, ⟨1674187880002484, 13⟩), (75, ⟨-3720417511116631, 14⟩), (77, ⟨1352879094951502, 15⟩)],
  [(0, ⟨-4507962425947618, 16⟩), (3, ⟨-2253981212973809, 15⟩), (5, ⟨2704777455568571, 14⟩), (10, ⟨-4507962425947618, 15⟩), (12, ⟨1081910982227429, 13⟩), (14, ⟨-1803184970379047, 13⟩), (21, ⟨-4507962425947618, 15⟩), (23, ⟨1622866473341143, 13⟩), (25, ⟨-5409554911137142, 13⟩), (27, ⟨2885095952606476, 13⟩), (36, ⟨-2253981212973809, 15⟩), (38, ⟨1081910982227429, 13⟩), (40, ⟨-5409554911137142, 13⟩), (42, ⟨5770191905212952, 13⟩), (44, ⟨-1236469693974204, 13⟩), (55, ⟨-4507962425947618, 16⟩), (57, ⟨2704777455568571, 14⟩), (59, ⟨-1803184970379047, 13⟩), (61, ⟨2885095952606476, 13⟩), (63, ⟨-1236469693974204, 13⟩), (65, ⟨1099084172421515, 14⟩)],
  [(2, ⟨5139867975335767, 15⟩), (7, ⟨154196039260073, 13⟩), (9, ⟨-8223788760537228, 14⟩), (16, ⟨1027973595067153, 14⟩), (18, ⟨-1644757752107446, 13⟩), (20, ⟨2467136628161169, 13⟩), (29, ⟨-1027973595067153, 14⟩), (33, ⟨2467136628161169, 13⟩), (35, ⟨-1879723145265652, 13⟩), (46, ⟨-154196039260073, 13⟩), (48, ⟨1644757752107446, 13⟩), (50, ⟨-2467136628161169, 13⟩), (54, ⟨3132871908776087, 14⟩), (67, ⟨-5139867975335767, 15⟩), (69, ⟨8223788760537228, 14⟩), (71, ⟨-2467136628161169, 13⟩), (73, ⟨1879723145265652, 13⟩), (75, ⟨-3132871908776087, 14⟩)],
  [(0, ⟨4578958327847119, 16⟩), (3, ⟨4578958327847119, 16⟩), (5, ⟨-2564216663594386, 14⟩), (10, ⟨-2747374996708271, 15⟩), (14, ⟨1538529998156632, 13⟩), (21, ⟨-6410541658985967, 15⟩), (23, ⟨1538529998156632, 13⟩), (25, ⟨-1538529998156632, 13⟩), (27, ⟨-2051373330875509, 13⟩), (36, ⟨-5036854160631831, 15⟩), (38, ⟨2051373330875509, 13⟩), (40, ⟨-7692649990783159, 13⟩), (42, ⟨4102746661751018, 13⟩), (44, ⟨5861066659644312, 14⟩), (55, ⟨-1373687498354136, 15⟩), (57, ⟨7692649990783158, 14⟩), (59, ⟨-4615589994469895, 13⟩), (61, ⟨6154119992626527, 13⟩), (63, ⟨-1758319997893294, 13⟩)],
  [(2, ⟨-5015997532076005, 15⟩), (7, ⟨1504799259622802, 14⟩), (9, ⟨7022396544906408, 14⟩), (16, ⟨7022396544906407, 14⟩), (18, ⟨-2808958617962563, 13⟩), (20, ⟨-1685375170777538, 13⟩), (29, ⟨7022396544906407, 14⟩), (31, ⟨-7022396544906408, 13⟩), (33, ⟨8426875853887689, 13⟩), (35, ⟨8025596051321608, 14⟩), (46, ⟨1504799259622802, 14⟩), (48, ⟨-2808958617962563, 13⟩), (50, ⟨8426875853887689, 13⟩), (52, ⟨-4815357630792965, 13⟩), (67, ⟨-5015997532076005, 15⟩), (69, ⟨7022396544906408, 14⟩), (71, ⟨-1685375170777538, 13⟩), (73, ⟨8025596051321608, 14⟩)],
  [(0, ⟨-4739672159566729, 16⟩), (3, ⟨331777051169671, 14⟩), (5, ⟨227504263659203, 13⟩), (10, ⟨104272787510468, 13⟩), (12, ⟨-1820034109273624, 13⟩), (14, ⟨-1061686563742947, 13⟩), (21, ⟨663554102339342, 14⟩), (23, ⟨-3185059691228842, 13⟩), (25, ⟨9555179073686526, 13⟩), (27, ⟨849349250994358, 13⟩), (36, ⟨-2369836079783365, 15⟩), (40, ⟨5308432818714737, 13⟩), (42, ⟨-849349250994358, 12⟩), (55, ⟨-2369836079783365, 15⟩), (57, ⟨1137521318296015, 13⟩), (59, ⟨-5308432818714737, 13⟩), (61, ⟨424674625497179, 12⟩)],
  [(2, ⟨4786834238176144, 15⟩), (7, ⟨-6222884509628987, 14⟩), (9, ⟨-510595652072122, 13⟩), (16, ⟨-6701567933446601, 14⟩), (18, ⟨7148339129009709, 13⟩), (20, ⟨7148339129009707, 14⟩), (29, ⟨6701567933446601, 14⟩), (33, ⟨-1072250869351456, 12⟩), (46, ⟨6222884509628987, 14⟩), (48, ⟨-7148339129009709, 13⟩), (50, ⟨1072250869351456, 12⟩), (67, ⟨-4786834238176144, 15⟩), (69, ⟨510595652072122, 13⟩), (71, ⟨-7148339129009707, 14⟩)],
  [(0, ⟨5045766324771181, 16⟩), (3, ⟨-9586956017065244, 15⟩), (5, ⟨-1816475876917625, 14⟩), (10, ⟨-3027459794862709, 15⟩), (12, ⟨363295175383525, 12⟩), (14, ⟨4843935671780334, 14⟩), (21, ⟨2119221856403896, 14⟩), (23, ⟨-2543066227684675, 13⟩), (25, ⟨-101722649107387, 11⟩), (36, ⟨1059610928201948, 14⟩), (38, ⟨-508613245536935, 12⟩), (40, ⟨1695377485123117, 12⟩), (55, ⟨-3532036427339827, 15⟩), (57, ⟨1271533113842337, 13⟩), (59, ⟨-3390754970246234, 13⟩)],
  [(2, ⟨-4398797100479641, 15⟩), (7, ⟨1187675217129503, 13⟩), (9, ⟨2639278260287784, 14⟩), (16, ⟨-1847494782201449, 13⟩), (18, ⟨-7389979128805796, 13⟩), (29, ⟨-1847494782201449, 13⟩), (31, ⟨1847494782201449, 12⟩), (46, ⟨1187675217129503, 13⟩), (48, ⟨-7389979128805796, 13⟩), (67, ⟨-4398797100479641, 15⟩), (69, ⟨2639278260287784, 14⟩)],
  [(0, ⟨-5678822637834375, 16⟩), (3, ⟨1987587923242031, 14⟩), (5, ⟨1135764527566875, 14⟩), (10, ⟨-5110940374050938, 14⟩), (12, ⟨-408875229924075, 12⟩), (21, ⟨-2385105507890438, 14⟩), (23, ⟨1431063304734263, 12⟩), (36, ⟨4259116978375781, 14⟩), (38, ⟨-9540422031561751, 13⟩), (55, ⟨-5110940374050938, 15⟩), (57, ⟨1022188074810188, 13⟩)],
  [(2, ⟨3680297698805311, 15⟩), (7, ⟨-165613396446239, 12⟩), (16, ⟨7728625167491152, 13⟩), (29, ⟨-7728625167491152, 13⟩), (46, ⟨165613396446239, 12⟩), (67, ⟨-3680297698805311, 15⟩)],
  [(0, ⟨7846421057871971, 16⟩), (3, ⟨-4315531581829584, 14⟩), (10, ⟨2589318949097751, 13⟩), (21, ⟨-362504652873685, 12⟩), (36, ⟨1294659474548875, 13⟩), (55, ⟨-8631063163659167, 15⟩)]]

/-- The part of g_trans_cart2sph (src/cart2sph.c:21-806, PYPZPX not defined) for l = 12: for every row of
91 literals the nonzero ones with their column. -/
def c2sRows12 : List (List (Nat × Dec)) := [
  [(1, ⟨9609863949407661, 15⟩), (6, ⟨-1761808390724738, 13⟩), (15, ⟨6342510206609056, 13⟩), (28, ⟨-6342510206609056, 13⟩), (45, ⟨1761808390724738, 13⟩), (66, ⟨-9609863949407661, 15⟩)],
  [(4, ⟨4315531581829583, 14⟩), (11, ⟨-6473297372744373, 13⟩), (22, ⟨1812523264368425, 12⟩), (37, ⟨-1294659474548875, 12⟩), (56, ⟨2157765790914791, 13⟩), (79, ⟨-3923210528935984, 15⟩)],
  [(1, ⟨-5784458347938102, 15⟩), (6, ⟨6362904182731912, 14⟩), (8, ⟨1272580836546383, 13⟩), (15, ⟨-7635485019278295, 14⟩), (17, ⟨-1527097003855659, 12⟩), (28, ⟨-7635485019278295, 14⟩), (30, ⟨3206903708096884, 12⟩), (45, ⟨6362904182731912, 14⟩), (47, ⟨-1527097003855659, 12⟩), (66, ⟨-5784458347938102, 15⟩), (68, ⟨1272580836546383, 13⟩)],
  [(4, ⟨-422938455917996, 13⟩), (11, ⟨3524487132649967, 13⟩), (13, ⟨2819589706119974, 13⟩), (22, ⟨-1973712794283981, 13⟩), (24, ⟨-2631617059045309, 12⟩), (37, ⟨-422938455917996, 12⟩), (39, ⟨3947425588567963, 12⟩), (56, ⟨1644760661903318, 13⟩), (58, ⟨-1127835882447989, 12⟩), (79, ⟨-4699316176866622, 15⟩), (81, ⟨3132877451244415, 14⟩)],
  [(1, ⟨4101899446670816, 15⟩), (6, ⟨-2050949723335408, 14⟩), (8, ⟨-1640759778668327, 13⟩), (15, ⟨-246113966800249, 13⟩), (17, ⟨984455867200996, 12⟩), (19, ⟨4922279336004979, 13⟩), (28, ⟨246113966800249, 13⟩), (32, ⟨-3445595535203485, 12⟩), (45, ⟨2050949723335408, 14⟩), (47, ⟨-984455867200996, 12⟩), (49, ⟨3445595535203485, 12⟩), (66, ⟨-4101899446670816, 15⟩), (68, ⟨1640759778668327, 13⟩), (70, ⟨-4922279336004979, 13⟩)],
  [(4, ⟨3589162015836965, 14⟩), (11, ⟨-1076748604751089, 13⟩), (13, ⟨-4306994419004357, 13⟩), (22, ⟨-2153497209502179, 13⟩), (24, ⟨1722797767601743, 12⟩), (26, ⟨6891191070406971, 13⟩), (37, ⟨3076424585003112, 14⟩), (39, ⟨8613988838008713, 13⟩), (41, ⟨-3445595535203485, 12⟩), (56, ⟨9742011185843189, 14⟩), (58, ⟨-1230569834001245, 12⟩), (60, ⟨2067357321122091, 12⟩), (79, ⟨-5127374308338521, 15⟩), (81, ⟨6152849170006224, 14⟩), (83, ⟨-9844558672009958, 14⟩)],
  [(1, ⟨-2881335616715016, 15⟩), (6, ⟨9604452055716719, 16⟩), (8, ⟨1555921233026108, 13⟩), (15, ⟨1728801370029009, 14⟩), (17, ⟨-2074561644034811, 13⟩), (19, ⟨-8298246576139245, 13⟩), (28, ⟨1728801370029009, 14⟩), (30, ⟨-7260965754121839, 13⟩), (32, ⟨1936257534432491, 12⟩), (34, ⟨7745030137729962, 13⟩), (45, ⟨9604452055716719, 16⟩), (47, ⟨-2074561644034811, 13⟩), (49, ⟨1936257534432491, 12⟩), (51, ⟨-2581676712576654, 12⟩), (66, ⟨-2881335616715016, 15⟩), (68, ⟨1555921233026108, 13⟩), (70, ⟨-8298246576139245, 13⟩), (72, ⟨7745030137729962, 13⟩)],
  [(4, ⟨-2695242673514147, 14⟩), (11, ⟨-2695242673514147, 14⟩), (13, ⟨4312388277622634, 13⟩), (22, ⟨754667948583961, 13⟩), (26, ⟨-1207468717734338, 12⟩), (37, ⟨1185906776346225, 13⟩), (39, ⟨-1207468717734338, 12⟩), (41, ⟨1207468717734338, 12⟩), (43, ⟨6899821244196215, 13⟩), (56, ⟨3773339742919805, 14⟩), (58, ⟨-6899821244196215, 13⟩), (60, ⟨2173443691921808, 12⟩), (62, ⟨-1379964248839243, 12⟩), (79, ⟨-5390485347028293, 15⟩), (81, ⟨8624776555245269, 14⟩), (83, ⟨-2414937435468676, 13⟩), (85, ⟨1379964248839243, 13⟩)],
  [(1, ⟨1848921220493557, 15⟩), (6, ⟨554676366148067, 14⟩), (8, ⟨-1183309581115876, 13⟩), (15, ⟨3697842440987113, 15⟩), (17, ⟨-2366619162231752, 13⟩), (19, ⟨8283167067811135, 13⟩), (28, ⟨-3697842440987113, 15⟩), (32, ⟨8283167067811135, 13⟩), (34, ⟨-1325306730849781, 12⟩), (45, ⟨-554676366148067, 14⟩), (47, ⟨2366619162231752, 13⟩), (49, ⟨-8283167067811135, 13⟩), (53, ⟨4733238324463505, 13⟩), (66, ⟨-1848921220493557, 15⟩), (68, ⟨1183309581115876, 13⟩), (70, ⟨-8283167067811135, 13⟩), (72, ⟨1325306730849781, 12⟩), (74, ⟨-4733238324463505, 13⟩)],
  [(4, ⟨1664029098444201, 14⟩), (11, ⟨6101440027628737, 14⟩), (13, ⟨-3106187650429175, 13⟩), (22, ⟨7765469126072938, 14⟩), (24, ⟨-8283167067811133, 13⟩), (26, ⟨1118227554154503, 12⟩), (37, ⟨3328058196888402, 14⟩), (39, ⟨-621237530085835, 12⟩), (41, ⟨1863712590257505, 12⟩), (43, ⟨-1064978623004289, 12⟩), (56, ⟨-554676366148067, 14⟩), (60, ⟨372742518051501, 12⟩), (62, ⟨-7099857486695257, 13⟩), (64, ⟨2366619162231752, 13⟩), (79, ⟨-554676366148067, 14⟩), (81, ⟨1035395883476392, 13⟩), (83, ⟨-372742518051501, 12⟩), (85, ⟨3549928743347629, 13⟩), (87, ⟨-7888730540772508, 14⟩)],
  [(1, ⟨-9057827129626244, 16⟩), (6, ⟨-4528913564813122, 15⟩), (8, ⟨634047899073837, 13⟩), (15, ⟨-9057827129626244, 15⟩), (17, ⟨2536191596295348, 13⟩), (19, ⟨-5072383192590696, 13⟩), (28, ⟨-9057827129626244, 15⟩), (30, ⟨3804287394443022, 13⟩), (32, ⟨-1521714957777209, 12⟩), (34, ⟨1014476638518139, 12⟩), (45, ⟨-4528913564813122, 15⟩), (47, ⟨2536191596295348, 13⟩), (49, ⟨-1521714957777209, 12⟩), (51, ⟨2028953277036278, 12⟩), (53, ⟨-5797009362960796, 13⟩), (66, ⟨-9057827129626244, 16⟩), (68, ⟨634047899073837, 13⟩), (70, ⟨-5072383192590696, 13⟩), (72, ⟨1014476638518139, 12⟩), (74, ⟨-5797009362960796, 13⟩), (76, ⟨772934581728106, 13⟩)],
  [(4, ⟨-5620233931023189, 15⟩), (11, ⟨-2810116965511595, 14⟩), (13, ⟨1124046786204638, 13⟩), (22, ⟨-5620233931023189, 14⟩), (24, ⟨4496187144818551, 13⟩), (26, ⟨-4496187144818551, 13⟩), (37, ⟨-5620233931023189, 14⟩), (39, ⟨6744280717227828, 13⟩), (41, ⟨-1348856143445566, 12⟩), (43, ⟨5138499594078344, 13⟩), (56, ⟨-2810116965511595, 14⟩), (58, ⟨4496187144818551, 13⟩), (60, ⟨-1348856143445566, 12⟩), (62, ⟨1027699918815669, 12⟩), (64, ⟨-1712833198026115, 13⟩), (79, ⟨-5620233931023189, 15⟩), (81, ⟨1124046786204638, 13⟩), (83, ⟨-4496187144818551, 13⟩), (85, ⟨5138499594078344, 13⟩), (87, ⟨-1712833198026115, 13⟩), (89, ⟨124569687129172, 13⟩)],
  [(0, ⟨318183090330888, 15⟩), (3, ⟨1909098541985328, 15⟩), (5, ⟨-2290918250382393, 14⟩), (10, ⟨477274635496332, 14⟩), (12, ⟨-1145459125191197, 13⟩), (14, ⟨1909098541985328, 13⟩), (21, ⟨636366180661776, 14⟩), (23, ⟨-2290918250382393, 13⟩), (25, ⟨7636394167941311, 13⟩), (27, ⟨-4072743556235366, 13⟩), (36, ⟨477274635496332, 14⟩), (38, ⟨-2290918250382393, 13⟩), (40, ⟨1145459125191197, 12⟩), (42, ⟨-122182306687061, 11⟩), (44, ⟨2618192286151307, 13⟩), (55, ⟨1909098541985328, 15⟩), (57, ⟨-1145459125191197, 13⟩), (59, ⟨7636394167941311, 13⟩), (61, ⟨-122182306687061, 11⟩), (63, ⟨5236384572302613, 13⟩), (65, ⟨-465456406426899, 13⟩), (78, ⟨318183090330888, 15⟩), (80, ⟨-2290918250382393, 14⟩), (82, ⟨1909098541985328, 13⟩), (84, ⟨-4072743556235366, 13⟩), (86, ⟨2618192286151307, 13⟩), (88, ⟨-465456406426899, 13⟩), (90, ⟨1410473958869391, 15⟩)],
  [(2, ⟨-5620233931023189, 15⟩), (7, ⟨-2810116965511595, 14⟩), (9, ⟨1124046786204638, 13⟩), (16, ⟨-5620233931023189, 14⟩), (18, ⟨4496187144818551, 13⟩), (20, ⟨-4496187144818551, 13⟩), (29, ⟨-5620233931023189, 14⟩), (31, ⟨6744280717227828, 13⟩), (33, ⟨-1348856143445566, 12⟩), (35, ⟨5138499594078344, 13⟩), (46, ⟨-2810116965511595, 14⟩), (48, ⟨4496187144818551, 13⟩), (50, ⟨-1348856143445566, 12⟩), (52, ⟨1027699918815669, 12⟩), (54, ⟨-1712833198026115, 13⟩), (67, ⟨-5620233931023189, 15⟩), (69, ⟨1124046786204638, 13⟩), (71, ⟨-4496187144818551, 13⟩), (73, ⟨5138499594078344, 13⟩), (75, ⟨-1712833198026115, 13⟩), (77, ⟨124569687129172, 13⟩)],
  [(0, ⟨-4528913564813122, 16⟩), (3, ⟨-1811565425925249, 15⟩), (5, ⟨3170239495369185, 14⟩), (10, ⟨-2264456782406561, 15⟩), (12, ⟨9510718486107555, 14⟩), (14, ⟨-2536191596295348, 13⟩), (23, ⟨634047899073837, 13⟩), (25, ⟨-5072383192590696, 13⟩), (27, ⟨5072383192590696, 13⟩), (36, ⟨2264456782406561, 15⟩), (38, ⟨-634047899073837, 13⟩), (42, ⟨5072383192590696, 13⟩), (44, ⟨-2898504681480398, 13⟩), (55, ⟨1811565425925249, 15⟩), (57, ⟨-9510718486107555, 14⟩), (59, ⟨5072383192590696, 13⟩), (61, ⟨-5072383192590696, 13⟩), (65, ⟨386467290864053, 13⟩), (78, ⟨4528913564813122, 16⟩), (80, ⟨-3170239495369185, 14⟩), (82, ⟨2536191596295348, 13⟩), (84, ⟨-5072383192590696, 13⟩), (86, ⟨2898504681480398, 13⟩), (88, ⟨-386467290864053, 13⟩)],
  [(2, ⟨554676366148067, 14⟩), (7, ⟨554676366148067, 14⟩), (9, ⟨-1035395883476392, 13⟩), (16, ⟨-3328058196888402, 14⟩), (20, ⟨372742518051501, 12⟩), (29, ⟨-7765469126072938, 14⟩), (31, ⟨621237530085835, 12⟩), (33, ⟨-372742518051501, 12⟩), (35, ⟨-3549928743347629, 13⟩), (46, ⟨-6101440027628737, 14⟩), (48, ⟨8283167067811133, 13⟩), (50, ⟨-1863712590257505, 12⟩), (52, ⟨7099857486695257, 13⟩), (54, ⟨7888730540772508, 14⟩), (67, ⟨-1664029098444201, 14⟩), (69, ⟨3106187650429175, 13⟩), (71, ⟨-1118227554154503, 12⟩), (73, ⟨1064978623004289, 12⟩), (75, ⟨-2366619162231752, 13⟩)],
  [(0, ⟨4622303051233891, 16⟩), (3, ⟨-9244606102467783, 16⟩), (5, ⟨-295827395278969, 13⟩), (10, ⟨-7857915187097616, 15⟩), (12, ⟨8874821858369071, 14⟩), (14, ⟨2070791766952784, 13⟩), (21, ⟨-129424485434549, 13⟩), (23, ⟨4141583533905567, 13⟩), (25, ⟨-8283167067811135, 13⟩), (27, ⟨-3313266827124453, 13⟩), (36, ⟨-7857915187097616, 15⟩), (38, ⟨4141583533905567, 13⟩), (40, ⟨-2070791766952784, 12⟩), (42, ⟨1656633413562227, 12⟩), (44, ⟨1183309581115876, 13⟩), (55, ⟨-9244606102467783, 16⟩), (57, ⟨8874821858369071, 14⟩), (59, ⟨-8283167067811135, 13⟩), (61, ⟨1656633413562227, 12⟩), (63, ⟨-7099857486695257, 13⟩), (78, ⟨4622303051233891, 16⟩), (80, ⟨-295827395278969, 13⟩), (82, ⟨2070791766952784, 13⟩), (84, ⟨-3313266827124453, 13⟩), (86, ⟨1183309581115876, 13⟩)],
  [(2, ⟨-5390485347028293, 15⟩), (7, ⟨3773339742919805, 14⟩), (9, ⟨8624776555245269, 14⟩), (16, ⟨1185906776346225, 13⟩), (18, ⟨-6899821244196215, 13⟩), (20, ⟨-2414937435468676, 13⟩), (29, ⟨754667948583961, 13⟩), (31, ⟨-1207468717734338, 12⟩), (33, ⟨2173443691921808, 12⟩), (35, ⟨1379964248839243, 13⟩), (46, ⟨-2695242673514147, 14⟩), (50, ⟨1207468717734338, 12⟩), (52, ⟨-1379964248839243, 12⟩), (67, ⟨-2695242673514147, 14⟩), (69, ⟨4312388277622634, 13⟩), (71, ⟨-1207468717734338, 12⟩), (73, ⟨6899821244196215, 13⟩)],
  [(0, ⟨-480222602785836, 15⟩), (3, ⟨5762671233430032, 15⟩), (5, ⟨2593202055043514, 14⟩), (10, ⟨1296601027521757, 14⟩), (12, ⟨-3371162671556568, 13⟩), (14, ⟨-1383041096023208, 13⟩), (23, ⟨-363048287706092, 12⟩), (25, ⟨1936257534432491, 12⟩), (27, ⟨1290838356288327, 13⟩), (36, ⟨-1296601027521757, 14⟩), (38, ⟨363048287706092, 12⟩), (42, ⟨-1936257534432491, 12⟩), (55, ⟨-5762671233430032, 15⟩), (57, ⟨3371162671556568, 13⟩), (59, ⟨-1936257534432491, 12⟩), (61, ⟨1936257534432491, 12⟩), (78, ⟨480222602785836, 15⟩), (80, ⟨-2593202055043514, 14⟩), (82, ⟨1383041096023208, 13⟩), (84, ⟨-1290838356288327, 13⟩)],
  [(2, ⟨5127374308338521, 15⟩), (7, ⟨-9742011185843189, 14⟩), (9, ⟨-6152849170006224, 14⟩), (16, ⟨-3076424585003112, 14⟩), (18, ⟨1230569834001245, 12⟩), (20, ⟨9844558672009958, 14⟩), (29, ⟨2153497209502179, 13⟩), (31, ⟨-8613988838008713, 13⟩), (33, ⟨-2067357321122091, 12⟩), (46, ⟨1076748604751089, 13⟩), (48, ⟨-1722797767601743, 12⟩), (50, ⟨3445595535203485, 12⟩), (67, ⟨-3589162015836965, 14⟩), (69, ⟨4306994419004357, 13⟩), (71, ⟨-6891191070406971, 13⟩)],
  [(0, ⟨512737430833852, 15⟩), (3, ⟨-1333117320168015, 14⟩), (5, ⟨-2050949723335408, 14⟩), (10, ⟨7691061462507781, 15⟩), (12, ⟨5537564253005602, 13⟩), (14, ⟨6152849170006224, 14⟩), (21, ⟨4306994419004357, 14⟩), (23, ⟨-8613988838008714, 13⟩), (25, ⟨-1722797767601743, 12⟩), (36, ⟨7691061462507781, 15⟩), (38, ⟨-8613988838008714, 13⟩), (40, ⟨4306994419004357, 12⟩), (55, ⟨-1333117320168015, 14⟩), (57, ⟨5537564253005602, 13⟩), (59, ⟨-1722797767601743, 12⟩), (78, ⟨512737430833852, 15⟩), (80, ⟨-2050949723335408, 14⟩), (82, ⟨6152849170006224, 14⟩)],
  [(2, ⟨-4699316176866622, 15⟩), (7, ⟨1644760661903318, 13⟩), (9, ⟨3132877451244415, 14⟩), (16, ⟨-422938455917996, 12⟩), (18, ⟨-1127835882447989, 12⟩), (29, ⟨-1973712794283981, 13⟩), (31, ⟨3947425588567963, 12⟩), (46, ⟨3524487132649967, 13⟩), (48, ⟨-2631617059045309, 12⟩), (67, ⟨-422938455917996, 13⟩), (69, ⟨2819589706119974, 13⟩)],
  [(0, ⟨-5784458347938102, 16⟩), (3, ⟨2545161673092765, 14⟩), (5, ⟨1272580836546383, 14⟩), (10, ⟨-9544356274097868, 14⟩), (12, ⟨-5726613764458722, 13⟩), (23, ⟨2672419756747403, 12⟩), (36, ⟨9544356274097868, 14⟩), (38, ⟨-2672419756747403, 12⟩), (55, ⟨-2545161673092765, 14⟩), (57, ⟨5726613764458722, 13⟩), (78, ⟨5784458347938102, 16⟩), (80, ⟨-1272580836546383, 14⟩)],
  [(2, ⟨3923210528935984, 15⟩), (7, ⟨-2157765790914791, 13⟩), (16, ⟨1294659474548875, 12⟩), (29, ⟨-1812523264368425, 12⟩), (46, ⟨6473297372744373, 13⟩), (67, ⟨-4315531581829583, 14⟩)],
  [(0, ⟨8008219957839717, 16⟩), (3, ⟨-5285425172174213, 14⟩), (10, ⟨396406887913066, 12⟩), (21, ⟨-7399595241043899, 13⟩), (36, ⟨396406887913066, 12⟩), (55, ⟨-5285425172174213, 14⟩), (78, ⟨8008219957839717, 16⟩)]]

/-- The part of g_trans_cart2sph (src/cart2sph.c:21-806, PYPZPX not defined) for l = 13: for every row of
105 literals the nonzero ones with their column. -/
def c2sRows13 : List (List (Nat × Dec)) := [
  [(1, ⟨1060900254488917, 14⟩), (6, ⟨-2333980559875617, 13⟩), (15, ⟨1050291251944028, 12⟩), (28, ⟨-140038833592537, 11⟩), (45, ⟨5834951399689042, 13⟩), (66, ⟨-6365401526933501, 14⟩), (91, ⟨8160771188376283, 16⟩)],
  [(4, ⟨4993431784259574, 14⟩), (11, ⟨-9154624937809218, 13⟩), (22, ⟨3295664977611319, 12⟩), (37, ⟨-3295664977611319, 12⟩), (56, ⟨9154624937809218, 13⟩), (79, ⟨-4993431784259574, 14⟩)],
  [(1, ⟨-6473297372744374, 15⟩), (6, ⟨9062616321842124, 14⟩), (8, ⟨155359136945865, 12⟩), (15, ⟨-1747790290640981, 13⟩), (17, ⟨-2330387054187975, 12⟩), (28, ⟨-7767956847293249, 14⟩), (30, ⟨6525083751726329, 12⟩), (45, ⟨1618324343186094, 13⟩), (47, ⟨-4660774108375949, 12⟩), (66, ⟨-3177800528438147, 14⟩), (68, ⟨7767956847293249, 13⟩), (91, ⟨5884815793403977, 16⟩), (93, ⟨-1412355790416954, 14⟩)],
  [(4, ⟨-4993431784259574, 14⟩), (11, ⟨5492774962685531, 13⟩), (13, ⟨3661849975123687, 13⟩), (22, ⟨-6591329955222637, 13⟩), (24, ⟨-4394219970148425, 12⟩), (37, ⟨-6591329955222637, 13⟩), (39, ⟨9227861937311692, 12⟩), (56, ⟨5492774962685531, 13⟩), (58, ⟨-4394219970148425, 12⟩), (79, ⟨-4993431784259574, 14⟩), (81, ⟨3661849975123687, 13⟩)],
  [(1, ⟨4685411261829863, 15⟩), (6, ⟨-3435968258675233, 14⟩), (8, ⟨-206158095520514, 12⟩), (15, ⟨-1717984129337616, 14⟩), (17, ⟨1717984129337616, 12⟩), (19, ⟨6871936517350465, 13⟩), (28, ⟨6871936517350465, 14⟩), (30, ⟨-9620711124290651, 13⟩), (32, ⟨-6413807416193768, 12⟩), (45, ⟨2863306882229361, 14⟩), (47, ⟨-206158095520514, 11⟩), (49, ⟨9620711124290651, 12⟩), (66, ⟨-1770044254469059, 14⟩), (68, ⟨8017259270242209, 13⟩), (70, ⟨-2748774606940186, 12⟩), (91, ⟨5206012513144292, 16⟩), (93, ⟨-2290645505783488, 14⟩), (95, ⟨7635485019278295, 14⟩)],
  [(4, ⟨4368089589976209, 14⟩), (11, ⟨-2184044794988104, 13⟩), (13, ⟨-5824119453301611, 13⟩), (22, ⟨-2620853753985725, 13⟩), (24, ⟨3494471671980967, 12⟩), (26, ⟨104834150159429, 11⟩), (37, ⟨2620853753985725, 13⟩), (41, ⟨-733839051116003, 11⟩), (56, ⟨2184044794988104, 13⟩), (58, ⟨-3494471671980967, 12⟩), (60, ⟨733839051116003, 11⟩), (79, ⟨-4368089589976209, 14⟩), (81, ⟨5824119453301611, 13⟩), (83, ⟨-104834150159429, 11⟩)],
  [(1, ⟨-3404978058421841, 15⟩), (6, ⟨6809956116843682, 15⟩), (8, ⟨2042986835053105, 13⟩), (15, ⟨3064480252579657, 14⟩), (17, ⟨-6128960505159314, 13⟩), (19, ⟨-1225792101031863, 12⟩), (28, ⟨1751131572902661, 14⟩), (30, ⟨-1225792101031863, 12⟩), (32, ⟨4903168404127451, 12⟩), (34, ⟨1307511574433987, 12⟩), (45, ⟨-1216063592293515, 14⟩), (47, ⟨1751131572902661, 13⟩), (49, ⟨2451584202063726, 12⟩), (51, ⟨-6537557872169935, 12⟩), (66, ⟨-8755657864513306, 15⟩), (68, ⟨5545249980858427, 13⟩), (70, ⟨-3502263145805322, 12⟩), (72, ⟨3922534723301961, 12⟩), (91, ⟨4864254369174059, 16⟩), (93, ⟨-2918552621504435, 14⟩), (95, ⟨1751131572902661, 13⟩), (97, ⟨-1867873677762839, 13⟩)],
  [(4, ⟨-3453278031998955, 14⟩), (11, ⟨1151092677332985, 14⟩), (13, ⟨6215900457598119, 13⟩), (22, ⟨2071966819199373, 13⟩), (24, ⟨-8287867276797492, 13⟩), (26, ⟨-1989088146431398, 12⟩), (37, ⟨2071966819199373, 13⟩), (39, ⟨-2900753546879122, 12⟩), (41, ⟨4641205675006596, 12⟩), (43, ⟨1326058764287599, 12⟩), (56, ⟨1151092677332985, 14⟩), (58, ⟨-8287867276797492, 13⟩), (60, ⟨4641205675006596, 12⟩), (62, ⟨-4420195880958662, 12⟩), (79, ⟨-3453278031998955, 14⟩), (81, ⟨6215900457598119, 13⟩), (83, ⟨-1989088146431398, 12⟩), (85, ⟨1326058764287599, 12⟩)],
  [(1, ⟨2334148624627139, 15⟩), (6, ⟨4668297249254278, 15⟩), (8, ⟨-168058700973154, 12⟩), (15, ⟨-420146752432885, 14⟩), (17, ⟨-168058700973154, 12⟩), (19, ⟨1344469607785232, 12⟩), (28, ⟨-168058700973154, 13⟩), (30, ⟨4705643627248312, 13⟩), (34, ⟨-25096766011991, 10⟩), (45, ⟨-1353806202283741, 14⟩), (47, ⟨7394582842818776, 13⟩), (49, ⟨-376451490179865, 11⟩), (51, ⟨25096766011991, 10⟩), (53, ⟨1075575686228186, 12⟩), (66, ⟨-2800978349552567, 15⟩), (68, ⟨2352821813624156, 13⟩), (70, ⟨-2151151372456371, 12⟩), (72, ⟨451741788215838, 11⟩), (74, ⟨-2151151372456371, 12⟩), (91, ⟨4668297249254278, 16⟩), (93, ⟨-336117401946308, 13⟩), (95, ⟨2688939215570464, 13⟩), (97, ⟨-50193532023982, 11⟩), (99, ⟨2151151372456371, 13⟩)],
  [(4, ⟨2376708941910389, 14⟩), (11, ⟨7130126825731166, 14⟩), (13, ⟨-5070312409408829, 13⟩), (22, ⟨4753417883820777, 14⟩), (24, ⟨-1014062481881766, 12⟩), (26, ⟨2129531211951708, 12⟩), (37, ⟨-4753417883820777, 14⟩), (41, ⟨2129531211951708, 12⟩), (43, ⟨-2433749956516238, 12⟩), (56, ⟨-7130126825731166, 14⟩), (58, ⟨1014062481881766, 12⟩), (60, ⟨-2129531211951708, 12⟩), (64, ⟨6760416545878439, 13⟩), (79, ⟨-2376708941910389, 14⟩), (81, ⟨5070312409408829, 13⟩), (83, ⟨-2129531211951708, 12⟩), (85, ⟨2433749956516238, 12⟩), (87, ⟨-6760416545878439, 13⟩)],
  [(1, ⟨-136713941034431, 14⟩), (6, ⟨-6379983914940114, 15⟩), (8, ⟨1093711528275448, 13⟩), (15, ⟨-1139282841953592, 14⟩), (17, ⟨4010275603676643, 13⟩), (19, ⟨-1020797426390418, 12⟩), (28, ⟨-9114262735628734, 15⟩), (30, ⟨5103987131952091, 13⟩), (32, ⟨-2722126470374449, 12⟩), (34, ⟨2449913823337004, 12⟩), (45, ⟨-2278565683907184, 15⟩), (47, ⟨2187423056550896, 13⟩), (49, ⟨-2041594852780836, 12⟩), (51, ⟨4083189705561673, 12⟩), (53, ⟨-1749938445240717, 12⟩), (66, ⟨9114262735628734, 16⟩), (68, ⟨-3645705094251494, 14⟩), (72, ⟨8166379411123346, 13⟩), (74, ⟨-1166625630160478, 12⟩), (76, ⟨3111001680427941, 13⟩), (91, ⟨4557131367814367, 16⟩), (93, ⟨-3645705094251494, 14⟩), (95, ⟨3402658087968061, 13⟩), (97, ⟨-8166379411123346, 13⟩), (99, ⟨583312815080239, 12⟩), (101, ⟨-1037000560142647, 13⟩)],
  [(4, ⟨-1209143589391947, 14⟩), (11, ⟨-6045717946959737, 14⟩), (13, ⟨2821335041914544, 13⟩), (22, ⟨-1209143589391947, 13⟩), (24, ⟨1128534016765818, 12⟩), (26, ⟨-1354240820118981, 12⟩), (37, ⟨-1209143589391947, 13⟩), (39, ⟨1692801025148726, 12⟩), (41, ⟨-4062722460356943, 12⟩), (43, ⟨1934629743027116, 12⟩), (56, ⟨-6045717946959737, 14⟩), (58, ⟨1128534016765818, 12⟩), (60, ⟨-4062722460356943, 12⟩), (62, ⟨3869259486054231, 12⟩), (64, ⟨-8598354413453848, 13⟩), (79, ⟨-1209143589391947, 14⟩), (81, ⟨2821335041914544, 13⟩), (83, ⟨-1354240820118981, 12⟩), (85, ⟨1934629743027116, 12⟩), (87, ⟨-8598354413453848, 13⟩), (89, ⟨9380022996495107, 14⟩)],
  [(1, ⟨4506212100730813, 16⟩), (6, ⟨2703727260438488, 15⟩), (8, ⟨-3785218164613883, 14⟩), (15, ⟨675931815109622, 14⟩), (17, ⟨-1892609082306941, 13⟩), (19, ⟨3785218164613883, 13⟩), (28, ⟨9012424201461626, 15⟩), (30, ⟨-3785218164613883, 13⟩), (32, ⟨1514087265845553, 12⟩), (34, ⟨-1009391510563702, 12⟩), (45, ⟨675931815109622, 14⟩), (47, ⟨-3785218164613883, 13⟩), (49, ⟨227113089876833, 11⟩), (51, ⟨-3028174531691106, 12⟩), (53, ⟨8651927233403161, 13⟩), (66, ⟨2703727260438488, 15⟩), (68, ⟨-1892609082306941, 13⟩), (70, ⟨1514087265845553, 12⟩), (72, ⟨-3028174531691106, 12⟩), (74, ⟨1730385446680632, 12⟩), (76, ⟨-2307180595574176, 13⟩), (91, ⟨4506212100730813, 16⟩), (93, ⟨-3785218164613883, 14⟩), (95, ⟨3785218164613883, 13⟩), (97, ⟨-1009391510563702, 12⟩), (99, ⟨8651927233403161, 13⟩), (101, ⟨-2307180595574176, 13⟩), (103, ⟨1398291270044955, 14⟩)],
  [(2, ⟨4298652372786529, 15⟩), (7, ⟨2579191423671917, 14⟩), (9, ⟨-1031676569468767, 13⟩), (16, ⟨6447978559179793, 14⟩), (18, ⟨-5158382847343835, 13⟩), (20, ⟨5158382847343835, 13⟩), (29, ⟨8597304745573058, 14⟩), (31, ⟨-1031676569468767, 12⟩), (33, ⟨2063353138937534, 12⟩), (35, ⟨-7860392910238224, 13⟩), (46, ⟨6447978559179793, 14⟩), (48, ⟨-1031676569468767, 12⟩), (50, ⟨3095029708406301, 12⟩), (52, ⟨-2358117873071467, 12⟩), (54, ⟨3930196455119112, 13⟩), (67, ⟨2579191423671917, 14⟩), (69, ⟨-5158382847343835, 13⟩), (71, ⟨2063353138937534, 12⟩), (73, ⟨-2358117873071467, 12⟩), (75, ⟨7860392910238224, 13⟩), (77, ⟨-5716649389264163, 14⟩), (92, ⟨4298652372786529, 15⟩), (94, ⟨-1031676569468767, 13⟩), (96, ⟨5158382847343835, 13⟩), (98, ⟨-7860392910238224, 13⟩), (100, ⟨3930196455119112, 13⟩), (102, ⟨-5716649389264163, 14⟩), (104, ⟨146580753570876, 14⟩)],
  [(0, ⟨4506212100730813, 16⟩), (3, ⟨2703727260438488, 15⟩), (5, ⟨-3785218164613883, 14⟩), (10, ⟨675931815109622, 14⟩), (12, ⟨-1892609082306941, 13⟩), (14, ⟨3785218164613883, 13⟩), (21, ⟨9012424201461626, 15⟩), (23, ⟨-3785218164613883, 13⟩), (25, ⟨1514087265845553, 12⟩), (27, ⟨-1009391510563702, 12⟩), (36, ⟨675931815109622, 14⟩), (38, ⟨-3785218164613883, 13⟩), (40, ⟨227113089876833, 11⟩), (42, ⟨-3028174531691106, 12⟩), (44, ⟨8651927233403161, 13⟩), (55, ⟨2703727260438488, 15⟩), (57, ⟨-1892609082306941, 13⟩), (59, ⟨1514087265845553, 12⟩), (61, ⟨-3028174531691106, 12⟩), (63, ⟨1730385446680632, 12⟩), (65, ⟨-2307180595574176, 13⟩), (78, ⟨4506212100730813, 16⟩), (80, ⟨-3785218164613883, 14⟩), (82, ⟨3785218164613883, 13⟩), (84, ⟨-1009391510563702, 12⟩), (86, ⟨8651927233403161, 13⟩), (88, ⟨-2307180595574176, 13⟩), (90, ⟨1398291270044955, 14⟩)],
  [(2, ⟨-6045717946959737, 15⟩), (7, ⟨-2418287178783895, 14⟩), (9, ⟨1410667520957272, 13⟩), (16, ⟨-3022858973479868, 14⟩), (18, ⟨4232002562871816, 13⟩), (20, ⟨-6771204100594905, 13⟩), (31, ⟨2821335041914544, 13⟩), (33, ⟨-1354240820118981, 12⟩), (35, ⟨9673148715135579, 13⟩), (46, ⟨3022858973479868, 14⟩), (48, ⟨-2821335041914544, 13⟩), (52, ⟨9673148715135579, 13⟩), (54, ⟨-4299177206726924, 13⟩), (67, ⟨2418287178783895, 14⟩), (69, ⟨-4232002562871816, 13⟩), (71, ⟨1354240820118981, 12⟩), (73, ⟨-9673148715135579, 13⟩), (77, ⟨4690011498247553, 14⟩), (92, ⟨6045717946959737, 15⟩), (94, ⟨-1410667520957272, 13⟩), (96, ⟨6771204100594905, 13⟩), (98, ⟨-9673148715135579, 13⟩), (100, ⟨4299177206726924, 13⟩), (102, ⟨-4690011498247553, 14⟩)],
  [(0, ⟨-4557131367814367, 16⟩), (3, ⟨-9114262735628734, 16⟩), (5, ⟨3645705094251494, 14⟩), (10, ⟨2278565683907184, 15⟩), (12, ⟨3645705094251494, 14⟩), (14, ⟨-3402658087968061, 13⟩), (21, ⟨9114262735628734, 15⟩), (23, ⟨-2187423056550896, 13⟩), (27, ⟨8166379411123346, 13⟩), (36, ⟨1139282841953592, 14⟩), (38, ⟨-5103987131952091, 13⟩), (40, ⟨2041594852780836, 12⟩), (42, ⟨-8166379411123346, 13⟩), (44, ⟨-583312815080239, 12⟩), (55, ⟨6379983914940114, 15⟩), (57, ⟨-4010275603676643, 13⟩), (59, ⟨2722126470374449, 12⟩), (61, ⟨-4083189705561673, 12⟩), (63, ⟨1166625630160478, 12⟩), (65, ⟨1037000560142647, 13⟩), (78, ⟨136713941034431, 14⟩), (80, ⟨-1093711528275448, 13⟩), (82, ⟨1020797426390418, 12⟩), (84, ⟨-2449913823337004, 12⟩), (86, ⟨1749938445240717, 12⟩), (88, ⟨-3111001680427941, 13⟩)],
  [(2, ⟨5941772354775972, 15⟩), (7, ⟨-1188354470955194, 14⟩), (9, ⟨-1267578102352207, 13⟩), (16, ⟨-1010101300311915, 13⟩), (18, ⟨3802734307056622, 13⟩), (20, ⟨5323828029879271, 13⟩), (29, ⟨-1663696259337272, 13⟩), (31, ⟨177460934329309, 11⟩), (33, ⟨-2129531211951708, 12⟩), (35, ⟨-6084374891290595, 13⟩), (46, ⟨-1010101300311915, 13⟩), (48, ⟨177460934329309, 11⟩), (50, ⟨-5323828029879271, 12⟩), (52, ⟨3042187445645297, 12⟩), (54, ⟨169010413646961, 12⟩), (67, ⟨-1188354470955194, 14⟩), (69, ⟨3802734307056622, 13⟩), (71, ⟨-2129531211951708, 12⟩), (73, ⟨3042187445645297, 12⟩), (75, ⟨-1014062481881766, 12⟩), (92, ⟨5941772354775972, 15⟩), (94, ⟨-1267578102352207, 13⟩), (96, ⟨5323828029879271, 13⟩), (98, ⟨-6084374891290595, 13⟩), (100, ⟨169010413646961, 12⟩)],
  [(0, ⟨4668297249254278, 16⟩), (3, ⟨-2800978349552567, 15⟩), (5, ⟨-336117401946308, 13⟩), (10, ⟨-1353806202283741, 14⟩), (12, ⟨2352821813624156, 13⟩), (14, ⟨2688939215570464, 13⟩), (21, ⟨-168058700973154, 13⟩), (23, ⟨7394582842818776, 13⟩), (25, ⟨-2151151372456371, 12⟩), (27, ⟨-50193532023982, 11⟩), (36, ⟨-420146752432885, 14⟩), (38, ⟨4705643627248312, 13⟩), (40, ⟨-376451490179865, 11⟩), (42, ⟨451741788215838, 11⟩), (44, ⟨2151151372456371, 13⟩), (55, ⟨4668297249254278, 15⟩), (57, ⟨-168058700973154, 12⟩), (61, ⟨25096766011991, 10⟩), (63, ⟨-2151151372456371, 12⟩), (78, ⟨2334148624627139, 15⟩), (80, ⟨-168058700973154, 12⟩), (82, ⟨1344469607785232, 12⟩), (84, ⟨-25096766011991, 10⟩), (86, ⟨1075575686228186, 12⟩)],
  [(2, ⟨-5755463386664925, 15⟩), (7, ⟨690655606399791, 13⟩), (9, ⟨1035983409599687, 13⟩), (16, ⟨155397511439953, 12⟩), (18, ⟨-1346778432479592, 12⟩), (20, ⟨-3315146910718997, 13⟩), (31, ⟨-1450376773439561, 12⟩), (33, ⟨4641205675006596, 12⟩), (35, ⟨2210097940479331, 13⟩), (46, ⟨-155397511439953, 12⟩), (48, ⟨1450376773439561, 12⟩), (52, ⟨-3315146910718997, 12⟩), (67, ⟨-690655606399791, 13⟩), (69, ⟨1346778432479592, 12⟩), (71, ⟨-4641205675006596, 12⟩), (73, ⟨3315146910718997, 12⟩), (92, ⟨5755463386664925, 15⟩), (94, ⟨-1035983409599687, 13⟩), (96, ⟨3315146910718997, 13⟩), (98, ⟨-2210097940479331, 13⟩)],
  [(0, ⟨-4864254369174059, 16⟩), (3, ⟨8755657864513306, 15⟩), (5, ⟨2918552621504435, 14⟩), (10, ⟨1216063592293515, 14⟩), (12, ⟨-5545249980858427, 13⟩), (14, ⟨-1751131572902661, 13⟩), (21, ⟨-1751131572902661, 14⟩), (23, ⟨-1751131572902661, 13⟩), (25, ⟨3502263145805322, 12⟩), (27, ⟨1867873677762839, 13⟩), (36, ⟨-3064480252579657, 14⟩), (38, ⟨1225792101031863, 12⟩), (40, ⟨-2451584202063726, 12⟩), (42, ⟨-3922534723301961, 12⟩), (55, ⟨-6809956116843682, 15⟩), (57, ⟨6128960505159314, 13⟩), (59, ⟨-4903168404127451, 12⟩), (61, ⟨6537557872169935, 12⟩), (78, ⟨3404978058421841, 15⟩), (80, ⟨-2042986835053105, 13⟩), (82, ⟨1225792101031863, 12⟩), (84, ⟨-1307511574433987, 12⟩)],
  [(2, ⟨5460111987470261, 15⟩), (7, ⟨-1419629116742268, 13⟩), (9, ⟨-7280149316627014, 14⟩), (16, ⟨8190167981205391, 14⟩), (18, ⟨1965640315489294, 12⟩), (20, ⟨1310426876992863, 13⟩), (29, ⟨4586494069475019, 13⟩), (31, ⟨-3057662712983346, 12⟩), (33, ⟨-3669195255580015, 12⟩), (46, ⟨8190167981205391, 14⟩), (48, ⟨-3057662712983346, 12⟩), (50, ⟨9172988138950038, 12⟩), (67, ⟨-1419629116742268, 13⟩), (69, ⟨1965640315489294, 12⟩), (71, ⟨-3669195255580015, 12⟩), (92, ⟨5460111987470261, 15⟩), (94, ⟨-7280149316627014, 14⟩), (96, ⟨1310426876992863, 13⟩)],
  [(0, ⟨5206012513144292, 16⟩), (3, ⟨-1770044254469059, 14⟩), (5, ⟨-2290645505783488, 14⟩), (10, ⟨2863306882229361, 14⟩), (12, ⟨8017259270242209, 13⟩), (14, ⟨7635485019278295, 14⟩), (21, ⟨6871936517350465, 14⟩), (23, ⟨-206158095520514, 11⟩), (25, ⟨-2748774606940186, 12⟩), (36, ⟨-1717984129337616, 14⟩), (38, ⟨-9620711124290651, 13⟩), (40, ⟨9620711124290651, 12⟩), (55, ⟨-3435968258675233, 14⟩), (57, ⟨1717984129337616, 12⟩), (59, ⟨-6413807416193768, 12⟩), (78, ⟨4685411261829863, 15⟩), (80, ⟨-206158095520514, 12⟩), (82, ⟨6871936517350465, 13⟩)],
  [(2, ⟨-4993431784259574, 15⟩), (7, ⟨2197109985074212, 13⟩), (9, ⟨3661849975123687, 14⟩), (16, ⟨-8239162444028297, 13⟩), (18, ⟨-1647832488805659, 12⟩), (31, ⟨7689884947759744, 12⟩), (46, ⟨8239162444028297, 13⟩), (48, ⟨-7689884947759744, 12⟩), (67, ⟨-2197109985074212, 13⟩), (69, ⟨1647832488805659, 12⟩), (92, ⟨4993431784259574, 15⟩), (94, ⟨-3661849975123687, 14⟩)],
  [(0, ⟨-5884815793403977, 16⟩), (3, ⟨3177800528438147, 14⟩), (5, ⟨1412355790416954, 14⟩), (10, ⟨-1618324343186094, 13⟩), (12, ⟨-7767956847293249, 13⟩), (21, ⟨7767956847293249, 14⟩), (23, ⟨4660774108375949, 12⟩), (36, ⟨1747790290640981, 13⟩), (38, ⟨-6525083751726329, 12⟩), (55, ⟨-9062616321842124, 14⟩), (57, ⟨2330387054187975, 12⟩), (78, ⟨6473297372744374, 15⟩), (80, ⟨-155359136945865, 12⟩)],
  [(2, ⟨4161193153549645, 15⟩), (7, ⟨-2746387481342766, 13⟩), (16, ⟨2059790611007074, 12⟩), (29, ⟨-3844942473879872, 12⟩), (46, ⟨2059790611007074, 12⟩), (67, ⟨-2746387481342766, 13⟩), (92, ⟨4161193153549645, 15⟩)],
  [(0, ⟨8160771188376283, 16⟩), (3, ⟨-6365401526933501, 14⟩), (10, ⟨5834951399689042, 13⟩), (21, ⟨-140038833592537, 11⟩), (36, ⟨1050291251944028, 12⟩), (55, ⟨-2333980559875617, 13⟩), (78, ⟨1060900254488917, 14⟩)]]

/-- The part of g_trans_cart2sph (src/cart2sph.c:21-806, PYPZPX not defined) for l = 14: for every row of
120 literals the nonzero ones with their column. -/
def c2sRows14 : List (List (Nat × Dec)) := [
  [(1, ⟨1162730916290334, 14⟩), (6, ⟨-3023100382354867, 13⟩), (15, ⟨1662705210295177, 12⟩), (28, ⟨-2850351789077446, 12⟩), (45, ⟨1662705210295177, 12⟩), (66, ⟨-3023100382354867, 13⟩), (91, ⟨1162730916290334, 14⟩)],
  [(4, ⟨5713122714353754, 14⟩), (11, ⟨-1256886997157826, 12⟩), (22, ⟨5655991487210216, 12⟩), (37, ⟨-7541321982946955, 12⟩), (56, ⟨3142217492894565, 12⟩), (79, ⟨-3427873628612252, 13⟩), (106, ⟨4394709780272118, 15⟩)],
  [(1, ⟨-7176531019523646, 15⟩), (6, ⟨1243932043384099, 13⟩), (8, ⟨1865898065076148, 13⟩), (15, ⟨-3420813119306271, 13⟩), (17, ⟨-3420813119306271, 12⟩), (30, ⟨1231492722950258, 11⟩), (45, ⟨3420813119306271, 13⟩), (47, ⟨-1231492722950258, 11⟩), (66, ⟨-1243932043384099, 13⟩), (68, ⟨3420813119306271, 12⟩), (91, ⟨7176531019523646, 15⟩), (93, ⟨-1865898065076148, 13⟩)],
  [(4, ⟨-5809962199636542, 14⟩), (11, ⟨8133947079491158, 13⟩), (13, ⟨4647969759709233, 13⟩), (22, ⟨-1568689793901866, 12⟩), (24, ⟨-697195463956385, 11⟩), (37, ⟨-697195463956385, 12⟩), (39, ⟨1952147299077878, 11⟩), (56, ⟨1452490549909135, 12⟩), (58, ⟨-139439092791277, 10⟩), (79, ⟨-2852163261639757, 13⟩), (81, ⟨2323984879854617, 12⟩), (106, ⟨5281783817851402, 15⟩), (108, ⟨-4225427054281121, 14⟩)],
  [(1, ⟨5281783817851402, 15⟩), (6, ⟨-5281783817851402, 14⟩), (8, ⟨-2535256232568673, 13⟩), (15, ⟨1161992439927308, 14⟩), (17, ⟨278878185582554, 11⟩), (19, ⟨9295939519418467, 13⟩), (28, ⟨139439092791277, 12⟩), (30, ⟨-3346538226990648, 12⟩), (32, ⟨-1115512742330216, 11⟩), (45, ⟨1161992439927308, 14⟩), (47, ⟨-3346538226990648, 12⟩), (49, ⟨2342576758893454, 11⟩), (66, ⟨-5281783817851402, 14⟩), (68, ⟨278878185582554, 11⟩), (70, ⟨-1115512742330216, 11⟩), (91, ⟨5281783817851402, 15⟩), (93, ⟨-2535256232568673, 13⟩), (95, ⟨9295939519418467, 13⟩)],
  [(4, ⟨5207313853625346, 14⟩), (11, ⟨-3818696825991921, 13⟩), (13, ⟨-7637393651983841, 13⟩), (22, ⟨-190934841299596, 12⟩), (24, ⟨6364494709986534, 12⟩), (26, ⟨1527478730396768, 12⟩), (37, ⟨7637393651983841, 13⟩), (39, ⟨-3564117037592459, 12⟩), (41, ⟨-1425646815036984, 11⟩), (56, ⟨3182247354993267, 13⟩), (58, ⟨-7637393651983841, 12⟩), (60, ⟨2138470222555475, 11⟩), (79, ⟨-196720745581402, 12⟩), (81, ⟨2970097531327049, 12⟩), (83, ⟨-6109914921587073, 12⟩), (106, ⟨578590428180594, 14⟩), (108, ⟨-8485992946648712, 14⟩), (110, ⟨1697198589329742, 13⟩)],
  [(1, ⟨-3940231044985851, 15⟩), (6, ⟨157609241799434, 13⟩), (8, ⟨2600552489690662, 13⟩), (15, ⟨4334254149484436, 14⟩), (17, ⟨-1300276244845331, 12⟩), (19, ⟨-1733701659793774, 12⟩), (30, ⟨-1560331493814397, 12⟩), (32, ⟨1040220995876265, 11⟩), (34, ⟨2080441991752529, 12⟩), (45, ⟨-4334254149484436, 14⟩), (47, ⟨1560331493814397, 12⟩), (51, ⟨-145630939422677, 10⟩), (66, ⟨-157609241799434, 13⟩), (68, ⟨1300276244845331, 12⟩), (70, ⟨-1040220995876265, 11⟩), (72, ⟨145630939422677, 10⟩), (91, ⟨3940231044985851, 15⟩), (93, ⟨-2600552489690662, 13⟩), (95, ⟨1733701659793774, 12⟩), (97, ⟨-2080441991752529, 12⟩)],
  [(4, ⟨-4278485868831644, 14⟩), (11, ⟨8556971737663287, 14⟩), (13, ⟨8556971737663287, 13⟩), (22, ⟨3850637281948479, 13⟩), (24, ⟨-2567091521298986, 12⟩), (26, ⟨-3080509825558783, 12⟩), (37, ⟨2200364161113417, 13⟩), (39, ⟨-5134183042597972, 12⟩), (41, ⟨1232203930223513, 11⟩), (43, ⟨2347055105187644, 12⟩), (56, ⟨-1528030667439873, 13⟩), (58, ⟨7334547203711389, 13⟩), (60, ⟨6161019651117567, 12⟩), (62, ⟨-1173527552593822, 11⟩), (79, ⟨-1100182080556708, 13⟩), (81, ⟨2322606614508606, 12⟩), (83, ⟨-8801456644453667, 12⟩), (85, ⟨7041165315562933, 12⟩), (106, ⟨6112122669759491, 15⟩), (108, ⟨-1222424533951898, 13⟩), (110, ⟨4400728322226833, 13⟩), (112, ⟨-3352935864553778, 13⟩)],
  [(1, ⟨2829363009969403, 15⟩), (6, ⟨1886242006646268, 15⟩), (8, ⟨-2263490407975522, 13⟩), (15, ⟨-1791929906313955, 14⟩), (17, ⟨7544968026585074, 14⟩), (19, ⟨203714136717797, 11⟩), (28, ⟨-3395235611963283, 14⟩), (30, ⟨1358094244785313, 12⟩), (32, ⟨-2716188489570627, 12⟩), (34, ⟨-4345901583313003, 12⟩), (45, ⟨-1791929906313955, 14⟩), (47, ⟨1358094244785313, 12⟩), (49, ⟨-9506659713497193, 12⟩), (51, ⟨1014043702773034, 11⟩), (53, ⟨2172950791656501, 12⟩), (66, ⟨1886242006646268, 15⟩), (68, ⟨7544968026585074, 14⟩), (70, ⟨-2716188489570627, 12⟩), (72, ⟨1014043702773034, 11⟩), (74, ⟨-7243169305521671, 12⟩), (91, ⟨2829363009969403, 15⟩), (93, ⟨-2263490407975522, 13⟩), (95, ⟨203714136717797, 11⟩), (97, ⟨-4345901583313003, 12⟩), (99, ⟨2172950791656501, 12⟩)],
  [(4, ⟨31633240116575, 12⟩), (11, ⟨6326648023315, 11⟩), (13, ⟨-7591977627977999, 13⟩), (22, ⟨-56939832209835, 12⟩), (24, ⟨-7591977627977999, 13⟩), (26, ⟨364414926142944, 11⟩), (37, ⟨-22775932883934, 11⟩), (39, ⟨212575373583384, 11⟩), (43, ⟨-485886568190592, 11⟩), (56, ⟨-183472792676135, 12⟩), (58, ⟨334047015631032, 11⟩), (60, ⟨-1020361793200243, 11⟩), (62, ⟨485886568190592, 11⟩), (64, ⟨161962189396864, 11⟩), (79, ⟨-3795988813989, 11⟩), (81, ⟨106287686791692, 11⟩), (83, ⟨-5830638818287104, 12⟩), (85, ⟨8745958227430655, 12⟩), (87, ⟨-323924378793728, 11⟩), (106, ⟨6326648023315, 12⟩), (108, ⟨-15183955255956, 11⟩), (110, ⟨7288298522858879, 13⟩), (112, ⟨-9717731363811839, 13⟩), (114, ⟨323924378793728, 12⟩)],
  [(1, ⟨-1835933153488193, 15⟩), (6, ⟨-7343732613952774, 15⟩), (8, ⟨1652339838139374, 13⟩), (15, ⟨-9179665767440967, 15⟩), (17, ⟨4957019514418122, 13⟩), (19, ⟨-1762495827348666, 12⟩), (30, ⟨3304679676278748, 13⟩), (32, ⟨-3524991654697331, 12⟩), (34, ⟨4934988316576264, 12⟩), (45, ⟨9179665767440967, 15⟩), (47, ⟨-3304679676278748, 13⟩), (51, ⟨4934988316576264, 12⟩), (53, ⟨-4229989985636798, 12⟩), (66, ⟨7343732613952774, 15⟩), (68, ⟨-4957019514418122, 13⟩), (70, ⟨3524991654697331, 12⟩), (72, ⟨-4934988316576264, 12⟩), (76, ⟨939997774585955, 12⟩), (91, ⟨1835933153488193, 15⟩), (93, ⟨-1652339838139374, 13⟩), (95, ⟨1762495827348666, 12⟩), (97, ⟨-4934988316576264, 12⟩), (99, ⟨4229989985636798, 12⟩), (101, ⟨-939997774585955, 12⟩)],
  [(4, ⟨-1937540204348254, 14⟩), (11, ⟨-9041854286958517, 14⟩), (13, ⟨516677387826201, 12⟩), (22, ⟨-1614616836956878, 13⟩), (24, ⟨1894483755362737, 12⟩), (26, ⟨-2893393371826726, 12⟩), (37, ⟨-1291693469565502, 13⟩), (39, ⟨2411161143188938, 12⟩), (41, ⟨-7715715658204601, 12⟩), (43, ⟨496010292313153, 11⟩), (56, ⟨-3229233673913756, 14⟩), (58, ⟨1033354775652402, 12⟩), (60, ⟨-5786786743653451, 12⟩), (62, ⟨8266838205219216, 12⟩), (64, ⟨-2755612735073072, 12⟩), (79, ⟨1291693469565502, 14⟩), (81, ⟨-172225795942067, 12⟩), (85, ⟨1653367641043843, 12⟩), (87, ⟨-1837075156715381, 12⟩), (89, ⟨4008163978288105, 13⟩), (106, ⟨6458467347827512, 15⟩), (108, ⟨-172225795942067, 12⟩), (110, ⟨9644644572755752, 13⟩), (112, ⟨-1653367641043843, 12⟩), (114, ⟨9185375783576907, 13⟩), (116, ⟨-1336054659429368, 13⟩)],
  [(1, ⟨9043663200508067, 16⟩), (6, ⟨542619792030484, 14⟩), (8, ⟨-8681916672487744, 14⟩), (15, ⟨135654948007621, 13⟩), (17, ⟨-4340958336243872, 13⟩), (19, ⟨1012890278456903, 12⟩), (28, ⟨1808732640101613, 14⟩), (30, ⟨-8681916672487744, 13⟩), (32, ⟨4051561113827614, 12⟩), (34, ⟨-3241248891062091, 12⟩), (45, ⟨135654948007621, 13⟩), (47, ⟨-8681916672487744, 13⟩), (49, ⟨6077341670741421, 12⟩), (51, ⟨-9723746673186273, 12⟩), (53, ⟨3472766668995098, 12⟩), (66, ⟨542619792030484, 14⟩), (68, ⟨-4340958336243872, 13⟩), (70, ⟨4051561113827614, 12⟩), (72, ⟨-9723746673186273, 12⟩), (74, ⟨6945533337990195, 12⟩), (76, ⟨-1234761482309368, 12⟩), (91, ⟨9043663200508067, 16⟩), (93, ⟨-8681916672487744, 14⟩), (95, ⟨1012890278456903, 12⟩), (97, ⟨-3241248891062091, 12⟩), (99, ⟨3472766668995098, 12⟩), (101, ⟨-1234761482309368, 12⟩), (103, ⟨1122510438463062, 13⟩)],
  [(4, ⟨6521478277491721, 15⟩), (11, ⟨3912886966495032, 14⟩), (13, ⟨-1826013917697682, 13⟩), (22, ⟨9782217416237581, 14⟩), (24, ⟨-9130069588488409, 13⟩), (26, ⟨1095608350618609, 12⟩), (37, ⟨1304295655498344, 13⟩), (39, ⟨-1826013917697682, 12⟩), (41, ⟨4382433402474436, 12⟩), (43, ⟨-2086873048797351, 12⟩), (56, ⟨9782217416237581, 14⟩), (58, ⟨-1826013917697682, 12⟩), (60, ⟨6573650103711654, 12⟩), (62, ⟨-6260619146392052, 12⟩), (64, ⟨1391248699198234, 12⟩), (79, ⟨3912886966495032, 14⟩), (81, ⟨-9130069588488409, 13⟩), (83, ⟨4382433402474436, 12⟩), (85, ⟨-6260619146392052, 12⟩), (87, ⟨2782497398396467, 12⟩), (89, ⟨-3035451707341601, 13⟩), (106, ⟨6521478277491721, 15⟩), (108, ⟨-1826013917697682, 13⟩), (110, ⟨1095608350618609, 12⟩), (112, ⟨-2086873048797351, 12⟩), (114, ⟨1391248699198234, 12⟩), (116, ⟨-3035451707341601, 13⟩), (118, ⟨1556641901200821, 14⟩)],
  [(0, ⟨-3182155563368222, 16⟩), (3, ⟨-2227508894357756, 15⟩), (5, ⟨3118512452100858, 14⟩), (10, ⟨-6682526683073267, 15⟩), (12, ⟨1871107471260515, 13⟩), (14, ⟨-3742214942521029, 13⟩), (21, ⟨-1113754447178878, 14⟩), (23, ⟨4677768678151287, 13⟩), (25, ⟨-1871107471260515, 12⟩), (27, ⟨1247404980840343, 12⟩), (36, ⟨-1113754447178878, 14⟩), (38, ⟨6237024904201716, 13⟩), (40, ⟨-3742214942521029, 12⟩), (42, ⟨4989619923361373, 12⟩), (44, ⟨-1425605692388964, 12⟩), (55, ⟨-6682526683073267, 15⟩), (57, ⟨4677768678151287, 13⟩), (59, ⟨-3742214942521029, 12⟩), (61, ⟨7484429885042059, 12⟩), (63, ⟨-4276817077166891, 12⟩), (65, ⟨5702422769555854, 13⟩), (78, ⟨-2227508894357756, 15⟩), (80, ⟨1871107471260515, 13⟩), (82, ⟨-1871107471260515, 12⟩), (84, ⟨4989619923361373, 12⟩), (86, ⟨-4276817077166891, 12⟩), (88, ⟨1140484553911171, 12⟩), (90, ⟨-6912027599461642, 14⟩), (105, ⟨-3182155563368222, 16⟩), (107, ⟨3118512452100858, 14⟩), (109, ⟨-3742214942521029, 13⟩), (111, ⟨1247404980840343, 12⟩), (113, ⟨-1425605692388964, 12⟩), (115, ⟨5702422769555854, 13⟩), (117, ⟨-6912027599461642, 14⟩), (119, ⟨1519126944936625, 15⟩)],
  [(2, ⟨6521478277491721, 15⟩), (7, ⟨3912886966495032, 14⟩), (9, ⟨-1826013917697682, 13⟩), (16, ⟨9782217416237581, 14⟩), (18, ⟨-9130069588488409, 13⟩), (20, ⟨1095608350618609, 12⟩), (29, ⟨1304295655498344, 13⟩), (31, ⟨-1826013917697682, 12⟩), (33, ⟨4382433402474436, 12⟩), (35, ⟨-2086873048797351, 12⟩), (46, ⟨9782217416237581, 14⟩), (48, ⟨-1826013917697682, 12⟩), (50, ⟨6573650103711654, 12⟩), (52, ⟨-6260619146392052, 12⟩), (54, ⟨1391248699198234, 12⟩), (67, ⟨3912886966495032, 14⟩), (69, ⟨-9130069588488409, 13⟩), (71, ⟨4382433402474436, 12⟩), (73, ⟨-6260619146392052, 12⟩), (75, ⟨2782497398396467, 12⟩), (77, ⟨-3035451707341601, 13⟩), (92, ⟨6521478277491721, 15⟩), (94, ⟨-1826013917697682, 13⟩), (96, ⟨1095608350618609, 12⟩), (98, ⟨-2086873048797351, 12⟩), (100, ⟨1391248699198234, 12⟩), (102, ⟨-3035451707341601, 13⟩), (104, ⟨1556641901200821, 14⟩)],
  [(0, ⟨4521831600254033, 16⟩), (3, ⟨2260915800127017, 15⟩), (5, ⟨-4340958336243872, 14⟩), (10, ⟨406964844022863, 14⟩), (12, ⟨-1736383334497549, 13⟩), (14, ⟨5064451392284517, 13⟩), (21, ⟨2260915800127017, 15⟩), (23, ⟨-2170479168121936, 13⟩), (25, ⟨1519335417685355, 12⟩), (27, ⟨-1620624445531046, 12⟩), (36, ⟨-2260915800127017, 15⟩), (40, ⟨1012890278456903, 12⟩), (42, ⟨-3241248891062091, 12⟩), (44, ⟨1736383334497549, 12⟩), (55, ⟨-406964844022863, 14⟩), (57, ⟨2170479168121936, 13⟩), (59, ⟨-1012890278456903, 12⟩), (63, ⟨1736383334497549, 12⟩), (65, ⟨-617380741154684, 12⟩), (78, ⟨-2260915800127017, 15⟩), (80, ⟨1736383334497549, 13⟩), (82, ⟨-1519335417685355, 12⟩), (84, ⟨3241248891062091, 12⟩), (86, ⟨-1736383334497549, 12⟩), (90, ⟨5612552192315309, 14⟩), (105, ⟨-4521831600254033, 16⟩), (107, ⟨4340958336243872, 14⟩), (109, ⟨-5064451392284517, 13⟩), (111, ⟨1620624445531046, 12⟩), (113, ⟨-1736383334497549, 12⟩), (115, ⟨617380741154684, 12⟩), (117, ⟨-5612552192315309, 14⟩)],
  [(2, ⟨-6458467347827512, 15⟩), (7, ⟨-1291693469565502, 14⟩), (9, ⟨172225795942067, 12⟩), (16, ⟨3229233673913756, 14⟩), (18, ⟨172225795942067, 12⟩), (20, ⟨-9644644572755752, 13⟩), (29, ⟨1291693469565502, 13⟩), (31, ⟨-1033354775652402, 12⟩), (35, ⟨1653367641043843, 12⟩), (46, ⟨1614616836956878, 13⟩), (48, ⟨-2411161143188938, 12⟩), (50, ⟨5786786743653451, 12⟩), (52, ⟨-1653367641043843, 12⟩), (54, ⟨-9185375783576907, 13⟩), (67, ⟨9041854286958517, 14⟩), (69, ⟨-1894483755362737, 12⟩), (71, ⟨7715715658204601, 12⟩), (73, ⟨-8266838205219216, 12⟩), (75, ⟨1837075156715381, 12⟩), (77, ⟨1336054659429368, 13⟩), (92, ⟨1937540204348254, 14⟩), (94, ⟨-516677387826201, 12⟩), (96, ⟨2893393371826726, 12⟩), (98, ⟨-496010292313153, 11⟩), (100, ⟨2755612735073072, 12⟩), (102, ⟨-4008163978288105, 13⟩)],
  [(0, ⟨-4589832883720484, 16⟩), (3, ⟨4589832883720484, 16⟩), (5, ⟨4130849595348435, 14⟩), (10, ⟨8720682479068919, 15⟩), (12, ⟨-826169919069687, 13⟩), (14, ⟨-4406239568371664, 13⟩), (21, ⟨2065424797674218, 14⟩), (23, ⟨-702244431209234, 12⟩), (25, ⟨1321871870511499, 12⟩), (27, ⟨1233747079144066, 12⟩), (36, ⟨2065424797674218, 14⟩), (38, ⟨-1156637886697562, 12⟩), (40, ⟨616873539572033, 11⟩), (42, ⟨-4934988316576264, 12⟩), (44, ⟨-1057497496409199, 12⟩), (55, ⟨8720682479068919, 15⟩), (57, ⟨-702244431209234, 12⟩), (59, ⟨616873539572033, 11⟩), (61, ⟨-1233747079144066, 11⟩), (63, ⟨5287487482045997, 12⟩), (65, ⟨2349994436464888, 13⟩), (78, ⟨4589832883720484, 16⟩), (80, ⟨-826169919069687, 13⟩), (82, ⟨1321871870511499, 12⟩), (84, ⟨-4934988316576264, 12⟩), (86, ⟨5287487482045997, 12⟩), (88, ⟨-1409996661878933, 12⟩), (105, ⟨-4589832883720484, 16⟩), (107, ⟨4130849595348435, 14⟩), (109, ⟨-4406239568371664, 13⟩), (111, ⟨1233747079144066, 12⟩), (113, ⟨-1057497496409199, 12⟩), (115, ⟨2349994436464888, 13⟩)],
  [(2, ⟨6326648023315, 12⟩), (7, ⟨-3795988813989, 11⟩), (9, ⟨-15183955255956, 11⟩), (16, ⟨-183472792676135, 12⟩), (18, ⟨106287686791692, 11⟩), (20, ⟨7288298522858879, 13⟩), (29, ⟨-22775932883934, 11⟩), (31, ⟨334047015631032, 11⟩), (33, ⟨-5830638818287104, 12⟩), (35, ⟨-9717731363811839, 13⟩), (46, ⟨-56939832209835, 12⟩), (48, ⟨212575373583384, 11⟩), (50, ⟨-1020361793200243, 11⟩), (52, ⟨8745958227430655, 12⟩), (54, ⟨323924378793728, 12⟩), (67, ⟨6326648023315, 11⟩), (69, ⟨-7591977627977999, 13⟩), (73, ⟨485886568190592, 11⟩), (75, ⟨-323924378793728, 11⟩), (92, ⟨31633240116575, 12⟩), (94, ⟨-7591977627977999, 13⟩), (96, ⟨364414926142944, 11⟩), (98, ⟨-485886568190592, 11⟩), (100, ⟨161962189396864, 11⟩)],
  [(0, ⟨4715605016615671, 16⟩), (3, ⟨-5187165518277238, 15⟩), (5, ⟨-3772484013292537, 14⟩), (10, ⟨-1839085956480112, 14⟩), (12, ⟨4526980815951044, 13⟩), (14, ⟨3395235611963283, 13⟩), (21, ⟨-1273213354486231, 14⟩), (23, ⟨1018570683588985, 12⟩), (25, ⟨-4413806295552268, 12⟩), (27, ⟨-7243169305521671, 13⟩), (36, ⟨1273213354486231, 14⟩), (40, ⟨-4753329856748596, 12⟩), (42, ⟨1014043702773034, 11⟩), (44, ⟨3621584652760835, 13⟩), (55, ⟨1839085956480112, 14⟩), (57, ⟨-1018570683588985, 12⟩), (59, ⟨4753329856748596, 12⟩), (63, ⟨-5432376979141253, 12⟩), (78, ⟨5187165518277238, 15⟩), (80, ⟨-4526980815951044, 13⟩), (82, ⟨4413806295552268, 12⟩), (84, ⟨-1014043702773034, 11⟩), (86, ⟨5432376979141253, 12⟩), (105, ⟨-4715605016615671, 16⟩), (107, ⟨3772484013292537, 14⟩), (109, ⟨-3395235611963283, 13⟩), (111, ⟨7243169305521671, 13⟩), (113, ⟨-3621584652760835, 13⟩)],
  [(2, ⟨-6112122669759491, 15⟩), (7, ⟨1100182080556708, 13⟩), (9, ⟨1222424533951898, 13⟩), (16, ⟨1528030667439873, 13⟩), (18, ⟨-2322606614508606, 12⟩), (20, ⟨-4400728322226833, 13⟩), (29, ⟨-2200364161113417, 13⟩), (31, ⟨-7334547203711389, 13⟩), (33, ⟨8801456644453667, 12⟩), (35, ⟨3352935864553778, 13⟩), (46, ⟨-3850637281948479, 13⟩), (48, ⟨5134183042597972, 12⟩), (50, ⟨-6161019651117567, 12⟩), (52, ⟨-7041165315562933, 12⟩), (67, ⟨-8556971737663287, 14⟩), (69, ⟨2567091521298986, 12⟩), (71, ⟨-1232203930223513, 11⟩), (73, ⟨1173527552593822, 11⟩), (92, ⟨4278485868831644, 14⟩), (94, ⟨-8556971737663287, 13⟩), (96, ⟨3080509825558783, 12⟩), (98, ⟨-2347055105187644, 12⟩)],
  [(0, ⟨-4925288806232314, 16⟩), (3, ⟨1231322201558078, 14⟩), (5, ⟨3250690612113327, 14⟩), (10, ⟨5417817686855545, 15⟩), (12, ⟨-845179559149465, 12⟩), (14, ⟨-2167127074742218, 13⟩), (21, ⟨-487603591816999, 13⟩), (23, ⟨487603591816999, 12⟩), (25, ⟨5851243101803988, 12⟩), (27, ⟨2600552489690662, 13⟩), (36, ⟨-487603591816999, 13⟩), (38, ⟨2730580114175195, 12⟩), (40, ⟨-9101933713917315, 12⟩), (42, ⟨-7281546971133852, 12⟩), (55, ⟨5417817686855545, 15⟩), (57, ⟨487603591816999, 12⟩), (59, ⟨-9101933713917315, 12⟩), (61, ⟨1820386742783463, 11⟩), (78, ⟨1231322201558078, 14⟩), (80, ⟨-845179559149465, 12⟩), (82, ⟨5851243101803988, 12⟩), (84, ⟨-7281546971133852, 12⟩), (105, ⟨-4925288806232314, 16⟩), (107, ⟨3250690612113327, 14⟩), (109, ⟨-2167127074742218, 13⟩), (111, ⟨2600552489690662, 13⟩)],
  [(2, ⟨578590428180594, 14⟩), (7, ⟨-196720745581402, 12⟩), (9, ⟨-8485992946648712, 14⟩), (16, ⟨3182247354993267, 13⟩), (18, ⟨2970097531327049, 12⟩), (20, ⟨1697198589329742, 13⟩), (29, ⟨7637393651983841, 13⟩), (31, ⟨-7637393651983841, 12⟩), (33, ⟨-6109914921587073, 12⟩), (46, ⟨-190934841299596, 12⟩), (48, ⟨-3564117037592459, 12⟩), (50, ⟨2138470222555475, 11⟩), (67, ⟨-3818696825991921, 13⟩), (69, ⟨6364494709986534, 12⟩), (71, ⟨-1425646815036984, 11⟩), (92, ⟨5207313853625346, 14⟩), (94, ⟨-7637393651983841, 13⟩), (96, ⟨1527478730396768, 12⟩)],
  [(0, ⟨5281783817851402, 16⟩), (3, ⟨-2271167041676103, 14⟩), (5, ⟨-2535256232568673, 14⟩), (10, ⟨6390958419600196, 14⟩), (12, ⟨1115512742330216, 12⟩), (14, ⟨9295939519418467, 14⟩), (21, ⟨8714943299454813, 14⟩), (23, ⟨-418317278373831, 11⟩), (25, ⟨-418317278373831, 11⟩), (36, ⟨-8714943299454813, 14⟩), (40, ⟨1952147299077878, 11⟩), (55, ⟨-6390958419600196, 14⟩), (57, ⟨418317278373831, 11⟩), (59, ⟨-1952147299077878, 11⟩), (78, ⟨2271167041676103, 14⟩), (80, ⟨-1115512742330216, 12⟩), (82, ⟨418317278373831, 11⟩), (105, ⟨-5281783817851402, 16⟩), (107, ⟨2535256232568673, 14⟩), (109, ⟨-9295939519418467, 14⟩)],
  [(2, ⟨-5281783817851402, 15⟩), (7, ⟨2852163261639757, 13⟩), (9, ⟨4225427054281121, 14⟩), (16, ⟨-1452490549909135, 12⟩), (18, ⟨-2323984879854617, 12⟩), (29, ⟨697195463956385, 12⟩), (31, ⟨139439092791277, 10⟩), (46, ⟨1568689793901866, 12⟩), (48, ⟨-1952147299077878, 11⟩), (67, ⟨-8133947079491158, 13⟩), (69, ⟨697195463956385, 11⟩), (92, ⟨5809962199636542, 14⟩), (94, ⟨-4647969759709233, 13⟩)],
  [(0, ⟨-5980442516269705, 16⟩), (3, ⟨3887287635575308, 14⟩), (5, ⟨1554915054230123, 14⟩), (10, ⟨-2565609839479703, 13⟩), (12, ⟨-1026243935791881, 12⟩), (21, ⟨2565609839479703, 13⟩), (23, ⟨769682951843911, 11⟩), (36, ⟨2565609839479703, 13⟩), (38, ⟨-1436741510108634, 11⟩), (55, ⟨-2565609839479703, 13⟩), (57, ⟨769682951843911, 11⟩), (78, ⟨3887287635575308, 14⟩), (80, ⟨-1026243935791881, 12⟩), (105, ⟨-5980442516269705, 16⟩), (107, ⟨1554915054230123, 14⟩)],
  [(2, ⟨4394709780272118, 15⟩), (7, ⟨-3427873628612252, 13⟩), (16, ⟨3142217492894565, 12⟩), (29, ⟨-7541321982946955, 12⟩), (46, ⟨5655991487210216, 12⟩), (67, ⟨-1256886997157826, 12⟩), (92, ⟨5713122714353754, 14⟩)],
  [(0, ⟨830522083064524, 15⟩), (3, ⟨-7557750955887168, 14⟩), (10, ⟨8313526051475885, 13⟩), (21, ⟨-2494057815442766, 12⟩), (36, ⟨2494057815442766, 12⟩), (55, ⟨-8313526051475885, 13⟩), (78, ⟨7557750955887168, 14⟩), (105, ⟨-830522083064524, 15⟩)]]

/-- The part of g_trans_cart2sph (src/cart2sph.c:21-806, PYPZPX not defined) for l = 15: for every row of
136 literals the nonzero ones with their column. -/
def c2sRows15 : List (List (Nat × Dec)) := [
  [(1, ⟨1266375976286059, 14⟩), (6, ⟨-3841340461401045, 13⟩), (15, ⟨253528470452469, 11⟩), (28, ⟨-5432752938267193, 12⟩), (45, ⟨422547450754115, 11⟩), (66, ⟨-1152402138420314, 12⟩), (91, ⟨8864631834002413, 14⟩), (120, ⟨-8442506508573726, 16⟩)],
  [(4, ⟨6473811759282017, 14⟩), (11, ⟨-1683191057413324, 12⟩), (22, ⟨9257550815773284, 12⟩), (37, ⟨-158700871127542, 10⟩), (56, ⟨9257550815773284, 12⟩), (79, ⟨-1683191057413324, 12⟩), (106, ⟨6473811759282017, 14⟩)],
  [(1, ⟨-7893350484654575, 15⟩), (6, ⟨1657603601777461, 13⟩), (8, ⟨2210138135703281, 13⟩), (15, ⟨-6077879873184023, 13⟩), (17, ⟨-4862303898547218, 12⟩), (28, ⟨260480565993601, 12⟩), (30, ⟨2188036754346248, 11⟩), (45, ⟨6077879873184023, 13⟩), (47, ⟨-2917382339128331, 11⟩), (66, ⟨-3867741737480742, 13⟩), (68, ⟨1215575974636805, 11⟩), (91, ⟨4675292210141556, 14⟩), (93, ⟨-1326082881421969, 12⟩), (120, ⟨-6071808065118904, 16⟩), (122, ⟨1700106258233293, 14⟩)],
  [(4, ⟨-6677884815276176, 14⟩), (11, ⟨1157500034647871, 12⟩), (13, ⟨5787500173239353, 13⟩), (22, ⟨-3183125095281644, 12⟩), (24, ⟨-1061041698427215, 11⟩), (39, ⟨3819750114337973, 11⟩), (56, ⟨3183125095281644, 12⟩), (58, ⟨-3819750114337973, 11⟩), (79, ⟨-1157500034647871, 12⟩), (81, ⟨1061041698427215, 11⟩), (106, ⟨6677884815276176, 14⟩), (108, ⟨-5787500173239353, 13⟩)],
  [(1, ⟨5890314521234328, 15⟩), (6, ⟨-7657408877604626, 14⟩), (8, ⟨-3062963551041851, 13⟩), (15, ⟨7657408877604626, 14⟩), (17, ⟨4288148971458591, 12⟩), (19, ⟨122518542041674, 11⟩), (28, ⟨2297222663281388, 13⟩), (30, ⟨-8270001587812996, 12⟩), (32, ⟨-183777813062511, 10⟩), (45, ⟨-7657408877604626, 14⟩), (47, ⟨-3675556261250221, 12⟩), (49, ⟨5145778765750309, 11⟩), (66, ⟨-1183417735629806, 13⟩), (68, ⟨7657408877604626, 12⟩), (70, ⟨-3675556261250221, 11⟩), (91, ⟨2838060632958358, 14⟩), (93, ⟨-1503636652329636, 12⟩), (95, ⟨6125927102083701, 12⟩), (120, ⟨-5354831382940298, 16⟩), (122, ⟨2784512319128955, 14⟩), (124, ⟨-1113804927651582, 13⟩)],
  [(4, ⟨6105447148378159, 14⟩), (11, ⟨-6105447148378159, 13⟩), (13, ⟨-9768715437405055, 13⟩), (22, ⟨1343198372643195, 13⟩), (24, ⟨1074558698114556, 11⟩), (26, ⟨2149117396229112, 12⟩), (37, ⟨1611838047171834, 12⟩), (39, ⟨-1289470437737467, 11⟩), (41, ⟨-2578940875474934, 11⟩), (56, ⟨1343198372643195, 13⟩), (58, ⟨-1289470437737467, 11⟩), (60, ⟨5415775838497362, 11⟩), (79, ⟨-6105447148378159, 13⟩), (81, ⟨1074558698114556, 11⟩), (83, ⟨-2578940875474934, 11⟩), (106, ⟨6105447148378159, 14⟩), (108, ⟨-9768715437405055, 13⟩), (110, ⟨2149117396229112, 12⟩)],
  [(1, ⟨-4486569049517132, 15⟩), (6, ⟨284149373136085, 13⟩), (8, ⟨3230329715652335, 13⟩), (15, ⟨4935225954468845, 14⟩), (17, ⟨-2368908458145046, 12⟩), (19, ⟨-2368908458145046, 12⟩), (28, ⟨-4935225954468845, 14⟩), (30, ⟨-1184454229072523, 12⟩), (32, ⟨1974090381787538, 11⟩), (34, ⟨3158544610860061, 12⟩), (45, ⟨-9322093469552263, 14⟩), (47, ⟨4737816916290091, 12⟩), (49, ⟨-1105490613801021, 11⟩), (51, ⟨-2947974970136057, 11⟩), (66, ⟨-1046866111553997, 14⟩), (68, ⟨1974090381787538, 12⟩), (70, ⟨-2368908458145046, 11⟩), (72, ⟨4421962455204085, 11⟩), (91, ⟨1645075318156282, 14⟩), (93, ⟨-122034678146866, 11⟩), (95, ⟨9212421781675177, 12⟩), (97, ⟨-1263417844344024, 11⟩), (120, ⟨-4985076721685702, 16⟩), (122, ⟨3589255239613705, 14⟩), (124, ⟨-2632120509050051, 13⟩), (126, ⟨3509494012066734, 13⟩)],
  [(4, ⟨-5169118335186266, 14⟩), (11, ⟨2067647334074506, 13⟩), (13, ⟨1137206033740979, 12⟩), (22, ⟨5686030168704893, 13⟩), (24, ⟨-5686030168704893, 12⟩), (26, ⟨-4548824134963914, 12⟩), (39, ⟨-6823236202445871, 12⟩), (41, ⟨2729294480978348, 11⟩), (43, ⟨3898992115683355, 12⟩), (56, ⟨-5686030168704893, 13⟩), (58, ⟨6823236202445871, 12⟩), (62, ⟨-2729294480978348, 11⟩), (79, ⟨-2067647334074506, 13⟩), (81, ⟨5686030168704893, 12⟩), (83, ⟨-2729294480978348, 11⟩), (85, ⟨2729294480978348, 11⟩), (106, ⟨5169118335186266, 14⟩), (108, ⟨-1137206033740979, 12⟩), (110, ⟨4548824134963914, 12⟩), (112, ⟨-3898992115683355, 12⟩)],
  [(1, ⟨3334384020345036, 15⟩), (6, ⟨-3334384020345036, 15⟩), (8, ⟨-2934257937903632, 13⟩), (15, ⟨-366782242237954, 13⟩), (17, ⟨5868515875807264, 13⟩), (19, ⟨2934257937903632, 12⟩), (28, ⟨-4715771685916551, 14⟩), (30, ⟨2640832144113269, 12⟩), (32, ⟨-8802773813710896, 12⟩), (34, ⟨-7042219050968717, 12⟩), (45, ⟨-5239746317685057, 15⟩), (47, ⟨1509046939493296, 12⟩), (49, ⟨-1760554762742179, 11⟩), (51, ⟨2816887620387487, 11⟩), (53, ⟨4024125171982124, 12⟩), (66, ⟨2048264469640522, 14⟩), (68, ⟨-1047949263537011, 12⟩), (70, ⟨2515078232488827, 12⟩), (72, ⟨1408443810193743, 11⟩), (74, ⟨-2012062585991062, 11⟩), (91, ⟨8097789763695088, 15⟩), (93, ⟨-7545234697466482, 13⟩), (95, ⟨7964414402881287, 12⟩), (97, ⟨-2012062585991062, 11⟩), (99, ⟨1207237551594637, 11⟩), (120, ⟨-4763405743350052, 16⟩), (122, ⟨4191797054148046, 14⟩), (124, ⟨-4191797054148046, 13⟩), (126, ⟨1006031292995531, 12⟩), (128, ⟨-5748750245688748, 13⟩)],
  [(4, ⟨4021623606427654, 14⟩), (11, ⟨2681082404285103, 14⟩), (13, ⟨-1072432961714041, 12⟩), (22, ⟨-2547028284070847, 13⟩), (24, ⟨3574776539046803, 13⟩), (26, ⟨5791137993255822, 12⟩), (37, ⟨-4825948327713185, 13⟩), (39, ⟨6434597770284246, 12⟩), (41, ⟨-7721517324341095, 12⟩), (43, ⟨-8824591227818395, 12⟩), (56, ⟨-2547028284070847, 13⟩), (58, ⟨6434597770284246, 12⟩), (60, ⟨-2702531063519383, 11⟩), (62, ⟨2059071286490959, 11⟩), (64, ⟨3431785477484931, 12⟩), (79, ⟨2681082404285103, 14⟩), (81, ⟨3574776539046803, 13⟩), (83, ⟨-7721517324341095, 12⟩), (85, ⟨2059071286490959, 11⟩), (87, ⟨-1143928492494977, 11⟩), (106, ⟨4021623606427654, 14⟩), (108, ⟨-1072432961714041, 12⟩), (110, ⟨5791137993255822, 12⟩), (112, ⟨-8824591227818395, 12⟩), (114, ⟨3431785477484931, 12⟩)],
  [(1, ⟨-2312653286194929, 15⟩), (6, ⟨-6937959858584787, 15⟩), (8, ⟨2312653286194929, 13⟩), (15, ⟨-4625306572389858, 16⟩), (17, ⟨4625306572389858, 13⟩), (19, ⟨-2775183943433915, 12⟩), (28, ⟨2081387957575436, 14⟩), (30, ⟨-4162775915150872, 13⟩), (32, ⟨-2775183943433915, 12⟩), (34, ⟨8880588618988527, 12⟩), (45, ⟨3006449272053408, 14⟩), (47, ⟨-1665110366060349, 12⟩), (49, ⟨7770515041614961, 12⟩), (53, ⟨-8880588618988527, 12⟩), (66, ⟨161885730033645, 13⟩), (68, ⟨-1341338905993059, 12⟩), (70, ⟨1221080935110922, 11⟩), (72, ⟨-2486564813316788, 11⟩), (74, ⟨8880588618988527, 12⟩), (76, ⟨2368156965063607, 12⟩), (91, ⟨2312653286194929, 15⟩), (93, ⟨-2775183943433915, 13⟩), (95, ⟨3885257520807481, 12⟩), (97, ⟨-1420894179038164, 11⟩), (99, ⟨1598505951417935, 11⟩), (101, ⟨-4736313930127214, 12⟩), (120, ⟨-4625306572389858, 16⟩), (122, ⟨4625306572389858, 14⟩), (124, ⟨-5550367886867829, 13⟩), (126, ⟨1776117723797705, 12⟩), (128, ⟨-1776117723797705, 12⟩), (130, ⟨4736313930127214, 13⟩)],
  [(4, ⟨-2744175328360903, 14⟩), (11, ⟨-1097670131344361, 13⟩), (13, ⟨823252598508271, 12⟩), (22, ⟨-1372087664180452, 13⟩), (24, ⟨2469757795524813, 12⟩), (26, ⟨-5268816630452934, 12⟩), (39, ⟨1646505197016542, 12⟩), (41, ⟨-1053763326090587, 11⟩), (43, ⟨1053763326090587, 11⟩), (56, ⟨1372087664180452, 13⟩), (58, ⟨-1646505197016542, 12⟩), (62, ⟨1053763326090587, 11⟩), (64, ⟨-7025088840603912, 12⟩), (79, ⟨1097670131344361, 13⟩), (81, ⟨-2469757795524813, 12⟩), (83, ⟨1053763326090587, 11⟩), (85, ⟨-1053763326090587, 11⟩), (89, ⟨1277288880109802, 12⟩), (106, ⟨2744175328360903, 14⟩), (108, ⟨-823252598508271, 12⟩), (110, ⟨5268816630452934, 12⟩), (112, ⟨-1053763326090587, 11⟩), (114, ⟨7025088840603912, 12⟩), (116, ⟨-1277288880109802, 12⟩)],
  [(1, ⟨1363030880952603, 15⟩), (6, ⟨7723841658731416, 15⟩), (8, ⟨-1472073351428811, 13⟩), (15, ⟨1771940145238384, 14⟩), (17, ⟨-6869675640001119, 13⟩), (19, ⟨1962764468571748, 12⟩), (28, ⟨2044546321428904, 14⟩), (30, ⟨-1226727792857343, 12⟩), (32, ⟨7196803051429743, 12⟩), (34, ⟨-7327654016001193, 12⟩), (45, ⟨1135859067460502, 14⟩), (47, ⟨-9813822342858741, 13⟩), (49, ⟨9159567520001492, 12⟩), (51, ⟨-1954041070933652, 11⟩), (53, ⟨9421269449144391, 12⟩), (66, ⟨1363030880952603, 15⟩), (68, ⟨-2453455585714685, 13⟩), (70, ⟨3925528937143496, 12⟩), (72, ⟨-1465530803200239, 11⟩), (74, ⟨1570211574857399, 11⟩), (76, ⟨-4187230866286396, 12⟩), (91, ⟨-1363030880952603, 15⟩), (93, ⟨9813822342858741, 14⟩), (95, ⟨-6542548228572494, 13⟩), (99, ⟨3140423149714797, 12⟩), (101, ⟨-2791487244190931, 12⟩), (103, ⟨507543135307442, 12⟩), (120, ⟨-454343626984201, 15⟩), (122, ⟨490691117142937, 13⟩), (124, ⟨-6542548228572494, 13⟩), (126, ⟨2442551338667064, 12⟩), (128, ⟨-3140423149714797, 12⟩), (130, ⟨1395743622095465, 12⟩), (132, ⟨-1691810451024807, 13⟩)],
  [(4, ⟨1390024211921377, 14⟩), (11, ⟨8340145271528264, 14⟩), (13, ⟨-4448077478148407, 13⟩), (22, ⟨2085036317882066, 13⟩), (24, ⟨-2224038739074204, 12⟩), (26, ⟨3113654234703885, 12⟩), (37, ⟨2780048423842755, 13⟩), (39, ⟨-4448077478148407, 12⟩), (41, ⟨1245461693881554, 11⟩), (43, ⟨-7116923965037452, 12⟩), (56, ⟨2085036317882066, 13⟩), (58, ⟨-4448077478148407, 12⟩), (60, ⟨1868192540822331, 11⟩), (62, ⟨-2135077189511235, 11⟩), (64, ⟨5930769970864543, 12⟩), (79, ⟨8340145271528264, 14⟩), (81, ⟨-2224038739074204, 12⟩), (83, ⟨1245461693881554, 11⟩), (85, ⟨-2135077189511235, 11⟩), (87, ⟨1186153994172909, 11⟩), (89, ⟨-172531490061514, 11⟩), (106, ⟨1390024211921377, 14⟩), (108, ⟨-4448077478148407, 13⟩), (110, ⟨3113654234703885, 12⟩), (112, ⟨-7116923965037452, 12⟩), (114, ⟨5930769970864543, 12⟩), (116, ⟨-172531490061514, 11⟩), (118, ⟨1327165308165492, 13⟩)],
  [(1, ⟨-4505094349975498, 16⟩), (6, ⟨-3153566044982849, 15⟩), (8, ⟨5045705671972558, 14⟩), (15, ⟨-9460698134948546, 15⟩), (17, ⟨3027423403183535, 13⟩), (19, ⟨-7063987940761581, 13⟩), (28, ⟨-1576783022491424, 14⟩), (30, ⟨7568558507958837, 13⟩), (32, ⟨-353199397038079, 11⟩), (34, ⟨2825595176304632, 12⟩), (45, ⟨-1576783022491424, 14⟩), (47, ⟨1009141134394512, 12⟩), (49, ⟨-7063987940761581, 12⟩), (51, ⟨1130238070521853, 11⟩), (53, ⟨-4036564537578046, 12⟩), (66, ⟨-9460698134948546, 15⟩), (68, ⟨7568558507958837, 13⟩), (70, ⟨-7063987940761581, 12⟩), (72, ⟨1695357105782779, 11⟩), (74, ⟨-1210969361273414, 11⟩), (76, ⟨2152834420041625, 12⟩), (91, ⟨-3153566044982849, 15⟩), (93, ⟨3027423403183535, 13⟩), (95, ⟨-353199397038079, 11⟩), (97, ⟨1130238070521853, 11⟩), (99, ⟨-1210969361273414, 11⟩), (101, ⟨4305668840083249, 12⟩), (103, ⟨-3914244400075681, 13⟩), (120, ⟨-4505094349975498, 16⟩), (122, ⟨5045705671972558, 14⟩), (124, ⟨-7063987940761581, 13⟩), (126, ⟨2825595176304632, 12⟩), (128, ⟨-4036564537578046, 12⟩), (130, ⟨2152834420041625, 12⟩), (132, ⟨-3914244400075681, 13⟩), (134, ⟨1720546989044255, 14⟩)],
  [(2, ⟨-4935083598341307, 15⟩), (7, ⟨-3454558518838915, 14⟩), (9, ⟨1612127308791494, 13⟩), (16, ⟨-1036367555651675, 13⟩), (18, ⟨9672763852748962, 13⟩), (20, ⟨-1160731662329875, 12⟩), (29, ⟨-1727279259419458, 13⟩), (31, ⟨2418190963187241, 12⟩), (33, ⟨-5803658311649377, 12⟩), (35, ⟨2763646815071132, 12⟩), (46, ⟨-1727279259419458, 13⟩), (48, ⟨3224254617582987, 12⟩), (50, ⟨-1160731662329875, 11⟩), (52, ⟨1105458726028453, 11⟩), (54, ⟨-2456574946729895, 12⟩), (67, ⟨-1036367555651675, 13⟩), (69, ⟨2418190963187241, 12⟩), (71, ⟨-1160731662329875, 11⟩), (73, ⟨1658188089042679, 11⟩), (75, ⟨-7369724840189685, 12⟩), (77, ⟨8039699825661475, 13⟩), (92, ⟨-3454558518838915, 14⟩), (94, ⟨9672763852748962, 13⟩), (96, ⟨-5803658311649377, 12⟩), (98, ⟨1105458726028453, 11⟩), (100, ⟨-7369724840189685, 12⟩), (102, ⟨1607939965132295, 12⟩), (104, ⟨-824584597503741, 13⟩), (121, ⟨-4935083598341307, 15⟩), (123, ⟨1612127308791494, 13⟩), (125, ⟨-1160731662329875, 12⟩), (127, ⟨2763646815071132, 12⟩), (129, ⟨-2456574946729895, 12⟩), (131, ⟨8039699825661475, 13⟩), (133, ⟨-824584597503741, 13⟩), (135, ⟨1570637328578554, 15⟩)],
  [(0, ⟨-4505094349975498, 16⟩), (3, ⟨-3153566044982849, 15⟩), (5, ⟨5045705671972558, 14⟩), (10, ⟨-9460698134948546, 15⟩), (12, ⟨3027423403183535, 13⟩), (14, ⟨-7063987940761581, 13⟩), (21, ⟨-1576783022491424, 14⟩), (23, ⟨7568558507958837, 13⟩), (25, ⟨-353199397038079, 11⟩), (27, ⟨2825595176304632, 12⟩), (36, ⟨-1576783022491424, 14⟩), (38, ⟨1009141134394512, 12⟩), (40, ⟨-7063987940761581, 12⟩), (42, ⟨1130238070521853, 11⟩), (44, ⟨-4036564537578046, 12⟩), (55, ⟨-9460698134948546, 15⟩), (57, ⟨7568558507958837, 13⟩), (59, ⟨-7063987940761581, 12⟩), (61, ⟨1695357105782779, 11⟩), (63, ⟨-1210969361273414, 11⟩), (65, ⟨2152834420041625, 12⟩), (78, ⟨-3153566044982849, 15⟩), (80, ⟨3027423403183535, 13⟩), (82, ⟨-353199397038079, 11⟩), (84, ⟨1130238070521853, 11⟩), (86, ⟨-1210969361273414, 11⟩), (88, ⟨4305668840083249, 12⟩), (90, ⟨-3914244400075681, 13⟩), (105, ⟨-4505094349975498, 16⟩), (107, ⟨5045705671972558, 14⟩), (109, ⟨-7063987940761581, 13⟩), (111, ⟨2825595176304632, 12⟩), (113, ⟨-4036564537578046, 12⟩), (115, ⟨2152834420041625, 12⟩), (117, ⟨-3914244400075681, 13⟩), (119, ⟨1720546989044255, 14⟩)],
  [(2, ⟨6950121059606886, 15⟩), (7, ⟨3475060529803443, 14⟩), (9, ⟨-2224038739074204, 13⟩), (16, ⟨6255108953646198, 14⟩), (18, ⟨-8896154956296814, 13⟩), (20, ⟨1556827117351943, 12⟩), (29, ⟨3475060529803443, 14⟩), (31, ⟨-1112019369537102, 12⟩), (33, ⟨4670481352055828, 12⟩), (35, ⟨-3558461982518726, 12⟩), (46, ⟨-3475060529803443, 14⟩), (50, ⟨3113654234703885, 12⟩), (52, ⟨-7116923965037452, 12⟩), (54, ⟨2965384985432271, 12⟩), (67, ⟨-6255108953646198, 14⟩), (69, ⟨1112019369537102, 12⟩), (71, ⟨-3113654234703885, 12⟩), (75, ⟨2965384985432271, 12⟩), (77, ⟨-8626574503075699, 13⟩), (92, ⟨-3475060529803443, 14⟩), (94, ⟨8896154956296814, 13⟩), (96, ⟨-4670481352055828, 12⟩), (98, ⟨7116923965037452, 12⟩), (100, ⟨-2965384985432271, 12⟩), (104, ⟨6635826540827461, 14⟩), (121, ⟨-6950121059606886, 15⟩), (123, ⟨2224038739074204, 13⟩), (125, ⟨-1556827117351943, 12⟩), (127, ⟨3558461982518726, 12⟩), (129, ⟨-2965384985432271, 12⟩), (131, ⟨8626574503075699, 13⟩), (133, ⟨-6635826540827461, 14⟩)],
  [(0, ⟨454343626984201, 15⟩), (3, ⟨1363030880952603, 15⟩), (5, ⟨-490691117142937, 13⟩), (10, ⟨-1363030880952603, 15⟩), (12, ⟨-9813822342858741, 14⟩), (14, ⟨6542548228572494, 13⟩), (21, ⟨-1135859067460502, 14⟩), (23, ⟨2453455585714685, 13⟩), (25, ⟨6542548228572494, 13⟩), (27, ⟨-2442551338667064, 12⟩), (36, ⟨-2044546321428904, 14⟩), (38, ⟨9813822342858741, 13⟩), (40, ⟨-3925528937143496, 12⟩), (44, ⟨3140423149714797, 12⟩), (55, ⟨-1771940145238384, 14⟩), (57, ⟨1226727792857343, 12⟩), (59, ⟨-9159567520001492, 12⟩), (61, ⟨1465530803200239, 11⟩), (63, ⟨-3140423149714797, 12⟩), (65, ⟨-1395743622095465, 12⟩), (78, ⟨-7723841658731416, 15⟩), (80, ⟨6869675640001119, 13⟩), (82, ⟨-7196803051429743, 12⟩), (84, ⟨1954041070933652, 11⟩), (86, ⟨-1570211574857399, 11⟩), (88, ⟨2791487244190931, 12⟩), (90, ⟨1691810451024807, 13⟩), (105, ⟨-1363030880952603, 15⟩), (107, ⟨1472073351428811, 13⟩), (109, ⟨-1962764468571748, 12⟩), (111, ⟨7327654016001193, 12⟩), (113, ⟨-9421269449144391, 12⟩), (115, ⟨4187230866286396, 12⟩), (117, ⟨-507543135307442, 12⟩)],
  [(2, ⟨-6860438320902258, 15⟩), (7, ⟨6860438320902258, 15⟩), (9, ⟨2058131496270677, 13⟩), (16, ⟨1303483280971429, 13⟩), (18, ⟨-4116262992541355, 13⟩), (20, ⟨-1317204157613234, 12⟩), (29, ⟨3087197244406016, 13⟩), (31, ⟨-3498823543660152, 12⟩), (33, ⟨3951612472839701, 12⟩), (35, ⟨2634408315226467, 12⟩), (46, ⟨3087197244406016, 13⟩), (48, ⟨-5762768189557897, 12⟩), (50, ⟨1844085820658527, 11⟩), (52, ⟨-1053763326090587, 11⟩), (54, ⟨-1756272210150978, 12⟩), (67, ⟨1303483280971429, 13⟩), (69, ⟨-3498823543660152, 12⟩), (71, ⟨1844085820658527, 11⟩), (73, ⟨-2634408315226467, 11⟩), (75, ⟨878136105075489, 11⟩), (77, ⟨3193222200274506, 13⟩), (92, ⟨6860438320902258, 15⟩), (94, ⟨-4116262992541355, 13⟩), (96, ⟨3951612472839701, 12⟩), (98, ⟨-1053763326090587, 11⟩), (100, ⟨878136105075489, 11⟩), (102, ⟨-1915933320164703, 12⟩), (121, ⟨-6860438320902258, 15⟩), (123, ⟨2058131496270677, 13⟩), (125, ⟨-1317204157613234, 12⟩), (127, ⟨2634408315226467, 12⟩), (129, ⟨-1756272210150978, 12⟩), (131, ⟨3193222200274506, 13⟩)],
  [(0, ⟨-4625306572389858, 16⟩), (3, ⟨2312653286194929, 15⟩), (5, ⟨4625306572389858, 14⟩), (10, ⟨161885730033645, 13⟩), (12, ⟨-2775183943433915, 13⟩), (14, ⟨-5550367886867829, 13⟩), (21, ⟨3006449272053408, 14⟩), (23, ⟨-1341338905993059, 12⟩), (25, ⟨3885257520807481, 12⟩), (27, ⟨1776117723797705, 12⟩), (36, ⟨2081387957575436, 14⟩), (38, ⟨-1665110366060349, 12⟩), (40, ⟨1221080935110922, 11⟩), (42, ⟨-1420894179038164, 11⟩), (44, ⟨-1776117723797705, 12⟩), (55, ⟨-4625306572389858, 16⟩), (57, ⟨-4162775915150872, 13⟩), (59, ⟨7770515041614961, 12⟩), (61, ⟨-2486564813316788, 11⟩), (63, ⟨1598505951417935, 11⟩), (65, ⟨4736313930127214, 13⟩), (78, ⟨-6937959858584787, 15⟩), (80, ⟨4625306572389858, 13⟩), (82, ⟨-2775183943433915, 12⟩), (86, ⟨8880588618988527, 12⟩), (88, ⟨-4736313930127214, 12⟩), (105, ⟨-2312653286194929, 15⟩), (107, ⟨2312653286194929, 13⟩), (109, ⟨-2775183943433915, 12⟩), (111, ⟨8880588618988527, 12⟩), (113, ⟨-8880588618988527, 12⟩), (115, ⟨2368156965063607, 12⟩)],
  [(2, ⟨6702706010712756, 15⟩), (7, ⟨-7372976611784032, 14⟩), (9, ⟨-1787388269523402, 13⟩), (16, ⟨-2614055344177975, 13⟩), (18, ⟨2144865923428082, 12⟩), (20, ⟨9651896655426369, 13⟩), (29, ⟨-1809730622892444, 13⟩), (31, ⟨4825948327713185, 12⟩), (33, ⟨-1254746565205428, 11⟩), (35, ⟨-1470765204636399, 12⟩), (46, ⟨1809730622892444, 13⟩), (50, ⟨-1351265531759692, 11⟩), (52, ⟨2059071286490959, 11⟩), (54, ⟨5719642462474885, 13⟩), (67, ⟨2614055344177975, 13⟩), (69, ⟨-4825948327713185, 12⟩), (71, ⟨1351265531759692, 11⟩), (75, ⟨-8579463693712328, 12⟩), (92, ⟨7372976611784032, 14⟩), (94, ⟨-2144865923428082, 12⟩), (96, ⟨1254746565205428, 11⟩), (98, ⟨-2059071286490959, 11⟩), (100, ⟨8579463693712328, 12⟩), (121, ⟨-6702706010712756, 15⟩), (123, ⟨1787388269523402, 13⟩), (125, ⟨-9651896655426369, 13⟩), (127, ⟨1470765204636399, 12⟩), (129, ⟨-5719642462474885, 13⟩)],
  [(0, ⟨4763405743350052, 16⟩), (3, ⟨-8097789763695088, 15⟩), (5, ⟨-4191797054148046, 14⟩), (10, ⟨-2048264469640522, 14⟩), (12, ⟨7545234697466482, 13⟩), (14, ⟨4191797054148046, 13⟩), (21, ⟨5239746317685057, 15⟩), (23, ⟨1047949263537011, 12⟩), (25, ⟨-7964414402881287, 12⟩), (27, ⟨-1006031292995531, 12⟩), (36, ⟨4715771685916551, 14⟩), (38, ⟨-1509046939493296, 12⟩), (40, ⟨-2515078232488827, 12⟩), (42, ⟨2012062585991062, 11⟩), (44, ⟨5748750245688748, 13⟩), (55, ⟨366782242237954, 13⟩), (57, ⟨-2640832144113269, 12⟩), (59, ⟨1760554762742179, 11⟩), (61, ⟨-1408443810193743, 11⟩), (63, ⟨-1207237551594637, 11⟩), (78, ⟨3334384020345036, 15⟩), (80, ⟨-5868515875807264, 13⟩), (82, ⟨8802773813710896, 12⟩), (84, ⟨-2816887620387487, 11⟩), (86, ⟨2012062585991062, 11⟩), (105, ⟨-3334384020345036, 15⟩), (107, ⟨2934257937903632, 13⟩), (109, ⟨-2934257937903632, 12⟩), (111, ⟨7042219050968717, 12⟩), (113, ⟨-4024125171982124, 12⟩)],
  [(2, ⟨-6461397918982832, 15⟩), (7, ⟨1615349479745708, 13⟩), (9, ⟨1421507542176223, 13⟩), (16, ⟨7107537710881116, 14⟩), (18, ⟨-369591960965818, 11⟩), (20, ⟨-5686030168704893, 13⟩), (29, ⟨-6396783939793004, 13⟩), (31, ⟨2132261313264335, 12⟩), (33, ⟨1535228145550321, 11⟩), (35, ⟨4873740144604194, 13⟩), (46, ⟨-6396783939793004, 13⟩), (48, ⟨1194066335428027, 11⟩), (50, ⟨-2388132670856055, 11⟩), (52, ⟨-1364647240489174, 11⟩), (67, ⟨7107537710881116, 14⟩), (69, ⟨2132261313264335, 12⟩), (71, ⟨-2388132670856055, 11⟩), (73, ⟨3411618101222936, 11⟩), (92, ⟨1615349479745708, 13⟩), (94, ⟨-369591960965818, 11⟩), (96, ⟨1535228145550321, 11⟩), (98, ⟨-1364647240489174, 11⟩), (121, ⟨-6461397918982832, 15⟩), (123, ⟨1421507542176223, 13⟩), (125, ⟨-5686030168704893, 13⟩), (127, ⟨4873740144604194, 13⟩)],
  [(0, ⟨-4985076721685702, 16⟩), (3, ⟨1645075318156282, 14⟩), (5, ⟨3589255239613705, 14⟩), (10, ⟨-1046866111553997, 14⟩), (12, ⟨-122034678146866, 11⟩), (14, ⟨-2632120509050051, 13⟩), (21, ⟨-9322093469552263, 14⟩), (23, ⟨1974090381787538, 12⟩), (25, ⟨9212421781675177, 12⟩), (27, ⟨3509494012066734, 13⟩), (36, ⟨-4935225954468845, 14⟩), (38, ⟨4737816916290091, 12⟩), (40, ⟨-2368908458145046, 11⟩), (42, ⟨-1263417844344024, 11⟩), (55, ⟨4935225954468845, 14⟩), (57, ⟨-1184454229072523, 12⟩), (59, ⟨-1105490613801021, 11⟩), (61, ⟨4421962455204085, 11⟩), (78, ⟨284149373136085, 13⟩), (80, ⟨-2368908458145046, 12⟩), (82, ⟨1974090381787538, 11⟩), (84, ⟨-2947974970136057, 11⟩), (105, ⟨-4486569049517132, 15⟩), (107, ⟨3230329715652335, 13⟩), (109, ⟨-2368908458145046, 12⟩), (111, ⟨3158544610860061, 12⟩)],
  [(2, ⟨6105447148378159, 15⟩), (7, ⟨-2625342273802609, 13⟩), (9, ⟨-9768715437405055, 14⟩), (16, ⟨7387591049537573, 13⟩), (18, ⟨4298234792458224, 12⟩), (20, ⟨2149117396229112, 13⟩), (29, ⟨1007398779482396, 12⟩), (31, ⟨-1611838047171834, 11⟩), (33, ⟨-9671028283031004, 12⟩), (46, ⟨-1007398779482396, 12⟩), (50, ⟨4513146532081135, 11⟩), (67, ⟨-7387591049537573, 13⟩), (69, ⟨1611838047171834, 11⟩), (71, ⟨-4513146532081135, 11⟩), (92, ⟨2625342273802609, 13⟩), (94, ⟨-4298234792458224, 12⟩), (96, ⟨9671028283031004, 12⟩), (121, ⟨-6105447148378159, 15⟩), (123, ⟨9768715437405055, 14⟩), (125, ⟨-2149117396229112, 13⟩)],
  [(0, ⟨5354831382940298, 16⟩), (3, ⟨-2838060632958358, 14⟩), (5, ⟨-2784512319128955, 14⟩), (10, ⟨1183417735629806, 13⟩), (12, ⟨1503636652329636, 12⟩), (14, ⟨1113804927651582, 13⟩), (21, ⟨7657408877604626, 14⟩), (23, ⟨-7657408877604626, 12⟩), (25, ⟨-6125927102083701, 12⟩), (36, ⟨-2297222663281388, 13⟩), (38, ⟨3675556261250221, 12⟩), (40, ⟨3675556261250221, 11⟩), (55, ⟨-7657408877604626, 14⟩), (57, ⟨8270001587812996, 12⟩), (59, ⟨-5145778765750309, 11⟩), (78, ⟨7657408877604626, 14⟩), (80, ⟨-4288148971458591, 12⟩), (82, ⟨183777813062511, 10⟩), (105, ⟨-5890314521234328, 15⟩), (107, ⟨3062963551041851, 13⟩), (109, ⟨-122518542041674, 11⟩)],
  [(2, ⟨-5564904012730147, 15⟩), (7, ⟨3617187608274595, 13⟩), (9, ⟨4822916811032794, 14⟩), (16, ⟨-2387343821461233, 12⟩), (18, ⟨-3183125095281644, 12⟩), (29, ⟨2387343821461233, 12⟩), (31, ⟨2387343821461233, 11⟩), (46, ⟨2387343821461233, 12⟩), (48, ⟨-4456375133394302, 11⟩), (67, ⟨-2387343821461233, 12⟩), (69, ⟨2387343821461233, 11⟩), (92, ⟨3617187608274595, 13⟩), (94, ⟨-3183125095281644, 12⟩), (121, ⟨-5564904012730147, 15⟩), (123, ⟨4822916811032794, 14⟩)],
  [(0, ⟨-6071808065118904, 16⟩), (3, ⟨4675292210141556, 14⟩), (5, ⟨1700106258233293, 14⟩), (10, ⟨-3867741737480742, 13⟩), (12, ⟨-1326082881421969, 12⟩), (21, ⟨6077879873184023, 13⟩), (23, ⟨1215575974636805, 11⟩), (36, ⟨260480565993601, 12⟩), (38, ⟨-2917382339128331, 11⟩), (55, ⟨-6077879873184023, 13⟩), (57, ⟨2188036754346248, 11⟩), (78, ⟨1657603601777461, 13⟩), (80, ⟨-4862303898547218, 12⟩), (105, ⟨-7893350484654575, 15⟩), (107, ⟨2210138135703281, 13⟩)],
  [(2, ⟨4624151256630012, 15⟩), (7, ⟨-4207977643533311, 13⟩), (16, ⟨4628775407886642, 12⟩), (29, ⟨-1388632622365993, 11⟩), (46, ⟨1388632622365993, 11⟩), (67, ⟨-4628775407886642, 12⟩), (92, ⟨4207977643533311, 13⟩), (121, ⟨-4624151256630012, 15⟩)],
  [(0, ⟨8442506508573726, 16⟩), (3, ⟨-8864631834002413, 14⟩), (10, ⟨1152402138420314, 12⟩), (21, ⟨-422547450754115, 11⟩), (36, ⟨5432752938267193, 12⟩), (55, ⟨-253528470452469, 11⟩), (78, ⟨3841340461401045, 13⟩), (105, ⟨-1266375976286059, 14⟩)]]

/-- g_trans_cart2sph cut into its parts -/
def c2sRows : List (List (List (Nat × Dec))) := [c2sRows0, c2sRows1, c2sRows2, c2sRows3, c2sRows4, c2sRows5, c2sRows6, c2sRows7, c2sRows8, c2sRows9, c2sRows10, c2sRows11, c2sRows12, c2sRows13, c2sRows14, c2sRows15]

/-- the assignments of d_bra_cart2spheric, src/cart2sph.c:3679-3697: `(m, [(a, b), …])` is
`gsph[m] = coeff_c2s[a] * gcart[b] + …` -/
def dBraRows : List (Nat × List (Nat × Nat)) := [
  (0, [(1, 1)]),
  (1, [(10, 4)]),
  (2, [(12, 0), (15, 3), (17, 5)]),
  (3, [(20, 2)]),
  (4, [(24, 0), (27, 3)])]

/-- the assignments of d_ket_cart2spheric, src/cart2sph.c:3698-3716: `(m, [(a, b), …])` is
`gsph[m] = coeff_c2s[a] * gcart[b] + …` -/
def dKetRows : List (Nat × List (Nat × Nat)) := [
  (0, [(1, 1)]),
  (1, [(10, 4)]),
  (2, [(12, 0), (15, 3), (17, 5)]),
  (3, [(20, 2)]),
  (4, [(24, 0), (27, 3)])]

/-- the assignments of f_bra_cart2spheric, src/cart2sph.c:3719-3745: `(m, [(a, b), …])` is
`gsph[m] = coeff_c2s[a] * gcart[b] + …` -/
def fBraRows : List (Nat × List (Nat × Nat)) := [
  (0, [(1, 1), (6, 6)]),
  (1, [(14, 4)]),
  (2, [(21, 1), (26, 6), (28, 8)]),
  (3, [(32, 2), (37, 7), (39, 9)]),
  (4, [(40, 0), (43, 3), (45, 5)]),
  (5, [(52, 2), (57, 7)]),
  (6, [(60, 0), (63, 3)])]

/-- the assignments of f_ket_cart2spheric, src/cart2sph.c:3746-3772: `(m, [(a, b), …])` is
`gsph[m] = coeff_c2s[a] * gcart[b] + …` -/
def fKetRows : List (Nat × List (Nat × Nat)) := [
  (0, [(1, 1), (6, 6)]),
  (1, [(14, 4)]),
  (2, [(21, 1), (26, 6), (28, 8)]),
  (3, [(32, 2), (37, 7), (39, 9)]),
  (4, [(40, 0), (43, 3), (45, 5)]),
  (5, [(52, 2), (57, 7)]),
  (6, [(60, 0), (63, 3)])]

/-- the assignments of g_bra_cart2spheric, src/cart2sph.c:3775-3813: `(m, [(a, b), …])` is
`gsph[m] = coeff_c2s[a] * gcart[b] + …` -/
def gBraRows : List (Nat × List (Nat × Nat)) := [
  (0, [(1, 1), (6, 6)]),
  (1, [(19, 4), (26, 11)]),
  (2, [(31, 1), (36, 6), (38, 8)]),
  (3, [(49, 4), (56, 11), (58, 13)]),
  (4, [(60, 0), (63, 3), (65, 5), (70, 10), (72, 12), (74, 14)]),
  (5, [(77, 2), (82, 7), (84, 9)]),
  (6, [(90, 0), (95, 5), (100, 10), (102, 12)]),
  (7, [(107, 2), (112, 7)]),
  (8, [(120, 0), (123, 3), (130, 10)])]

/-- the assignments of g_ket_cart2spheric, src/cart2sph.c:3814-3852: `(m, [(a, b), …])` is
`gsph[m] = coeff_c2s[a] * gcart[b] + …` -/
def gKetRows : List (Nat × List (Nat × Nat)) := [
  (0, [(1, 1), (6, 6)]),
  (1, [(19, 4), (26, 11)]),
  (2, [(31, 1), (36, 6), (38, 8)]),
  (3, [(49, 4), (56, 11), (58, 13)]),
  (4, [(60, 0), (63, 3), (65, 5), (70, 10), (72, 12), (74, 14)]),
  (5, [(77, 2), (82, 7), (84, 9)]),
  (6, [(90, 0), (95, 5), (100, 10), (102, 12)]),
  (7, [(107, 2), (112, 7)]),
  (8, [(120, 0), (123, 3), (130, 10)])]

end Verif.Model
