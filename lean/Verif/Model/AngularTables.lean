import Verif.Base

/-!
# Tables of the angular quadratures (`/repo/include/integratorxx/quadratures/s2/*.hpp`)

Transcribed mechanically from the `switch` statements and `if` chains of the four headers, in
source order.  A `switch` or an `if (x == c) … else if …` chain is an association list (first
match wins); a chain `if (x <= c) return r; else if …` is a list of pairs `(c, r)` followed by
the value of the final `else`.

The declared sizes are the `N` of `std::array<cartesian_pt_t<T>, N> points` and
`std::array<T, N> weights` in the file of each tabulated grid
(`s2/<family>/<family>_<n>.hpp`).
-/

namespace IntegratorXX
namespace Tables

/-- `s2/lebedev_laikov.hpp:40-117`, the chain `npts == a ↦ copy_grid<lebedev_laikov_b>`. -/
def llDispatch : List (Nat × Nat) := [
   (6, 6), (14, 14), (26, 26), (38, 38), (50, 50), (74, 74), (86, 86), (110, 110),
   (146, 146), (170, 170), (194, 194), (230, 230), (266, 266), (302, 302), (350, 350), (434, 434),
   (590, 590), (770, 770), (974, 974), (1202, 1202), (1454, 1454), (1730, 1730), (2030, 2030), (2354, 2354),
   (2702, 2702), (3074, 3074), (3470, 3470), (3890, 3890), (4334, 4334), (4802, 4802), (5810, 5810)]

/-- `s2/lebedev_laikov.hpp:119-156`, `npts_by_algebraic_order`; `default: return -1`. -/
def llNptsByOrder : List (Int × Int) := [
   (3, 6), (5, 14), (7, 26), (9, 38), (11, 50), (13, 74), (15, 86), (17, 110),
   (19, 146), (21, 170), (23, 194), (25, 230), (27, 266), (29, 302), (31, 350), (35, 434),
   (41, 590), (47, 770), (53, 974), (59, 1202), (65, 1454), (71, 1730), (77, 2030), (83, 2354),
   (89, 2702), (95, 3074), (101, 3470), (107, 3890), (113, 4334), (119, 4802), (131, 5810)]

/-- `s2/lebedev_laikov.hpp:158-195`, `algebraic_order_by_npts`; `default: return -1`. -/
def llOrderByNpts : List (Int × Int) := [
   (6, 3), (14, 5), (26, 7), (38, 9), (50, 11), (74, 13), (86, 15), (110, 17),
   (146, 19), (170, 21), (194, 23), (230, 25), (266, 27), (302, 29), (350, 31), (434, 35),
   (590, 41), (770, 47), (974, 53), (1202, 59), (1454, 65), (1730, 71), (2030, 77), (2354, 83),
   (2702, 89), (3074, 95), (3470, 101), (3890, 107), (4334, 113), (4802, 119), (5810, 131)]

/-- `s2/lebedev_laikov.hpp:198-232`, the chain of `next_algebraic_order`. -/
def llNext : List (Int × Int) := [
   (3, 3), (5, 5), (7, 7), (9, 9), (11, 11), (13, 13), (15, 15), (17, 17),
   (19, 19), (21, 21), (23, 23), (25, 25), (27, 27), (29, 29), (31, 31), (35, 35),
   (41, 41), (47, 47), (53, 53), (59, 59), (65, 65), (71, 71), (77, 77), (83, 83),
   (89, 89), (95, 95), (101, 101), (107, 107), (113, 113), (119, 119)]

/-- `s2/lebedev_laikov.hpp:198-232`, the final `else` of `next_algebraic_order`. -/
def llNextLast : Int := 131

/-- `s2/lebedev_laikov/lebedev_laikov_<n>.hpp`: declared sizes `(n, points, weights)` of the grids used by
`generate`. -/
def llDeclared : List (Nat × Nat × Nat) := [
   (6, 6, 6), (14, 14, 14), (26, 26, 26), (38, 38, 38), (50, 50, 50),
   (74, 74, 74), (86, 86, 86), (110, 110, 110), (146, 146, 146), (170, 170, 170),
   (194, 194, 194), (230, 230, 230), (266, 266, 266), (302, 302, 302), (350, 350, 350),
   (434, 434, 434), (590, 590, 590), (770, 770, 770), (974, 974, 974), (1202, 1202, 1202),
   (1454, 1454, 1454), (1730, 1730, 1730), (2030, 2030, 2030), (2354, 2354, 2354), (2702, 2702, 2702),
   (3074, 3074, 3074), (3470, 3470, 3470), (3890, 3890, 3890), (4334, 4334, 4334), (4802, 4802, 4802),
   (5810, 5810, 5810)]

/-- `s2/delley.hpp:45-94`, the chain `npts == a ↦ copy_grid<delley_b>`. -/
def deDispatch : List (Nat × Nat) := [
   (14, 14), (26, 26), (50, 50), (110, 110), (194, 194), (302, 302), (434, 434), (590, 590),
   (770, 770), (974, 974), (1202, 1202), (1454, 1454), (1730, 1730), (2030, 2030), (2354, 2354), (2702, 2702),
   (3074, 3074), (3470, 3470)]

/-- `s2/delley.hpp:96-137`, `npts_by_algebraic_order`; `default: return -1`. -/
def deNptsByOrder : List (Int × Int) := [
   (5, 14), (7, 26), (11, 50), (17, 110), (23, 194), (29, 302), (35, 434), (41, 590),
   (47, 770), (53, 974), (59, 1202), (65, 1454), (71, 1730), (77, 2030), (83, 2354), (89, 2702),
   (95, 3074), (101, 3470)]

/-- `s2/delley.hpp:139-180`, `algebraic_order_by_npts`; `default: return -1`. -/
def deOrderByNpts : List (Int × Int) := [
   (14, 5), (26, 7), (50, 11), (110, 17), (194, 23), (302, 29), (434, 35), (590, 41),
   (770, 47), (974, 53), (1202, 59), (1454, 65), (1730, 71), (2030, 77), (2354, 83), (2702, 89),
   (3074, 95), (3470, 101)]

/-- `s2/delley.hpp:182-219`, the chain of `next_algebraic_order`. -/
def deNext : List (Int × Int) := [
   (5, 5), (7, 7), (11, 11), (17, 17), (23, 23), (29, 29), (35, 35), (41, 41),
   (47, 47), (53, 53), (59, 59), (65, 65), (71, 71), (77, 77), (83, 83), (89, 89),
   (95, 95)]

/-- `s2/delley.hpp:182-219`, the final `else` of `next_algebraic_order`. -/
def deNextLast : Int := 101

/-- `s2/delley/delley_<n>.hpp`: declared sizes `(n, points, weights)` of the grids used by
`generate`. -/
def deDeclared : List (Nat × Nat × Nat) := [
   (14, 14, 14), (26, 26, 26), (50, 50, 50), (110, 110, 110), (194, 194, 194),
   (302, 302, 302), (434, 434, 434), (590, 590, 590), (770, 770, 770), (974, 974, 974),
   (1202, 1202, 1202), (1454, 1454, 1454), (1730, 1730, 1730), (2030, 2030, 2030), (2354, 2354, 2354),
   (2702, 2702, 2702), (3074, 3074, 3074), (3470, 3470, 3470)]

/-- `s2/ahrens_beylkin.hpp:45-167`, the chain `npts == a ↦ copy_grid<ahrens_beylkin_b>`. -/
def abDispatch : List (Nat × Nat) := [
   (72, 72), (132, 132), (192, 192), (312, 312), (372, 372), (432, 432), (492, 492), (552, 552),
   (612, 612), (672, 672), (732, 732), (792, 792), (912, 912), (972, 972), (1032, 1032), (1092, 1092),
   (1272, 1272), (1332, 1332), (1392, 1392), (1512, 1512), (1572, 1572), (1632, 1632), (1692, 1692), (1812, 1812),
   (1932, 1932), (1992, 1992), (2112, 2112), (2172, 2172), (2232, 2232), (2292, 2292), (2412, 2412), (2472, 2472),
   (2712, 2712), (2772, 2772), (2832, 2832), (3012, 3012), (3312, 3312), (3372, 3372), (3432, 3432), (3492, 3492),
   (3612, 3612), (3792, 3792), (4212, 4212), (4332, 4332), (4572, 4572), (4692, 4692), (4992, 4992), (5232, 5232),
   (5472, 5472), (5592, 5592), (5772, 5772), (6192, 6192), (6312, 6312), (6912, 6912), (7512, 7512), (15012, 15012)]

/-- `s2/ahrens_beylkin.hpp:169-286`, `npts_by_algebraic_order`; `default: return -1`. -/
def abNptsByOrder : List (Int × Int) := [
   (14, 72), (19, 132), (23, 192), (29, 312), (32, 372), (35, 432), (37, 492), (39, 552),
   (41, 612), (44, 672), (45, 732), (47, 792), (51, 912), (53, 972), (54, 1032), (56, 1092),
   (60, 1272), (62, 1332), (63, 1392), (66, 1512), (67, 1572), (69, 1632), (70, 1692), (72, 1812),
   (75, 1932), (76, 1992), (78, 2112), (79, 2172), (80, 2232), (81, 2292), (84, 2412), (85, 2472),
   (89, 2712), (90, 2772), (91, 2832), (94, 3012), (98, 3312), (99, 3372), (100, 3432), (101, 3492),
   (103, 3612), (105, 3792), (111, 4212), (113, 4332), (116, 4572), (117, 4692), (121, 4992), (124, 5232),
   (127, 5472), (128, 5592), (130, 5772), (135, 6192), (136, 6312), (143, 6912), (149, 7512), (210, 15012)]

/-- `s2/ahrens_beylkin.hpp:288-405`, `algebraic_order_by_npts`; `default: return -1`. -/
def abOrderByNpts : List (Int × Int) := [
   (72, 14), (132, 19), (192, 23), (312, 29), (372, 32), (432, 35), (492, 37), (552, 39),
   (612, 41), (672, 44), (732, 45), (792, 47), (912, 51), (972, 53), (1032, 54), (1092, 56),
   (1272, 60), (1332, 62), (1392, 63), (1512, 66), (1572, 67), (1632, 69), (1692, 70), (1812, 72),
   (1932, 75), (1992, 76), (2112, 78), (2172, 79), (2232, 80), (2292, 81), (2412, 84), (2472, 85),
   (2712, 89), (2772, 90), (2832, 91), (3012, 94), (3312, 98), (3372, 99), (3432, 100), (3492, 101),
   (3612, 103), (3792, 105), (4212, 111), (4332, 113), (4572, 116), (4692, 117), (4992, 121), (5232, 124),
   (5472, 127), (5592, 128), (5772, 130), (6192, 135), (6312, 136), (6912, 143), (7512, 149), (15012, 210)]

/-- `s2/ahrens_beylkin.hpp:407-521`, the chain of `next_algebraic_order`. -/
def abNext : List (Int × Int) := [
   (14, 14), (19, 19), (23, 23), (29, 29), (32, 32), (35, 35), (37, 37), (39, 39),
   (41, 41), (44, 44), (45, 45), (47, 47), (51, 51), (53, 53), (54, 54), (56, 56),
   (60, 60), (62, 62), (63, 63), (66, 66), (67, 67), (69, 69), (70, 70), (72, 72),
   (75, 75), (76, 76), (78, 78), (79, 79), (80, 80), (81, 81), (84, 84), (85, 85),
   (89, 89), (90, 90), (91, 91), (94, 94), (98, 98), (99, 99), (100, 100), (101, 101),
   (103, 103), (105, 105), (111, 111), (113, 113), (116, 116), (117, 117), (121, 121), (124, 124),
   (127, 127), (128, 128), (130, 130), (135, 135), (136, 136), (143, 143), (149, 149)]

/-- `s2/ahrens_beylkin.hpp:407-521`, the final `else` of `next_algebraic_order`. -/
def abNextLast : Int := 210

/-- `s2/ahrens_beylkin/ahrens_beylkin_<n>.hpp`: declared sizes `(n, points, weights)` of the grids used by
`generate`. -/
def abDeclared : List (Nat × Nat × Nat) := [
   (72, 72, 72), (132, 132, 132), (192, 192, 192), (312, 312, 312), (372, 372, 372),
   (432, 432, 432), (492, 492, 492), (552, 552, 552), (612, 612, 612), (672, 672, 672),
   (732, 732, 732), (792, 792, 792), (912, 912, 912), (972, 972, 972), (1032, 1032, 1032),
   (1092, 1092, 1092), (1272, 1272, 1272), (1332, 1332, 1332), (1392, 1392, 1392), (1512, 1512, 1512),
   (1572, 1572, 1572), (1632, 1632, 1632), (1692, 1692, 1692), (1812, 1812, 1812), (1932, 1932, 1932),
   (1992, 1992, 1992), (2112, 2112, 2112), (2172, 2172, 2172), (2232, 2232, 2232), (2292, 2292, 2292),
   (2412, 2412, 2412), (2472, 2472, 2472), (2712, 2712, 2712), (2772, 2772, 2772), (2832, 2832, 2832),
   (3012, 3012, 3012), (3312, 3312, 3312), (3372, 3372, 3372), (3432, 3432, 3432), (3492, 3492, 3492),
   (3612, 3612, 3612), (3792, 3792, 3792), (4212, 4212, 4212), (4332, 4332, 4332), (4572, 4572, 4572),
   (4692, 4692, 4692), (4992, 4992, 4992), (5232, 5232, 5232), (5472, 5472, 5472), (5592, 5592, 5592),
   (5772, 5772, 5772), (6192, 6192, 6192), (6312, 6312, 6312), (6912, 6912, 6912), (7512, 7512, 7512),
   (15012, 15012, 15012)]

/-- `s2/womersley.hpp:57-187`, the chain `npts == a ↦ copy_grid<womersley_b>`. -/
def woDispatchLarge : List (Nat × Nat) := [
   (2049, 2049), (2114, 2114), (2179, 2179), (2246, 2246), (2313, 2313), (2382, 2382), (2451, 2451), (2522, 2522),
   (2593, 2593), (2666, 2666), (2739, 2739), (2814, 2814), (2889, 2889), (2966, 2966), (3043, 3043), (3122, 3122),
   (3201, 3201), (3282, 3282), (3363, 3363), (3446, 3446), (3529, 3529), (3614, 3614), (3699, 3699), (3786, 3786),
   (3873, 3873), (3962, 3962), (4051, 4051), (4142, 4142), (4233, 4233), (4326, 4326), (4419, 4419), (4514, 4514),
   (4609, 4609), (4706, 4706), (4803, 4803), (4902, 4902), (5001, 5001), (5102, 5102), (5203, 5203), (5306, 5306),
   (5409, 5409), (5514, 5514), (5619, 5619), (5726, 5726), (5833, 5833), (5942, 5942), (6051, 6051), (6162, 6162),
   (6273, 6273), (6386, 6386), (6499, 6499), (6614, 6614), (6729, 6729), (6846, 6846), (6963, 6963), (7082, 7082),
   (7201, 7201), (7322, 7322), (7443, 7443), (7566, 7566), (7689, 7689), (7814, 7814), (7939, 7939)]

/-- `s2/womersley.hpp:189-323`, the chain `npts == a ↦ copy_grid<womersley_b>`. -/
def woDispatch : List (Nat × Nat) := [
   (3, 3), (6, 6), (8, 8), (14, 14), (18, 18), (26, 26), (32, 32), (42, 42),
   (50, 50), (62, 62), (72, 72), (86, 86), (98, 98), (114, 114), (128, 128), (146, 146),
   (163, 163), (182, 182), (201, 201), (222, 222), (243, 243), (266, 266), (289, 289), (314, 314),
   (339, 339), (366, 366), (393, 393), (422, 422), (451, 451), (482, 482), (513, 513), (546, 546),
   (579, 579), (614, 614), (649, 649), (686, 686), (723, 723), (762, 762), (801, 801), (842, 842),
   (883, 883), (926, 926), (969, 969), (1014, 1014), (1059, 1059), (1106, 1106), (1153, 1153), (1202, 1202),
   (1251, 1251), (1302, 1302), (1353, 1353), (1406, 1406), (1459, 1459), (1514, 1514), (1569, 1569), (1626, 1626),
   (1683, 1683), (1742, 1742), (1801, 1801), (1862, 1862), (1923, 1923), (1986, 1986)]

/-- `s2/womersley.hpp:325-580`, `npts_by_algebraic_order`; `default: return -1`. -/
def woNptsByOrder : List (Int × Int) := [
   (1, 3), (2, 6), (3, 8), (4, 14), (5, 18), (6, 26), (7, 32), (8, 42),
   (9, 50), (10, 62), (11, 72), (12, 86), (13, 98), (14, 114), (15, 128), (16, 146),
   (17, 163), (18, 182), (19, 201), (20, 222), (21, 243), (22, 266), (23, 289), (24, 314),
   (25, 339), (26, 366), (27, 393), (28, 422), (29, 451), (30, 482), (31, 513), (32, 546),
   (33, 579), (34, 614), (35, 649), (36, 686), (37, 723), (38, 762), (39, 801), (40, 842),
   (41, 883), (42, 926), (43, 969), (44, 1014), (45, 1059), (46, 1106), (47, 1153), (48, 1202),
   (49, 1251), (50, 1302), (51, 1353), (52, 1406), (53, 1459), (54, 1514), (55, 1569), (56, 1626),
   (57, 1683), (58, 1742), (59, 1801), (60, 1862), (61, 1923), (62, 1986), (63, 2049), (64, 2114),
   (65, 2179), (66, 2246), (67, 2313), (68, 2382), (69, 2451), (70, 2522), (71, 2593), (72, 2666),
   (73, 2739), (74, 2814), (75, 2889), (76, 2966), (77, 3043), (78, 3122), (79, 3201), (80, 3282),
   (81, 3363), (82, 3446), (83, 3529), (84, 3614), (85, 3699), (86, 3786), (87, 3873), (88, 3962),
   (89, 4051), (90, 4142), (91, 4233), (92, 4326), (93, 4419), (94, 4514), (95, 4609), (96, 4706),
   (97, 4803), (98, 4902), (99, 5001), (100, 5102), (101, 5203), (102, 5306), (103, 5409), (104, 5514),
   (105, 5619), (106, 5726), (107, 5833), (108, 5942), (109, 6051), (110, 6162), (111, 6273), (112, 6386),
   (113, 6499), (114, 6614), (115, 6729), (116, 6846), (117, 6963), (118, 7082), (119, 7201), (120, 7322),
   (121, 7443), (122, 7566), (123, 7689), (124, 7814), (125, 7939)]

/-- `s2/womersley.hpp:582-837`, `algebraic_order_by_npts`; `default: return -1`. -/
def woOrderByNpts : List (Int × Int) := [
   (3, 1), (6, 2), (8, 3), (14, 4), (18, 5), (26, 6), (32, 7), (42, 8),
   (50, 9), (62, 10), (72, 11), (86, 12), (98, 13), (114, 14), (128, 15), (146, 16),
   (163, 17), (182, 18), (201, 19), (222, 20), (243, 21), (266, 22), (289, 23), (314, 24),
   (339, 25), (366, 26), (393, 27), (422, 28), (451, 29), (482, 30), (513, 31), (546, 32),
   (579, 33), (614, 34), (649, 35), (686, 36), (723, 37), (762, 38), (801, 39), (842, 40),
   (883, 41), (926, 42), (969, 43), (1014, 44), (1059, 45), (1106, 46), (1153, 47), (1202, 48),
   (1251, 49), (1302, 50), (1353, 51), (1406, 52), (1459, 53), (1514, 54), (1569, 55), (1626, 56),
   (1683, 57), (1742, 58), (1801, 59), (1862, 60), (1923, 61), (1986, 62), (2049, 63), (2114, 64),
   (2179, 65), (2246, 66), (2313, 67), (2382, 68), (2451, 69), (2522, 70), (2593, 71), (2666, 72),
   (2739, 73), (2814, 74), (2889, 75), (2966, 76), (3043, 77), (3122, 78), (3201, 79), (3282, 80),
   (3363, 81), (3446, 82), (3529, 83), (3614, 84), (3699, 85), (3786, 86), (3873, 87), (3962, 88),
   (4051, 89), (4142, 90), (4233, 91), (4326, 92), (4419, 93), (4514, 94), (4609, 95), (4706, 96),
   (4803, 97), (4902, 98), (5001, 99), (5102, 100), (5203, 101), (5306, 102), (5409, 103), (5514, 104),
   (5619, 105), (5726, 106), (5833, 107), (5942, 108), (6051, 109), (6162, 110), (6273, 111), (6386, 112),
   (6499, 113), (6614, 114), (6729, 115), (6846, 116), (6963, 117), (7082, 118), (7201, 119), (7322, 120),
   (7443, 121), (7566, 122), (7689, 123), (7814, 124), (7939, 125)]

/-- `s2/womersley/womersley_<n>.hpp`: declared sizes `(n, points, weights)` of the grids used by
`generate`. -/
def woDeclared : List (Nat × Nat × Nat) := [
   (3, 3, 3), (6, 6, 6), (8, 8, 8), (14, 14, 14), (18, 18, 18),
   (26, 26, 26), (32, 32, 32), (42, 42, 42), (50, 50, 50), (62, 62, 62),
   (72, 72, 72), (86, 86, 86), (98, 98, 98), (114, 114, 114), (128, 128, 128),
   (146, 146, 146), (163, 163, 163), (182, 182, 182), (201, 201, 201), (222, 222, 222),
   (243, 243, 243), (266, 266, 266), (289, 289, 289), (314, 314, 314), (339, 339, 339),
   (366, 366, 366), (393, 393, 393), (422, 422, 422), (451, 451, 451), (482, 482, 482),
   (513, 513, 513), (546, 546, 546), (579, 579, 579), (614, 614, 614), (649, 649, 649),
   (686, 686, 686), (723, 723, 723), (762, 762, 762), (801, 801, 801), (842, 842, 842),
   (883, 883, 883), (926, 926, 926), (969, 969, 969), (1014, 1014, 1014), (1059, 1059, 1059),
   (1106, 1106, 1106), (1153, 1153, 1153), (1202, 1202, 1202), (1251, 1251, 1251), (1302, 1302, 1302),
   (1353, 1353, 1353), (1406, 1406, 1406), (1459, 1459, 1459), (1514, 1514, 1514), (1569, 1569, 1569),
   (1626, 1626, 1626), (1683, 1683, 1683), (1742, 1742, 1742), (1801, 1801, 1801), (1862, 1862, 1862),
   (1923, 1923, 1923), (1986, 1986, 1986), (2049, 2049, 2049), (2114, 2114, 2114), (2179, 2179, 2179),
   (2246, 2246, 2246), (2313, 2313, 2313), (2382, 2382, 2382), (2451, 2451, 2451), (2522, 2522, 2522),
   (2593, 2593, 2593), (2666, 2666, 2666), (2739, 2739, 2739), (2814, 2814, 2814), (2889, 2889, 2889),
   (2966, 2966, 2966), (3043, 3043, 3043), (3122, 3122, 3122), (3201, 3201, 3201), (3282, 3282, 3282),
   (3363, 3363, 3363), (3446, 3446, 3446), (3529, 3529, 3529), (3614, 3614, 3614), (3699, 3699, 3699),
   (3786, 3786, 3786), (3873, 3873, 3873), (3962, 3962, 3962), (4051, 4051, 4051), (4142, 4142, 4142),
   (4233, 4233, 4233), (4326, 4326, 4326), (4419, 4419, 4419), (4514, 4514, 4514), (4609, 4609, 4609),
   (4706, 4706, 4706), (4803, 4803, 4803), (4902, 4902, 4902), (5001, 5001, 5001), (5102, 5102, 5102),
   (5203, 5203, 5203), (5306, 5306, 5306), (5409, 5409, 5409), (5514, 5514, 5514), (5619, 5619, 5619),
   (5726, 5726, 5726), (5833, 5833, 5833), (5942, 5942, 5942), (6051, 6051, 6051), (6162, 6162, 6162),
   (6273, 6273, 6273), (6386, 6386, 6386), (6499, 6499, 6499), (6614, 6614, 6614), (6729, 6729, 6729),
   (6846, 6846, 6846), (6963, 6963, 6963), (7082, 7082, 7082), (7201, 7201, 7201), (7322, 7322, 7322),
   (7443, 7443, 7443), (7566, 7566, 7566), (7689, 7689, 7689), (7814, 7814, 7814), (7939, 7939, 7939)]

end Tables
end IntegratorXX
