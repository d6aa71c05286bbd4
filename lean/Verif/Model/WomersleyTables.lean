import Verif.Model.Womersley.Part01
import Verif.Model.Womersley.Part02
import Verif.Model.Womersley.Part03
import Verif.Model.Womersley.Part04
import Verif.Model.Womersley.Part05
import Verif.Model.Womersley.Part06
import Verif.Model.Womersley.Part07
import Verif.Model.Womersley.Part08
import Verif.Model.Womersley.Part09
import Verif.Model.Womersley.Part10
import Verif.Model.Womersley.Part11
import Verif.Model.Womersley.Part12
import Verif.Model.Womersley.Part13
import Verif.Model.Womersley.Part14
import Verif.Model.Womersley.Base

/-!
# All Womersley grids
-/

namespace IntegratorXX

namespace Tables

/-- All grids of `s2/womersley/`, by number of points.
Included at `womersley.hpp:6`. -/
def woGrids : List (Nat × WoGrid) := [
   (3, woGrid3), (6, woGrid6), (8, woGrid8), (14, woGrid14), (18, woGrid18),
   (26, woGrid26), (32, woGrid32), (42, woGrid42), (50, woGrid50), (62, woGrid62),
   (72, woGrid72), (86, woGrid86), (98, woGrid98), (114, woGrid114), (128, woGrid128),
   (146, woGrid146), (163, woGrid163), (182, woGrid182), (201, woGrid201), (222, woGrid222),
   (243, woGrid243), (266, woGrid266), (289, woGrid289), (314, woGrid314), (339, woGrid339),
   (366, woGrid366), (393, woGrid393), (422, woGrid422), (451, woGrid451), (482, woGrid482),
   (513, woGrid513), (546, woGrid546), (579, woGrid579), (614, woGrid614), (649, woGrid649),
   (686, woGrid686), (723, woGrid723), (762, woGrid762), (801, woGrid801), (842, woGrid842),
   (883, woGrid883), (926, woGrid926), (969, woGrid969), (1014, woGrid1014), (1059, woGrid1059),
   (1106, woGrid1106), (1153, woGrid1153), (1202, woGrid1202), (1251, woGrid1251), (1302, woGrid1302),
   (1353, woGrid1353), (1406, woGrid1406), (1459, woGrid1459), (1514, woGrid1514), (1569, woGrid1569),
   (1626, woGrid1626), (1683, woGrid1683), (1742, woGrid1742), (1801, woGrid1801), (1862, woGrid1862),
   (1923, woGrid1923), (1986, woGrid1986), (2049, woGrid2049), (2114, woGrid2114), (2179, woGrid2179),
   (2246, woGrid2246), (2313, woGrid2313), (2382, woGrid2382), (2451, woGrid2451), (2522, woGrid2522),
   (2593, woGrid2593), (2666, woGrid2666), (2739, woGrid2739), (2814, woGrid2814), (2889, woGrid2889),
   (2966, woGrid2966), (3043, woGrid3043), (3122, woGrid3122), (3201, woGrid3201), (3282, woGrid3282),
   (3363, woGrid3363), (3446, woGrid3446), (3529, woGrid3529), (3614, woGrid3614), (3699, woGrid3699),
   (3786, woGrid3786), (3873, woGrid3873), (3962, woGrid3962), (4051, woGrid4051), (4142, woGrid4142),
   (4233, woGrid4233), (4326, woGrid4326), (4419, woGrid4419), (4514, woGrid4514), (4609, woGrid4609),
   (4706, woGrid4706), (4803, woGrid4803), (4902, woGrid4902), (5001, woGrid5001), (5102, woGrid5102),
   (5203, woGrid5203), (5306, woGrid5306), (5409, woGrid5409), (5514, woGrid5514), (5619, woGrid5619),
   (5726, woGrid5726), (5833, woGrid5833), (5942, woGrid5942), (6051, woGrid6051), (6162, woGrid6162),
   (6273, woGrid6273), (6386, woGrid6386), (6499, woGrid6499), (6614, woGrid6614), (6729, woGrid6729),
   (6846, woGrid6846), (6963, woGrid6963), (7082, woGrid7082), (7201, woGrid7201), (7322, woGrid7322),
   (7443, woGrid7443), (7566, woGrid7566), (7689, woGrid7689), (7814, woGrid7814), (7939, woGrid7939)]

end Tables

end IntegratorXX
