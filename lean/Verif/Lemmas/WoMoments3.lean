import Verif.Model.Womersley.Part01
import Verif.Model.Womersley.Part03
import Verif.Model.Womersley.Part04
import Verif.Model.Womersley.Part05
import Verif.Model.Womersley.Part07
import Verif.Model.Womersley.Part09
import Verif.Model.Womersley.Part10
import Verif.Model.Womersley.Part13
import Verif.Lemmas.WoBlock

/-!
# Moments of the tabulated Womersley grids, part 3

Generated: each theorem evaluates integer inequalities for one grid.
-/

set_option maxRecDepth 200000
set_option Elab.async false

namespace IntegratorXX
open Tables

/-- `s2/womersley/womersley_32.hpp`, order 7. -/
theorem woBase32 : WoBase woGrid32 :=
  ⟨⟨by decide, by decide, by decide, by decide⟩, by decide +kernel⟩

theorem woBlock32_0 : woBlock woGrid32 7 4 4 0 [] = true := by
  decide +kernel

theorem woExact32 : ReducedExact (woGrid woGrid32 : StaticGrid ℝ).points
    (woGrid woGrid32 : StaticGrid ℝ).weights 7 (5 / 10 ^ 14) :=
  woBlocks_exact [(4, 4, [])]
    woBase32 (by decide) ⟨woBlock32_0, trivial⟩

/-- `s2/womersley/womersley_222.hpp`, order 20. -/
theorem woBase222 : WoBase woGrid222 :=
  ⟨⟨by decide, by decide, by decide, by decide⟩, by decide +kernel⟩

theorem woBlock222_0 : woBlock woGrid222 20 11 11 0 [] = true := by
  decide +kernel

theorem woExact222 : ReducedExact (woGrid woGrid222 : StaticGrid ℝ).points
    (woGrid woGrid222 : StaticGrid ℝ).weights 20 (5 / 10 ^ 14) :=
  woBlocks_exact [(11, 11, [])]
    woBase222 (by decide) ⟨woBlock222_0, trivial⟩

/-- `s2/womersley/womersley_393.hpp`, order 27. -/
theorem woBase393 : WoBase woGrid393 :=
  ⟨⟨by decide, by decide, by decide, by decide⟩, by decide +kernel⟩

theorem woBlock393_0 : woBlock woGrid393 27 14 14 0 [] = true := by
  decide +kernel

theorem woExact393 : ReducedExact (woGrid woGrid393 : StaticGrid ℝ).points
    (woGrid woGrid393 : StaticGrid ℝ).weights 27 (5 / 10 ^ 14) :=
  woBlocks_exact [(14, 14, [])]
    woBase393 (by decide) ⟨woBlock393_0, trivial⟩

/-- `s2/womersley/womersley_579.hpp`, order 33. -/
theorem woBase579 : WoBase woGrid579 :=
  ⟨⟨by decide, by decide, by decide, by decide⟩, by decide +kernel⟩

theorem woBlock579_0 : woBlock woGrid579 33 17 17 0 [] = true := by
  decide +kernel

theorem woExact579 : ReducedExact (woGrid woGrid579 : StaticGrid ℝ).points
    (woGrid woGrid579 : StaticGrid ℝ).weights 33 (5 / 10 ^ 14) :=
  woBlocks_exact [(17, 17, [])]
    woBase579 (by decide) ⟨woBlock579_0, trivial⟩

/-- `s2/womersley/womersley_883.hpp`, order 41. -/
theorem woBase883 : WoBase woGrid883 :=
  ⟨⟨by decide, by decide, by decide, by decide⟩, by decide +kernel⟩

theorem woBlock883_0 : woBlock woGrid883 41 21 21 0 [] = true := by
  decide +kernel

theorem woExact883 : ReducedExact (woGrid woGrid883 : StaticGrid ℝ).points
    (woGrid woGrid883 : StaticGrid ℝ).weights 41 (5 / 10 ^ 14) :=
  woBlocks_exact [(21, 21, [])]
    woBase883 (by decide) ⟨woBlock883_0, trivial⟩

/-- `s2/womersley/womersley_1302.hpp`, order 50. -/
theorem woBase1302 : WoBase woGrid1302 :=
  ⟨⟨by decide, by decide, by decide, by decide⟩, by decide +kernel⟩

theorem woBlock1302_0 : woBlock woGrid1302 50 26 26 0 [] = true := by
  decide +kernel

theorem woExact1302 : ReducedExact (woGrid woGrid1302 : StaticGrid ℝ).points
    (woGrid woGrid1302 : StaticGrid ℝ).weights 50 (5 / 10 ^ 14) :=
  woBlocks_exact [(26, 26, [])]
    woBase1302 (by decide) ⟨woBlock1302_0, trivial⟩

/-- `s2/womersley/womersley_1514.hpp`, order 54. -/
theorem woBase1514 : WoBase woGrid1514 :=
  ⟨⟨by decide, by decide, by decide, by decide⟩, by decide +kernel⟩

theorem woBlock1514_0 : woBlock woGrid1514 54 28 28 0 [] = true := by
  decide +kernel

theorem woExact1514 : ReducedExact (woGrid woGrid1514 : StaticGrid ℝ).points
    (woGrid woGrid1514 : StaticGrid ℝ).weights 54 (5 / 10 ^ 14) :=
  woBlocks_exact [(28, 28, [])]
    woBase1514 (by decide) ⟨woBlock1514_0, trivial⟩

/-- `s2/womersley/womersley_2451.hpp`, order 69. -/
theorem woBase2451 : WoBase woGrid2451 :=
  ⟨⟨by decide, by decide, by decide, by decide⟩, by decide +kernel⟩

theorem woBlock2451_0 : woBlock woGrid2451 69 35 35 0 [] = true := by
  decide +kernel

theorem woExact2451 : ReducedExact (woGrid woGrid2451 : StaticGrid ℝ).points
    (woGrid woGrid2451 : StaticGrid ℝ).weights 69 (5 / 10 ^ 14) :=
  woBlocks_exact [(35, 35, [])]
    woBase2451 (by decide) ⟨woBlock2451_0, trivial⟩

/-- `s2/womersley/womersley_2666.hpp`, order 72. -/
theorem woBase2666 : WoBase woGrid2666 :=
  ⟨⟨by decide, by decide, by decide, by decide⟩, by decide +kernel⟩

theorem woBlock2666_0 : woBlock woGrid2666 72 37 37 0 [] = true := by
  decide +kernel

theorem woExact2666 : ReducedExact (woGrid woGrid2666 : StaticGrid ℝ).points
    (woGrid woGrid2666 : StaticGrid ℝ).weights 72 (5 / 10 ^ 14) :=
  woBlocks_exact [(37, 37, [])]
    woBase2666 (by decide) ⟨woBlock2666_0, trivial⟩

/-- `s2/womersley/womersley_3529.hpp`, order 83. -/
theorem woBase3529 : WoBase woGrid3529 :=
  ⟨⟨by decide, by decide, by decide, by decide⟩, by decide +kernel⟩

theorem woBlock3529_0 : woBlock woGrid3529 83 42 21 0 [] = true := by
  decide +kernel

theorem woBlock3529_1 : woBlock woGrid3529 83 21 21 21 [true, false, true, false, true] = true := by
  decide +kernel

theorem woExact3529 : ReducedExact (woGrid woGrid3529 : StaticGrid ℝ).points
    (woGrid woGrid3529 : StaticGrid ℝ).weights 83 (5 / 10 ^ 14) :=
  woBlocks_exact [(42, 21, []), (21, 21, [true, false, true, false, true])]
    woBase3529 (by decide) ⟨woBlock3529_0, woBlock3529_1, trivial⟩

/-- `s2/womersley/womersley_4051.hpp`, order 89. -/
theorem woBase4051 : WoBase woGrid4051 :=
  ⟨⟨by decide, by decide, by decide, by decide⟩, by decide +kernel⟩

theorem woBlock4051_0 : woBlock woGrid4051 89 45 23 0 [] = true := by
  decide +kernel

theorem woBlock4051_1 : woBlock woGrid4051 89 22 22 23 [true, true, true, false, true] = true := by
  decide +kernel

theorem woExact4051 : ReducedExact (woGrid woGrid4051 : StaticGrid ℝ).points
    (woGrid woGrid4051 : StaticGrid ℝ).weights 89 (5 / 10 ^ 14) :=
  woBlocks_exact [(45, 23, []), (22, 22, [true, true, true, false, true])]
    woBase4051 (by decide) ⟨woBlock4051_0, woBlock4051_1, trivial⟩

/-- `s2/womersley/womersley_4902.hpp`, order 98. -/
theorem woBase4902 : WoBase woGrid4902 :=
  ⟨⟨by decide, by decide, by decide, by decide⟩, by decide +kernel⟩

theorem woBlock4902_0 : woBlock woGrid4902 98 50 21 0 [] = true := by
  decide +kernel

theorem woBlock4902_1 : woBlock woGrid4902 98 29 29 21 [true, false, true, false, true] = true := by
  decide +kernel

theorem woExact4902 : ReducedExact (woGrid woGrid4902 : StaticGrid ℝ).points
    (woGrid woGrid4902 : StaticGrid ℝ).weights 98 (5 / 10 ^ 14) :=
  woBlocks_exact [(50, 21, []), (29, 29, [true, false, true, false, true])]
    woBase4902 (by decide) ⟨woBlock4902_0, woBlock4902_1, trivial⟩

/-- `s2/womersley/womersley_5833.hpp`, order 107. -/
theorem woBase5833 : WoBase woGrid5833 :=
  ⟨⟨by decide, by decide, by decide, by decide⟩, by decide +kernel⟩

theorem woBlock5833_0 : woBlock woGrid5833 107 54 16 0 [] = true := by
  decide +kernel

theorem woBlock5833_1 : woBlock woGrid5833 107 38 19 16 [false, false, false, false, true] = true := by
  decide +kernel

theorem woBlock5833_2 : woBlock woGrid5833 107 19 19 35 [true, true, false, false, false, true] = true := by
  decide +kernel

theorem woExact5833 : ReducedExact (woGrid woGrid5833 : StaticGrid ℝ).points
    (woGrid woGrid5833 : StaticGrid ℝ).weights 107 (5 / 10 ^ 14) :=
  woBlocks_exact [(54, 16, []), (38, 19, [false, false, false, false, true]),
    (19, 19, [true, true, false, false, false, true])]
    woBase5833 (by decide) ⟨woBlock5833_0, woBlock5833_1, woBlock5833_2, trivial⟩

/-- `s2/womersley/womersley_6386.hpp`, order 112. -/
theorem woBase6386 : WoBase woGrid6386 :=
  ⟨⟨by decide, by decide, by decide, by decide⟩, by decide +kernel⟩

theorem woBlock6386_0 : woBlock woGrid6386 112 57 14 0 [] = true := by
  decide +kernel

theorem woBlock6386_1 : woBlock woGrid6386 112 43 18 14 [false, true, true, true] = true := by
  decide +kernel

theorem woBlock6386_2 : woBlock woGrid6386 112 25 25 32 [false, false, false, false, false, true] = true := by
  decide +kernel

theorem woExact6386 : ReducedExact (woGrid woGrid6386 : StaticGrid ℝ).points
    (woGrid woGrid6386 : StaticGrid ℝ).weights 112 (5 / 10 ^ 14) :=
  woBlocks_exact [(57, 14, []), (43, 18, [false, true, true, true]),
    (25, 25, [false, false, false, false, false, true])]
    woBase6386 (by decide) ⟨woBlock6386_0, woBlock6386_1, woBlock6386_2, trivial⟩

/-- `s2/womersley/womersley_7689.hpp`, order 123. -/
theorem woBase7689 : WoBase woGrid7689 :=
  ⟨⟨by decide, by decide, by decide, by decide⟩, by decide +kernel⟩

theorem woBlock7689_0 : woBlock woGrid7689 123 62 10 0 [] = true := by
  decide +kernel

theorem woBlock7689_1 : woBlock woGrid7689 123 52 13 10 [false, true, false, true] = true := by
  decide +kernel

theorem woBlock7689_2 : woBlock woGrid7689 123 39 17 23 [true, true, true, false, true] = true := by
  decide +kernel

theorem woBlock7689_3 : woBlock woGrid7689 123 22 22 40 [false, false, false, true, false, true] = true := by
  decide +kernel

theorem woExact7689 : ReducedExact (woGrid woGrid7689 : StaticGrid ℝ).points
    (woGrid woGrid7689 : StaticGrid ℝ).weights 123 (5 / 10 ^ 14) :=
  woBlocks_exact [(62, 10, []), (52, 13, [false, true, false, true]),
    (39, 17, [true, true, true, false, true]), (22, 22, [false, false, false, true, false, true])]
    woBase7689 (by decide) ⟨woBlock7689_0, woBlock7689_1, woBlock7689_2, woBlock7689_3, trivial⟩

end IntegratorXX
