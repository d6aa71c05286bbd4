import Verif.Model.Womersley.Part01
import Verif.Model.Womersley.Part02
import Verif.Model.Womersley.Part03
import Verif.Model.Womersley.Part04
import Verif.Model.Womersley.Part05
import Verif.Model.Womersley.Part06
import Verif.Model.Womersley.Part07
import Verif.Model.Womersley.Part09
import Verif.Model.Womersley.Part14
import Verif.Lemmas.WoBlock

/-!
# Moments of the tabulated Womersley grids, part 1

Generated: each theorem evaluates integer inequalities for one grid.
-/

set_option maxRecDepth 200000
set_option Elab.async false

namespace IntegratorXX
open Tables

/-- `s2/womersley/womersley_98.hpp`, order 13. -/
theorem woBase98 : WoBase woGrid98 :=
  ⟨⟨by decide, by decide, by decide, by decide⟩, by decide +kernel⟩

theorem woBlock98_0 : woBlock woGrid98 13 7 7 0 [] = true := by
  decide +kernel

theorem woExact98 : ReducedExact (woGrid woGrid98 : StaticGrid ℝ).points
    (woGrid woGrid98 : StaticGrid ℝ).weights 13 (5 / 10 ^ 14) :=
  woBlocks_exact [(7, 7, [])]
    woBase98 (by decide) ⟨woBlock98_0, trivial⟩

/-- `s2/womersley/womersley_114.hpp`, order 14. -/
theorem woBase114 : WoBase woGrid114 :=
  ⟨⟨by decide, by decide, by decide, by decide⟩, by decide +kernel⟩

theorem woBlock114_0 : woBlock woGrid114 14 8 8 0 [] = true := by
  decide +kernel

theorem woExact114 : ReducedExact (woGrid woGrid114 : StaticGrid ℝ).points
    (woGrid woGrid114 : StaticGrid ℝ).weights 14 (5 / 10 ^ 14) :=
  woBlocks_exact [(8, 8, [])]
    woBase114 (by decide) ⟨woBlock114_0, trivial⟩

/-- `s2/womersley/womersley_289.hpp`, order 23. -/
theorem woBase289 : WoBase woGrid289 :=
  ⟨⟨by decide, by decide, by decide, by decide⟩, by decide +kernel⟩

theorem woBlock289_0 : woBlock woGrid289 23 12 12 0 [] = true := by
  decide +kernel

theorem woExact289 : ReducedExact (woGrid woGrid289 : StaticGrid ℝ).points
    (woGrid woGrid289 : StaticGrid ℝ).weights 23 (5 / 10 ^ 14) :=
  woBlocks_exact [(12, 12, [])]
    woBase289 (by decide) ⟨woBlock289_0, trivial⟩

/-- `s2/womersley/womersley_686.hpp`, order 36. -/
theorem woBase686 : WoBase woGrid686 :=
  ⟨⟨by decide, by decide, by decide, by decide⟩, by decide +kernel⟩

theorem woBlock686_0 : woBlock woGrid686 36 19 19 0 [] = true := by
  decide +kernel

theorem woExact686 : ReducedExact (woGrid woGrid686 : StaticGrid ℝ).points
    (woGrid woGrid686 : StaticGrid ℝ).weights 36 (5 / 10 ^ 14) :=
  woBlocks_exact [(19, 19, [])]
    woBase686 (by decide) ⟨woBlock686_0, trivial⟩

/-- `s2/womersley/womersley_762.hpp`, order 38. -/
theorem woBase762 : WoBase woGrid762 :=
  ⟨⟨by decide, by decide, by decide, by decide⟩, by decide +kernel⟩

theorem woBlock762_0 : woBlock woGrid762 38 20 20 0 [] = true := by
  decide +kernel

theorem woExact762 : ReducedExact (woGrid woGrid762 : StaticGrid ℝ).points
    (woGrid woGrid762 : StaticGrid ℝ).weights 38 (5 / 10 ^ 14) :=
  woBlocks_exact [(20, 20, [])]
    woBase762 (by decide) ⟨woBlock762_0, trivial⟩

/-- `s2/womersley/womersley_1459.hpp`, order 53. -/
theorem woBase1459 : WoBase woGrid1459 :=
  ⟨⟨by decide, by decide, by decide, by decide⟩, by decide +kernel⟩

theorem woBlock1459_0 : woBlock woGrid1459 53 27 27 0 [] = true := by
  decide +kernel

theorem woExact1459 : ReducedExact (woGrid woGrid1459 : StaticGrid ℝ).points
    (woGrid woGrid1459 : StaticGrid ℝ).weights 53 (5 / 10 ^ 14) :=
  woBlocks_exact [(27, 27, [])]
    woBase1459 (by decide) ⟨woBlock1459_0, trivial⟩

/-- `s2/womersley/womersley_1683.hpp`, order 57. -/
theorem woBase1683 : WoBase woGrid1683 :=
  ⟨⟨by decide, by decide, by decide, by decide⟩, by decide +kernel⟩

theorem woBlock1683_0 : woBlock woGrid1683 57 29 29 0 [] = true := by
  decide +kernel

theorem woExact1683 : ReducedExact (woGrid woGrid1683 : StaticGrid ℝ).points
    (woGrid woGrid1683 : StaticGrid ℝ).weights 57 (5 / 10 ^ 14) :=
  woBlocks_exact [(29, 29, [])]
    woBase1683 (by decide) ⟨woBlock1683_0, trivial⟩

/-- `s2/womersley/womersley_2246.hpp`, order 66. -/
theorem woBase2246 : WoBase woGrid2246 :=
  ⟨⟨by decide, by decide, by decide, by decide⟩, by decide +kernel⟩

theorem woBlock2246_0 : woBlock woGrid2246 66 34 34 0 [] = true := by
  decide +kernel

theorem woExact2246 : ReducedExact (woGrid woGrid2246 : StaticGrid ℝ).points
    (woGrid woGrid2246 : StaticGrid ℝ).weights 66 (5 / 10 ^ 14) :=
  woBlocks_exact [(34, 34, [])]
    woBase2246 (by decide) ⟨woBlock2246_0, trivial⟩

/-- `s2/womersley/womersley_2593.hpp`, order 71. -/
theorem woBase2593 : WoBase woGrid2593 :=
  ⟨⟨by decide, by decide, by decide, by decide⟩, by decide +kernel⟩

theorem woBlock2593_0 : woBlock woGrid2593 71 36 36 0 [] = true := by
  decide +kernel

theorem woExact2593 : ReducedExact (woGrid woGrid2593 : StaticGrid ℝ).points
    (woGrid woGrid2593 : StaticGrid ℝ).weights 71 (5 / 10 ^ 14) :=
  woBlocks_exact [(36, 36, [])]
    woBase2593 (by decide) ⟨woBlock2593_0, trivial⟩

/-- `s2/womersley/womersley_3614.hpp`, order 84. -/
theorem woBase3614 : WoBase woGrid3614 :=
  ⟨⟨by decide, by decide, by decide, by decide⟩, by decide +kernel⟩

theorem woBlock3614_0 : woBlock woGrid3614 84 43 21 0 [] = true := by
  decide +kernel

theorem woBlock3614_1 : woBlock woGrid3614 84 22 22 21 [true, false, true, false, true] = true := by
  decide +kernel

theorem woExact3614 : ReducedExact (woGrid woGrid3614 : StaticGrid ℝ).points
    (woGrid woGrid3614 : StaticGrid ℝ).weights 84 (5 / 10 ^ 14) :=
  woBlocks_exact [(43, 21, []), (22, 22, [true, false, true, false, true])]
    woBase3614 (by decide) ⟨woBlock3614_0, woBlock3614_1, trivial⟩

/-- `s2/womersley/womersley_4233.hpp`, order 91. -/
theorem woBase4233 : WoBase woGrid4233 :=
  ⟨⟨by decide, by decide, by decide, by decide⟩, by decide +kernel⟩

theorem woBlock4233_0 : woBlock woGrid4233 91 46 23 0 [] = true := by
  decide +kernel

theorem woBlock4233_1 : woBlock woGrid4233 91 23 23 23 [true, true, true, false, true] = true := by
  decide +kernel

theorem woExact4233 : ReducedExact (woGrid woGrid4233 : StaticGrid ℝ).points
    (woGrid woGrid4233 : StaticGrid ℝ).weights 91 (5 / 10 ^ 14) :=
  woBlocks_exact [(46, 23, []), (23, 23, [true, true, true, false, true])]
    woBase4233 (by decide) ⟨woBlock4233_0, woBlock4233_1, trivial⟩

/-- `s2/womersley/womersley_4706.hpp`, order 96. -/
theorem woBase4706 : WoBase woGrid4706 :=
  ⟨⟨by decide, by decide, by decide, by decide⟩, by decide +kernel⟩

theorem woBlock4706_0 : woBlock woGrid4706 96 49 22 0 [] = true := by
  decide +kernel

theorem woBlock4706_1 : woBlock woGrid4706 96 27 27 22 [false, true, true, false, true] = true := by
  decide +kernel

theorem woExact4706 : ReducedExact (woGrid woGrid4706 : StaticGrid ℝ).points
    (woGrid woGrid4706 : StaticGrid ℝ).weights 96 (5 / 10 ^ 14) :=
  woBlocks_exact [(49, 22, []), (27, 27, [false, true, true, false, true])]
    woBase4706 (by decide) ⟨woBlock4706_0, woBlock4706_1, trivial⟩

/-- `s2/womersley/womersley_5306.hpp`, order 102. -/
theorem woBase5306 : WoBase woGrid5306 :=
  ⟨⟨by decide, by decide, by decide, by decide⟩, by decide +kernel⟩

theorem woBlock5306_0 : woBlock woGrid5306 102 52 17 0 [] = true := by
  decide +kernel

theorem woBlock5306_1 : woBlock woGrid5306 102 35 17 17 [true, false, false, false, true] = true := by
  decide +kernel

theorem woBlock5306_2 : woBlock woGrid5306 102 18 18 34 [false, true, false, false, false, true] = true := by
  decide +kernel

theorem woExact5306 : ReducedExact (woGrid woGrid5306 : StaticGrid ℝ).points
    (woGrid woGrid5306 : StaticGrid ℝ).weights 102 (5 / 10 ^ 14) :=
  woBlocks_exact [(52, 17, []), (35, 17, [true, false, false, false, true]),
    (18, 18, [false, true, false, false, false, true])]
    woBase5306 (by decide) ⟨woBlock5306_0, woBlock5306_1, woBlock5306_2, trivial⟩

/-- `s2/womersley/womersley_6162.hpp`, order 110. -/
theorem woBase6162 : WoBase woGrid6162 :=
  ⟨⟨by decide, by decide, by decide, by decide⟩, by decide +kernel⟩

theorem woBlock6162_0 : woBlock woGrid6162 110 56 15 0 [] = true := by
  decide +kernel

theorem woBlock6162_1 : woBlock woGrid6162 110 41 20 15 [true, true, true, true] = true := by
  decide +kernel

theorem woBlock6162_2 : woBlock woGrid6162 110 21 21 35 [true, true, false, false, false, true] = true := by
  decide +kernel

theorem woExact6162 : ReducedExact (woGrid woGrid6162 : StaticGrid ℝ).points
    (woGrid woGrid6162 : StaticGrid ℝ).weights 110 (5 / 10 ^ 14) :=
  woBlocks_exact [(56, 15, []), (41, 20, [true, true, true, true]),
    (21, 21, [true, true, false, false, false, true])]
    woBase6162 (by decide) ⟨woBlock6162_0, woBlock6162_1, woBlock6162_2, trivial⟩

/-- `s2/womersley/womersley_7939.hpp`, order 125. -/
theorem woBase7939 : WoBase woGrid7939 :=
  ⟨⟨by decide, by decide, by decide, by decide⟩, by decide +kernel⟩

theorem woBlock7939_0 : woBlock woGrid7939 125 63 10 0 [] = true := by
  decide +kernel

theorem woBlock7939_1 : woBlock woGrid7939 125 53 12 10 [false, true, false, true] = true := by
  decide +kernel

theorem woBlock7939_2 : woBlock woGrid7939 125 41 13 22 [false, true, true, false, true] = true := by
  decide +kernel

theorem woBlock7939_3 : woBlock woGrid7939 125 28 14 35 [true, true, false, false, false, true] = true := by
  decide +kernel

theorem woBlock7939_4 : woBlock woGrid7939 125 14 14 49 [true, false, false, false, true, true] = true := by
  decide +kernel

theorem woExact7939 : ReducedExact (woGrid woGrid7939 : StaticGrid ℝ).points
    (woGrid woGrid7939 : StaticGrid ℝ).weights 125 (5 / 10 ^ 14) :=
  woBlocks_exact [(63, 10, []), (53, 12, [false, true, false, true]),
    (41, 13, [false, true, true, false, true]), (28, 14, [true, true, false, false, false, true]),
    (14, 14, [true, false, false, false, true, true])]
    woBase7939 (by decide) ⟨woBlock7939_0, woBlock7939_1, woBlock7939_2, woBlock7939_3, woBlock7939_4, trivial⟩

end IntegratorXX
