import Verif.Model.Womersley.Part01
import Verif.Model.Womersley.Part02
import Verif.Model.Womersley.Part03
import Verif.Model.Womersley.Part04
import Verif.Model.Womersley.Part05
import Verif.Model.Womersley.Part06
import Verif.Model.Womersley.Part09
import Verif.Model.Womersley.Part10
import Verif.Model.Womersley.Part13
import Verif.Lemmas.WoBlock

/-!
# Moments of the tabulated Womersley grids, part 5

Generated: each theorem evaluates integer inequalities for one grid.
-/

set_option maxRecDepth 200000
set_option Elab.async false

namespace IntegratorXX
open Tables

/-- `s2/womersley/womersley_18.hpp`, order 5. -/
theorem woBase18 : WoBase woGrid18 :=
  ⟨⟨by decide, by decide, by decide, by decide⟩, by decide +kernel⟩

theorem woBlock18_0 : woBlock woGrid18 5 3 3 0 [] = true := by
  decide +kernel

theorem woExact18 : ReducedExact (woGrid woGrid18 : StaticGrid ℝ).points
    (woGrid woGrid18 : StaticGrid ℝ).weights 5 (5 / 10 ^ 14) :=
  woBlocks_exact [(3, 3, [])]
    woBase18 (by decide) ⟨woBlock18_0, trivial⟩

/-- `s2/womersley/womersley_50.hpp`, order 9. -/
theorem woBase50 : WoBase woGrid50 :=
  ⟨⟨by decide, by decide, by decide, by decide⟩, by decide +kernel⟩

theorem woBlock50_0 : woBlock woGrid50 9 5 5 0 [] = true := by
  decide +kernel

theorem woExact50 : ReducedExact (woGrid woGrid50 : StaticGrid ℝ).points
    (woGrid woGrid50 : StaticGrid ℝ).weights 9 (5 / 10 ^ 14) :=
  woBlocks_exact [(5, 5, [])]
    woBase50 (by decide) ⟨woBlock50_0, trivial⟩

/-- `s2/womersley/womersley_182.hpp`, order 18. -/
theorem woBase182 : WoBase woGrid182 :=
  ⟨⟨by decide, by decide, by decide, by decide⟩, by decide +kernel⟩

theorem woBlock182_0 : woBlock woGrid182 18 10 10 0 [] = true := by
  decide +kernel

theorem woExact182 : ReducedExact (woGrid woGrid182 : StaticGrid ℝ).points
    (woGrid woGrid182 : StaticGrid ℝ).weights 18 (5 / 10 ^ 14) :=
  woBlocks_exact [(10, 10, [])]
    woBase182 (by decide) ⟨woBlock182_0, trivial⟩

/-- `s2/womersley/womersley_422.hpp`, order 28. -/
theorem woBase422 : WoBase woGrid422 :=
  ⟨⟨by decide, by decide, by decide, by decide⟩, by decide +kernel⟩

theorem woBlock422_0 : woBlock woGrid422 28 15 15 0 [] = true := by
  decide +kernel

theorem woExact422 : ReducedExact (woGrid woGrid422 : StaticGrid ℝ).points
    (woGrid woGrid422 : StaticGrid ℝ).weights 28 (5 / 10 ^ 14) :=
  woBlocks_exact [(15, 15, [])]
    woBase422 (by decide) ⟨woBlock422_0, trivial⟩

/-- `s2/womersley/womersley_513.hpp`, order 31. -/
theorem woBase513 : WoBase woGrid513 :=
  ⟨⟨by decide, by decide, by decide, by decide⟩, by decide +kernel⟩

theorem woBlock513_0 : woBlock woGrid513 31 16 16 0 [] = true := by
  decide +kernel

theorem woExact513 : ReducedExact (woGrid woGrid513 : StaticGrid ℝ).points
    (woGrid woGrid513 : StaticGrid ℝ).weights 31 (5 / 10 ^ 14) :=
  woBlocks_exact [(16, 16, [])]
    woBase513 (by decide) ⟨woBlock513_0, trivial⟩

/-- `s2/womersley/womersley_1014.hpp`, order 44. -/
theorem woBase1014 : WoBase woGrid1014 :=
  ⟨⟨by decide, by decide, by decide, by decide⟩, by decide +kernel⟩

theorem woBlock1014_0 : woBlock woGrid1014 44 23 23 0 [] = true := by
  decide +kernel

theorem woExact1014 : ReducedExact (woGrid woGrid1014 : StaticGrid ℝ).points
    (woGrid woGrid1014 : StaticGrid ℝ).weights 44 (5 / 10 ^ 14) :=
  woBlocks_exact [(23, 23, [])]
    woBase1014 (by decide) ⟨woBlock1014_0, trivial⟩

/-- `s2/womersley/womersley_1153.hpp`, order 47. -/
theorem woBase1153 : WoBase woGrid1153 :=
  ⟨⟨by decide, by decide, by decide, by decide⟩, by decide +kernel⟩

theorem woBlock1153_0 : woBlock woGrid1153 47 24 24 0 [] = true := by
  decide +kernel

theorem woExact1153 : ReducedExact (woGrid woGrid1153 : StaticGrid ℝ).points
    (woGrid woGrid1153 : StaticGrid ℝ).weights 47 (5 / 10 ^ 14) :=
  woBlocks_exact [(24, 24, [])]
    woBase1153 (by decide) ⟨woBlock1153_0, trivial⟩

/-- `s2/womersley/womersley_1801.hpp`, order 59. -/
theorem woBase1801 : WoBase woGrid1801 :=
  ⟨⟨by decide, by decide, by decide, by decide⟩, by decide +kernel⟩

theorem woBlock1801_0 : woBlock woGrid1801 59 30 30 0 [] = true := by
  decide +kernel

theorem woExact1801 : ReducedExact (woGrid woGrid1801 : StaticGrid ℝ).points
    (woGrid woGrid1801 : StaticGrid ℝ).weights 59 (5 / 10 ^ 14) :=
  woBlocks_exact [(30, 30, [])]
    woBase1801 (by decide) ⟨woBlock1801_0, trivial⟩

/-- `s2/womersley/womersley_2179.hpp`, order 65. -/
theorem woBase2179 : WoBase woGrid2179 :=
  ⟨⟨by decide, by decide, by decide, by decide⟩, by decide +kernel⟩

theorem woBlock2179_0 : woBlock woGrid2179 65 33 33 0 [] = true := by
  decide +kernel

theorem woExact2179 : ReducedExact (woGrid woGrid2179 : StaticGrid ℝ).points
    (woGrid woGrid2179 : StaticGrid ℝ).weights 65 (5 / 10 ^ 14) :=
  woBlocks_exact [(33, 33, [])]
    woBase2179 (by decide) ⟨woBlock2179_0, trivial⟩

/-- `s2/womersley/womersley_2814.hpp`, order 74. -/
theorem woBase2814 : WoBase woGrid2814 :=
  ⟨⟨by decide, by decide, by decide, by decide⟩, by decide +kernel⟩

theorem woBlock2814_0 : woBlock woGrid2814 74 38 38 0 [] = true := by
  decide +kernel

theorem woExact2814 : ReducedExact (woGrid woGrid2814 : StaticGrid ℝ).points
    (woGrid woGrid2814 : StaticGrid ℝ).weights 74 (5 / 10 ^ 14) :=
  woBlocks_exact [(38, 38, [])]
    woBase2814 (by decide) ⟨woBlock2814_0, trivial⟩

/-- `s2/womersley/womersley_3363.hpp`, order 81. -/
theorem woBase3363 : WoBase woGrid3363 :=
  ⟨⟨by decide, by decide, by decide, by decide⟩, by decide +kernel⟩

theorem woBlock3363_0 : woBlock woGrid3363 81 41 20 0 [] = true := by
  decide +kernel

theorem woBlock3363_1 : woBlock woGrid3363 81 21 21 20 [false, false, true, false, true] = true := by
  decide +kernel

theorem woExact3363 : ReducedExact (woGrid woGrid3363 : StaticGrid ℝ).points
    (woGrid woGrid3363 : StaticGrid ℝ).weights 81 (5 / 10 ^ 14) :=
  woBlocks_exact [(41, 20, []), (21, 21, [false, false, true, false, true])]
    woBase3363 (by decide) ⟨woBlock3363_0, woBlock3363_1, trivial⟩

/-- `s2/womersley/womersley_4326.hpp`, order 92. -/
theorem woBase4326 : WoBase woGrid4326 :=
  ⟨⟨by decide, by decide, by decide, by decide⟩, by decide +kernel⟩

theorem woBlock4326_0 : woBlock woGrid4326 92 47 23 0 [] = true := by
  decide +kernel

theorem woBlock4326_1 : woBlock woGrid4326 92 24 24 23 [true, true, true, false, true] = true := by
  decide +kernel

theorem woExact4326 : ReducedExact (woGrid woGrid4326 : StaticGrid ℝ).points
    (woGrid woGrid4326 : StaticGrid ℝ).weights 92 (5 / 10 ^ 14) :=
  woBlocks_exact [(47, 23, []), (24, 24, [true, true, true, false, true])]
    woBase4326 (by decide) ⟨woBlock4326_0, woBlock4326_1, trivial⟩

/-- `s2/womersley/womersley_4514.hpp`, order 94. -/
theorem woBase4514 : WoBase woGrid4514 :=
  ⟨⟨by decide, by decide, by decide, by decide⟩, by decide +kernel⟩

theorem woBlock4514_0 : woBlock woGrid4514 94 48 23 0 [] = true := by
  decide +kernel

theorem woBlock4514_1 : woBlock woGrid4514 94 25 25 23 [true, true, true, false, true] = true := by
  decide +kernel

theorem woExact4514 : ReducedExact (woGrid woGrid4514 : StaticGrid ℝ).points
    (woGrid woGrid4514 : StaticGrid ℝ).weights 94 (5 / 10 ^ 14) :=
  woBlocks_exact [(48, 23, []), (25, 25, [true, true, true, false, true])]
    woBase4514 (by decide) ⟨woBlock4514_0, woBlock4514_1, trivial⟩

/-- `s2/womersley/womersley_6051.hpp`, order 109. -/
theorem woBase6051 : WoBase woGrid6051 :=
  ⟨⟨by decide, by decide, by decide, by decide⟩, by decide +kernel⟩

theorem woBlock6051_0 : woBlock woGrid6051 109 55 15 0 [] = true := by
  decide +kernel

theorem woBlock6051_1 : woBlock woGrid6051 109 40 20 15 [true, true, true, true] = true := by
  decide +kernel

theorem woBlock6051_2 : woBlock woGrid6051 109 20 20 35 [true, true, false, false, false, true] = true := by
  decide +kernel

theorem woExact6051 : ReducedExact (woGrid woGrid6051 : StaticGrid ℝ).points
    (woGrid woGrid6051 : StaticGrid ℝ).weights 109 (5 / 10 ^ 14) :=
  woBlocks_exact [(55, 15, []), (40, 20, [true, true, true, true]),
    (20, 20, [true, true, false, false, false, true])]
    woBase6051 (by decide) ⟨woBlock6051_0, woBlock6051_1, woBlock6051_2, trivial⟩

/-- `s2/womersley/womersley_6614.hpp`, order 114. -/
theorem woBase6614 : WoBase woGrid6614 :=
  ⟨⟨by decide, by decide, by decide, by decide⟩, by decide +kernel⟩

theorem woBlock6614_0 : woBlock woGrid6614 114 58 13 0 [] = true := by
  decide +kernel

theorem woBlock6614_1 : woBlock woGrid6614 114 45 17 13 [true, false, true, true] = true := by
  decide +kernel

theorem woBlock6614_2 : woBlock woGrid6614 114 28 28 30 [false, true, true, true, true] = true := by
  decide +kernel

theorem woExact6614 : ReducedExact (woGrid woGrid6614 : StaticGrid ℝ).points
    (woGrid woGrid6614 : StaticGrid ℝ).weights 114 (5 / 10 ^ 14) :=
  woBlocks_exact [(58, 13, []), (45, 17, [true, false, true, true]),
    (28, 28, [false, true, true, true, true])]
    woBase6614 (by decide) ⟨woBlock6614_0, woBlock6614_1, woBlock6614_2, trivial⟩

/-- `s2/womersley/womersley_7443.hpp`, order 121. -/
theorem woBase7443 : WoBase woGrid7443 :=
  ⟨⟨by decide, by decide, by decide, by decide⟩, by decide +kernel⟩

theorem woBlock7443_0 : woBlock woGrid7443 121 61 11 0 [] = true := by
  decide +kernel

theorem woBlock7443_1 : woBlock woGrid7443 121 50 13 11 [true, true, false, true] = true := by
  decide +kernel

theorem woBlock7443_2 : woBlock woGrid7443 121 37 18 24 [false, false, false, true, true] = true := by
  decide +kernel

theorem woBlock7443_3 : woBlock woGrid7443 121 19 19 42 [false, true, false, true, false, true] = true := by
  decide +kernel

theorem woExact7443 : ReducedExact (woGrid woGrid7443 : StaticGrid ℝ).points
    (woGrid woGrid7443 : StaticGrid ℝ).weights 121 (5 / 10 ^ 14) :=
  woBlocks_exact [(61, 11, []), (50, 13, [true, true, false, true]),
    (37, 18, [false, false, false, true, true]), (19, 19, [false, true, false, true, false, true])]
    woBase7443 (by decide) ⟨woBlock7443_0, woBlock7443_1, woBlock7443_2, woBlock7443_3, trivial⟩

end IntegratorXX
