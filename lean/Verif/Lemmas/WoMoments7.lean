import Verif.Model.Womersley.Part01
import Verif.Model.Womersley.Part02
import Verif.Model.Womersley.Part03
import Verif.Model.Womersley.Part04
import Verif.Model.Womersley.Part07
import Verif.Model.Womersley.Part08
import Verif.Model.Womersley.Part11
import Verif.Model.Womersley.Part12
import Verif.Lemmas.WoBlock

/-!
# Moments of the tabulated Womersley grids, part 7

Generated: each theorem evaluates integer inequalities for one grid.
-/

set_option maxRecDepth 200000
set_option Elab.async false

namespace IntegratorXX
open Tables

/-- `s2/womersley/womersley_26.hpp`, order 6. -/
theorem woBase26 : WoBase woGrid26 :=
  ⟨⟨by decide, by decide, by decide, by decide⟩, by decide +kernel⟩

theorem woBlock26_0 : woBlock woGrid26 6 4 4 0 [] = true := by
  decide +kernel

theorem woExact26 : ReducedExact (woGrid woGrid26 : StaticGrid ℝ).points
    (woGrid woGrid26 : StaticGrid ℝ).weights 6 (5 / 10 ^ 14) :=
  woBlocks_exact [(4, 4, [])]
    woBase26 (by decide) ⟨woBlock26_0, trivial⟩

/-- `s2/womersley/womersley_72.hpp`, order 11. -/
theorem woBase72 : WoBase woGrid72 :=
  ⟨⟨by decide, by decide, by decide, by decide⟩, by decide +kernel⟩

theorem woBlock72_0 : woBlock woGrid72 11 6 6 0 [] = true := by
  decide +kernel

theorem woExact72 : ReducedExact (woGrid woGrid72 : StaticGrid ℝ).points
    (woGrid woGrid72 : StaticGrid ℝ).weights 11 (5 / 10 ^ 14) :=
  woBlocks_exact [(6, 6, [])]
    woBase72 (by decide) ⟨woBlock72_0, trivial⟩

/-- `s2/womersley/womersley_146.hpp`, order 16. -/
theorem woBase146 : WoBase woGrid146 :=
  ⟨⟨by decide, by decide, by decide, by decide⟩, by decide +kernel⟩

theorem woBlock146_0 : woBlock woGrid146 16 9 9 0 [] = true := by
  decide +kernel

theorem woExact146 : ReducedExact (woGrid woGrid146 : StaticGrid ℝ).points
    (woGrid woGrid146 : StaticGrid ℝ).weights 16 (5 / 10 ^ 14) :=
  woBlocks_exact [(9, 9, [])]
    woBase146 (by decide) ⟨woBlock146_0, trivial⟩

/-- `s2/womersley/womersley_451.hpp`, order 29. -/
theorem woBase451 : WoBase woGrid451 :=
  ⟨⟨by decide, by decide, by decide, by decide⟩, by decide +kernel⟩

theorem woBlock451_0 : woBlock woGrid451 29 15 15 0 [] = true := by
  decide +kernel

theorem woExact451 : ReducedExact (woGrid woGrid451 : StaticGrid ℝ).points
    (woGrid woGrid451 : StaticGrid ℝ).weights 29 (5 / 10 ^ 14) :=
  woBlocks_exact [(15, 15, [])]
    woBase451 (by decide) ⟨woBlock451_0, trivial⟩

/-- `s2/womersley/womersley_482.hpp`, order 30. -/
theorem woBase482 : WoBase woGrid482 :=
  ⟨⟨by decide, by decide, by decide, by decide⟩, by decide +kernel⟩

theorem woBlock482_0 : woBlock woGrid482 30 16 16 0 [] = true := by
  decide +kernel

theorem woExact482 : ReducedExact (woGrid woGrid482 : StaticGrid ℝ).points
    (woGrid woGrid482 : StaticGrid ℝ).weights 30 (5 / 10 ^ 14) :=
  woBlocks_exact [(16, 16, [])]
    woBase482 (by decide) ⟨woBlock482_0, trivial⟩

/-- `s2/womersley/womersley_1059.hpp`, order 45. -/
theorem woBase1059 : WoBase woGrid1059 :=
  ⟨⟨by decide, by decide, by decide, by decide⟩, by decide +kernel⟩

theorem woBlock1059_0 : woBlock woGrid1059 45 23 23 0 [] = true := by
  decide +kernel

theorem woExact1059 : ReducedExact (woGrid woGrid1059 : StaticGrid ℝ).points
    (woGrid woGrid1059 : StaticGrid ℝ).weights 45 (5 / 10 ^ 14) :=
  woBlocks_exact [(23, 23, [])]
    woBase1059 (by decide) ⟨woBlock1059_0, trivial⟩

/-- `s2/womersley/womersley_1106.hpp`, order 46. -/
theorem woBase1106 : WoBase woGrid1106 :=
  ⟨⟨by decide, by decide, by decide, by decide⟩, by decide +kernel⟩

theorem woBlock1106_0 : woBlock woGrid1106 46 24 24 0 [] = true := by
  decide +kernel

theorem woExact1106 : ReducedExact (woGrid woGrid1106 : StaticGrid ℝ).points
    (woGrid woGrid1106 : StaticGrid ℝ).weights 46 (5 / 10 ^ 14) :=
  woBlocks_exact [(24, 24, [])]
    woBase1106 (by decide) ⟨woBlock1106_0, trivial⟩

/-- `s2/womersley/womersley_1923.hpp`, order 61. -/
theorem woBase1923 : WoBase woGrid1923 :=
  ⟨⟨by decide, by decide, by decide, by decide⟩, by decide +kernel⟩

theorem woBlock1923_0 : woBlock woGrid1923 61 31 31 0 [] = true := by
  decide +kernel

theorem woExact1923 : ReducedExact (woGrid woGrid1923 : StaticGrid ℝ).points
    (woGrid woGrid1923 : StaticGrid ℝ).weights 61 (5 / 10 ^ 14) :=
  woBlocks_exact [(31, 31, [])]
    woBase1923 (by decide) ⟨woBlock1923_0, trivial⟩

/-- `s2/womersley/womersley_1986.hpp`, order 62. -/
theorem woBase1986 : WoBase woGrid1986 :=
  ⟨⟨by decide, by decide, by decide, by decide⟩, by decide +kernel⟩

theorem woBlock1986_0 : woBlock woGrid1986 62 32 32 0 [] = true := by
  decide +kernel

theorem woExact1986 : ReducedExact (woGrid woGrid1986 : StaticGrid ℝ).points
    (woGrid woGrid1986 : StaticGrid ℝ).weights 62 (5 / 10 ^ 14) :=
  woBlocks_exact [(32, 32, [])]
    woBase1986 (by decide) ⟨woBlock1986_0, trivial⟩

/-- `s2/womersley/womersley_3043.hpp`, order 77. -/
theorem woBase3043 : WoBase woGrid3043 :=
  ⟨⟨by decide, by decide, by decide, by decide⟩, by decide +kernel⟩

theorem woBlock3043_0 : woBlock woGrid3043 77 39 39 0 [] = true := by
  decide +kernel

theorem woExact3043 : ReducedExact (woGrid woGrid3043 : StaticGrid ℝ).points
    (woGrid woGrid3043 : StaticGrid ℝ).weights 77 (5 / 10 ^ 14) :=
  woBlocks_exact [(39, 39, [])]
    woBase3043 (by decide) ⟨woBlock3043_0, trivial⟩

/-- `s2/womersley/womersley_3122.hpp`, order 78. -/
theorem woBase3122 : WoBase woGrid3122 :=
  ⟨⟨by decide, by decide, by decide, by decide⟩, by decide +kernel⟩

theorem woBlock3122_0 : woBlock woGrid3122 78 40 40 0 [] = true := by
  decide +kernel

theorem woExact3122 : ReducedExact (woGrid woGrid3122 : StaticGrid ℝ).points
    (woGrid woGrid3122 : StaticGrid ℝ).weights 78 (5 / 10 ^ 14) :=
  woBlocks_exact [(40, 40, [])]
    woBase3122 (by decide) ⟨woBlock3122_0, trivial⟩

/-- `s2/womersley/womersley_3786.hpp`, order 86. -/
theorem woBase3786 : WoBase woGrid3786 :=
  ⟨⟨by decide, by decide, by decide, by decide⟩, by decide +kernel⟩

theorem woBlock3786_0 : woBlock woGrid3786 86 44 22 0 [] = true := by
  decide +kernel

theorem woBlock3786_1 : woBlock woGrid3786 86 22 22 22 [false, true, true, false, true] = true := by
  decide +kernel

theorem woExact3786 : ReducedExact (woGrid woGrid3786 : StaticGrid ℝ).points
    (woGrid woGrid3786 : StaticGrid ℝ).weights 86 (5 / 10 ^ 14) :=
  woBlocks_exact [(44, 22, []), (22, 22, [false, true, true, false, true])]
    woBase3786 (by decide) ⟨woBlock3786_0, woBlock3786_1, trivial⟩

/-- `s2/womersley/womersley_5102.hpp`, order 100. -/
theorem woBase5102 : WoBase woGrid5102 :=
  ⟨⟨by decide, by decide, by decide, by decide⟩, by decide +kernel⟩

theorem woBlock5102_0 : woBlock woGrid5102 100 51 17 0 [] = true := by
  decide +kernel

theorem woBlock5102_1 : woBlock woGrid5102 100 34 17 17 [true, false, false, false, true] = true := by
  decide +kernel

theorem woBlock5102_2 : woBlock woGrid5102 100 17 17 34 [false, true, false, false, false, true] = true := by
  decide +kernel

theorem woExact5102 : ReducedExact (woGrid woGrid5102 : StaticGrid ℝ).points
    (woGrid woGrid5102 : StaticGrid ℝ).weights 100 (5 / 10 ^ 14) :=
  woBlocks_exact [(51, 17, []), (34, 17, [true, false, false, false, true]),
    (17, 17, [false, true, false, false, false, true])]
    woBase5102 (by decide) ⟨woBlock5102_0, woBlock5102_1, woBlock5102_2, trivial⟩

/-- `s2/womersley/womersley_5514.hpp`, order 104. -/
theorem woBase5514 : WoBase woGrid5514 :=
  ⟨⟨by decide, by decide, by decide, by decide⟩, by decide +kernel⟩

theorem woBlock5514_0 : woBlock woGrid5514 104 53 17 0 [] = true := by
  decide +kernel

theorem woBlock5514_1 : woBlock woGrid5514 104 36 18 17 [true, false, false, false, true] = true := by
  decide +kernel

theorem woBlock5514_2 : woBlock woGrid5514 104 18 18 35 [true, true, false, false, false, true] = true := by
  decide +kernel

theorem woExact5514 : ReducedExact (woGrid woGrid5514 : StaticGrid ℝ).points
    (woGrid woGrid5514 : StaticGrid ℝ).weights 104 (5 / 10 ^ 14) :=
  woBlocks_exact [(53, 17, []), (36, 18, [true, false, false, false, true]),
    (18, 18, [true, true, false, false, false, true])]
    woBase5514 (by decide) ⟨woBlock5514_0, woBlock5514_1, woBlock5514_2, trivial⟩

/-- `s2/womersley/womersley_6846.hpp`, order 116. -/
theorem woBase6846 : WoBase woGrid6846 :=
  ⟨⟨by decide, by decide, by decide, by decide⟩, by decide +kernel⟩

theorem woBlock6846_0 : woBlock woGrid6846 116 59 12 0 [] = true := by
  decide +kernel

theorem woBlock6846_1 : woBlock woGrid6846 116 47 16 12 [false, false, true, true] = true := by
  decide +kernel

theorem woBlock6846_2 : woBlock woGrid6846 116 31 16 28 [false, false, true, true, true] = true := by
  decide +kernel

theorem woBlock6846_3 : woBlock woGrid6846 116 15 15 44 [false, false, true, true, false, true] = true := by
  decide +kernel

theorem woExact6846 : ReducedExact (woGrid woGrid6846 : StaticGrid ℝ).points
    (woGrid woGrid6846 : StaticGrid ℝ).weights 116 (5 / 10 ^ 14) :=
  woBlocks_exact [(59, 12, []), (47, 16, [false, false, true, true]),
    (31, 16, [false, false, true, true, true]), (15, 15, [false, false, true, true, false, true])]
    woBase6846 (by decide) ⟨woBlock6846_0, woBlock6846_1, woBlock6846_2, woBlock6846_3, trivial⟩

/-- `s2/womersley/womersley_7201.hpp`, order 119. -/
theorem woBase7201 : WoBase woGrid7201 :=
  ⟨⟨by decide, by decide, by decide, by decide⟩, by decide +kernel⟩

theorem woBlock7201_0 : woBlock woGrid7201 119 60 12 0 [] = true := by
  decide +kernel

theorem woBlock7201_1 : woBlock woGrid7201 119 48 15 12 [false, false, true, true] = true := by
  decide +kernel

theorem woBlock7201_2 : woBlock woGrid7201 119 33 16 27 [true, true, false, true, true] = true := by
  decide +kernel

theorem woBlock7201_3 : woBlock woGrid7201 119 17 17 43 [true, true, false, true, false, true] = true := by
  decide +kernel

theorem woExact7201 : ReducedExact (woGrid woGrid7201 : StaticGrid ℝ).points
    (woGrid woGrid7201 : StaticGrid ℝ).weights 119 (5 / 10 ^ 14) :=
  woBlocks_exact [(60, 12, []), (48, 15, [false, false, true, true]),
    (33, 16, [true, true, false, true, true]), (17, 17, [true, true, false, true, false, true])]
    woBase7201 (by decide) ⟨woBlock7201_0, woBlock7201_1, woBlock7201_2, woBlock7201_3, trivial⟩

end IntegratorXX
