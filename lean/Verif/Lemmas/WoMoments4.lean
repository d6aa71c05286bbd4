import Verif.Model.Womersley.Part01
import Verif.Model.Womersley.Part02
import Verif.Model.Womersley.Part03
import Verif.Model.Womersley.Part04
import Verif.Model.Womersley.Part06
import Verif.Model.Womersley.Part09
import Verif.Model.Womersley.Part10
import Verif.Model.Womersley.Part13
import Verif.Lemmas.WoBlock

/-!
# Moments of the tabulated Womersley grids, part 4

Generated: each theorem evaluates integer inequalities for one grid.
-/

set_option maxRecDepth 200000
set_option Elab.async false

namespace IntegratorXX
open Tables

/-- `s2/womersley/womersley_6.hpp`, order 2. -/
theorem woBase6 : WoBase woGrid6 :=
  ⟨⟨by decide, by decide, by decide, by decide⟩, by decide +kernel⟩

theorem woBlock6_0 : woBlock woGrid6 2 2 2 0 [] = true := by
  decide +kernel

theorem woExact6 : ReducedExact (woGrid woGrid6 : StaticGrid ℝ).points
    (woGrid woGrid6 : StaticGrid ℝ).weights 2 (5 / 10 ^ 14) :=
  woBlocks_exact [(2, 2, [])]
    woBase6 (by decide) ⟨woBlock6_0, trivial⟩

/-- `s2/womersley/womersley_243.hpp`, order 21. -/
theorem woBase243 : WoBase woGrid243 :=
  ⟨⟨by decide, by decide, by decide, by decide⟩, by decide +kernel⟩

theorem woBlock243_0 : woBlock woGrid243 21 11 11 0 [] = true := by
  decide +kernel

theorem woExact243 : ReducedExact (woGrid woGrid243 : StaticGrid ℝ).points
    (woGrid woGrid243 : StaticGrid ℝ).weights 21 (5 / 10 ^ 14) :=
  woBlocks_exact [(11, 11, [])]
    woBase243 (by decide) ⟨woBlock243_0, trivial⟩

/-- `s2/womersley/womersley_366.hpp`, order 26. -/
theorem woBase366 : WoBase woGrid366 :=
  ⟨⟨by decide, by decide, by decide, by decide⟩, by decide +kernel⟩

theorem woBlock366_0 : woBlock woGrid366 26 14 14 0 [] = true := by
  decide +kernel

theorem woExact366 : ReducedExact (woGrid woGrid366 : StaticGrid ℝ).points
    (woGrid woGrid366 : StaticGrid ℝ).weights 26 (5 / 10 ^ 14) :=
  woBlocks_exact [(14, 14, [])]
    woBase366 (by decide) ⟨woBlock366_0, trivial⟩

/-- `s2/womersley/womersley_546.hpp`, order 32. -/
theorem woBase546 : WoBase woGrid546 :=
  ⟨⟨by decide, by decide, by decide, by decide⟩, by decide +kernel⟩

theorem woBlock546_0 : woBlock woGrid546 32 17 17 0 [] = true := by
  decide +kernel

theorem woExact546 : ReducedExact (woGrid woGrid546 : StaticGrid ℝ).points
    (woGrid woGrid546 : StaticGrid ℝ).weights 32 (5 / 10 ^ 14) :=
  woBlocks_exact [(17, 17, [])]
    woBase546 (by decide) ⟨woBlock546_0, trivial⟩

/-- `s2/womersley/womersley_969.hpp`, order 43. -/
theorem woBase969 : WoBase woGrid969 :=
  ⟨⟨by decide, by decide, by decide, by decide⟩, by decide +kernel⟩

theorem woBlock969_0 : woBlock woGrid969 43 22 22 0 [] = true := by
  decide +kernel

theorem woExact969 : ReducedExact (woGrid woGrid969 : StaticGrid ℝ).points
    (woGrid woGrid969 : StaticGrid ℝ).weights 43 (5 / 10 ^ 14) :=
  woBlocks_exact [(22, 22, [])]
    woBase969 (by decide) ⟨woBlock969_0, trivial⟩

/-- `s2/womersley/womersley_1251.hpp`, order 49. -/
theorem woBase1251 : WoBase woGrid1251 :=
  ⟨⟨by decide, by decide, by decide, by decide⟩, by decide +kernel⟩

theorem woBlock1251_0 : woBlock woGrid1251 49 25 25 0 [] = true := by
  decide +kernel

theorem woExact1251 : ReducedExact (woGrid woGrid1251 : StaticGrid ℝ).points
    (woGrid woGrid1251 : StaticGrid ℝ).weights 49 (5 / 10 ^ 14) :=
  woBlocks_exact [(25, 25, [])]
    woBase1251 (by decide) ⟨woBlock1251_0, trivial⟩

/-- `s2/womersley/womersley_1742.hpp`, order 58. -/
theorem woBase1742 : WoBase woGrid1742 :=
  ⟨⟨by decide, by decide, by decide, by decide⟩, by decide +kernel⟩

theorem woBlock1742_0 : woBlock woGrid1742 58 30 30 0 [] = true := by
  decide +kernel

theorem woExact1742 : ReducedExact (woGrid woGrid1742 : StaticGrid ℝ).points
    (woGrid woGrid1742 : StaticGrid ℝ).weights 58 (5 / 10 ^ 14) :=
  woBlocks_exact [(30, 30, [])]
    woBase1742 (by decide) ⟨woBlock1742_0, trivial⟩

/-- `s2/womersley/womersley_2114.hpp`, order 64. -/
theorem woBase2114 : WoBase woGrid2114 :=
  ⟨⟨by decide, by decide, by decide, by decide⟩, by decide +kernel⟩

theorem woBlock2114_0 : woBlock woGrid2114 64 33 33 0 [] = true := by
  decide +kernel

theorem woExact2114 : ReducedExact (woGrid woGrid2114 : StaticGrid ℝ).points
    (woGrid woGrid2114 : StaticGrid ℝ).weights 64 (5 / 10 ^ 14) :=
  woBlocks_exact [(33, 33, [])]
    woBase2114 (by decide) ⟨woBlock2114_0, trivial⟩

/-- `s2/womersley/womersley_2889.hpp`, order 75. -/
theorem woBase2889 : WoBase woGrid2889 :=
  ⟨⟨by decide, by decide, by decide, by decide⟩, by decide +kernel⟩

theorem woBlock2889_0 : woBlock woGrid2889 75 38 38 0 [] = true := by
  decide +kernel

theorem woExact2889 : ReducedExact (woGrid woGrid2889 : StaticGrid ℝ).points
    (woGrid woGrid2889 : StaticGrid ℝ).weights 75 (5 / 10 ^ 14) :=
  woBlocks_exact [(38, 38, [])]
    woBase2889 (by decide) ⟨woBlock2889_0, trivial⟩

/-- `s2/womersley/womersley_3282.hpp`, order 80. -/
theorem woBase3282 : WoBase woGrid3282 :=
  ⟨⟨by decide, by decide, by decide, by decide⟩, by decide +kernel⟩

theorem woBlock3282_0 : woBlock woGrid3282 80 41 21 0 [] = true := by
  decide +kernel

theorem woBlock3282_1 : woBlock woGrid3282 80 20 20 21 [true, false, true, false, true] = true := by
  decide +kernel

theorem woExact3282 : ReducedExact (woGrid woGrid3282 : StaticGrid ℝ).points
    (woGrid woGrid3282 : StaticGrid ℝ).weights 80 (5 / 10 ^ 14) :=
  woBlocks_exact [(41, 21, []), (20, 20, [true, false, true, false, true])]
    woBase3282 (by decide) ⟨woBlock3282_0, woBlock3282_1, trivial⟩

/-- `s2/womersley/womersley_4419.hpp`, order 93. -/
theorem woBase4419 : WoBase woGrid4419 :=
  ⟨⟨by decide, by decide, by decide, by decide⟩, by decide +kernel⟩

theorem woBlock4419_0 : woBlock woGrid4419 93 47 23 0 [] = true := by
  decide +kernel

theorem woBlock4419_1 : woBlock woGrid4419 93 24 24 23 [true, true, true, false, true] = true := by
  decide +kernel

theorem woExact4419 : ReducedExact (woGrid woGrid4419 : StaticGrid ℝ).points
    (woGrid woGrid4419 : StaticGrid ℝ).weights 93 (5 / 10 ^ 14) :=
  woBlocks_exact [(47, 23, []), (24, 24, [true, true, true, false, true])]
    woBase4419 (by decide) ⟨woBlock4419_0, woBlock4419_1, trivial⟩

/-- `s2/womersley/womersley_4609.hpp`, order 95. -/
theorem woBase4609 : WoBase woGrid4609 :=
  ⟨⟨by decide, by decide, by decide, by decide⟩, by decide +kernel⟩

theorem woBlock4609_0 : woBlock woGrid4609 95 48 23 0 [] = true := by
  decide +kernel

theorem woBlock4609_1 : woBlock woGrid4609 95 25 25 23 [true, true, true, false, true] = true := by
  decide +kernel

theorem woExact4609 : ReducedExact (woGrid woGrid4609 : StaticGrid ℝ).points
    (woGrid woGrid4609 : StaticGrid ℝ).weights 95 (5 / 10 ^ 14) :=
  woBlocks_exact [(48, 23, []), (25, 25, [true, true, true, false, true])]
    woBase4609 (by decide) ⟨woBlock4609_0, woBlock4609_1, trivial⟩

/-- `s2/womersley/womersley_5942.hpp`, order 108. -/
theorem woBase5942 : WoBase woGrid5942 :=
  ⟨⟨by decide, by decide, by decide, by decide⟩, by decide +kernel⟩

theorem woBlock5942_0 : woBlock woGrid5942 108 55 15 0 [] = true := by
  decide +kernel

theorem woBlock5942_1 : woBlock woGrid5942 108 40 20 15 [true, true, true, true] = true := by
  decide +kernel

theorem woBlock5942_2 : woBlock woGrid5942 108 20 20 35 [true, true, false, false, false, true] = true := by
  decide +kernel

theorem woExact5942 : ReducedExact (woGrid woGrid5942 : StaticGrid ℝ).points
    (woGrid woGrid5942 : StaticGrid ℝ).weights 108 (5 / 10 ^ 14) :=
  woBlocks_exact [(55, 15, []), (40, 20, [true, true, true, true]),
    (20, 20, [true, true, false, false, false, true])]
    woBase5942 (by decide) ⟨woBlock5942_0, woBlock5942_1, woBlock5942_2, trivial⟩

/-- `s2/womersley/womersley_6499.hpp`, order 113. -/
theorem woBase6499 : WoBase woGrid6499 :=
  ⟨⟨by decide, by decide, by decide, by decide⟩, by decide +kernel⟩

theorem woBlock6499_0 : woBlock woGrid6499 113 57 14 0 [] = true := by
  decide +kernel

theorem woBlock6499_1 : woBlock woGrid6499 113 43 18 14 [false, true, true, true] = true := by
  decide +kernel

theorem woBlock6499_2 : woBlock woGrid6499 113 25 25 32 [false, false, false, false, false, true] = true := by
  decide +kernel

theorem woExact6499 : ReducedExact (woGrid woGrid6499 : StaticGrid ℝ).points
    (woGrid woGrid6499 : StaticGrid ℝ).weights 113 (5 / 10 ^ 14) :=
  woBlocks_exact [(57, 14, []), (43, 18, [false, true, true, true]),
    (25, 25, [false, false, false, false, false, true])]
    woBase6499 (by decide) ⟨woBlock6499_0, woBlock6499_1, woBlock6499_2, trivial⟩

/-- `s2/womersley/womersley_7566.hpp`, order 122. -/
theorem woBase7566 : WoBase woGrid7566 :=
  ⟨⟨by decide, by decide, by decide, by decide⟩, by decide +kernel⟩

theorem woBlock7566_0 : woBlock woGrid7566 122 62 11 0 [] = true := by
  decide +kernel

theorem woBlock7566_1 : woBlock woGrid7566 122 51 13 11 [true, true, false, true] = true := by
  decide +kernel

theorem woBlock7566_2 : woBlock woGrid7566 122 38 18 24 [false, false, false, true, true] = true := by
  decide +kernel

theorem woBlock7566_3 : woBlock woGrid7566 122 20 20 42 [false, true, false, true, false, true] = true := by
  decide +kernel

theorem woExact7566 : ReducedExact (woGrid woGrid7566 : StaticGrid ℝ).points
    (woGrid woGrid7566 : StaticGrid ℝ).weights 122 (5 / 10 ^ 14) :=
  woBlocks_exact [(62, 11, []), (51, 13, [true, true, false, true]),
    (38, 18, [false, false, false, true, true]), (20, 20, [false, true, false, true, false, true])]
    woBase7566 (by decide) ⟨woBlock7566_0, woBlock7566_1, woBlock7566_2, woBlock7566_3, trivial⟩

end IntegratorXX
