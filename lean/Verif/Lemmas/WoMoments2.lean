import Verif.Model.Womersley.Part01
import Verif.Model.Womersley.Part02
import Verif.Model.Womersley.Part03
import Verif.Model.Womersley.Part04
import Verif.Model.Womersley.Part05
import Verif.Model.Womersley.Part06
import Verif.Model.Womersley.Part08
import Verif.Model.Womersley.Part10
import Verif.Model.Womersley.Part14
import Verif.Lemmas.WoBlock

/-!
# Moments of the tabulated Womersley grids, part 2

Generated: each theorem evaluates integer inequalities for one grid.
-/

set_option maxRecDepth 200000
set_option Elab.async false

namespace IntegratorXX
open Tables

/-- `s2/womersley/womersley_8.hpp`, order 3. -/
theorem woBase8 : WoBase woGrid8 :=
  ⟨⟨by decide, by decide, by decide, by decide⟩, by decide +kernel⟩

theorem woBlock8_0 : woBlock woGrid8 3 2 2 0 [] = true := by
  decide +kernel

theorem woExact8 : ReducedExact (woGrid woGrid8 : StaticGrid ℝ).points
    (woGrid woGrid8 : StaticGrid ℝ).weights 3 (5 / 10 ^ 14) :=
  woBlocks_exact [(2, 2, [])]
    woBase8 (by decide) ⟨woBlock8_0, trivial⟩

/-- `s2/womersley/womersley_86.hpp`, order 12. -/
theorem woBase86 : WoBase woGrid86 :=
  ⟨⟨by decide, by decide, by decide, by decide⟩, by decide +kernel⟩

theorem woBlock86_0 : woBlock woGrid86 12 7 7 0 [] = true := by
  decide +kernel

theorem woExact86 : ReducedExact (woGrid woGrid86 : StaticGrid ℝ).points
    (woGrid woGrid86 : StaticGrid ℝ).weights 12 (5 / 10 ^ 14) :=
  woBlocks_exact [(7, 7, [])]
    woBase86 (by decide) ⟨woBlock86_0, trivial⟩

/-- `s2/womersley/womersley_128.hpp`, order 15. -/
theorem woBase128 : WoBase woGrid128 :=
  ⟨⟨by decide, by decide, by decide, by decide⟩, by decide +kernel⟩

theorem woBlock128_0 : woBlock woGrid128 15 8 8 0 [] = true := by
  decide +kernel

theorem woExact128 : ReducedExact (woGrid woGrid128 : StaticGrid ℝ).points
    (woGrid woGrid128 : StaticGrid ℝ).weights 15 (5 / 10 ^ 14) :=
  woBlocks_exact [(8, 8, [])]
    woBase128 (by decide) ⟨woBlock128_0, trivial⟩

/-- `s2/womersley/womersley_266.hpp`, order 22. -/
theorem woBase266 : WoBase woGrid266 :=
  ⟨⟨by decide, by decide, by decide, by decide⟩, by decide +kernel⟩

theorem woBlock266_0 : woBlock woGrid266 22 12 12 0 [] = true := by
  decide +kernel

theorem woExact266 : ReducedExact (woGrid woGrid266 : StaticGrid ℝ).points
    (woGrid woGrid266 : StaticGrid ℝ).weights 22 (5 / 10 ^ 14) :=
  woBlocks_exact [(12, 12, [])]
    woBase266 (by decide) ⟨woBlock266_0, trivial⟩

/-- `s2/womersley/womersley_723.hpp`, order 37. -/
theorem woBase723 : WoBase woGrid723 :=
  ⟨⟨by decide, by decide, by decide, by decide⟩, by decide +kernel⟩

theorem woBlock723_0 : woBlock woGrid723 37 19 19 0 [] = true := by
  decide +kernel

theorem woExact723 : ReducedExact (woGrid woGrid723 : StaticGrid ℝ).points
    (woGrid woGrid723 : StaticGrid ℝ).weights 37 (5 / 10 ^ 14) :=
  woBlocks_exact [(19, 19, [])]
    woBase723 (by decide) ⟨woBlock723_0, trivial⟩

/-- `s2/womersley/womersley_801.hpp`, order 39. -/
theorem woBase801 : WoBase woGrid801 :=
  ⟨⟨by decide, by decide, by decide, by decide⟩, by decide +kernel⟩

theorem woBlock801_0 : woBlock woGrid801 39 20 20 0 [] = true := by
  decide +kernel

theorem woExact801 : ReducedExact (woGrid woGrid801 : StaticGrid ℝ).points
    (woGrid woGrid801 : StaticGrid ℝ).weights 39 (5 / 10 ^ 14) :=
  woBlocks_exact [(20, 20, [])]
    woBase801 (by decide) ⟨woBlock801_0, trivial⟩

/-- `s2/womersley/womersley_1406.hpp`, order 52. -/
theorem woBase1406 : WoBase woGrid1406 :=
  ⟨⟨by decide, by decide, by decide, by decide⟩, by decide +kernel⟩

theorem woBlock1406_0 : woBlock woGrid1406 52 27 27 0 [] = true := by
  decide +kernel

theorem woExact1406 : ReducedExact (woGrid woGrid1406 : StaticGrid ℝ).points
    (woGrid woGrid1406 : StaticGrid ℝ).weights 52 (5 / 10 ^ 14) :=
  woBlocks_exact [(27, 27, [])]
    woBase1406 (by decide) ⟨woBlock1406_0, trivial⟩

/-- `s2/womersley/womersley_1626.hpp`, order 56. -/
theorem woBase1626 : WoBase woGrid1626 :=
  ⟨⟨by decide, by decide, by decide, by decide⟩, by decide +kernel⟩

theorem woBlock1626_0 : woBlock woGrid1626 56 29 29 0 [] = true := by
  decide +kernel

theorem woExact1626 : ReducedExact (woGrid woGrid1626 : StaticGrid ℝ).points
    (woGrid woGrid1626 : StaticGrid ℝ).weights 56 (5 / 10 ^ 14) :=
  woBlocks_exact [(29, 29, [])]
    woBase1626 (by decide) ⟨woBlock1626_0, trivial⟩

/-- `s2/womersley/womersley_2313.hpp`, order 67. -/
theorem woBase2313 : WoBase woGrid2313 :=
  ⟨⟨by decide, by decide, by decide, by decide⟩, by decide +kernel⟩

theorem woBlock2313_0 : woBlock woGrid2313 67 34 34 0 [] = true := by
  decide +kernel

theorem woExact2313 : ReducedExact (woGrid woGrid2313 : StaticGrid ℝ).points
    (woGrid woGrid2313 : StaticGrid ℝ).weights 67 (5 / 10 ^ 14) :=
  woBlocks_exact [(34, 34, [])]
    woBase2313 (by decide) ⟨woBlock2313_0, trivial⟩

/-- `s2/womersley/womersley_2522.hpp`, order 70. -/
theorem woBase2522 : WoBase woGrid2522 :=
  ⟨⟨by decide, by decide, by decide, by decide⟩, by decide +kernel⟩

theorem woBlock2522_0 : woBlock woGrid2522 70 36 36 0 [] = true := by
  decide +kernel

theorem woExact2522 : ReducedExact (woGrid woGrid2522 : StaticGrid ℝ).points
    (woGrid woGrid2522 : StaticGrid ℝ).weights 70 (5 / 10 ^ 14) :=
  woBlocks_exact [(36, 36, [])]
    woBase2522 (by decide) ⟨woBlock2522_0, trivial⟩

/-- `s2/womersley/womersley_3699.hpp`, order 85. -/
theorem woBase3699 : WoBase woGrid3699 :=
  ⟨⟨by decide, by decide, by decide, by decide⟩, by decide +kernel⟩

theorem woBlock3699_0 : woBlock woGrid3699 85 43 21 0 [] = true := by
  decide +kernel

theorem woBlock3699_1 : woBlock woGrid3699 85 22 22 21 [true, false, true, false, true] = true := by
  decide +kernel

theorem woExact3699 : ReducedExact (woGrid woGrid3699 : StaticGrid ℝ).points
    (woGrid woGrid3699 : StaticGrid ℝ).weights 85 (5 / 10 ^ 14) :=
  woBlocks_exact [(43, 21, []), (22, 22, [true, false, true, false, true])]
    woBase3699 (by decide) ⟨woBlock3699_0, woBlock3699_1, trivial⟩

/-- `s2/womersley/womersley_4142.hpp`, order 90. -/
theorem woBase4142 : WoBase woGrid4142 :=
  ⟨⟨by decide, by decide, by decide, by decide⟩, by decide +kernel⟩

theorem woBlock4142_0 : woBlock woGrid4142 90 46 23 0 [] = true := by
  decide +kernel

theorem woBlock4142_1 : woBlock woGrid4142 90 23 23 23 [true, true, true, false, true] = true := by
  decide +kernel

theorem woExact4142 : ReducedExact (woGrid woGrid4142 : StaticGrid ℝ).points
    (woGrid woGrid4142 : StaticGrid ℝ).weights 90 (5 / 10 ^ 14) :=
  woBlocks_exact [(46, 23, []), (23, 23, [true, true, true, false, true])]
    woBase4142 (by decide) ⟨woBlock4142_0, woBlock4142_1, trivial⟩

/-- `s2/womersley/womersley_4803.hpp`, order 97. -/
theorem woBase4803 : WoBase woGrid4803 :=
  ⟨⟨by decide, by decide, by decide, by decide⟩, by decide +kernel⟩

theorem woBlock4803_0 : woBlock woGrid4803 97 49 22 0 [] = true := by
  decide +kernel

theorem woBlock4803_1 : woBlock woGrid4803 97 27 27 22 [false, true, true, false, true] = true := by
  decide +kernel

theorem woExact4803 : ReducedExact (woGrid woGrid4803 : StaticGrid ℝ).points
    (woGrid woGrid4803 : StaticGrid ℝ).weights 97 (5 / 10 ^ 14) :=
  woBlocks_exact [(49, 22, []), (27, 27, [false, true, true, false, true])]
    woBase4803 (by decide) ⟨woBlock4803_0, woBlock4803_1, trivial⟩

/-- `s2/womersley/womersley_5726.hpp`, order 106. -/
theorem woBase5726 : WoBase woGrid5726 :=
  ⟨⟨by decide, by decide, by decide, by decide⟩, by decide +kernel⟩

theorem woBlock5726_0 : woBlock woGrid5726 106 54 16 0 [] = true := by
  decide +kernel

theorem woBlock5726_1 : woBlock woGrid5726 106 38 19 16 [false, false, false, false, true] = true := by
  decide +kernel

theorem woBlock5726_2 : woBlock woGrid5726 106 19 19 35 [true, true, false, false, false, true] = true := by
  decide +kernel

theorem woExact5726 : ReducedExact (woGrid woGrid5726 : StaticGrid ℝ).points
    (woGrid woGrid5726 : StaticGrid ℝ).weights 106 (5 / 10 ^ 14) :=
  woBlocks_exact [(54, 16, []), (38, 19, [false, false, false, false, true]),
    (19, 19, [true, true, false, false, false, true])]
    woBase5726 (by decide) ⟨woBlock5726_0, woBlock5726_1, woBlock5726_2, trivial⟩

/-- `s2/womersley/womersley_6273.hpp`, order 111. -/
theorem woBase6273 : WoBase woGrid6273 :=
  ⟨⟨by decide, by decide, by decide, by decide⟩, by decide +kernel⟩

theorem woBlock6273_0 : woBlock woGrid6273 111 56 14 0 [] = true := by
  decide +kernel

theorem woBlock6273_1 : woBlock woGrid6273 111 42 19 14 [false, true, true, true] = true := by
  decide +kernel

theorem woBlock6273_2 : woBlock woGrid6273 111 23 23 33 [true, false, false, false, false, true] = true := by
  decide +kernel

theorem woExact6273 : ReducedExact (woGrid woGrid6273 : StaticGrid ℝ).points
    (woGrid woGrid6273 : StaticGrid ℝ).weights 111 (5 / 10 ^ 14) :=
  woBlocks_exact [(56, 14, []), (42, 19, [false, true, true, true]),
    (23, 23, [true, false, false, false, false, true])]
    woBase6273 (by decide) ⟨woBlock6273_0, woBlock6273_1, woBlock6273_2, trivial⟩

/-- `s2/womersley/womersley_7814.hpp`, order 124. -/
theorem woBase7814 : WoBase woGrid7814 :=
  ⟨⟨by decide, by decide, by decide, by decide⟩, by decide +kernel⟩

theorem woBlock7814_0 : woBlock woGrid7814 124 63 10 0 [] = true := by
  decide +kernel

theorem woBlock7814_1 : woBlock woGrid7814 124 53 12 10 [false, true, false, true] = true := by
  decide +kernel

theorem woBlock7814_2 : woBlock woGrid7814 124 41 16 22 [false, true, true, false, true] = true := by
  decide +kernel

theorem woBlock7814_3 : woBlock woGrid7814 124 25 25 38 [false, true, true, false, false, true] = true := by
  decide +kernel

theorem woExact7814 : ReducedExact (woGrid woGrid7814 : StaticGrid ℝ).points
    (woGrid woGrid7814 : StaticGrid ℝ).weights 124 (5 / 10 ^ 14) :=
  woBlocks_exact [(63, 10, []), (53, 12, [false, true, false, true]),
    (41, 16, [false, true, true, false, true]), (25, 25, [false, true, true, false, false, true])]
    woBase7814 (by decide) ⟨woBlock7814_0, woBlock7814_1, woBlock7814_2, woBlock7814_3, trivial⟩

end IntegratorXX
