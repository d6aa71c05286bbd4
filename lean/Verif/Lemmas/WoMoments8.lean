import Verif.Model.Womersley.Part01
import Verif.Model.Womersley.Part02
import Verif.Model.Womersley.Part03
import Verif.Model.Womersley.Part04
import Verif.Model.Womersley.Part05
import Verif.Model.Womersley.Part07
import Verif.Model.Womersley.Part08
import Verif.Model.Womersley.Part11
import Verif.Model.Womersley.Part12
import Verif.Lemmas.WoBlock

/-!
# Moments of the tabulated Womersley grids, part 8

Generated: each theorem evaluates integer inequalities for one grid.
-/

set_option maxRecDepth 200000
set_option Elab.async false

namespace IntegratorXX
open Tables

/-- `s2/womersley/womersley_14.hpp`, order 4. -/
theorem woBase14 : WoBase woGrid14 :=
  ⟨⟨by decide, by decide, by decide, by decide⟩, by decide +kernel⟩

theorem woBlock14_0 : woBlock woGrid14 4 3 3 0 [] = true := by
  decide +kernel

theorem woExact14 : ReducedExact (woGrid woGrid14 : StaticGrid ℝ).points
    (woGrid woGrid14 : StaticGrid ℝ).weights 4 (5 / 10 ^ 14) :=
  woBlocks_exact [(3, 3, [])]
    woBase14 (by decide) ⟨woBlock14_0, trivial⟩

/-- `s2/womersley/womersley_62.hpp`, order 10. -/
theorem woBase62 : WoBase woGrid62 :=
  ⟨⟨by decide, by decide, by decide, by decide⟩, by decide +kernel⟩

theorem woBlock62_0 : woBlock woGrid62 10 6 6 0 [] = true := by
  decide +kernel

theorem woExact62 : ReducedExact (woGrid woGrid62 : StaticGrid ℝ).points
    (woGrid woGrid62 : StaticGrid ℝ).weights 10 (5 / 10 ^ 14) :=
  woBlocks_exact [(6, 6, [])]
    woBase62 (by decide) ⟨woBlock62_0, trivial⟩

/-- `s2/womersley/womersley_163.hpp`, order 17. -/
theorem woBase163 : WoBase woGrid163 :=
  ⟨⟨by decide, by decide, by decide, by decide⟩, by decide +kernel⟩

theorem woBlock163_0 : woBlock woGrid163 17 9 9 0 [] = true := by
  decide +kernel

theorem woExact163 : ReducedExact (woGrid woGrid163 : StaticGrid ℝ).points
    (woGrid woGrid163 : StaticGrid ℝ).weights 17 (5 / 10 ^ 14) :=
  woBlocks_exact [(9, 9, [])]
    woBase163 (by decide) ⟨woBlock163_0, trivial⟩

/-- `s2/womersley/womersley_314.hpp`, order 24. -/
theorem woBase314 : WoBase woGrid314 :=
  ⟨⟨by decide, by decide, by decide, by decide⟩, by decide +kernel⟩

theorem woBlock314_0 : woBlock woGrid314 24 13 13 0 [] = true := by
  decide +kernel

theorem woExact314 : ReducedExact (woGrid woGrid314 : StaticGrid ℝ).points
    (woGrid woGrid314 : StaticGrid ℝ).weights 24 (5 / 10 ^ 14) :=
  woBlocks_exact [(13, 13, [])]
    woBase314 (by decide) ⟨woBlock314_0, trivial⟩

/-- `s2/womersley/womersley_649.hpp`, order 35. -/
theorem woBase649 : WoBase woGrid649 :=
  ⟨⟨by decide, by decide, by decide, by decide⟩, by decide +kernel⟩

theorem woBlock649_0 : woBlock woGrid649 35 18 18 0 [] = true := by
  decide +kernel

theorem woExact649 : ReducedExact (woGrid woGrid649 : StaticGrid ℝ).points
    (woGrid woGrid649 : StaticGrid ℝ).weights 35 (5 / 10 ^ 14) :=
  woBlocks_exact [(18, 18, [])]
    woBase649 (by decide) ⟨woBlock649_0, trivial⟩

/-- `s2/womersley/womersley_842.hpp`, order 40. -/
theorem woBase842 : WoBase woGrid842 :=
  ⟨⟨by decide, by decide, by decide, by decide⟩, by decide +kernel⟩

theorem woBlock842_0 : woBlock woGrid842 40 21 21 0 [] = true := by
  decide +kernel

theorem woExact842 : ReducedExact (woGrid woGrid842 : StaticGrid ℝ).points
    (woGrid woGrid842 : StaticGrid ℝ).weights 40 (5 / 10 ^ 14) :=
  woBlocks_exact [(21, 21, [])]
    woBase842 (by decide) ⟨woBlock842_0, trivial⟩

/-- `s2/womersley/womersley_1353.hpp`, order 51. -/
theorem woBase1353 : WoBase woGrid1353 :=
  ⟨⟨by decide, by decide, by decide, by decide⟩, by decide +kernel⟩

theorem woBlock1353_0 : woBlock woGrid1353 51 26 26 0 [] = true := by
  decide +kernel

theorem woExact1353 : ReducedExact (woGrid woGrid1353 : StaticGrid ℝ).points
    (woGrid woGrid1353 : StaticGrid ℝ).weights 51 (5 / 10 ^ 14) :=
  woBlocks_exact [(26, 26, [])]
    woBase1353 (by decide) ⟨woBlock1353_0, trivial⟩

/-- `s2/womersley/womersley_1569.hpp`, order 55. -/
theorem woBase1569 : WoBase woGrid1569 :=
  ⟨⟨by decide, by decide, by decide, by decide⟩, by decide +kernel⟩

theorem woBlock1569_0 : woBlock woGrid1569 55 28 28 0 [] = true := by
  decide +kernel

theorem woExact1569 : ReducedExact (woGrid woGrid1569 : StaticGrid ℝ).points
    (woGrid woGrid1569 : StaticGrid ℝ).weights 55 (5 / 10 ^ 14) :=
  woBlocks_exact [(28, 28, [])]
    woBase1569 (by decide) ⟨woBlock1569_0, trivial⟩

/-- `s2/womersley/womersley_2382.hpp`, order 68. -/
theorem woBase2382 : WoBase woGrid2382 :=
  ⟨⟨by decide, by decide, by decide, by decide⟩, by decide +kernel⟩

theorem woBlock2382_0 : woBlock woGrid2382 68 35 35 0 [] = true := by
  decide +kernel

theorem woExact2382 : ReducedExact (woGrid woGrid2382 : StaticGrid ℝ).points
    (woGrid woGrid2382 : StaticGrid ℝ).weights 68 (5 / 10 ^ 14) :=
  woBlocks_exact [(35, 35, [])]
    woBase2382 (by decide) ⟨woBlock2382_0, trivial⟩

/-- `s2/womersley/womersley_2739.hpp`, order 73. -/
theorem woBase2739 : WoBase woGrid2739 :=
  ⟨⟨by decide, by decide, by decide, by decide⟩, by decide +kernel⟩

theorem woBlock2739_0 : woBlock woGrid2739 73 37 37 0 [] = true := by
  decide +kernel

theorem woExact2739 : ReducedExact (woGrid woGrid2739 : StaticGrid ℝ).points
    (woGrid woGrid2739 : StaticGrid ℝ).weights 73 (5 / 10 ^ 14) :=
  woBlocks_exact [(37, 37, [])]
    woBase2739 (by decide) ⟨woBlock2739_0, trivial⟩

/-- `s2/womersley/womersley_3446.hpp`, order 82. -/
theorem woBase3446 : WoBase woGrid3446 :=
  ⟨⟨by decide, by decide, by decide, by decide⟩, by decide +kernel⟩

theorem woBlock3446_0 : woBlock woGrid3446 82 42 21 0 [] = true := by
  decide +kernel

theorem woBlock3446_1 : woBlock woGrid3446 82 21 21 21 [true, false, true, false, true] = true := by
  decide +kernel

theorem woExact3446 : ReducedExact (woGrid woGrid3446 : StaticGrid ℝ).points
    (woGrid woGrid3446 : StaticGrid ℝ).weights 82 (5 / 10 ^ 14) :=
  woBlocks_exact [(42, 21, []), (21, 21, [true, false, true, false, true])]
    woBase3446 (by decide) ⟨woBlock3446_0, woBlock3446_1, trivial⟩

/-- `s2/womersley/womersley_3962.hpp`, order 88. -/
theorem woBase3962 : WoBase woGrid3962 :=
  ⟨⟨by decide, by decide, by decide, by decide⟩, by decide +kernel⟩

theorem woBlock3962_0 : woBlock woGrid3962 88 45 23 0 [] = true := by
  decide +kernel

theorem woBlock3962_1 : woBlock woGrid3962 88 22 22 23 [true, true, true, false, true] = true := by
  decide +kernel

theorem woExact3962 : ReducedExact (woGrid woGrid3962 : StaticGrid ℝ).points
    (woGrid woGrid3962 : StaticGrid ℝ).weights 88 (5 / 10 ^ 14) :=
  woBlocks_exact [(45, 23, []), (22, 22, [true, true, true, false, true])]
    woBase3962 (by decide) ⟨woBlock3962_0, woBlock3962_1, trivial⟩

/-- `s2/womersley/womersley_5001.hpp`, order 99. -/
theorem woBase5001 : WoBase woGrid5001 :=
  ⟨⟨by decide, by decide, by decide, by decide⟩, by decide +kernel⟩

theorem woBlock5001_0 : woBlock woGrid5001 99 50 20 0 [] = true := by
  decide +kernel

theorem woBlock5001_1 : woBlock woGrid5001 99 30 30 20 [false, false, true, false, true] = true := by
  decide +kernel

theorem woExact5001 : ReducedExact (woGrid woGrid5001 : StaticGrid ℝ).points
    (woGrid woGrid5001 : StaticGrid ℝ).weights 99 (5 / 10 ^ 14) :=
  woBlocks_exact [(50, 20, []), (30, 30, [false, false, true, false, true])]
    woBase5001 (by decide) ⟨woBlock5001_0, woBlock5001_1, trivial⟩

/-- `s2/womersley/womersley_5619.hpp`, order 105. -/
theorem woBase5619 : WoBase woGrid5619 :=
  ⟨⟨by decide, by decide, by decide, by decide⟩, by decide +kernel⟩

theorem woBlock5619_0 : woBlock woGrid5619 105 53 17 0 [] = true := by
  decide +kernel

theorem woBlock5619_1 : woBlock woGrid5619 105 36 18 17 [true, false, false, false, true] = true := by
  decide +kernel

theorem woBlock5619_2 : woBlock woGrid5619 105 18 18 35 [true, true, false, false, false, true] = true := by
  decide +kernel

theorem woExact5619 : ReducedExact (woGrid woGrid5619 : StaticGrid ℝ).points
    (woGrid woGrid5619 : StaticGrid ℝ).weights 105 (5 / 10 ^ 14) :=
  woBlocks_exact [(53, 17, []), (36, 18, [true, false, false, false, true]),
    (18, 18, [true, true, false, false, false, true])]
    woBase5619 (by decide) ⟨woBlock5619_0, woBlock5619_1, woBlock5619_2, trivial⟩

/-- `s2/womersley/womersley_6963.hpp`, order 117. -/
theorem woBase6963 : WoBase woGrid6963 :=
  ⟨⟨by decide, by decide, by decide, by decide⟩, by decide +kernel⟩

theorem woBlock6963_0 : woBlock woGrid6963 117 59 12 0 [] = true := by
  decide +kernel

theorem woBlock6963_1 : woBlock woGrid6963 117 47 15 12 [false, false, true, true] = true := by
  decide +kernel

theorem woBlock6963_2 : woBlock woGrid6963 117 32 16 27 [true, true, false, true, true] = true := by
  decide +kernel

theorem woBlock6963_3 : woBlock woGrid6963 117 16 16 43 [true, true, false, true, false, true] = true := by
  decide +kernel

theorem woExact6963 : ReducedExact (woGrid woGrid6963 : StaticGrid ℝ).points
    (woGrid woGrid6963 : StaticGrid ℝ).weights 117 (5 / 10 ^ 14) :=
  woBlocks_exact [(59, 12, []), (47, 15, [false, false, true, true]),
    (32, 16, [true, true, false, true, true]), (16, 16, [true, true, false, true, false, true])]
    woBase6963 (by decide) ⟨woBlock6963_0, woBlock6963_1, woBlock6963_2, woBlock6963_3, trivial⟩

/-- `s2/womersley/womersley_7082.hpp`, order 118. -/
theorem woBase7082 : WoBase woGrid7082 :=
  ⟨⟨by decide, by decide, by decide, by decide⟩, by decide +kernel⟩

theorem woBlock7082_0 : woBlock woGrid7082 118 60 12 0 [] = true := by
  decide +kernel

theorem woBlock7082_1 : woBlock woGrid7082 118 48 15 12 [false, false, true, true] = true := by
  decide +kernel

theorem woBlock7082_2 : woBlock woGrid7082 118 33 16 27 [true, true, false, true, true] = true := by
  decide +kernel

theorem woBlock7082_3 : woBlock woGrid7082 118 17 17 43 [true, true, false, true, false, true] = true := by
  decide +kernel

theorem woExact7082 : ReducedExact (woGrid woGrid7082 : StaticGrid ℝ).points
    (woGrid woGrid7082 : StaticGrid ℝ).weights 118 (5 / 10 ^ 14) :=
  woBlocks_exact [(60, 12, []), (48, 15, [false, false, true, true]),
    (33, 16, [true, true, false, true, true]), (17, 17, [true, true, false, true, false, true])]
    woBase7082 (by decide) ⟨woBlock7082_0, woBlock7082_1, woBlock7082_2, woBlock7082_3, trivial⟩

end IntegratorXX
