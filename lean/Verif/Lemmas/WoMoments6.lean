import Verif.Model.Womersley.Part01
import Verif.Model.Womersley.Part02
import Verif.Model.Womersley.Part03
import Verif.Model.Womersley.Part04
import Verif.Model.Womersley.Part05
import Verif.Model.Womersley.Part07
import Verif.Model.Womersley.Part08
import Verif.Model.Womersley.Part11
import Verif.Model.Womersley.Part12
import Verif.Lemmas.WoBlock

/-!
# Moments of the tabulated Womersley grids, part 6

Generated: each theorem evaluates integer inequalities for one grid.
-/

set_option maxRecDepth 200000
set_option Elab.async false

namespace IntegratorXX
open Tables

/-- `s2/womersley/womersley_3.hpp`, order 1. -/
theorem woBase3 : WoBase woGrid3 :=
  ⟨⟨by decide, by decide, by decide, by decide⟩, by decide +kernel⟩

theorem woBlock3_0 : woBlock woGrid3 1 1 1 0 [] = true := by
  decide +kernel

theorem woExact3 : ReducedExact (woGrid woGrid3 : StaticGrid ℝ).points
    (woGrid woGrid3 : StaticGrid ℝ).weights 1 (5 / 10 ^ 14) :=
  woBlocks_exact [(1, 1, [])]
    woBase3 (by decide) ⟨woBlock3_0, trivial⟩

/-- `s2/womersley/womersley_42.hpp`, order 8. -/
theorem woBase42 : WoBase woGrid42 :=
  ⟨⟨by decide, by decide, by decide, by decide⟩, by decide +kernel⟩

theorem woBlock42_0 : woBlock woGrid42 8 5 5 0 [] = true := by
  decide +kernel

theorem woExact42 : ReducedExact (woGrid woGrid42 : StaticGrid ℝ).points
    (woGrid woGrid42 : StaticGrid ℝ).weights 8 (5 / 10 ^ 14) :=
  woBlocks_exact [(5, 5, [])]
    woBase42 (by decide) ⟨woBlock42_0, trivial⟩

/-- `s2/womersley/womersley_201.hpp`, order 19. -/
theorem woBase201 : WoBase woGrid201 :=
  ⟨⟨by decide, by decide, by decide, by decide⟩, by decide +kernel⟩

theorem woBlock201_0 : woBlock woGrid201 19 10 10 0 [] = true := by
  decide +kernel

theorem woExact201 : ReducedExact (woGrid woGrid201 : StaticGrid ℝ).points
    (woGrid woGrid201 : StaticGrid ℝ).weights 19 (5 / 10 ^ 14) :=
  woBlocks_exact [(10, 10, [])]
    woBase201 (by decide) ⟨woBlock201_0, trivial⟩

/-- `s2/womersley/womersley_339.hpp`, order 25. -/
theorem woBase339 : WoBase woGrid339 :=
  ⟨⟨by decide, by decide, by decide, by decide⟩, by decide +kernel⟩

theorem woBlock339_0 : woBlock woGrid339 25 13 13 0 [] = true := by
  decide +kernel

theorem woExact339 : ReducedExact (woGrid woGrid339 : StaticGrid ℝ).points
    (woGrid woGrid339 : StaticGrid ℝ).weights 25 (5 / 10 ^ 14) :=
  woBlocks_exact [(13, 13, [])]
    woBase339 (by decide) ⟨woBlock339_0, trivial⟩

/-- `s2/womersley/womersley_614.hpp`, order 34. -/
theorem woBase614 : WoBase woGrid614 :=
  ⟨⟨by decide, by decide, by decide, by decide⟩, by decide +kernel⟩

theorem woBlock614_0 : woBlock woGrid614 34 18 18 0 [] = true := by
  decide +kernel

theorem woExact614 : ReducedExact (woGrid woGrid614 : StaticGrid ℝ).points
    (woGrid woGrid614 : StaticGrid ℝ).weights 34 (5 / 10 ^ 14) :=
  woBlocks_exact [(18, 18, [])]
    woBase614 (by decide) ⟨woBlock614_0, trivial⟩

/-- `s2/womersley/womersley_926.hpp`, order 42. -/
theorem woBase926 : WoBase woGrid926 :=
  ⟨⟨by decide, by decide, by decide, by decide⟩, by decide +kernel⟩

theorem woBlock926_0 : woBlock woGrid926 42 22 22 0 [] = true := by
  decide +kernel

theorem woExact926 : ReducedExact (woGrid woGrid926 : StaticGrid ℝ).points
    (woGrid woGrid926 : StaticGrid ℝ).weights 42 (5 / 10 ^ 14) :=
  woBlocks_exact [(22, 22, [])]
    woBase926 (by decide) ⟨woBlock926_0, trivial⟩

/-- `s2/womersley/womersley_1202.hpp`, order 48. -/
theorem woBase1202 : WoBase woGrid1202 :=
  ⟨⟨by decide, by decide, by decide, by decide⟩, by decide +kernel⟩

theorem woBlock1202_0 : woBlock woGrid1202 48 25 25 0 [] = true := by
  decide +kernel

theorem woExact1202 : ReducedExact (woGrid woGrid1202 : StaticGrid ℝ).points
    (woGrid woGrid1202 : StaticGrid ℝ).weights 48 (5 / 10 ^ 14) :=
  woBlocks_exact [(25, 25, [])]
    woBase1202 (by decide) ⟨woBlock1202_0, trivial⟩

/-- `s2/womersley/womersley_1862.hpp`, order 60. -/
theorem woBase1862 : WoBase woGrid1862 :=
  ⟨⟨by decide, by decide, by decide, by decide⟩, by decide +kernel⟩

theorem woBlock1862_0 : woBlock woGrid1862 60 31 31 0 [] = true := by
  decide +kernel

theorem woExact1862 : ReducedExact (woGrid woGrid1862 : StaticGrid ℝ).points
    (woGrid woGrid1862 : StaticGrid ℝ).weights 60 (5 / 10 ^ 14) :=
  woBlocks_exact [(31, 31, [])]
    woBase1862 (by decide) ⟨woBlock1862_0, trivial⟩

/-- `s2/womersley/womersley_2049.hpp`, order 63. -/
theorem woBase2049 : WoBase woGrid2049 :=
  ⟨⟨by decide, by decide, by decide, by decide⟩, by decide +kernel⟩

theorem woBlock2049_0 : woBlock woGrid2049 63 32 32 0 [] = true := by
  decide +kernel

theorem woExact2049 : ReducedExact (woGrid woGrid2049 : StaticGrid ℝ).points
    (woGrid woGrid2049 : StaticGrid ℝ).weights 63 (5 / 10 ^ 14) :=
  woBlocks_exact [(32, 32, [])]
    woBase2049 (by decide) ⟨woBlock2049_0, trivial⟩

/-- `s2/womersley/womersley_2966.hpp`, order 76. -/
theorem woBase2966 : WoBase woGrid2966 :=
  ⟨⟨by decide, by decide, by decide, by decide⟩, by decide +kernel⟩

theorem woBlock2966_0 : woBlock woGrid2966 76 39 39 0 [] = true := by
  decide +kernel

theorem woExact2966 : ReducedExact (woGrid woGrid2966 : StaticGrid ℝ).points
    (woGrid woGrid2966 : StaticGrid ℝ).weights 76 (5 / 10 ^ 14) :=
  woBlocks_exact [(39, 39, [])]
    woBase2966 (by decide) ⟨woBlock2966_0, trivial⟩

/-- `s2/womersley/womersley_3201.hpp`, order 79. -/
theorem woBase3201 : WoBase woGrid3201 :=
  ⟨⟨by decide, by decide, by decide, by decide⟩, by decide +kernel⟩

theorem woBlock3201_0 : woBlock woGrid3201 79 40 40 0 [] = true := by
  decide +kernel

theorem woExact3201 : ReducedExact (woGrid woGrid3201 : StaticGrid ℝ).points
    (woGrid woGrid3201 : StaticGrid ℝ).weights 79 (5 / 10 ^ 14) :=
  woBlocks_exact [(40, 40, [])]
    woBase3201 (by decide) ⟨woBlock3201_0, trivial⟩

/-- `s2/womersley/womersley_3873.hpp`, order 87. -/
theorem woBase3873 : WoBase woGrid3873 :=
  ⟨⟨by decide, by decide, by decide, by decide⟩, by decide +kernel⟩

theorem woBlock3873_0 : woBlock woGrid3873 87 44 22 0 [] = true := by
  decide +kernel

theorem woBlock3873_1 : woBlock woGrid3873 87 22 22 22 [false, true, true, false, true] = true := by
  decide +kernel

theorem woExact3873 : ReducedExact (woGrid woGrid3873 : StaticGrid ℝ).points
    (woGrid woGrid3873 : StaticGrid ℝ).weights 87 (5 / 10 ^ 14) :=
  woBlocks_exact [(44, 22, []), (22, 22, [false, true, true, false, true])]
    woBase3873 (by decide) ⟨woBlock3873_0, woBlock3873_1, trivial⟩

/-- `s2/womersley/womersley_5203.hpp`, order 101. -/
theorem woBase5203 : WoBase woGrid5203 :=
  ⟨⟨by decide, by decide, by decide, by decide⟩, by decide +kernel⟩

theorem woBlock5203_0 : woBlock woGrid5203 101 51 17 0 [] = true := by
  decide +kernel

theorem woBlock5203_1 : woBlock woGrid5203 101 34 17 17 [true, false, false, false, true] = true := by
  decide +kernel

theorem woBlock5203_2 : woBlock woGrid5203 101 17 17 34 [false, true, false, false, false, true] = true := by
  decide +kernel

theorem woExact5203 : ReducedExact (woGrid woGrid5203 : StaticGrid ℝ).points
    (woGrid woGrid5203 : StaticGrid ℝ).weights 101 (5 / 10 ^ 14) :=
  woBlocks_exact [(51, 17, []), (34, 17, [true, false, false, false, true]),
    (17, 17, [false, true, false, false, false, true])]
    woBase5203 (by decide) ⟨woBlock5203_0, woBlock5203_1, woBlock5203_2, trivial⟩

/-- `s2/womersley/womersley_5409.hpp`, order 103. -/
theorem woBase5409 : WoBase woGrid5409 :=
  ⟨⟨by decide, by decide, by decide, by decide⟩, by decide +kernel⟩

theorem woBlock5409_0 : woBlock woGrid5409 103 52 17 0 [] = true := by
  decide +kernel

theorem woBlock5409_1 : woBlock woGrid5409 103 35 17 17 [true, false, false, false, true] = true := by
  decide +kernel

theorem woBlock5409_2 : woBlock woGrid5409 103 18 18 34 [false, true, false, false, false, true] = true := by
  decide +kernel

theorem woExact5409 : ReducedExact (woGrid woGrid5409 : StaticGrid ℝ).points
    (woGrid woGrid5409 : StaticGrid ℝ).weights 103 (5 / 10 ^ 14) :=
  woBlocks_exact [(52, 17, []), (35, 17, [true, false, false, false, true]),
    (18, 18, [false, true, false, false, false, true])]
    woBase5409 (by decide) ⟨woBlock5409_0, woBlock5409_1, woBlock5409_2, trivial⟩

/-- `s2/womersley/womersley_6729.hpp`, order 115. -/
theorem woBase6729 : WoBase woGrid6729 :=
  ⟨⟨by decide, by decide, by decide, by decide⟩, by decide +kernel⟩

theorem woBlock6729_0 : woBlock woGrid6729 115 58 13 0 [] = true := by
  decide +kernel

theorem woBlock6729_1 : woBlock woGrid6729 115 45 15 13 [true, false, true, true] = true := by
  decide +kernel

theorem woBlock6729_2 : woBlock woGrid6729 115 30 15 28 [false, false, true, true, true] = true := by
  decide +kernel

theorem woBlock6729_3 : woBlock woGrid6729 115 15 15 43 [true, true, false, true, false, true] = true := by
  decide +kernel

theorem woExact6729 : ReducedExact (woGrid woGrid6729 : StaticGrid ℝ).points
    (woGrid woGrid6729 : StaticGrid ℝ).weights 115 (5 / 10 ^ 14) :=
  woBlocks_exact [(58, 13, []), (45, 15, [true, false, true, true]),
    (30, 15, [false, false, true, true, true]), (15, 15, [true, true, false, true, false, true])]
    woBase6729 (by decide) ⟨woBlock6729_0, woBlock6729_1, woBlock6729_2, woBlock6729_3, trivial⟩

/-- `s2/womersley/womersley_7322.hpp`, order 120. -/
theorem woBase7322 : WoBase woGrid7322 :=
  ⟨⟨by decide, by decide, by decide, by decide⟩, by decide +kernel⟩

theorem woBlock7322_0 : woBlock woGrid7322 120 61 11 0 [] = true := by
  decide +kernel

theorem woBlock7322_1 : woBlock woGrid7322 120 50 14 11 [true, true, false, true] = true := by
  decide +kernel

theorem woBlock7322_2 : woBlock woGrid7322 120 36 18 25 [true, false, false, true, true] = true := by
  decide +kernel

theorem woBlock7322_3 : woBlock woGrid7322 120 18 18 43 [true, true, false, true, false, true] = true := by
  decide +kernel

theorem woExact7322 : ReducedExact (woGrid woGrid7322 : StaticGrid ℝ).points
    (woGrid woGrid7322 : StaticGrid ℝ).weights 120 (5 / 10 ^ 14) :=
  woBlocks_exact [(61, 11, []), (50, 14, [true, true, false, true]),
    (36, 18, [true, false, false, true, true]), (18, 18, [true, true, false, true, false, true])]
    woBase7322 (by decide) ⟨woBlock7322_0, woBlock7322_1, woBlock7322_2, woBlock7322_3, trivial⟩

end IntegratorXX
