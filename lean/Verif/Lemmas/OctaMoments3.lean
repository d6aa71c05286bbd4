import Verif.Lemmas.OctaCheck

/-!
# Moments of the tabulated octahedral grids, part 3

Generated: each theorem evaluates the integer inequalities of `OctaCheck` for one grid.
-/

set_option maxRecDepth 100000

namespace IntegratorXX
open Tables

/-- `s2/delley/delley_770.hpp`, order 47. -/
theorem deExact770 : OctaExact deRep deRows770 23 :=
  OctaExact.of_top (by decide) (by decide +kernel) (by decide +kernel) (by decide +kernel)

/-- `s2/delley/delley_1730.hpp`, order 71. -/
theorem deExact1730 : OctaExact deRep deRows1730 35 :=
  OctaExact.of_top (by decide) (by decide +kernel) (by decide +kernel) (by decide +kernel)

private theorem de2354_0 : octaOkRange deRep deRows2354 41 0 37 = true := by decide +kernel
private theorem de2354_1 : octaOkRange deRep deRows2354 41 37 5 = true := by decide +kernel

private theorem de2354_0_1 : octaOkRange deRep deRows2354 41 0 42 = true :=
  octaOkRange_append de2354_0 de2354_1 rfl rfl

/-- `s2/delley/delley_2354.hpp`, order 83. -/
theorem deExact2354 : OctaExact deRep deRows2354 41 :=
  OctaExact.of_top (by decide) (by decide +kernel) (by decide +kernel)
    de2354_0_1

private theorem de3470_0 : octaOkRange deRep deRows3470 50 0 27 = true := by decide +kernel
private theorem de3470_1 : octaOkRange deRep deRows3470 50 27 8 = true := by decide +kernel
private theorem de3470_2 : octaOkRange deRep deRows3470 50 35 16 = true := by decide +kernel

private theorem de3470_0_1 : octaOkRange deRep deRows3470 50 0 35 = true :=
  octaOkRange_append de3470_0 de3470_1 rfl rfl
private theorem de3470_0_2 : octaOkRange deRep deRows3470 50 0 51 = true :=
  octaOkRange_append de3470_0_1 de3470_2 rfl rfl

/-- `s2/delley/delley_3470.hpp`, order 101. -/
theorem deExact3470 : OctaExact deRep deRows3470 50 :=
  OctaExact.of_top (by decide) (by decide +kernel) (by decide +kernel)
    de3470_0_2

/-- `s2/lebedev_laikov/lebedev_laikov_6.hpp`, order 3. -/
theorem llExact6 : OctaExact llRep llRows6 1 :=
  OctaExact.of_top (by decide) (by decide +kernel) (by decide +kernel) (by decide +kernel)

/-- `s2/lebedev_laikov/lebedev_laikov_14.hpp`, order 5. -/
theorem llExact14 : OctaExact llRep llRows14 2 :=
  OctaExact.of_top (by decide) (by decide +kernel) (by decide +kernel) (by decide +kernel)

/-- `s2/lebedev_laikov/lebedev_laikov_38.hpp`, order 9. -/
theorem llExact38 : OctaExact llRep llRows38 4 :=
  OctaExact.of_top (by decide) (by decide +kernel) (by decide +kernel) (by decide +kernel)

/-- `s2/lebedev_laikov/lebedev_laikov_86.hpp`, order 15. -/
theorem llExact86 : OctaExact llRep llRows86 7 :=
  OctaExact.of_top (by decide) (by decide +kernel) (by decide +kernel) (by decide +kernel)

/-- `s2/lebedev_laikov/lebedev_laikov_110.hpp`, order 17. -/
theorem llExact110 : OctaExact llRep llRows110 8 :=
  OctaExact.of_top (by decide) (by decide +kernel) (by decide +kernel) (by decide +kernel)

/-- `s2/lebedev_laikov/lebedev_laikov_194.hpp`, order 23. -/
theorem llExact194 : OctaExact llRep llRows194 11 :=
  OctaExact.of_top (by decide) (by decide +kernel) (by decide +kernel) (by decide +kernel)

/-- `s2/lebedev_laikov/lebedev_laikov_770.hpp`, order 47. -/
theorem llExact770 : OctaExact llRep llRows770 23 :=
  OctaExact.of_top (by decide) (by decide +kernel) (by decide +kernel) (by decide +kernel)

private theorem ll2702_0 : octaOkRange llRep llRows2702 44 0 30 = true := by decide +kernel
private theorem ll2702_1 : octaOkRange llRep llRows2702 44 30 15 = true := by decide +kernel

private theorem ll2702_0_1 : octaOkRange llRep llRows2702 44 0 45 = true :=
  octaOkRange_append ll2702_0 ll2702_1 rfl rfl

/-- `s2/lebedev_laikov/lebedev_laikov_2702.hpp`, order 89. -/
theorem llExact2702 : OctaExact llRep llRows2702 44 :=
  OctaExact.of_top (by decide) (by decide +kernel) (by decide +kernel)
    ll2702_0_1

private theorem ll4334_0 : octaOkRange llRep llRows4334 56 0 27 = true := by decide +kernel
private theorem ll4334_1 : octaOkRange llRep llRows4334 56 27 4 = true := by decide +kernel
private theorem ll4334_2 : octaOkRange llRep llRows4334 56 31 5 = true := by decide +kernel
private theorem ll4334_3 : octaOkRange llRep llRows4334 56 36 6 = true := by decide +kernel
private theorem ll4334_4 : octaOkRange llRep llRows4334 56 42 15 = true := by decide +kernel

private theorem ll4334_0_1 : octaOkRange llRep llRows4334 56 0 31 = true :=
  octaOkRange_append ll4334_0 ll4334_1 rfl rfl
private theorem ll4334_0_2 : octaOkRange llRep llRows4334 56 0 36 = true :=
  octaOkRange_append ll4334_0_1 ll4334_2 rfl rfl
private theorem ll4334_0_3 : octaOkRange llRep llRows4334 56 0 42 = true :=
  octaOkRange_append ll4334_0_2 ll4334_3 rfl rfl
private theorem ll4334_0_4 : octaOkRange llRep llRows4334 56 0 57 = true :=
  octaOkRange_append ll4334_0_3 ll4334_4 rfl rfl

/-- `s2/lebedev_laikov/lebedev_laikov_4334.hpp`, order 113. -/
theorem llExact4334 : OctaExact llRep llRows4334 56 :=
  OctaExact.of_top (by decide) (by decide +kernel) (by decide +kernel)
    ll4334_0_4

end IntegratorXX
