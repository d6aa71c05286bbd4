import Verif.Lemmas.OctaCheck

/-!
# Moments of the tabulated octahedral grids, part 4

Generated: each theorem evaluates the integer inequalities of `OctaCheck` for one grid.
-/

set_option maxRecDepth 100000

namespace IntegratorXX
open Tables

/-- `s2/delley/delley_14.hpp`, order 5. -/
theorem deExact14 : OctaExact deRep deRows14 2 :=
  OctaExact.of_top (by decide) (by decide +kernel) (by decide +kernel) (by decide +kernel)

/-- `s2/delley/delley_50.hpp`, order 11. -/
theorem deExact50 : OctaExact deRep deRows50 5 :=
  OctaExact.of_top (by decide) (by decide +kernel) (by decide +kernel) (by decide +kernel)

/-- `s2/delley/delley_590.hpp`, order 41. -/
theorem deExact590 : OctaExact deRep deRows590 20 :=
  OctaExact.of_top (by decide) (by decide +kernel) (by decide +kernel) (by decide +kernel)

/-- `s2/delley/delley_2030.hpp`, order 77. -/
theorem deExact2030 : OctaExact deRep deRows2030 38 :=
  OctaExact.of_top (by decide) (by decide +kernel) (by decide +kernel) (by decide +kernel)

private theorem de3074_0 : octaOkRange deRep deRows3074 47 0 28 = true := by decide +kernel
private theorem de3074_1 : octaOkRange deRep deRows3074 47 28 16 = true := by decide +kernel
private theorem de3074_2 : octaOkRange deRep deRows3074 47 44 4 = true := by decide +kernel

private theorem de3074_0_1 : octaOkRange deRep deRows3074 47 0 44 = true :=
  octaOkRange_append de3074_0 de3074_1 rfl rfl
private theorem de3074_0_2 : octaOkRange deRep deRows3074 47 0 48 = true :=
  octaOkRange_append de3074_0_1 de3074_2 rfl rfl

/-- `s2/delley/delley_3074.hpp`, order 95. -/
theorem deExact3074 : OctaExact deRep deRows3074 47 :=
  OctaExact.of_top (by decide) (by decide +kernel) (by decide +kernel)
    de3074_0_2

/-- `s2/lebedev_laikov/lebedev_laikov_146.hpp`, order 19. -/
theorem llExact146 : OctaExact llRep llRows146 9 :=
  OctaExact.of_top (by decide) (by decide +kernel) (by decide +kernel) (by decide +kernel)

/-- `s2/lebedev_laikov/lebedev_laikov_266.hpp`, order 27. -/
theorem llExact266 : OctaExact llRep llRows266 13 :=
  OctaExact.of_all (by decide +kernel)

/-- `s2/lebedev_laikov/lebedev_laikov_302.hpp`, order 29. -/
theorem llExact302 : OctaExact llRep llRows302 14 :=
  OctaExact.of_top (by decide) (by decide +kernel) (by decide +kernel) (by decide +kernel)

/-- `s2/lebedev_laikov/lebedev_laikov_974.hpp`, order 53. -/
theorem llExact974 : OctaExact llRep llRows974 26 :=
  OctaExact.of_top (by decide) (by decide +kernel) (by decide +kernel) (by decide +kernel)

/-- `s2/lebedev_laikov/lebedev_laikov_1202.hpp`, order 59. -/
theorem llExact1202 : OctaExact llRep llRows1202 29 :=
  OctaExact.of_top (by decide) (by decide +kernel) (by decide +kernel) (by decide +kernel)

private theorem ll2354_0 : octaOkRange llRep llRows2354 41 0 37 = true := by decide +kernel
private theorem ll2354_1 : octaOkRange llRep llRows2354 41 37 5 = true := by decide +kernel

private theorem ll2354_0_1 : octaOkRange llRep llRows2354 41 0 42 = true :=
  octaOkRange_append ll2354_0 ll2354_1 rfl rfl

/-- `s2/lebedev_laikov/lebedev_laikov_2354.hpp`, order 83. -/
theorem llExact2354 : OctaExact llRep llRows2354 41 :=
  OctaExact.of_top (by decide) (by decide +kernel) (by decide +kernel)
    ll2354_0_1

private theorem ll3470_0 : octaOkRange llRep llRows3470 50 0 27 = true := by decide +kernel
private theorem ll3470_1 : octaOkRange llRep llRows3470 50 27 8 = true := by decide +kernel
private theorem ll3470_2 : octaOkRange llRep llRows3470 50 35 16 = true := by decide +kernel

private theorem ll3470_0_1 : octaOkRange llRep llRows3470 50 0 35 = true :=
  octaOkRange_append ll3470_0 ll3470_1 rfl rfl
private theorem ll3470_0_2 : octaOkRange llRep llRows3470 50 0 51 = true :=
  octaOkRange_append ll3470_0_1 ll3470_2 rfl rfl

/-- `s2/lebedev_laikov/lebedev_laikov_3470.hpp`, order 101. -/
theorem llExact3470 : OctaExact llRep llRows3470 50 :=
  OctaExact.of_top (by decide) (by decide +kernel) (by decide +kernel)
    ll3470_0_2

private theorem ll3890_0 : octaOkRange llRep llRows3890 53 0 27 = true := by decide +kernel
private theorem ll3890_1 : octaOkRange llRep llRows3890 53 27 6 = true := by decide +kernel
private theorem ll3890_2 : octaOkRange llRep llRows3890 53 33 8 = true := by decide +kernel
private theorem ll3890_3 : octaOkRange llRep llRows3890 53 41 13 = true := by decide +kernel

private theorem ll3890_0_1 : octaOkRange llRep llRows3890 53 0 33 = true :=
  octaOkRange_append ll3890_0 ll3890_1 rfl rfl
private theorem ll3890_0_2 : octaOkRange llRep llRows3890 53 0 41 = true :=
  octaOkRange_append ll3890_0_1 ll3890_2 rfl rfl
private theorem ll3890_0_3 : octaOkRange llRep llRows3890 53 0 54 = true :=
  octaOkRange_append ll3890_0_2 ll3890_3 rfl rfl

/-- `s2/lebedev_laikov/lebedev_laikov_3890.hpp`, order 107. -/
theorem llExact3890 : OctaExact llRep llRows3890 53 :=
  OctaExact.of_top (by decide) (by decide +kernel) (by decide +kernel)
    ll3890_0_3

end IntegratorXX
