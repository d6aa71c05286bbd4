import Verif.Lemmas.OctaCheck

/-!
# Moments of the tabulated octahedral grids, part 1

Generated: each theorem evaluates the integer inequalities of `OctaCheck` for one grid.
-/

set_option maxRecDepth 100000

namespace IntegratorXX
open Tables

/-- `s2/delley/delley_26.hpp`, order 7. -/
theorem deExact26 : OctaExact deRep deRows26 3 :=
  OctaExact.of_top (by decide) (by decide +kernel) (by decide +kernel) (by decide +kernel)

/-- `s2/delley/delley_110.hpp`, order 17. -/
theorem deExact110 : OctaExact deRep deRows110 8 :=
  OctaExact.of_top (by decide) (by decide +kernel) (by decide +kernel) (by decide +kernel)

/-- `s2/delley/delley_194.hpp`, order 23. -/
theorem deExact194 : OctaExact deRep deRows194 11 :=
  OctaExact.of_top (by decide) (by decide +kernel) (by decide +kernel) (by decide +kernel)

/-- `s2/delley/delley_302.hpp`, order 29. -/
theorem deExact302 : OctaExact deRep deRows302 14 :=
  OctaExact.of_top (by decide) (by decide +kernel) (by decide +kernel) (by decide +kernel)

/-- `s2/delley/delley_434.hpp`, order 35. -/
theorem deExact434 : OctaExact deRep deRows434 17 :=
  OctaExact.of_top (by decide) (by decide +kernel) (by decide +kernel) (by decide +kernel)

/-- `s2/delley/delley_974.hpp`, order 53. -/
theorem deExact974 : OctaExact deRep deRows974 26 :=
  OctaExact.of_top (by decide) (by decide +kernel) (by decide +kernel) (by decide +kernel)

/-- `s2/delley/delley_1454.hpp`, order 65. -/
theorem deExact1454 : OctaExact deRep deRows1454 32 :=
  OctaExact.of_top (by decide) (by decide +kernel) (by decide +kernel) (by decide +kernel)

/-- `s2/lebedev_laikov/lebedev_laikov_50.hpp`, order 11. -/
theorem llExact50 : OctaExact llRep llRows50 5 :=
  OctaExact.of_top (by decide) (by decide +kernel) (by decide +kernel) (by decide +kernel)

/-- `s2/lebedev_laikov/lebedev_laikov_434.hpp`, order 35. -/
theorem llExact434 : OctaExact llRep llRows434 17 :=
  OctaExact.of_top (by decide) (by decide +kernel) (by decide +kernel) (by decide +kernel)

/-- `s2/lebedev_laikov/lebedev_laikov_2030.hpp`, order 77. -/
theorem llExact2030 : OctaExact llRep llRows2030 38 :=
  OctaExact.of_top (by decide) (by decide +kernel) (by decide +kernel) (by decide +kernel)

private theorem ll5810_0 : octaOkRange llRep llRows5810 65 0 29 = true := by decide +kernel
private theorem ll5810_1 : octaOkRange llRep llRows5810 65 29 3 = true := by decide +kernel
private theorem ll5810_2 : octaOkRange llRep llRows5810 65 32 2 = true := by decide +kernel
private theorem ll5810_3 : octaOkRange llRep llRows5810 65 34 2 = true := by decide +kernel
private theorem ll5810_4 : octaOkRange llRep llRows5810 65 36 2 = true := by decide +kernel
private theorem ll5810_5 : octaOkRange llRep llRows5810 65 38 3 = true := by decide +kernel
private theorem ll5810_6 : octaOkRange llRep llRows5810 65 41 3 = true := by decide +kernel
private theorem ll5810_7 : octaOkRange llRep llRows5810 65 44 4 = true := by decide +kernel
private theorem ll5810_8 : octaOkRange llRep llRows5810 65 48 5 = true := by decide +kernel
private theorem ll5810_9 : octaOkRange llRep llRows5810 65 53 8 = true := by decide +kernel
private theorem ll5810_10 : octaOkRange llRep llRows5810 65 61 5 = true := by decide +kernel

private theorem ll5810_0_1 : octaOkRange llRep llRows5810 65 0 32 = true :=
  octaOkRange_append ll5810_0 ll5810_1 rfl rfl
private theorem ll5810_0_2 : octaOkRange llRep llRows5810 65 0 34 = true :=
  octaOkRange_append ll5810_0_1 ll5810_2 rfl rfl
private theorem ll5810_0_3 : octaOkRange llRep llRows5810 65 0 36 = true :=
  octaOkRange_append ll5810_0_2 ll5810_3 rfl rfl
private theorem ll5810_0_4 : octaOkRange llRep llRows5810 65 0 38 = true :=
  octaOkRange_append ll5810_0_3 ll5810_4 rfl rfl
private theorem ll5810_0_5 : octaOkRange llRep llRows5810 65 0 41 = true :=
  octaOkRange_append ll5810_0_4 ll5810_5 rfl rfl
private theorem ll5810_0_6 : octaOkRange llRep llRows5810 65 0 44 = true :=
  octaOkRange_append ll5810_0_5 ll5810_6 rfl rfl
private theorem ll5810_0_7 : octaOkRange llRep llRows5810 65 0 48 = true :=
  octaOkRange_append ll5810_0_6 ll5810_7 rfl rfl
private theorem ll5810_0_8 : octaOkRange llRep llRows5810 65 0 53 = true :=
  octaOkRange_append ll5810_0_7 ll5810_8 rfl rfl
private theorem ll5810_0_9 : octaOkRange llRep llRows5810 65 0 61 = true :=
  octaOkRange_append ll5810_0_8 ll5810_9 rfl rfl
private theorem ll5810_0_10 : octaOkRange llRep llRows5810 65 0 66 = true :=
  octaOkRange_append ll5810_0_9 ll5810_10 rfl rfl

/-- `s2/lebedev_laikov/lebedev_laikov_5810.hpp`, order 131. -/
theorem llExact5810 : OctaExact llRep llRows5810 65 :=
  OctaExact.of_top (by decide) (by decide +kernel) (by decide +kernel)
    ll5810_0_10

end IntegratorXX
