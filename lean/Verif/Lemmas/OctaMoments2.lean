import Verif.Lemmas.OctaCheck

/-!
# Moments of the tabulated octahedral grids, part 2

Generated: each theorem evaluates the integer inequalities of `OctaCheck` for one grid.
-/

set_option maxRecDepth 100000

namespace IntegratorXX
open Tables

/-- `s2/delley/delley_1202.hpp`, order 59. -/
theorem deExact1202 : OctaExact deRep deRows1202 29 :=
  OctaExact.of_top (by decide) (by decide +kernel) (by decide +kernel) (by decide +kernel)

private theorem de2702_0 : octaOkRange deRep deRows2702 44 0 30 = true := by decide +kernel
private theorem de2702_1 : octaOkRange deRep deRows2702 44 30 15 = true := by decide +kernel

private theorem de2702_0_1 : octaOkRange deRep deRows2702 44 0 45 = true :=
  octaOkRange_append de2702_0 de2702_1 rfl rfl

/-- `s2/delley/delley_2702.hpp`, order 89. -/
theorem deExact2702 : OctaExact deRep deRows2702 44 :=
  OctaExact.of_top (by decide) (by decide +kernel) (by decide +kernel)
    de2702_0_1

/-- `s2/lebedev_laikov/lebedev_laikov_26.hpp`, order 7. -/
theorem llExact26 : OctaExact llRep llRows26 3 :=
  OctaExact.of_top (by decide) (by decide +kernel) (by decide +kernel) (by decide +kernel)

/-- `s2/lebedev_laikov/lebedev_laikov_74.hpp`, order 13. -/
theorem llExact74 : OctaExact llRep llRows74 6 :=
  OctaExact.of_all (by decide +kernel)

/-- `s2/lebedev_laikov/lebedev_laikov_170.hpp`, order 21. -/
theorem llExact170 : OctaExact llRep llRows170 10 :=
  OctaExact.of_top (by decide) (by decide +kernel) (by decide +kernel) (by decide +kernel)

/-- `s2/lebedev_laikov/lebedev_laikov_230.hpp`, order 25. -/
theorem llExact230 : OctaExact llRep llRows230 12 :=
  OctaExact.of_all (by decide +kernel)

/-- `s2/lebedev_laikov/lebedev_laikov_350.hpp`, order 31. -/
theorem llExact350 : OctaExact llRep llRows350 15 :=
  OctaExact.of_top (by decide) (by decide +kernel) (by decide +kernel) (by decide +kernel)

/-- `s2/lebedev_laikov/lebedev_laikov_590.hpp`, order 41. -/
theorem llExact590 : OctaExact llRep llRows590 20 :=
  OctaExact.of_top (by decide) (by decide +kernel) (by decide +kernel) (by decide +kernel)

/-- `s2/lebedev_laikov/lebedev_laikov_1454.hpp`, order 65. -/
theorem llExact1454 : OctaExact llRep llRows1454 32 :=
  OctaExact.of_top (by decide) (by decide +kernel) (by decide +kernel) (by decide +kernel)

/-- `s2/lebedev_laikov/lebedev_laikov_1730.hpp`, order 71. -/
theorem llExact1730 : OctaExact llRep llRows1730 35 :=
  OctaExact.of_top (by decide) (by decide +kernel) (by decide +kernel) (by decide +kernel)

private theorem ll3074_0 : octaOkRange llRep llRows3074 47 0 28 = true := by decide +kernel
private theorem ll3074_1 : octaOkRange llRep llRows3074 47 28 16 = true := by decide +kernel
private theorem ll3074_2 : octaOkRange llRep llRows3074 47 44 4 = true := by decide +kernel

private theorem ll3074_0_1 : octaOkRange llRep llRows3074 47 0 44 = true :=
  octaOkRange_append ll3074_0 ll3074_1 rfl rfl
private theorem ll3074_0_2 : octaOkRange llRep llRows3074 47 0 48 = true :=
  octaOkRange_append ll3074_0_1 ll3074_2 rfl rfl

/-- `s2/lebedev_laikov/lebedev_laikov_3074.hpp`, order 95. -/
theorem llExact3074 : OctaExact llRep llRows3074 47 :=
  OctaExact.of_top (by decide) (by decide +kernel) (by decide +kernel)
    ll3074_0_2

private theorem ll4802_0 : octaOkRange llRep llRows4802 59 0 28 = true := by decide +kernel
private theorem ll4802_1 : octaOkRange llRep llRows4802 59 28 3 = true := by decide +kernel
private theorem ll4802_2 : octaOkRange llRep llRows4802 59 31 4 = true := by decide +kernel
private theorem ll4802_3 : octaOkRange llRep llRows4802 59 35 4 = true := by decide +kernel
private theorem ll4802_4 : octaOkRange llRep llRows4802 59 39 5 = true := by decide +kernel
private theorem ll4802_5 : octaOkRange llRep llRows4802 59 44 9 = true := by decide +kernel
private theorem ll4802_6 : octaOkRange llRep llRows4802 59 53 7 = true := by decide +kernel

private theorem ll4802_0_1 : octaOkRange llRep llRows4802 59 0 31 = true :=
  octaOkRange_append ll4802_0 ll4802_1 rfl rfl
private theorem ll4802_0_2 : octaOkRange llRep llRows4802 59 0 35 = true :=
  octaOkRange_append ll4802_0_1 ll4802_2 rfl rfl
private theorem ll4802_0_3 : octaOkRange llRep llRows4802 59 0 39 = true :=
  octaOkRange_append ll4802_0_2 ll4802_3 rfl rfl
private theorem ll4802_0_4 : octaOkRange llRep llRows4802 59 0 44 = true :=
  octaOkRange_append ll4802_0_3 ll4802_4 rfl rfl
private theorem ll4802_0_5 : octaOkRange llRep llRows4802 59 0 53 = true :=
  octaOkRange_append ll4802_0_4 ll4802_5 rfl rfl
private theorem ll4802_0_6 : octaOkRange llRep llRows4802 59 0 60 = true :=
  octaOkRange_append ll4802_0_5 ll4802_6 rfl rfl

/-- `s2/lebedev_laikov/lebedev_laikov_4802.hpp`, order 119. -/
theorem llExact4802 : OctaExact llRep llRows4802 59 :=
  OctaExact.of_top (by decide) (by decide +kernel) (by decide +kernel)
    ll4802_0_6

end IntegratorXX
