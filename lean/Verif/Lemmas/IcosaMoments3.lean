import Verif.Lemmas.IcosaExact

/-!
# Moments of the tabulated icosahedral grids, part 3

Generated: each theorem evaluates the integer inequalities of `IcosaCheck` for one grid.
-/

set_option maxRecDepth 200000
set_option Elab.async false

namespace IntegratorXX
open Tables

/-- `s2/ahrens_beylkin/ahrens_beylkin_312.hpp`, order 29. -/
theorem abOk312 : IcosaOk abGrid312 14 15 13 14 0 :=
  ⟨⟨by decide +kernel, by decide +kernel, by decide +kernel, by decide +kernel, by decide +kernel⟩,
    classCheck_zero (by decide +kernel),
    classCheck_zero (by decide +kernel)⟩

/-- `s2/ahrens_beylkin/ahrens_beylkin_492.hpp`, order 37. -/
theorem abOk492 : IcosaOk abGrid492 18 19 17 18 0 :=
  ⟨⟨by decide +kernel, by decide +kernel, by decide +kernel, by decide +kernel, by decide +kernel⟩,
    classCheck_zero (by decide +kernel),
    classCheck_zero (by decide +kernel)⟩

/-- `s2/ahrens_beylkin/ahrens_beylkin_792.hpp`, order 47. -/
theorem abOk792 : IcosaOk abGrid792 23 24 22 23 0 :=
  ⟨⟨by decide +kernel, by decide +kernel, by decide +kernel, by decide +kernel, by decide +kernel⟩,
    classCheck_zero (by decide +kernel),
    classCheck_zero (by decide +kernel)⟩

/-- `s2/ahrens_beylkin/ahrens_beylkin_1032.hpp`, order 54. -/
theorem abOk1032 : IcosaOk abGrid1032 27 28 25 26 0 :=
  ⟨⟨by decide +kernel, by decide +kernel, by decide +kernel, by decide +kernel, by decide +kernel⟩,
    classCheck_zero (by decide +kernel),
    classCheck_zero (by decide +kernel)⟩

/-- `s2/ahrens_beylkin/ahrens_beylkin_1512.hpp`, order 66. -/
theorem abOk1512 : IcosaOk abGrid1512 33 34 31 32 0 :=
  ⟨⟨by decide +kernel, by decide +kernel, by decide +kernel, by decide +kernel, by decide +kernel⟩,
    classCheck_zero (by decide +kernel),
    classCheck_zero (by decide +kernel)⟩

/-- `s2/ahrens_beylkin/ahrens_beylkin_1692.hpp`, order 70. -/
theorem abOk1692 : IcosaOk abGrid1692 35 36 33 34 0 :=
  ⟨⟨by decide +kernel, by decide +kernel, by decide +kernel, by decide +kernel, by decide +kernel⟩,
    classCheck_zero (by decide +kernel),
    classCheck_zero (by decide +kernel)⟩

/-- `s2/ahrens_beylkin/ahrens_beylkin_2172.hpp`, order 79. -/
theorem abOk2172 : IcosaOk abGrid2172 39 40 38 39 0 :=
  ⟨⟨by decide +kernel, by decide +kernel, by decide +kernel, by decide +kernel, by decide +kernel⟩,
    classCheck_zero (by decide +kernel),
    classCheck_zero (by decide +kernel)⟩

/-- `s2/ahrens_beylkin/ahrens_beylkin_2472.hpp`, order 85. -/
theorem abOk2472 : IcosaOk abGrid2472 42 43 41 42 0 :=
  ⟨⟨by decide +kernel, by decide +kernel, by decide +kernel, by decide +kernel, by decide +kernel⟩,
    classCheck_zero (by decide +kernel),
    classCheck_zero (by decide +kernel)⟩

/-- `s2/ahrens_beylkin/ahrens_beylkin_2832.hpp`, order 91. -/
theorem abOk2832 : IcosaOk abGrid2832 45 46 44 45 0 :=
  ⟨⟨by decide +kernel, by decide +kernel, by decide +kernel, by decide +kernel, by decide +kernel⟩,
    classCheck_zero (by decide +kernel),
    classCheck_zero (by decide +kernel)⟩

/-- `s2/ahrens_beylkin/ahrens_beylkin_3372.hpp`, order 99. -/
theorem abOk3372 : IcosaOk abGrid3372 49 50 48 49 0 :=
  ⟨⟨by decide +kernel, by decide +kernel, by decide +kernel, by decide +kernel, by decide +kernel⟩,
    classCheck_zero (by decide +kernel),
    classCheck_zero (by decide +kernel)⟩

/-- `s2/ahrens_beylkin/ahrens_beylkin_4212.hpp`, order 111. -/
theorem abOk4212 : IcosaOk abGrid4212 55 56 54 55 0 :=
  ⟨⟨by decide +kernel, by decide +kernel, by decide +kernel, by decide +kernel, by decide +kernel⟩,
    classCheck_zero (by decide +kernel),
    classCheck_zero (by decide +kernel)⟩

/-- `s2/ahrens_beylkin/ahrens_beylkin_4572.hpp`, order 116. -/
theorem abOk4572 : IcosaOk abGrid4572 58 30 56 29 1 :=
  ⟨⟨by decide +kernel, by decide +kernel, by decide +kernel, by decide +kernel, by decide +kernel⟩,
    classCheck_one (by decide +kernel) (by decide +kernel) (by decide +kernel),
    classCheck_one (by decide +kernel) (by decide +kernel) (by decide +kernel)⟩

/-- `s2/ahrens_beylkin/ahrens_beylkin_5232.hpp`, order 124. -/
theorem abOk5232 : IcosaOk abGrid5232 62 32 60 31 1 :=
  ⟨⟨by decide +kernel, by decide +kernel, by decide +kernel, by decide +kernel, by decide +kernel⟩,
    classCheck_one (by decide +kernel) (by decide +kernel) (by decide +kernel),
    classCheck_one (by decide +kernel) (by decide +kernel) (by decide +kernel)⟩

/-- `s2/ahrens_beylkin/ahrens_beylkin_5772.hpp`, order 130. -/
theorem abOk5772 : IcosaOk abGrid5772 65 33 63 32 1 :=
  ⟨⟨by decide +kernel, by decide +kernel, by decide +kernel, by decide +kernel, by decide +kernel⟩,
    classCheck_one (by decide +kernel) (by decide +kernel) (by decide +kernel),
    classCheck_one (by decide +kernel) (by decide +kernel) (by decide +kernel)⟩

/-- `s2/ahrens_beylkin/ahrens_beylkin_6912.hpp`, order 143. -/
theorem abOk6912 : IcosaOk abGrid6912 71 36 70 36 1 :=
  ⟨⟨by decide +kernel, by decide +kernel, by decide +kernel, by decide +kernel, by decide +kernel⟩,
    classCheck_one (by decide +kernel) (by decide +kernel) (by decide +kernel),
    classCheck_one (by decide +kernel) (by decide +kernel) (by decide +kernel)⟩

end IntegratorXX
