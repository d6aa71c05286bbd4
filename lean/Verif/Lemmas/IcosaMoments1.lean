import Verif.Lemmas.IcosaExact

/-!
# Moments of the tabulated icosahedral grids, part 1

Generated: each theorem evaluates the integer inequalities of `IcosaCheck` for one grid.
-/

set_option maxRecDepth 200000
set_option Elab.async false

namespace IntegratorXX
open Tables

/-- `s2/ahrens_beylkin/ahrens_beylkin_72.hpp`, order 14. -/
theorem abOk72 : IcosaOk abGrid72 7 8 5 6 0 :=
  ⟨⟨by decide +kernel, by decide +kernel, by decide +kernel, by decide +kernel, by decide +kernel⟩,
    classCheck_zero (by decide +kernel),
    classCheck_zero (by decide +kernel)⟩

/-- `s2/ahrens_beylkin/ahrens_beylkin_552.hpp`: the moments are wrong, see `C63_ab_552`. -/
theorem abBase552 : IcosaBase abGrid552 :=
  ⟨by decide +kernel, by decide +kernel, by decide +kernel, by decide +kernel, by decide +kernel⟩

/-- `s2/ahrens_beylkin/ahrens_beylkin_612.hpp`, order 41. -/
theorem abOk612 : IcosaOk abGrid612 20 21 19 20 0 :=
  ⟨⟨by decide +kernel, by decide +kernel, by decide +kernel, by decide +kernel, by decide +kernel⟩,
    classCheck_zero (by decide +kernel),
    classCheck_zero (by decide +kernel)⟩

/-- `s2/ahrens_beylkin/ahrens_beylkin_732.hpp`, order 45. -/
theorem abOk732 : IcosaOk abGrid732 22 23 21 22 0 :=
  ⟨⟨by decide +kernel, by decide +kernel, by decide +kernel, by decide +kernel, by decide +kernel⟩,
    classCheck_zero (by decide +kernel),
    classCheck_zero (by decide +kernel)⟩

/-- `s2/ahrens_beylkin/ahrens_beylkin_1092.hpp`, order 56. -/
theorem abOk1092 : IcosaOk abGrid1092 28 29 26 27 0 :=
  ⟨⟨by decide +kernel, by decide +kernel, by decide +kernel, by decide +kernel, by decide +kernel⟩,
    classCheck_zero (by decide +kernel),
    classCheck_zero (by decide +kernel)⟩

/-- `s2/ahrens_beylkin/ahrens_beylkin_1392.hpp`, order 63. -/
theorem abOk1392 : IcosaOk abGrid1392 31 32 30 31 0 :=
  ⟨⟨by decide +kernel, by decide +kernel, by decide +kernel, by decide +kernel, by decide +kernel⟩,
    classCheck_zero (by decide +kernel),
    classCheck_zero (by decide +kernel)⟩

/-- `s2/ahrens_beylkin/ahrens_beylkin_1812.hpp`, order 72. -/
theorem abOk1812 : IcosaOk abGrid1812 36 37 34 35 0 :=
  ⟨⟨by decide +kernel, by decide +kernel, by decide +kernel, by decide +kernel, by decide +kernel⟩,
    classCheck_zero (by decide +kernel),
    classCheck_zero (by decide +kernel)⟩

/-- `s2/ahrens_beylkin/ahrens_beylkin_2112.hpp`, order 78. -/
theorem abOk2112 : IcosaOk abGrid2112 39 40 37 38 0 :=
  ⟨⟨by decide +kernel, by decide +kernel, by decide +kernel, by decide +kernel, by decide +kernel⟩,
    classCheck_zero (by decide +kernel),
    classCheck_zero (by decide +kernel)⟩

/-- `s2/ahrens_beylkin/ahrens_beylkin_2292.hpp`, order 81. -/
theorem abOk2292 : IcosaOk abGrid2292 40 41 39 40 0 :=
  ⟨⟨by decide +kernel, by decide +kernel, by decide +kernel, by decide +kernel, by decide +kernel⟩,
    classCheck_zero (by decide +kernel),
    classCheck_zero (by decide +kernel)⟩

/-- `s2/ahrens_beylkin/ahrens_beylkin_2772.hpp`, order 90. -/
theorem abOk2772 : IcosaOk abGrid2772 45 46 43 44 0 :=
  ⟨⟨by decide +kernel, by decide +kernel, by decide +kernel, by decide +kernel, by decide +kernel⟩,
    classCheck_zero (by decide +kernel),
    classCheck_zero (by decide +kernel)⟩

/-- `s2/ahrens_beylkin/ahrens_beylkin_15012.hpp`, order 210. -/
theorem abOk15012 : IcosaOk abGrid15012 105 53 103 52 1 :=
  ⟨⟨by decide +kernel, by decide +kernel, by decide +kernel, by decide +kernel, by decide +kernel⟩,
    classCheck_one (by decide +kernel) (by decide +kernel) (by decide +kernel),
    classCheck_one (by decide +kernel) (by decide +kernel) (by decide +kernel)⟩

end IntegratorXX
