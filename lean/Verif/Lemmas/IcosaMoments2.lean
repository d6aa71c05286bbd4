import Verif.Lemmas.IcosaExact

/-!
# Moments of the tabulated icosahedral grids, part 2

Generated: each theorem evaluates the integer inequalities of `IcosaCheck` for one grid.
-/

set_option maxRecDepth 200000
set_option Elab.async false

namespace IntegratorXX
open Tables

/-- `s2/ahrens_beylkin/ahrens_beylkin_192.hpp`, order 23. -/
theorem abOk192 : IcosaOk abGrid192 11 12 10 11 0 :=
  ⟨⟨by decide +kernel, by decide +kernel, by decide +kernel, by decide +kernel, by decide +kernel⟩,
    classCheck_zero (by decide +kernel),
    classCheck_zero (by decide +kernel)⟩

/-- `s2/ahrens_beylkin/ahrens_beylkin_372.hpp`, order 32. -/
theorem abOk372 : IcosaOk abGrid372 16 17 14 15 0 :=
  ⟨⟨by decide +kernel, by decide +kernel, by decide +kernel, by decide +kernel, by decide +kernel⟩,
    classCheck_zero (by decide +kernel),
    classCheck_zero (by decide +kernel)⟩

/-- `s2/ahrens_beylkin/ahrens_beylkin_912.hpp`, order 51. -/
theorem abOk912 : IcosaOk abGrid912 25 26 24 25 0 :=
  ⟨⟨by decide +kernel, by decide +kernel, by decide +kernel, by decide +kernel, by decide +kernel⟩,
    classCheck_zero (by decide +kernel),
    classCheck_zero (by decide +kernel)⟩

/-- `s2/ahrens_beylkin/ahrens_beylkin_972.hpp`, order 53. -/
theorem abOk972 : IcosaOk abGrid972 26 27 25 26 0 :=
  ⟨⟨by decide +kernel, by decide +kernel, by decide +kernel, by decide +kernel, by decide +kernel⟩,
    classCheck_zero (by decide +kernel),
    classCheck_zero (by decide +kernel)⟩

/-- `s2/ahrens_beylkin/ahrens_beylkin_1572.hpp`, order 67. -/
theorem abOk1572 : IcosaOk abGrid1572 33 34 32 33 0 :=
  ⟨⟨by decide +kernel, by decide +kernel, by decide +kernel, by decide +kernel, by decide +kernel⟩,
    classCheck_zero (by decide +kernel),
    classCheck_zero (by decide +kernel)⟩

/-- `s2/ahrens_beylkin/ahrens_beylkin_1632.hpp`, order 69. -/
theorem abOk1632 : IcosaOk abGrid1632 34 35 33 34 0 :=
  ⟨⟨by decide +kernel, by decide +kernel, by decide +kernel, by decide +kernel, by decide +kernel⟩,
    classCheck_zero (by decide +kernel),
    classCheck_zero (by decide +kernel)⟩

/-- `s2/ahrens_beylkin/ahrens_beylkin_2232.hpp`, order 80. -/
theorem abOk2232 : IcosaOk abGrid2232 40 41 38 39 0 :=
  ⟨⟨by decide +kernel, by decide +kernel, by decide +kernel, by decide +kernel, by decide +kernel⟩,
    classCheck_zero (by decide +kernel),
    classCheck_zero (by decide +kernel)⟩

/-- `s2/ahrens_beylkin/ahrens_beylkin_2412.hpp`, order 84. -/
theorem abOk2412 : IcosaOk abGrid2412 42 43 40 41 0 :=
  ⟨⟨by decide +kernel, by decide +kernel, by decide +kernel, by decide +kernel, by decide +kernel⟩,
    classCheck_zero (by decide +kernel),
    classCheck_zero (by decide +kernel)⟩

/-- `s2/ahrens_beylkin/ahrens_beylkin_3312.hpp`, order 98. -/
theorem abOk3312 : IcosaOk abGrid3312 49 50 47 48 0 :=
  ⟨⟨by decide +kernel, by decide +kernel, by decide +kernel, by decide +kernel, by decide +kernel⟩,
    classCheck_zero (by decide +kernel),
    classCheck_zero (by decide +kernel)⟩

/-- `s2/ahrens_beylkin/ahrens_beylkin_3492.hpp`, order 101. -/
theorem abOk3492 : IcosaOk abGrid3492 50 51 49 50 0 :=
  ⟨⟨by decide +kernel, by decide +kernel, by decide +kernel, by decide +kernel, by decide +kernel⟩,
    classCheck_zero (by decide +kernel),
    classCheck_zero (by decide +kernel)⟩

/-- `s2/ahrens_beylkin/ahrens_beylkin_3612.hpp`, order 103. -/
theorem abOk3612 : IcosaOk abGrid3612 51 52 50 51 0 :=
  ⟨⟨by decide +kernel, by decide +kernel, by decide +kernel, by decide +kernel, by decide +kernel⟩,
    classCheck_zero (by decide +kernel),
    classCheck_zero (by decide +kernel)⟩

/-- `s2/ahrens_beylkin/ahrens_beylkin_4332.hpp`, order 113. -/
theorem abOk4332 : IcosaOk abGrid4332 56 29 55 28 1 :=
  ⟨⟨by decide +kernel, by decide +kernel, by decide +kernel, by decide +kernel, by decide +kernel⟩,
    classCheck_one (by decide +kernel) (by decide +kernel) (by decide +kernel),
    classCheck_one (by decide +kernel) (by decide +kernel) (by decide +kernel)⟩

/-- `s2/ahrens_beylkin/ahrens_beylkin_4992.hpp`, order 121. -/
theorem abOk4992 : IcosaOk abGrid4992 60 31 59 30 1 :=
  ⟨⟨by decide +kernel, by decide +kernel, by decide +kernel, by decide +kernel, by decide +kernel⟩,
    classCheck_one (by decide +kernel) (by decide +kernel) (by decide +kernel),
    classCheck_one (by decide +kernel) (by decide +kernel) (by decide +kernel)⟩

/-- `s2/ahrens_beylkin/ahrens_beylkin_5592.hpp`, order 128. -/
theorem abOk5592 : IcosaOk abGrid5592 64 33 62 32 1 :=
  ⟨⟨by decide +kernel, by decide +kernel, by decide +kernel, by decide +kernel, by decide +kernel⟩,
    classCheck_one (by decide +kernel) (by decide +kernel) (by decide +kernel),
    classCheck_one (by decide +kernel) (by decide +kernel) (by decide +kernel)⟩

/-- `s2/ahrens_beylkin/ahrens_beylkin_7512.hpp`, order 149. -/
theorem abOk7512 : IcosaOk abGrid7512 74 38 73 37 1 :=
  ⟨⟨by decide +kernel, by decide +kernel, by decide +kernel, by decide +kernel, by decide +kernel⟩,
    classCheck_one (by decide +kernel) (by decide +kernel) (by decide +kernel),
    classCheck_one (by decide +kernel) (by decide +kernel) (by decide +kernel)⟩

end IntegratorXX
