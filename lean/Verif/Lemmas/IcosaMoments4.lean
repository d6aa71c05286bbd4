import Verif.Lemmas.IcosaExact

/-!
# Moments of the tabulated icosahedral grids, part 4

Generated: each theorem evaluates the integer inequalities of `IcosaCheck` for one grid.
-/

set_option maxRecDepth 200000
set_option Elab.async false

namespace IntegratorXX
open Tables

/-- `s2/ahrens_beylkin/ahrens_beylkin_132.hpp`, order 19. -/
theorem abOk132 : IcosaOk abGrid132 9 10 8 9 0 :=
  ⟨⟨by decide +kernel, by decide +kernel, by decide +kernel, by decide +kernel, by decide +kernel⟩,
    classCheck_zero (by decide +kernel),
    classCheck_zero (by decide +kernel)⟩

/-- `s2/ahrens_beylkin/ahrens_beylkin_432.hpp`, order 35. -/
theorem abOk432 : IcosaOk abGrid432 17 18 16 17 0 :=
  ⟨⟨by decide +kernel, by decide +kernel, by decide +kernel, by decide +kernel, by decide +kernel⟩,
    classCheck_zero (by decide +kernel),
    classCheck_zero (by decide +kernel)⟩

/-- `s2/ahrens_beylkin/ahrens_beylkin_672.hpp`, order 44. -/
theorem abOk672 : IcosaOk abGrid672 22 23 20 21 0 :=
  ⟨⟨by decide +kernel, by decide +kernel, by decide +kernel, by decide +kernel, by decide +kernel⟩,
    classCheck_zero (by decide +kernel),
    classCheck_zero (by decide +kernel)⟩

/-- `s2/ahrens_beylkin/ahrens_beylkin_1272.hpp`, order 60. -/
theorem abOk1272 : IcosaOk abGrid1272 30 31 28 29 0 :=
  ⟨⟨by decide +kernel, by decide +kernel, by decide +kernel, by decide +kernel, by decide +kernel⟩,
    classCheck_zero (by decide +kernel),
    classCheck_zero (by decide +kernel)⟩

/-- `s2/ahrens_beylkin/ahrens_beylkin_1332.hpp`, order 62. -/
theorem abOk1332 : IcosaOk abGrid1332 31 32 29 30 0 :=
  ⟨⟨by decide +kernel, by decide +kernel, by decide +kernel, by decide +kernel, by decide +kernel⟩,
    classCheck_zero (by decide +kernel),
    classCheck_zero (by decide +kernel)⟩

/-- `s2/ahrens_beylkin/ahrens_beylkin_1932.hpp`, order 75. -/
theorem abOk1932 : IcosaOk abGrid1932 37 38 36 37 0 :=
  ⟨⟨by decide +kernel, by decide +kernel, by decide +kernel, by decide +kernel, by decide +kernel⟩,
    classCheck_zero (by decide +kernel),
    classCheck_zero (by decide +kernel)⟩

/-- `s2/ahrens_beylkin/ahrens_beylkin_1992.hpp`, order 76. -/
theorem abOk1992 : IcosaOk abGrid1992 38 39 36 37 0 :=
  ⟨⟨by decide +kernel, by decide +kernel, by decide +kernel, by decide +kernel, by decide +kernel⟩,
    classCheck_zero (by decide +kernel),
    classCheck_zero (by decide +kernel)⟩

/-- `s2/ahrens_beylkin/ahrens_beylkin_2712.hpp`, order 89. -/
theorem abOk2712 : IcosaOk abGrid2712 44 45 43 44 0 :=
  ⟨⟨by decide +kernel, by decide +kernel, by decide +kernel, by decide +kernel, by decide +kernel⟩,
    classCheck_zero (by decide +kernel),
    classCheck_zero (by decide +kernel)⟩

/-- `s2/ahrens_beylkin/ahrens_beylkin_3012.hpp`, order 94. -/
theorem abOk3012 : IcosaOk abGrid3012 47 48 45 46 0 :=
  ⟨⟨by decide +kernel, by decide +kernel, by decide +kernel, by decide +kernel, by decide +kernel⟩,
    classCheck_zero (by decide +kernel),
    classCheck_zero (by decide +kernel)⟩

/-- `s2/ahrens_beylkin/ahrens_beylkin_3432.hpp`, order 100. -/
theorem abOk3432 : IcosaOk abGrid3432 50 51 48 49 0 :=
  ⟨⟨by decide +kernel, by decide +kernel, by decide +kernel, by decide +kernel, by decide +kernel⟩,
    classCheck_zero (by decide +kernel),
    classCheck_zero (by decide +kernel)⟩

/-- `s2/ahrens_beylkin/ahrens_beylkin_3792.hpp`, order 105. -/
theorem abOk3792 : IcosaOk abGrid3792 52 53 51 52 0 :=
  ⟨⟨by decide +kernel, by decide +kernel, by decide +kernel, by decide +kernel, by decide +kernel⟩,
    classCheck_zero (by decide +kernel),
    classCheck_zero (by decide +kernel)⟩

/-- `s2/ahrens_beylkin/ahrens_beylkin_4692.hpp`, order 117. -/
theorem abOk4692 : IcosaOk abGrid4692 58 30 57 29 1 :=
  ⟨⟨by decide +kernel, by decide +kernel, by decide +kernel, by decide +kernel, by decide +kernel⟩,
    classCheck_one (by decide +kernel) (by decide +kernel) (by decide +kernel),
    classCheck_one (by decide +kernel) (by decide +kernel) (by decide +kernel)⟩

/-- `s2/ahrens_beylkin/ahrens_beylkin_5472.hpp`, order 127. -/
theorem abOk5472 : IcosaOk abGrid5472 63 32 62 32 1 :=
  ⟨⟨by decide +kernel, by decide +kernel, by decide +kernel, by decide +kernel, by decide +kernel⟩,
    classCheck_one (by decide +kernel) (by decide +kernel) (by decide +kernel),
    classCheck_one (by decide +kernel) (by decide +kernel) (by decide +kernel)⟩

/-- `s2/ahrens_beylkin/ahrens_beylkin_6192.hpp`, order 135. -/
theorem abOk6192 : IcosaOk abGrid6192 67 34 66 34 1 :=
  ⟨⟨by decide +kernel, by decide +kernel, by decide +kernel, by decide +kernel, by decide +kernel⟩,
    classCheck_one (by decide +kernel) (by decide +kernel) (by decide +kernel),
    classCheck_one (by decide +kernel) (by decide +kernel) (by decide +kernel)⟩

/-- `s2/ahrens_beylkin/ahrens_beylkin_6312.hpp`, order 136. -/
theorem abOk6312 : IcosaOk abGrid6312 68 35 66 34 1 :=
  ⟨⟨by decide +kernel, by decide +kernel, by decide +kernel, by decide +kernel, by decide +kernel⟩,
    classCheck_one (by decide +kernel) (by decide +kernel) (by decide +kernel),
    classCheck_one (by decide +kernel) (by decide +kernel) (by decide +kernel)⟩

end IntegratorXX
