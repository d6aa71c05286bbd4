import Mathlib.Analysis.InnerProductSpace.PiL2
import Mathlib.Analysis.Real.Pi.Bounds
import Verif.Model.Angular

/-!
# Space
-/

namespace IntegratorXX.Spec

/-- Euclidean space of three dimensions; its `volume` is Lebesgue measure. -/
abbrev E3 := EuclideanSpace ℝ (Fin 3)

/-- Relative error with which the tables of a family integrate polynomials of degree `l`, as guaranteed by C67.  The
octahedral families are written down with twelve digits or more; the bound for the other two grows because powers of
`z` are first reduced with the equation of the sphere. -/
noncomputable def tableErr (fam : AngFam) (l : ℕ) : ℝ :=
  match fam with
  | .lebedevLaikov | .delley => 4 * Real.pi / 10 ^ 13
  | .ahrensBeylkin | .womersley => 3 ^ (l / 2) * (6 / 10 ^ 14)

end IntegratorXX.Spec
