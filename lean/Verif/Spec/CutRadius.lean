import Verif.Spec.Radial
import Verif.Model.Quadrature
import Mathlib.Analysis.SpecialFunctions.Trigonometric.Basic
import Mathlib.Analysis.SpecialFunctions.Pow.Real

/-!
# Radii at which angular grids change
-/

namespace IntegratorXX.Spec

open RadialTraits

/-- The distance below which the `k`-th part of the radial points lies, for every number of points. -/
noncomputable def cutRadius : RadialTraits ℝ → ℕ → ℝ
  | becke _ R, k => R * Real.tan (Real.pi / (2 * k)) ^ 2
  | mhl M _ R, k => R * (1 / ((k : ℝ) - 1)) ^ M
  | mk _ R, k => -R * Real.log (1 - 1 / (k : ℝ) ^ 3)
  | ta _ R alpha, k =>
      R / ln2Literal * (1 - Real.cos (Real.pi / k)) ^ alpha * Real.log (2 / (1 + Real.cos (Real.pi / k)))

/-- All points before position `e`, except the last of them, are below `ρ`, and all others are not. -/
def CutAt (q : Quad ℝ ℝ) (e : ℕ) (ρ : ℝ) : Prop :=
  ∀ i r, q.points[i]? = some r → (i + 1 < e ↔ r < ρ)

end IntegratorXX.Spec
