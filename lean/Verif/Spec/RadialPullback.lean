import Verif.Spec.Radial
import Mathlib.Analysis.SpecialFunctions.Trigonometric.Basic
import Mathlib.Analysis.Calculus.Deriv.Basic

/-!
# The function whose equidistant samples the radial rules add up
-/

namespace IntegratorXX.Spec

open RadialTraits Real

/-- Length of the interval that is divided into `npts + 1` equal parts: the angle of the Chebyshev rule, or the
unit interval of the trapezoid. -/
noncomputable def radialLength : RadialTraits ℝ → ℝ
  | becke .. => π
  | mhl .. => 1
  | RadialTraits.mk .. => 1
  | ta .. => π

/-- `f(r) dr` expressed in the variable that is divided into equal parts. -/
noncomputable def radialPullback (t : RadialTraits ℝ) (f : ℝ → ℝ) (θ : ℝ) : ℝ :=
  match t with
  | becke .. => f (radialMap t (cos θ)) * deriv (radialMap t) (cos θ) * sin θ
  | mhl .. => f (radialMap t θ) * deriv (radialMap t) θ
  | RadialTraits.mk .. => f (radialMap t θ) * deriv (radialMap t) θ
  | ta .. => f (radialMap t (cos θ)) * deriv (radialMap t) (cos θ) * sin θ

end IntegratorXX.Spec
