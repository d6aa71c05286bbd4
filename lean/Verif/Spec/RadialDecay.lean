import Mathlib.Analysis.Calculus.Deriv.Basic
import Mathlib.Analysis.SpecialFunctions.Exp

/-!
# Decay of radial integrands
-/

namespace IntegratorXX.Spec

open Real

/-- The integrand and its first two derivatives, multiplied by powers of the scale `R` and by `(1+r/R)^(3+k)`, are
bounded by `A k`. -/
structure AlgebraicDecay (R : ℝ) (f f1 f2 : ℝ → ℝ) (A0 A1 A2 : ℝ) : Prop where
  deriv : ∀ r, 0 < r → HasDerivAt f (f1 r) r
  deriv2 : ∀ r, 0 < r → HasDerivAt f1 (f2 r) r
  bound0 : ∀ r, 0 < r → (1 + r / R) ^ 3 * |f r| ≤ A0
  bound1 : ∀ r, 0 < r → (1 + r / R) ^ 4 * (R * |f1 r|) ≤ A1
  bound2 : ∀ r, 0 < r → (1 + r / R) ^ 5 * (R ^ 2 * |f2 r|) ≤ A2

/-- The integrand and its first two derivatives, multiplied by powers of the scale `R` and by `exp(μ r/R)`, are bounded
by `A k`. -/
structure ExponentialDecay (μ R : ℝ) (f f1 f2 : ℝ → ℝ) (A0 A1 A2 : ℝ) : Prop where
  deriv : ∀ r, 0 < r → HasDerivAt f (f1 r) r
  deriv2 : ∀ r, 0 < r → HasDerivAt f1 (f2 r) r
  bound0 : ∀ r, 0 < r → exp (μ * (r / R)) * |f r| ≤ A0
  bound1 : ∀ r, 0 < r → exp (μ * (r / R)) * (R * |f1 r|) ≤ A1
  bound2 : ∀ r, 0 < r → exp (μ * (r / R)) * (R ^ 2 * |f2 r|) ≤ A2

end IntegratorXX.Spec
