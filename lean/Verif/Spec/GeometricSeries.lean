import Mathlib.Analysis.Normed.Group.InfiniteSum
import Mathlib.Data.Real.Basic

/-!
# Functions given by a power series on `[-1, 1]`
-/

namespace IntegratorXX.Spec

/-- On `[-1, 1]` the function is the sum of a power series whose coefficients decay like `A ρ ^ k`. -/
def GeometricSeries (f : ℝ → ℝ) (A ρ : ℝ) : Prop :=
  ∃ a : ℕ → ℝ, (∀ k, |a k| ≤ A * ρ ^ k) ∧ ∀ x ∈ Set.Icc (-1 : ℝ) 1, HasSum (fun k => a k * x ^ k) (f x)

end IntegratorXX.Spec
