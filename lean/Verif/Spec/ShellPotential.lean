import Mathlib.Topology.Algebra.InfiniteSum.Order
import Mathlib.Analysis.SpecialFunctions.Trigonometric.Basic
import Mathlib.Algebra.BigOperators.Intervals
import Verif.Model.Angular

/-!
# Power series on an interval around zero, and the potential of points with charges
-/

namespace IntegratorXX.Spec

/-- On `[-r, r]` the function is the sum of a power series whose coefficients decay like `A ρ ^ k`. -/
def GeometricSeriesOn (r : ℝ) (f : ℝ → ℝ) (A ρ : ℝ) : Prop :=
  ∃ a : ℕ → ℝ, (∀ k, |a k| ≤ A * ρ ^ k) ∧ ∀ t, |t| ≤ r → HasSum (fun k => a k * t ^ k) (f t)

/-- What the finite number of digits in the tables of a family contributes to the error of a grid of order `L` for such
functions. -/
noncomputable def digitSum (fam : AngFam) (L : ℕ) (ρ : ℝ) : ℝ :=
  match fam with
  | .lebedevLaikov | .delley => 4 * Real.pi / 10 ^ 13 * ∑ k ∈ Finset.range (L + 1), (√3 * ρ) ^ k
  | .ahrensBeylkin | .womersley => 6 / 10 ^ 14 * ∑ k ∈ Finset.range (L + 1), (3 * ρ) ^ k

/-- The distance of two points. -/
noncomputable def distPt (p q : Pt ℝ) : ℝ := √((p.x - q.x) ^ 2 + (p.y - q.y) ^ 2 + (p.z - q.z) ^ 2)

end IntegratorXX.Spec
