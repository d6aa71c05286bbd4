import Mathlib.Analysis.SpecialFunctions.Exponential
import Verif.Model.Angular
import Mathlib.Analysis.Real.Pi.Bounds

/-!
# Functions of one variable with the growth of an exponential
-/

namespace IntegratorXX.Spec

/-- The function is the sum of a power series with coefficients bounded by those of `A exp (κ t)`: for example
`exp (κ t)`, `cos (κ t)`, `sin (κ t)`. -/
def ExpSeries (f : ℝ → ℝ) (A κ : ℝ) : Prop :=
  ∃ a : ℕ → ℝ, (∀ k, |a k| ≤ A * (κ ^ k / k.factorial)) ∧ ∀ t, HasSum (fun k => a k * t ^ k) (f t)

/-- What the finite number of digits in the tables of a family contributes to the error for such functions. -/
noncomputable def digitErr (fam : AngFam) (κ : ℝ) : ℝ :=
  match fam with
  | .lebedevLaikov | .delley => 4 * Real.pi / 10 ^ 13 * Real.exp (√3 * κ)
  | .ahrensBeylkin | .womersley => 6 / 10 ^ 14 * Real.exp (3 * κ)

end IntegratorXX.Spec
