import Verif.Spec.Rule
import Mathlib.Algebra.Polynomial.Degree.Defs
import Mathlib.Algebra.Polynomial.Eval.Defs
import Mathlib.MeasureTheory.Integral.IntervalIntegral.Basic
import Mathlib.Analysis.SpecialFunctions.Pow.NNReal

/-!
# Error of a rule on functions which are not polynomials
-/

namespace IntegratorXX.Spec

open Polynomial

/-- The rule integrates a function over `[-1, 1]` that is bounded by `M` and has Lipschitz constant `K` up to four times
its distance from the polynomials of degree less than `m`, plus `a K + b M`.  In particular the error is at most
`4 K / √(m - 1) + a K + b M`. -/
def GaussError (m : ℕ) (a b : ℝ) (xs ws : List ℝ) : Prop :=
  ∀ (f : ℝ → ℝ) (K M : ℝ), (∀ x ∈ Set.Icc (-1 : ℝ) 1, ∀ y ∈ Set.Icc (-1 : ℝ) 1, |f x - f y| ≤ K * |x - y|) →
    (∀ x ∈ Set.Icc (-1 : ℝ) 1, |f x| ≤ M) →
    (∀ (p : ℝ[X]) (δ : ℝ), p.degree < m → (∀ x ∈ Set.Icc (-1 : ℝ) 1, |f x - p.eval x| ≤ δ) →
      |ruleSum xs ws f - ∫ t in (-1 : ℝ)..1, f t| ≤ 4 * δ + a * K + b * M) ∧
    |ruleSum xs ws f - ∫ t in (-1 : ℝ)..1, f t| ≤ 4 * K / √((m : ℝ) - 1) + a * K + b * M

end IntegratorXX.Spec
