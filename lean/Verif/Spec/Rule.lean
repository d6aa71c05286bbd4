import Mathlib.Algebra.BigOperators.Group.List.Basic
import Mathlib.Data.Real.Basic
import Verif.Base

/-!
# Vocabulary of the specifications

Written without reference to the model of any generator.
-/

namespace IntegratorXX.Spec

/-- The value `∑ wᵢ f(xᵢ)` of a quadrature rule given by its stored points and weights. -/
noncomputable def ruleSum {P : Type} (x : List P) (w : List ℝ) (f : P → ℝ) : ℝ :=
  ((x.zip w).map (fun e => e.2 * f e.1)).sum

/-- The computation returns normally with a result satisfying `p`. -/
def Returns {α : Type u} (o : Outcome α) (p : α → Prop) : Prop := ∃ a, o = .ok a ∧ p a

/-- Strictly increasing sequence. -/
def Increasing (x : List ℝ) : Prop := x.Pairwise (· < ·)

end IntegratorXX.Spec
