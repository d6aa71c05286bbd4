import Verif.Model.Quadrature
import Mathlib.Data.Real.Basic

/-!
# Nested rules and inversion

Written without reference to the model of any generator.
-/

namespace IntegratorXX.Spec

/-- Every `k`-th node of `fine`, beginning with number `off`, is a node of `coarse`, where its weight is `k` times as
large. -/
def Refines (k off : ℕ) (coarse fine : Quad ℝ ℝ) : Prop :=
  ∀ i < coarse.points.length, i < coarse.weights.length ∧ k * i + off < fine.points.length ∧
    fine.points[k * i + off]? = coarse.points[i]? ∧
    fine.weights[k * i + off]? = (coarse.weights[i]?).map (fun w : ℝ => w / (k : ℝ))

/-- Radial points come in pairs `r`, `R^2 / r`, in reversed order, and the weight of the second is that of the first
times `(R / r)^2`. -/
def InversionSymmetric (R : ℝ) (q : Quad ℝ ℝ) : Prop :=
  ∀ i < q.points.length, ∃ r w r' w' : ℝ, q.points[i]? = some r ∧ q.weights[i]? = some w ∧
    q.points[q.points.length - 1 - i]? = some r' ∧ q.weights[q.points.length - 1 - i]? = some w' ∧
    r * r' = R ^ 2 ∧ w' * r ^ 2 = w * R ^ 2

end IntegratorXX.Spec
