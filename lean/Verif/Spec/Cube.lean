import Verif.Model.Composite
import Mathlib.Data.Real.Basic

/-!
# Cubes and distances of points
-/

namespace IntegratorXX.Spec

/-- The point lies in the closed cube of side `s` whose lower corner is `c`. -/
def InCube (c : Pt ℝ) (s : ℝ) (p : Pt ℝ) : Prop :=
  (c.x ≤ p.x ∧ p.x ≤ c.x + s) ∧ (c.y ≤ p.y ∧ p.y ≤ c.y + s) ∧ (c.z ≤ p.z ∧ p.z ≤ c.z + s)

/-- No coordinate of the two points differs by more than `s`. -/
def Within (s : ℝ) (p q : Pt ℝ) : Prop := |p.x - q.x| ≤ s ∧ |p.y - q.y| ≤ s ∧ |p.z - q.z| ≤ s

end IntegratorXX.Spec
