import Verif.Spec.Sphere
import Verif.Spec.Rule

/-!
# Rules for the sphere
-/

namespace IntegratorXX.Spec

/-- The rule gives the surface integral of every polynomial of degree at most `L`.  The points may lie anywhere and the
weights have any sign. -/
def ExactOnSphere (x : List (Pt ℝ)) (w : List ℝ) (L : ℕ) : Prop :=
  ∀ p : MvPolynomial (Fin 3) ℝ, p.totalDegree ≤ L → ruleSum x w (polyAt p) = sphereInt (polyAt p)

end IntegratorXX.Spec
