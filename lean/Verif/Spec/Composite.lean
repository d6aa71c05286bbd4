import Verif.Model.Composite
import Verif.Spec.Rule

/-!
# Specification vocabulary for composite grids
-/

namespace IntegratorXX.Spec

/-- A quadrature with as many weights as points (every quadrature built by the library). -/
def Consistent {P W : Type} (q : Quad P W) : Prop := q.points.length = q.weights.length

/-- Regions given by their starts, each extending to the next start and the last one to
`npts`. -/
def tiles {A : Type} (npts : Nat) : List (Nat × A) → List ((Nat × Nat) × A)
  | [] => []
  | [(i, a)] => [((i, npts), a)]
  | (i, a) :: (j, a') :: rest => ((i, j), a) :: tiles npts ((j, a') :: rest)

/-- Starts `0 = i₀ < i₁ < … < iₖ`. -/
def StartsOk {A : Type} (regions : List (Nat × A)) : Prop :=
  (regions.map Prod.fst).head? = some 0 ∧ (regions.map Prod.fst).Pairwise (· < ·)

/-- The point `c + r u`. -/
noncomputable def onRay (c : Pt ℝ) (r : ℝ) (u : Pt ℝ) : Pt ℝ :=
  ⟨c.x + r * u.x, c.y + r * u.y, c.z + r * u.z⟩

/-- Squared Euclidean norm. -/
noncomputable def normSq (u : Pt ℝ) : ℝ := u.x ^ 2 + u.y ^ 2 + u.z ^ 2

end IntegratorXX.Spec
