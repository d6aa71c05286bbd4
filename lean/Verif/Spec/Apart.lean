import Verif.Spec.Composite

/-!
# Points which are apart
-/

namespace IntegratorXX.Spec

/-- Two points differ in a coordinate by at least `δ`. -/
def PtApart (δ : ℝ) (u v : Pt ℝ) : Prop := δ ≤ |u.x - v.x| ∨ δ ≤ |u.y - v.y| ∨ δ ≤ |u.z - v.z|

end IntegratorXX.Spec
