import Verif.Spec.FloatGrid

/-!
# Distance of points stored as `double`
-/

namespace IntegratorXX.Spec

/-- Two numbers differ by at least `2^-49` of the larger one, that is eight units in the last place of a `double`, and
at least by `2^-190`. -/
def Gap (a b : ℝ) : Prop := 2⁻¹ ^ 49 * max |a| |b| ≤ |a - b| ∧ 2⁻¹ ^ 190 ≤ |a - b|

/-- In some coordinate. -/
def PtGap (u v : Pt ℝ) : Prop := Gap u.x v.x ∨ Gap u.y v.y ∨ Gap u.z v.z

/-- The coordinates are `double` numbers of moderate size. -/
def ModeratePt (u : Pt ℝ) : Prop := F64Pt u ∧ |u.x| ≤ 2 ^ 150 ∧ |u.y| ≤ 2 ^ 150 ∧ |u.z| ≤ 2 ^ 150

end IntegratorXX.Spec
