import Verif.Spec.Float
import Verif.Spec.Rule
import Verif.Model.Factory

/-!
# Vocabulary for grids computed in `double`
-/

namespace IntegratorXX

/-- A finite `double` that differs from `x` by at most the fraction `p` of `x`. -/
def Close {L : Libm} (p : ℝ) (a : F64 L) (x : ℝ) : Prop := ∃ v, a = F64.fin v ∧ IsF64 v ∧ |v - x| ≤ p * |x|

/-- The same for each coordinate. -/
def ClosePt {L : Libm} (p : ℝ) (a : Pt (F64 L)) (x : Pt ℝ) : Prop :=
  Close p a.x x.x ∧ Close p a.y x.y ∧ Close p a.z x.z

/-- A quadrature of points in space computed in `double`: all numbers are finite, the coordinates agree with those of
`r` up to the fraction `p` and the weights up to the fraction `w`. -/
def CloseGrid {L : Libm} (p w : ℝ) (q : Quad (Pt (F64 L)) (F64 L)) (r : Quad (Pt ℝ) ℝ) : Prop :=
  List.Forall₂ (ClosePt p) q.points r.points ∧ List.Forall₂ (Close w) q.weights r.weights

/-- NaN. -/
def F64.nan {L : Libm} : F64 L := XReal.nan

/-- `+inf`. -/
def F64.inf {L : Libm} : F64 L := XReal.pinf

/-- A point with finite coordinates. -/
def finPt {L : Libm} (u : Pt ℝ) : Pt (F64 L) := ⟨F64.fin u.x, F64.fin u.y, F64.fin u.z⟩

/-- The real numbers stored in a quadrature all of whose numbers are finite. -/
def Stores {L : Libm} (q : Quad (Pt (F64 L)) (F64 L)) (ps : List (Pt ℝ)) (ws : List ℝ) : Prop :=
  q.points = ps.map finPt ∧ q.weights = ws.map F64.fin

/-- The coordinates are `double` numbers. -/
def F64Pt (u : Pt ℝ) : Prop := IsF64 u.x ∧ IsF64 u.y ∧ IsF64 u.z

/-- Coordinates differ by at most `e`. -/
def NearPt (e : ℝ) (u v : Pt ℝ) : Prop := |u.x - v.x| ≤ e ∧ |u.y - v.y| ≤ e ∧ |u.z - v.z| ≤ e

/-- The same radial scheme with the parameters taken as `double` and as exact numbers, in the ranges of C75, with the
relative errors of radii and weights proved there. -/
inductive SameScheme (L : Libm) : RadialQuad → RadialTraits (F64 L) → RadialTraits ℝ → ℝ → ℝ → Prop
  | becke (n : ℕ) (R : ℝ) (hn : n < 2 ^ 15) (hR : IsF64 R) (h1 : 2⁻¹ ^ 50 ≤ R) (h2 : R ≤ 2 ^ 50) :
    SameScheme L .becke (.becke n (F64.fin R)) (.becke n R) (2⁻¹ ^ 47 * ((n : ℝ) + 1) ^ 2) (2⁻¹ ^ 46 * ((n : ℝ) + 1) ^ 2)
  | mhl (n : ℕ) (R : ℝ) (hn : n < 2 ^ 15) (hR : IsF64 R) (h1 : 2⁻¹ ^ 50 ≤ R) (h2 : R ≤ 2 ^ 50) :
    SameScheme L .murrayHandyLaming (.mhl 2 n (F64.fin R)) (.mhl 2 n R) (2⁻¹ ^ 48 * ((n : ℝ) + 1) ^ 2)
      (2⁻¹ ^ 48 * ((n : ℝ) + 1) ^ 2)
  | mk (n : ℕ) (R : ℝ) (hn : n < 2 ^ 12) (hR : IsF64 R) (h1 : 2⁻¹ ^ 50 ≤ R) (h2 : R ≤ 2 ^ 50) :
    SameScheme L .muraKnowles (.mk n (F64.fin R)) (.mk n R) (2⁻¹ ^ 50 * ((n : ℝ) + 1) ^ 3) (2⁻¹ ^ 48 * ((n : ℝ) + 1))
  | ta (n : ℕ) (R α : ℝ) (hn : n < 2 ^ 13) (hR : IsF64 R) (h1 : 2⁻¹ ^ 50 ≤ R) (h2 : R ≤ 2 ^ 50) (hα : IsF64 α)
    (h3 : 2⁻¹ ^ 30 ≤ α) (h4 : α ≤ 1) :
    SameScheme L .treutlerAhlrichs (.ta n (F64.fin R) (F64.fin α)) (.ta n R α) (2⁻¹ ^ 47 * ((n : ℝ) + 1) ^ 2)
      (2⁻¹ ^ 46 * ((n : ℝ) + 1) ^ 2)

end IntegratorXX
