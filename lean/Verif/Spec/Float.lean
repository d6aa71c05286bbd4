import Verif.F64
import Verif.Model.Quadrature

/-!
# Vocabulary for statements about `double` results
-/

namespace IntegratorXX

/-- The list consists of the finite `double` numbers `xs`. -/
def Doubles {L : Libm} (l : List (F64 L)) (xs : List ℝ) : Prop :=
  l = xs.map F64.fin ∧ ∀ x ∈ xs, IsF64 x

/-- Entries differ by at most `e`. -/
def Within (e : ℝ) (xs ys : List ℝ) : Prop := List.Forall₂ (fun x y => |x - y| ≤ e) xs ys

/-- Entries differ by at most the fraction `e` of the second. -/
def WithinRel (e : ℝ) (xs ys : List ℝ) : Prop := List.Forall₂ (fun x y => |x - y| ≤ e * |y|) xs ys

/-- A `double` that is not NaN. -/
def NotNaN {L : Libm} (a : F64 L) : Prop := (∃ x, a = F64.fin x ∧ IsF64 x) ∨ a = XReal.pinf ∨ a = XReal.ninf

/-- Finite `double` numbers of moderate size of which different ones differ by at least four units in the
last place. -/
structure Separated (C : Set ℝ) : Prop where
  f64 : ∀ a ∈ C, IsF64 a
  le : ∀ a ∈ C, |a| ≤ 2 ^ 100
  sep : ∀ a ∈ C, ∀ b ∈ C, a < b → 2⁻¹ ^ 50 * max |a| |b| ≤ b - a ∧ 2⁻¹ ^ 100 ≤ b - a

/-- A quadrature computed in `double`: all entries are finite, the points are positive and increase strictly,
the weights are positive, and points and weights agree with those of `r` up to the fractions `p` and `w`. -/
def PositiveRule {L : Libm} (q : Quad (F64 L) (F64 L)) (r : Quad ℝ ℝ) (p w : ℝ) : Prop :=
  ∃ xs ws, Doubles q.points xs ∧ Doubles q.weights ws ∧ xs.Pairwise (· < ·) ∧ (∀ x ∈ xs, 0 < x) ∧
    (∀ x ∈ ws, 0 < x) ∧ WithinRel p xs r.points ∧ WithinRel w ws r.weights

end IntegratorXX
