import Mathlib.Analysis.SpecialFunctions.Pow.Real
import Mathlib.Analysis.SpecialFunctions.Trigonometric.Basic

/-!
# Scalar arithmetic

The generators of the library are templates over a floating point type.  The model is
written over an arbitrary type `F` carrying Lean's `Add Sub Mul Div Neg` and the remaining
operations of the class `Arith`.  No laws are assumed: a theorem proved for all `F` holds
for IEEE arithmetic as well as for exact real arithmetic.
-/

namespace IntegratorXX

/-- The `<cmath>` operations, constants, literals and comparisons used by the library. -/
class Arith (F : Type u) where
  /-- conversion `size_t → F` (or `int → F` for a non-negative integer) -/
  ofNat : Nat → F
  /-- a decimal literal such as `2.0`, `0.25` or `0.693147180559945309417232` -/
  lit : Rat → F
  /-- `M_PI` -/
  pi : F
  /-- `M_2_PI` -/
  twoOverPi : F
  /-- `std::numeric_limits<double>::epsilon()` -/
  eps : F
  sqrt : F → F
  sin : F → F
  cos : F → F
  log : F → F
  /-- `std::abs` -/
  abs : F → F
  /-- `std::pow` -/
  pow : F → F → F
  /-- `a < b` -/
  lt : F → F → Bool
  /-- `a <= b` -/
  le : F → F → Bool
  /-- `a == b` -/
  eq : F → F → Bool

open Classical in
/-- Exact real arithmetic.  Totalised operations of Mathlib (`x / 0 = 0`, `log 0 = 0`,
`sqrt x = 0` for `x < 0`) do not correspond to IEEE; theorems at `ℝ` carry hypotheses under
which they are not reached. -/
noncomputable instance : Arith ℝ where
  ofNat n := (n : ℝ)
  lit q := (q : ℝ)
  pi := Real.pi
  twoOverPi := 2 / Real.pi
  eps := (2 : ℝ)⁻¹ ^ 52
  sqrt := Real.sqrt
  sin := Real.sin
  cos := Real.cos
  log := Real.log
  abs := fun x => |x|
  pow := fun x y => x ^ y
  lt := fun a b => decide (a < b)
  le := fun a b => decide (a ≤ b)
  eq := fun a b => decide (a = b)

namespace Arith
@[simp] theorem real_ofNat (n : Nat) : (ofNat n : ℝ) = (n : ℝ) := rfl
@[simp] theorem real_lit (q : Rat) : (lit q : ℝ) = (q : ℝ) := rfl
@[simp] theorem real_pi : (pi : ℝ) = Real.pi := rfl
@[simp] theorem real_twoOverPi : (twoOverPi : ℝ) = 2 / Real.pi := rfl
theorem real_eps : (eps : ℝ) = (2 : ℝ)⁻¹ ^ 52 := rfl
@[simp] theorem real_sqrt (x : ℝ) : sqrt x = Real.sqrt x := rfl
@[simp] theorem real_sin (x : ℝ) : sin x = Real.sin x := rfl
@[simp] theorem real_cos (x : ℝ) : cos x = Real.cos x := rfl
@[simp] theorem real_log (x : ℝ) : log x = Real.log x := rfl
@[simp] theorem real_abs (x : ℝ) : abs x = |x| := rfl
@[simp] theorem real_pow (x y : ℝ) : pow x y = x ^ y := rfl
@[simp] theorem real_lt (x y : ℝ) : lt x y = true ↔ x < y := by simp [lt]
@[simp] theorem real_le (x y : ℝ) : le x y = true ↔ x ≤ y := by simp [le]
@[simp] theorem real_eq (x y : ℝ) : eq x y = true ↔ x = y := by simp [eq]
end Arith

end IntegratorXX
