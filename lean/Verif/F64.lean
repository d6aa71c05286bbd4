import Mathlib.Data.Int.Log
import Mathlib.Algebra.Order.Round
import Verif.XReal

/-!
# IEEE 754 double precision

Rounding to nearest, ties to even, with subnormal numbers and overflow to infinity.  A value is an
`XReal`; the finite values that occur are results of `rnd`.

Simplifications: the two zeros are identified (a zero divisor acts like `+0.0`); every operation is
rounded to `double` (no excess precision, no contraction to fused operations).  The functions `sin`,
`cos`, `log` and `pow` of the C library are a parameter; what theorems need of them is
`Libm.Accurate`.
-/

namespace IntegratorXX

/-- The nearest integer, the even one of two. -/
noncomputable def rne (x : ℝ) : ℤ :=
  if Int.fract x < 1 / 2 then ⌊x⌋
  else if 1 / 2 < Int.fract x then ⌊x⌋ + 1
  else if Even ⌊x⌋ then ⌊x⌋ else ⌊x⌋ + 1

/-- Exponent of the last binary digit of a `double` near `x`. -/
noncomputable def ulpExp (x : ℝ) : ℤ := max (Int.log 2 |x| - 52) (-1074)

/-- The distance of neighbouring `double` numbers near `x`. -/
noncomputable def ulp (x : ℝ) : ℝ := (2 : ℝ) ^ ulpExp x

/-- Rounding to 53 binary digits (exponents not bounded above). -/
noncomputable def rnd (x : ℝ) : ℝ := rne (x / ulp x) * ulp x

/-- The smallest positive `double`. -/
noncomputable def f64Tiny : ℝ := (2 : ℝ) ^ (-1074 : ℤ)

/-- The smallest positive normal `double`. -/
noncomputable def f64Min : ℝ := (2 : ℝ) ^ (-1022 : ℤ)

/-- Half the overflow threshold. -/
noncomputable def f64Big : ℝ := (2 : ℝ) ^ (1023 : ℤ)

/-- The finite `double` numbers. -/
def IsF64 (x : ℝ) : Prop := rnd x = x ∧ |x| < 2 * f64Big

namespace XReal

open Classical in
/-- The result of an operation with the exact result `x`. -/
noncomputable def round (x : ℝ) : XReal :=
  if 2 * f64Big ≤ rnd x then pinf else if rnd x ≤ -(2 * f64Big) then ninf else fin (rnd x)

/-- The result of an operation. -/
noncomputable def roundX : XReal → XReal
  | fin x => round x
  | x => x

end XReal

/-- The functions of the C library on finite arguments (`log` and the base of `pow` positive). -/
structure Libm where
  sin : ℝ → ℝ
  cos : ℝ → ℝ
  log : ℝ → ℝ
  pow : ℝ → ℝ → ℝ

/-- An error of at most one unit in the last place, for results that are normal numbers. -/
structure Libm.Accurate (L : Libm) : Prop where
  sin_err : ∀ x, IsF64 x → |L.sin x - Real.sin x| ≤ 2⁻¹ ^ 52 * |Real.sin x| + f64Tiny
  cos_err : ∀ x, IsF64 x → |L.cos x - Real.cos x| ≤ 2⁻¹ ^ 52 * |Real.cos x|
  log_err : ∀ x, IsF64 x → 0 < x → |L.log x - Real.log x| ≤ 2⁻¹ ^ 52 * |Real.log x|
  pow_err : ∀ x y, IsF64 x → IsF64 y → 0 < x → f64Min ≤ x ^ y → x ^ y ≤ f64Big →
    |L.pow x y - x ^ y| ≤ 2⁻¹ ^ 52 * x ^ y

/-- Correctly rounded functions (operations round the exact result). -/
noncomputable def Libm.correct : Libm := ⟨Real.sin, Real.cos, Real.log, fun x y => x ^ y⟩

theorem Libm.correct_accurate : Libm.correct.Accurate where
  sin_err x _ := by
    show |Real.sin x - Real.sin x| ≤ _
    rw [sub_self, abs_zero]
    unfold f64Tiny
    positivity
  cos_err x _ := by
    show |Real.cos x - Real.cos x| ≤ _
    rw [sub_self, abs_zero]
    positivity
  log_err x _ _ := by
    show |Real.log x - Real.log x| ≤ _
    rw [sub_self, abs_zero]
    positivity
  pow_err x y _ _ h _ _ := by
    show |x ^ y - x ^ y| ≤ _
    rw [sub_self, abs_zero]
    positivity

/-- `double` with a C library: the `RealType` of `generators/impl/radial_types.hpp:6-9` and
`s2_types.hpp:6-9`. -/
def F64 (_ : Libm) : Type := XReal

namespace F64

variable {L : Libm}

/-- A finite value. -/
def fin (x : ℝ) : F64 L := XReal.fin x

/-- A real number rounded to `double`. -/
noncomputable def of (x : ℝ) : F64 L := XReal.round x

noncomputable instance : Add (F64 L) := ⟨fun a b => (XReal.add a b).roundX⟩
noncomputable instance : Neg (F64 L) := ⟨XReal.neg⟩
noncomputable instance : Sub (F64 L) := ⟨fun a b => (XReal.add a (XReal.neg b)).roundX⟩
noncomputable instance : Mul (F64 L) := ⟨fun a b => (XReal.mul a b).roundX⟩
noncomputable instance : Div (F64 L) := ⟨fun a b => (XReal.div a b).roundX⟩

open Classical in
/-- `M_PI` and `M_2_PI` are the decimal literals of `<cmath>`. -/
noncomputable instance : Arith (F64 L) where
  ofNat n := of n
  lit q := of q
  pi := of 3.14159265358979323846
  twoOverPi := of 0.63661977236758134308
  eps := fin ((2 : ℝ)⁻¹ ^ 52)
  sqrt
    | .fin x => if 0 ≤ x then of (Real.sqrt x) else XReal.nan
    | .pinf => XReal.pinf
    | _ => XReal.nan
  sin
    | .fin x => of (L.sin x)
    | _ => XReal.nan
  cos
    | .fin x => of (L.cos x)
    | _ => XReal.nan
  log
    | .fin x => if 0 < x then of (L.log x) else if x = 0 then XReal.ninf else XReal.nan
    | .pinf => XReal.pinf
    | _ => XReal.nan
  abs
    | .fin x => fin |x|
    | .nan => XReal.nan
    | _ => XReal.pinf
  pow
    | .fin x, .fin y => if 0 < x then of (L.pow x y) else XReal.nan
    | _, _ => XReal.nan
  lt a b := decide (XReal.Lt a b)
  le a b := decide (XReal.Lt a b ∨ XReal.Eq' a b)
  eq a b := decide (XReal.Eq' a b)

theorem fin_add (x y : ℝ) : (fin x + fin y : F64 L) = of (x + y) := rfl
theorem fin_sub (x y : ℝ) : (fin x - fin y : F64 L) = of (x - y) := by
  rw [sub_eq_add_neg]; rfl
theorem fin_mul (x y : ℝ) : (fin x * fin y : F64 L) = of (x * y) := rfl
theorem fin_neg (x : ℝ) : (-fin x : F64 L) = fin (-x) := rfl
theorem fin_div (x : ℝ) {y : ℝ} (h : y ≠ 0) : (fin x / fin y : F64 L) = of (x / y) := by
  exact congrArg XReal.roundX (XReal.fin_div_ne x h)
theorem ofNat_eq (n : ℕ) : (Arith.ofNat n : F64 L) = of n := rfl
theorem lit_eq (q : Rat) : (Arith.lit q : F64 L) = of q := rfl
theorem pi_eq : (Arith.pi : F64 L) = of 3.14159265358979323846 := rfl
theorem fin_sqrt {x : ℝ} (h : 0 ≤ x) : Arith.sqrt (fin x : F64 L) = of (Real.sqrt x) := if_pos h
theorem fin_cos (x : ℝ) : Arith.cos (fin x : F64 L) = of (L.cos x) := rfl
theorem fin_sin (x : ℝ) : Arith.sin (fin x : F64 L) = of (L.sin x) := rfl
theorem fin_log {x : ℝ} (h : 0 < x) : Arith.log (fin x : F64 L) = of (L.log x) := if_pos h
theorem fin_pow {x : ℝ} (h : 0 < x) (y : ℝ) : Arith.pow (fin x : F64 L) (fin y) = of (L.pow x y) :=
  if_pos h
theorem lt_iff (x y : ℝ) : Arith.lt (fin x : F64 L) (fin y) = true ↔ x < y :=
  XReal.lt_iff (XReal.fin x) (XReal.fin y)

end F64

end IntegratorXX
