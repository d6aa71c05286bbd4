import Verif.Arith

/-!
# Extended reals with IEEE special values

Exact arithmetic on finite values together with `+inf`, `-inf` and NaN propagated by the IEEE
rules.  Simplifications: no rounding, no overflow, and a single zero, which acts like `+0.0`
as a divisor.
-/

namespace IntegratorXX

/-- A floating point value: finite, an infinity or NaN.  The library is a template over such a type
(`PointType`, `WeightType` of `gausslegendre.hpp`, `RealType` of `s2/lebedev_laikov.hpp`). -/
inductive XReal where
  | fin (x : ℝ)
  | pinf
  | ninf
  | nan

namespace XReal

open Classical

/-- An infinity with the sign of `x` (`nan` for 0: the indeterminate product `0 * inf`). -/
noncomputable def infMul (x : ℝ) : XReal := if 0 < x then pinf else if x < 0 then ninf else nan

/-- IEEE addition. -/
noncomputable def add : XReal → XReal → XReal
  | fin x, fin y => fin (x + y)
  | nan, _ => nan
  | _, nan => nan
  | pinf, ninf => nan
  | ninf, pinf => nan
  | pinf, _ => pinf
  | _, pinf => pinf
  | ninf, _ => ninf
  | _, ninf => ninf

/-- IEEE negation. -/
noncomputable def neg : XReal → XReal
  | fin x => fin (-x)
  | pinf => ninf
  | ninf => pinf
  | nan => nan

/-- IEEE multiplication. -/
noncomputable def mul : XReal → XReal → XReal
  | fin x, fin y => fin (x * y)
  | nan, _ => nan
  | _, nan => nan
  | fin x, pinf => infMul x
  | fin x, ninf => infMul (-x)
  | pinf, fin x => infMul x
  | ninf, fin x => infMul (-x)
  | pinf, pinf => pinf
  | pinf, ninf => ninf
  | ninf, pinf => ninf
  | ninf, ninf => pinf

/-- IEEE division. -/
noncomputable def div : XReal → XReal → XReal
  | fin x, fin y => if y = 0 then infMul x else fin (x / y)
  | nan, _ => nan
  | _, nan => nan
  | fin _, pinf => fin 0
  | fin _, ninf => fin 0
  | pinf, fin y => if y < 0 then ninf else pinf
  | ninf, fin y => if y < 0 then pinf else ninf
  | pinf, pinf => nan
  | pinf, ninf => nan
  | ninf, pinf => nan
  | ninf, ninf => nan

noncomputable instance : Add XReal := ⟨add⟩
noncomputable instance : Neg XReal := ⟨neg⟩
noncomputable instance : Sub XReal := ⟨fun a b => add a (neg b)⟩
noncomputable instance : Mul XReal := ⟨mul⟩
noncomputable instance : Div XReal := ⟨div⟩

/-- IEEE `<`: false when an argument is NaN. -/
def Lt : XReal → XReal → Prop
  | fin x, fin y => x < y
  | fin _, pinf => True
  | ninf, fin _ => True
  | ninf, pinf => True
  | _, _ => False

/-- IEEE `==`. -/
def Eq' : XReal → XReal → Prop
  | fin x, fin y => x = y
  | pinf, pinf => True
  | ninf, ninf => True
  | _, _ => False

/-- `std::pow` on finite arguments with a positive base; other arguments are not needed and
give `nan`. -/
noncomputable def pow : XReal → XReal → XReal
  | fin x, fin y => if 0 < x then fin (x ^ y) else nan
  | _, _ => nan

noncomputable instance : Arith XReal where
  ofNat n := fin n
  lit q := fin q
  pi := fin Real.pi
  twoOverPi := fin (2 / Real.pi)
  eps := fin ((2 : ℝ)⁻¹ ^ 52)
  sqrt
    | fin x => if 0 ≤ x then fin (Real.sqrt x) else nan
    | pinf => pinf
    | _ => nan
  sin
    | fin x => fin (Real.sin x)
    | _ => nan
  cos
    | fin x => fin (Real.cos x)
    | _ => nan
  log
    | fin x => if 0 < x then fin (Real.log x) else if x = 0 then ninf else nan
    | pinf => pinf
    | _ => nan
  abs
    | fin x => fin |x|
    | nan => nan
    | _ => pinf
  pow := pow
  lt a b := decide (Lt a b)
  le a b := decide (Lt a b ∨ Eq' a b)
  eq a b := decide (Eq' a b)

@[simp] theorem fin_add (x y : ℝ) : fin x + fin y = fin (x + y) := rfl
@[simp] theorem fin_neg (x : ℝ) : -fin x = fin (-x) := rfl
@[simp] theorem fin_sub (x y : ℝ) : fin x - fin y = fin (x - y) := by
  rw [sub_eq_add_neg]; rfl
@[simp] theorem fin_mul (x y : ℝ) : fin x * fin y = fin (x * y) := rfl
theorem fin_div (x y : ℝ) : fin x / fin y = if y = 0 then infMul x else fin (x / y) := rfl
theorem fin_div_ne (x : ℝ) {y : ℝ} (h : y ≠ 0) : fin x / fin y = fin (x / y) := by
  rw [fin_div, if_neg h]
@[simp] theorem lit_eq (q : Rat) : (Arith.lit q : XReal) = fin q := rfl
@[simp] theorem ofNat_eq (n : ℕ) : (Arith.ofNat n : XReal) = fin n := rfl
@[simp] theorem lt_iff (a b : XReal) : Arith.lt a b = true ↔ Lt a b := by
  show decide (Lt a b) = true ↔ _; simp
@[simp] theorem eq_iff (a b : XReal) : Arith.eq a b = true ↔ Eq' a b := by
  show decide (Eq' a b) = true ↔ _; simp

theorem le_iff (a b : XReal) : Arith.le a b = true ↔ Lt a b ∨ Eq' a b := by
  show decide (Lt a b ∨ Eq' a b) = true ↔ _; simp

end XReal

end IntegratorXX
