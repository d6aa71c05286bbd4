import Verif.Spec.Legendre
import Mathlib.Tactic.LinearCombination
import Mathlib.Tactic.FieldSimp
import Mathlib.Tactic.Ring

/-!
# Identities of the Legendre polynomials
-/

set_option linter.unusedSimpArgs false

namespace IntegratorXX

open Polynomial Spec

local notation "P" => legendre

/-- `D^[n-1] u^n`, normalised like `P_n`. -/
private noncomputable def legQ (n : ℕ) : ℝ[X] :=
  C (1 / (2 ^ n * (n.factorial : ℝ))) * derivative^[n - 1] ((X ^ 2 - 1) ^ n)

@[simp] theorem legendre_zero : P 0 = 1 := by simp [legendre]

private theorem derivative_u_pow (n : ℕ) :
    derivative (((X : ℝ[X]) ^ 2 - 1) ^ (n + 1)) = C (2 * (n + 1 : ℝ)) * ((X ^ 2 - 1) ^ n * X) := by
  rw [derivative_pow]
  simp
  rw [show (C 2 : ℝ[X]) = 2 from rfl]
  ring

theorem legendre_one : P 1 = X := by
  have := derivative_u_pow 0
  simp only [zero_add, pow_one] at this
  rw [legendre]
  simp only [Function.iterate_one, pow_one]
  rw [this]
  simp only [pow_zero, one_mul, ← mul_assoc, ← C_mul]
  norm_num

private theorem legendre_succ_a (n : ℕ) : P (n + 1) = X * P n + C (n : ℝ) * legQ n := by
  unfold legendre legQ
  rw [Function.iterate_succ_apply, derivative_u_pow, iterate_derivative_C_mul,
    iterate_derivative_mul_X]
  have h : C (1 / (2 ^ (n + 1) * ((n + 1).factorial : ℝ))) * C (2 * (n + 1 : ℝ)) =
      C (1 / (2 ^ n * (n.factorial : ℝ))) := by
    rw [← C_mul]
    congr 1
    rw [Nat.factorial_succ]
    have := n.factorial_ne_zero
    push_cast
    field_simp
    ring
  rw [← mul_assoc, h, nsmul_eq_mul]
  simp only [map_natCast]
  ring

private theorem legendre_succ_b (n : ℕ) :
    P (n + 2) = C (2 * (n + 1 : ℝ) + 1) * legQ (n + 1) + P n := by
  unfold legendre legQ
  have h2 : derivative^[2] (((X : ℝ[X]) ^ 2 - 1) ^ (n + 2)) =
      C (2 * (n + 2 : ℝ) * (2 * (n + 1 : ℝ) + 1)) * (X ^ 2 - 1) ^ (n + 1) +
      C (4 * (n + 2 : ℝ) * (n + 1)) * (X ^ 2 - 1) ^ n := by
    rw [Function.iterate_succ_apply, Function.iterate_one, derivative_u_pow]
    simp only [derivative_mul, derivative_C, derivative_X, derivative_u_pow, zero_mul, zero_add]
    simp only [C_mul, C_add, Nat.cast_add, Nat.cast_one, map_natCast, map_ofNat, map_one]
    ring
  rw [show n + 2 = n + 2 from rfl, Function.iterate_add_apply, h2, iterate_map_add,
    iterate_derivative_C_mul, iterate_derivative_C_mul]
  have e1 : C (1 / (2 ^ (n + 2) * ((n + 2).factorial : ℝ))) *
      C (2 * (n + 2 : ℝ) * (2 * (n + 1 : ℝ) + 1)) =
      C (2 * (n + 1 : ℝ) + 1) * C (1 / (2 ^ (n + 1) * ((n + 1).factorial : ℝ))) := by
    rw [← C_mul, ← C_mul]
    congr 1
    rw [Nat.factorial_succ (n + 1)]
    have := (n + 1).factorial_ne_zero
    push_cast
    field_simp
    ring
  have e2 : C (1 / (2 ^ (n + 2) * ((n + 2).factorial : ℝ))) * C (4 * (n + 2 : ℝ) * (n + 1)) =
      C (1 / (2 ^ n * (n.factorial : ℝ))) := by
    rw [← C_mul]
    congr 1
    rw [Nat.factorial_succ (n + 1), Nat.factorial_succ n]
    have := n.factorial_ne_zero
    push_cast
    field_simp
    ring
  rw [mul_add, ← mul_assoc, e1, ← mul_assoc, e2, Nat.add_sub_cancel, mul_assoc]

private theorem derivative_legQ (n : ℕ) : derivative (legQ (n + 1)) = P (n + 1) := by
  unfold legQ legendre
  rw [derivative_C_mul, Nat.add_sub_cancel, ← Function.iterate_succ_apply' derivative]

/-- Bonnet's recursion. -/
theorem legendre_bonnet (n : ℕ) :
    C (n + 2 : ℝ) * P (n + 2) = C (2 * n + 3 : ℝ) * X * P (n + 1) - C (n + 1 : ℝ) * P n := by
  have a := legendre_succ_a (n + 1)
  have b := legendre_succ_b n
  have h : C (2 * (n + 1 : ℝ) + 1) * P (n + 2) - C ((n : ℝ) + 1) * P (n + 2) =
      C (2 * (n + 1 : ℝ) + 1) * (X * P (n + 1) + C ((n : ℝ) + 1) * legQ (n + 1)) -
        C ((n : ℝ) + 1) * (C (2 * (n + 1 : ℝ) + 1) * legQ (n + 1) + P n) := by
    rw [← b]
    congr 2
    rw [a]
    push_cast
    rfl
  simp only [C_mul, C_add, map_natCast, map_ofNat, map_one] at h ⊢
  linear_combination h

/-- `P'_{n+1} = (n+1) P_n + x P'_n`. -/
theorem derivative_legendre_succ (n : ℕ) :
    derivative (P (n + 1)) = C (n + 1 : ℝ) * P n + X * derivative (P n) := by
  cases n with
  | zero => simp [legendre_one]
  | succ n =>
    rw [legendre_succ_a (n + 1)]
    simp only [derivative_add, derivative_mul, derivative_X, derivative_C, derivative_legQ]
    simp only [C_mul, C_add, Nat.cast_add, Nat.cast_one, map_natCast, map_ofNat, map_one]
    ring

/-- `P'_n = x P'_{n+1} - (n+1) P_{n+1}`. -/
theorem derivative_legendre_pred (n : ℕ) :
    derivative (P n) = X * derivative (P (n + 1)) - C (n + 1 : ℝ) * P (n + 1) := by
  have h1 := derivative_legendre_succ (n + 1)
  have h2 : derivative (P (n + 2)) = C (2 * (n + 1 : ℝ) + 1) * P (n + 1) + derivative (P n) := by
    rw [legendre_succ_b n]
    simp only [derivative_add, derivative_mul, derivative_C, derivative_legQ]
    ring
  rw [h2] at h1
  simp only [C_mul, C_add, Nat.cast_add, Nat.cast_one, map_natCast, map_ofNat, map_one] at h1 ⊢
  linear_combination h1

/-- `(1 - x²) P'_{n+1} = (n+1) (P_n - x P_{n+1})`. -/
theorem legendre_deriv_formula (n : ℕ) :
    (1 - X ^ 2) * derivative (P (n + 1)) = C (n + 1 : ℝ) * (P n - X * P (n + 1)) := by
  have h1 := derivative_legendre_succ n
  have h2 := derivative_legendre_pred n
  rw [h2] at h1
  linear_combination h1

/-- Legendre's differential equation. -/
theorem legendre_ode (n : ℕ) :
    derivative ((1 - X ^ 2) * derivative (P n)) = -(C (n * (n + 1) : ℝ) * P n) := by
  cases n with
  | zero => simp
  | succ n =>
    rw [legendre_deriv_formula]
    simp only [derivative_mul, derivative_C, derivative_sub, derivative_X]
    rw [derivative_legendre_pred n]
    simp only [C_mul, C_add, Nat.cast_add, Nat.cast_one, map_natCast, map_ofNat, map_one]
    ring

theorem legendre_ode' (n : ℕ) :
    (1 - X ^ 2) * derivative (derivative (P n)) =
      2 * X * derivative (P n) - C (n * (n + 1) : ℝ) * P n := by
  have h := legendre_ode n
  rw [derivative_mul, derivative_sub, derivative_one, derivative_X_pow,
    show C (((2 : ℕ) : ℝ)) = (2 : ℝ[X]) from rfl] at h
  linear_combination h

theorem legendre_eval_one (n : ℕ) : (P n).eval 1 = 1 := by
  induction n using Nat.twoStepInduction with
  | zero => simp
  | one => simp [legendre_one]
  | more n h0 h1 =>
    have h := congrArg (eval (1 : ℝ)) (legendre_bonnet n)
    simp only [eval_mul, eval_C, eval_sub, eval_X, h0, h1] at h
    have : (n + 2 : ℝ) ≠ 0 := by positivity
    apply mul_left_cancel₀ this
    rw [h]; ring

theorem legendre_eval_neg (n : ℕ) (x : ℝ) : (P n).eval (-x) = (-1) ^ n * (P n).eval x := by
  induction n using Nat.twoStepInduction with
  | zero => simp
  | one => simp [legendre_one]
  | more n h0 h1 =>
    have h := congrArg (eval (-x)) (legendre_bonnet n)
    have h' := congrArg (eval x) (legendre_bonnet n)
    simp only [eval_mul, eval_C, eval_sub, eval_X, h0, h1] at h h'
    have : (n + 2 : ℝ) ≠ 0 := by positivity
    apply mul_left_cancel₀ this
    rw [h, pow_succ, pow_succ]
    linear_combination -(-1) ^ n * h'

theorem legendre_eval_neg_one (n : ℕ) : (P n).eval (-1) = (-1) ^ n := by
  rw [legendre_eval_neg, legendre_eval_one, mul_one]

end IntegratorXX
