import Mathlib.Algebra.Polynomial.Derivative
import Mathlib.Data.Real.Basic
import Mathlib.Data.Nat.Factorial.Basic

/-!
# Legendre polynomials, by the formula of Rodrigues
-/

namespace IntegratorXX.Spec

open Polynomial

/-- `P_n = 1/(2^n n!) dⁿ/dxⁿ (x² - 1)ⁿ`. -/
noncomputable def legendre (n : ℕ) : ℝ[X] :=
  C (1 / (2 ^ n * (n.factorial : ℝ))) * derivative^[n] ((X ^ 2 - 1) ^ n)

end IntegratorXX.Spec
