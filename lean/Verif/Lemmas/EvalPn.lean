import Verif.Model.Primitive
import Verif.Lemmas.Legendre
import Verif.XReal
import Mathlib.Tactic.Linarith

/-!
# `eval_Pn` computes Legendre polynomials, in exact arithmetic
-/

namespace IntegratorXX

open Polynomial Spec

local notation "P" => legendre

/-- The loop of `eval_Pn`. -/
def pnLoop {F : Type} [Sub F] [Mul F] [Div F] [Arith F] (x : F) (n : ℕ) : F × F × F :=
  (List.range' 1 n).foldl (fun (s : F × F × F) m =>
      (((Arith.lit 2 * Arith.ofNat m - Arith.lit 1) * x * s.1 -
        (Arith.ofNat m - Arith.lit 1) * s.2.1) / Arith.ofNat m,
        s.1, s.2.1)) (Arith.lit 1, Arith.lit 0, Arith.lit 0)

theorem evalPn_eq {F : Type} [Add F] [Sub F] [Mul F] [Div F] [Arith F] (x : F) (n : ℕ) :
    evalPn x n = ((pnLoop x n).1, (x * (pnLoop x n).1 - (pnLoop x n).2.1) *
      (Arith.ofNat n / (x * x - Arith.lit 1)), (pnLoop x n).2.1) := rfl

theorem pnLoop_succ {F : Type} [Sub F] [Mul F] [Div F] [Arith F] (x : F) (n : ℕ) :
    pnLoop x (n + 1) =
      (((Arith.lit 2 * Arith.ofNat (n + 1) - Arith.lit 1) * x * (pnLoop x n).1 -
        (Arith.ofNat (n + 1) - Arith.lit 1) * (pnLoop x n).2.1) / Arith.ofNat (n + 1),
        (pnLoop x n).1, (pnLoop x n).2.1) := by
  unfold pnLoop
  rw [List.range'_concat, List.foldl_append]
  simp only [List.foldl_cons, List.foldl_nil, Nat.one_mul, Nat.add_comm 1 n]

/-- Value of `P_{n-1}`, with the convention of the code for `n = 0`. -/
noncomputable def legPrev (n : ℕ) (x : ℝ) : ℝ := if n = 0 then 0 else (P (n - 1)).eval x

theorem legendre_bonnet_eval (n : ℕ) (x : ℝ) :
    (P (n + 1)).eval x =
      ((2 * (n + 1) - 1) * x * (P n).eval x - ((n + 1) - 1) * legPrev n x) / (n + 1) := by
  cases n with
  | zero => simp [legPrev, legendre_one]; norm_num
  | succ n =>
    have h := congrArg (eval x) (legendre_bonnet n)
    simp only [eval_mul, eval_C, eval_sub, eval_X] at h
    rw [legPrev, if_neg (by omega), Nat.add_sub_cancel, eq_div_iff (by positivity)]
    push_cast
    linarith

theorem pnLoop_real (x : ℝ) (n : ℕ) :
    (pnLoop x n).1 = (P n).eval x ∧ (pnLoop x n).2.1 = legPrev n x := by
  induction n with
  | zero => simp [pnLoop, legPrev]
  | succ n ih =>
    rw [pnLoop_succ]
    refine ⟨?_, ?_⟩
    · dsimp only
      rw [ih.1, ih.2, legendre_bonnet_eval]
      simp
    · dsimp only
      rw [ih.1]
      simp [legPrev]

theorem pnLoop_xreal (x : ℝ) (n : ℕ) :
    (pnLoop (XReal.fin x) n).1 = XReal.fin ((P n).eval x) ∧
    (pnLoop (XReal.fin x) n).2.1 = XReal.fin (legPrev n x) := by
  induction n with
  | zero => simp [pnLoop, legPrev]
  | succ n ih =>
    rw [pnLoop_succ]
    refine ⟨?_, ?_⟩
    · dsimp only
      rw [ih.1, ih.2]
      simp only [XReal.lit_eq, XReal.ofNat_eq, XReal.fin_mul, XReal.fin_sub]
      rw [XReal.fin_div_ne _ (by positivity), legendre_bonnet_eval]
      push_cast
      rfl
    · dsimp only
      rw [ih.1]
      simp [legPrev]

theorem legendre_deriv_eval (n : ℕ) (x : ℝ) (hx : x ^ 2 ≠ 1) :
    (derivative (P n)).eval x = (x * (P n).eval x - legPrev n x) * (n / (x * x - 1)) := by
  have hx' : x * x - 1 ≠ 0 := by
    intro h; apply hx; linarith [h, sq x]
  cases n with
  | zero => simp
  | succ n =>
    have h := congrArg (eval x) (legendre_deriv_formula n)
    simp only [eval_mul, eval_C, eval_sub, eval_X, eval_one, eval_pow] at h
    rw [legPrev, if_neg (by omega), Nat.add_sub_cancel, mul_div_assoc', eq_div_iff hx']
    push_cast
    linarith

theorem evalPn_xreal (x : ℝ) (n : ℕ) (hx : x ^ 2 ≠ 1) :
    evalPn (XReal.fin x) n = (XReal.fin ((P n).eval x), XReal.fin ((derivative (P n)).eval x),
      XReal.fin (legPrev n x)) := by
  have hx' : x * x - 1 ≠ 0 := by
    intro h; apply hx; linarith [h, sq x]
  rw [evalPn_eq, (pnLoop_xreal x n).1, (pnLoop_xreal x n).2, legendre_deriv_eval n x hx]
  simp only [XReal.lit_eq, XReal.ofNat_eq, XReal.fin_mul, XReal.fin_sub]
  rw [XReal.fin_div_ne _ (by push_cast; exact hx')]
  push_cast
  rfl

end IntegratorXX
