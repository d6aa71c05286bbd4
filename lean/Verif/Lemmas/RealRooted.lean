import Verif.Lemmas.GaussRule

/-!
# Newton steps on polynomials with simple real roots
-/

namespace IntegratorXX

open Polynomial

/-- Logarithmic derivative. -/
theorem eval_derivative_nodal (c : ℝ) (S : Finset ℝ) (z : ℝ) (hz : z ∉ S) :
    (derivative (C c * Lagrange.nodal S id)).eval z =
      (C c * Lagrange.nodal S id).eval z * ∑ x ∈ S, 1 / (z - x) := by
  classical
  rw [derivative_C_mul, eval_mul, eval_mul, eval_C, Lagrange.derivative_nodal, eval_finsetSum,
    mul_assoc]
  congr 1
  rw [Finset.mul_sum]
  apply Finset.sum_congr rfl
  intro x hx
  have hne : z - x ≠ 0 := by
    intro h
    apply hz
    rw [sub_eq_zero.1 h]
    exact hx
  rw [Lagrange.nodal_eq_mul_nodal_erase (v := id) hx, eval_mul]
  simp only [id, eval_sub, eval_X, eval_C]
  field_simp

/-- A Newton step of length at most `e` starts within `n e` of a root. -/
theorem near_root (c : ℝ) (hc : c ≠ 0) (S : Finset ℝ) (hS : S.Nonempty) (z e : ℝ) (he : 0 < e)
    (hd : (derivative (C c * Lagrange.nodal S id)).eval z ≠ 0)
    (hstep : |(C c * Lagrange.nodal S id).eval z /
      (derivative (C c * Lagrange.nodal S id)).eval z| ≤ e) :
    ∃ x ∈ S, |z - x| ≤ S.card * e := by
  by_contra hcon
  push Not at hcon
  have hn : (0 : ℝ) < S.card := by exact_mod_cast hS.card_pos
  have hz : z ∉ S := by
    intro h
    have := hcon z h
    rw [sub_self, abs_zero] at this
    nlinarith
  set W := C c * Lagrange.nodal S id with hW
  have hWz : W.eval z ≠ 0 := by
    rw [hW, eval_mul, eval_C]
    exact mul_ne_zero hc (Lagrange.eval_nodal_not_at_node (fun x hx => by
      rintro rfl; exact hz hx))
  have hlog := eval_derivative_nodal c S z hz
  rw [← hW] at hlog
  have hsum : |∑ x ∈ S, 1 / (z - x)| < 1 / e := by
    refine lt_of_le_of_lt (Finset.abs_sum_le_sum_abs _ _) ?_
    have : ∀ x ∈ S, |1 / (z - x)| < 1 / (S.card * e) := by
      intro x hx
      rw [abs_div, abs_one]
      exact one_div_lt_one_div_of_lt (by positivity) (hcon x hx)
    refine lt_of_lt_of_eq (Finset.sum_lt_sum_of_nonempty hS this) ?_
    rw [Finset.sum_const, nsmul_eq_mul]
    field_simp
  rw [hlog] at hstep hd
  have hsne : ∑ x ∈ S, 1 / (z - x) ≠ 0 := fun h => hd (by rw [h, mul_zero])
  rw [← div_div, div_self hWz, abs_div, abs_one, div_le_iff₀ (abs_pos.2 hsne)] at hstep
  rw [lt_div_iff₀ he] at hsum
  linarith

end IntegratorXX
