import Mathlib.Analysis.Analytic.Binomial

/-!
# The power series of `1 / √(1 - x)`
-/

namespace IntegratorXX

open Polynomial

theorem choose_half_abs_le (n : ℕ) : |Ring.choose ((1 / 2 : ℝ) + n - 1) n| ≤ 1 := by
  have e : Ring.choose ((1 / 2 : ℝ) + n - 1) n = Ring.multichoose (1 / 2 : ℝ) n := by
    rw [Ring.choose]
    congr 1
    ring
  have h := Ring.factorial_nsmul_multichoose_eq_ascPochhammer (1 / 2 : ℝ) n
  rw [ascPochhammer_smeval_eq_eval, nsmul_eq_mul] at h
  have h2 : 0 ≤ (ascPochhammer ℝ n).eval (1 / 2) ∧ (ascPochhammer ℝ n).eval (1 / 2) ≤ n.factorial := by
    clear h e
    induction n with
    | zero => simp
    | succ n ih =>
      rw [ascPochhammer_succ_eval, Nat.factorial_succ]
      push_cast
      have hn : (0 : ℝ) ≤ n := by positivity
      constructor
      · exact mul_nonneg ih.1 (by positivity)
      · nlinarith [ih.1, ih.2]
  have h3 : (0 : ℝ) < n.factorial := by positivity
  rw [e, abs_le]
  constructor <;> nlinarith [h2.1, h2.2]

/-- The binomial series for the exponent `-1/2`. -/
theorem inv_sqrt_hasSum {x : ℝ} (hx : |x| < 1) :
    HasSum (fun n : ℕ => Ring.choose ((1 / 2 : ℝ) + n - 1) n * x ^ n) (1 / √(1 - x)) := by
  have h := (Complex.one_div_one_sub_cpow_hasFPowerSeriesOnBall_zero (1 / 2 : ℂ)).hasSum (y := (x : ℂ)) (by
    simp [enorm_eq_nnnorm, Metric.mem_eball]
    rw [← NNReal.coe_lt_coe]
    simpa using hx)
  have h2 := Complex.hasSum_re h
  have hp : 0 ≤ 1 - x := by linarith [(abs_lt.1 hx).2]
  have e1 : (1 / (1 - (0 + (x : ℂ))) ^ (1 / 2 : ℂ)).re = 1 / √(1 - x) := by
    have : (1 - (0 + (x : ℂ))) ^ (1 / 2 : ℂ) = ((√(1 - x) : ℝ) : ℂ) := by
      rw [zero_add, Real.sqrt_eq_rpow, Complex.ofReal_cpow hp]
      push_cast
      rfl
    rw [this, ← Complex.ofReal_one, ← Complex.ofReal_div, Complex.ofReal_re]
  rw [e1] at h2
  refine h2.congr_fun fun n => ?_
  have e2 : Ring.choose ((1 / 2 : ℂ) + n - 1) n = ((Ring.choose ((1 / 2 : ℝ) + n - 1) n : ℝ) : ℂ) := by
    rw [Complex.ofReal_choose]
    push_cast
    rfl
  simp only [FormalMultilinearSeries.ofScalars_apply_eq, smul_eq_mul, e2]
  rw [← Complex.ofReal_pow, ← Complex.ofReal_mul, Complex.ofReal_re]

end IntegratorXX
