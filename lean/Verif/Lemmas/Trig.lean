import Mathlib.Analysis.SpecialFunctions.Trigonometric.Chebyshev.ChebyshevGauss
import Mathlib.Algebra.Polynomial.Sequence
import Mathlib.Topology.Algebra.Polynomial
import Mathlib.Tactic.FieldSimp
import Mathlib.Tactic.LinearCombination

/-!
# Trigonometric sums and the Chebyshev extrema rule
-/

namespace IntegratorXX

open Real Polynomial Finset Polynomial.Chebyshev

theorem sin_nat_pi_div_ne_zero {N k : ℕ} (hN : 0 < N) (hk : ¬ 2 * N ∣ k) :
    sin (k * π / (2 * N)) ≠ 0 := by
  intro h
  rw [sin_eq_zero_iff] at h
  obtain ⟨m, hm⟩ := h
  have hN' : (N : ℝ) ≠ 0 := by positivity
  have e : (m : ℝ) * (2 * N) = k := by
    have := pi_ne_zero
    field_simp at hm
    linarith
  have e' : m * (2 * N) = (k : ℤ) := by exact_mod_cast e
  apply hk
  have : ((2 * N : ℕ) : ℤ) ∣ (k : ℤ) := ⟨m, by push_cast; linarith⟩
  exact_mod_cast this

theorem sum_cos_telescope (a : ℝ) (n : ℕ) :
    2 * sin a * ∑ i ∈ range n, cos (2 * ((i : ℝ) + 1) * a) = sin ((2 * n + 1) * a) - sin a := by
  induction n with
  | zero => simp
  | succ n ih =>
    rw [sum_range_succ, mul_add, ih]
    have h1 : sin ((2 * ((n + 1 : ℕ) : ℝ) + 1) * a) =
        sin (2 * ((n : ℝ) + 1) * a) * cos a + cos (2 * ((n : ℝ) + 1) * a) * sin a := by
      rw [← sin_add]; congr 1; push_cast; ring
    have h2 : sin ((2 * (n : ℝ) + 1) * a) =
        sin (2 * ((n : ℝ) + 1) * a) * cos a - cos (2 * ((n : ℝ) + 1) * a) * sin a := by
      rw [← sin_sub]; congr 1; ring
    rw [h1, h2]; ring

/-- `∑_{i=1}^{n} cos(k i π/(n+1)) = -((-1)^k + 1)/2` unless `2(n+1) ∣ k`. -/
theorem sum_cos_extrema {n k : ℕ} (hk : ¬ 2 * (n + 1) ∣ k) :
    ∑ i ∈ range n, cos (k * ((i + 1 : ℕ) * π / (n + 1))) = -((-1) ^ k + 1) / 2 := by
  have hs := sin_nat_pi_div_ne_zero (N := n + 1) (by omega) hk
  set a : ℝ := k * π / (2 * ((n + 1 : ℕ) : ℝ)) with ha
  have hn : ((n : ℝ) + 1) ≠ 0 := by positivity
  have h1 := sum_cos_telescope a n
  have h2 : ∀ i : ℕ, cos (2 * ((i : ℝ) + 1) * a) = cos (k * ((i + 1 : ℕ) * π / (n + 1))) := by
    intro i; congr 1; rw [ha]; push_cast; field_simp
  simp_rw [h2] at h1
  have h3 : sin ((2 * n + 1) * a) = - ((-1) ^ k * sin a) := by
    have : (2 * (n : ℝ) + 1) * a = k * π - a := by rw [ha]; push_cast; field_simp; ring
    rw [this, sin_nat_mul_pi_sub]
  rw [h3] at h1
  have h4 : sin a * (2 * (∑ i ∈ range n, cos (k * ((i + 1 : ℕ) * π / (n + 1))))
      + ((-1) ^ k + 1)) = 0 := by linear_combination h1
  rcases mul_eq_zero.mp h4 with h | h
  · exact absurd h hs
  · linarith

/-- The closed rule on the extrema of `T_{n+1}`. -/
noncomputable def sumExtrema (n : ℕ) (P : ℝ[X]) : ℝ :=
  π / (n + 1) * (P.eval 1 / 2 + P.eval (-1) / 2 +
    ∑ i ∈ range n, P.eval (cos ((i + 1 : ℕ) * π / (n + 1))))

theorem sumExtrema_sum (n : ℕ) {ι : Type*} (s : Finset ι) (P : ι → ℝ[X]) :
    sumExtrema n (∑ i ∈ s, P i) = ∑ i ∈ s, sumExtrema n (P i) := by
  simp only [sumExtrema, eval_finsetSum]
  rw [sum_comm, ← mul_sum, sum_add_distrib, sum_add_distrib, sum_div, sum_div]

theorem sumExtrema_smul (n : ℕ) (c : ℝ) (P : ℝ[X]) :
    sumExtrema n (c • P) = c * sumExtrema n P := by
  simp_rw [sumExtrema, eval_smul, ← smul_sum, smul_eq_mul]; ring

theorem integral_eq_sumExtrema {n : ℕ} {P : ℝ[X]} (hP : P.degree < 2 * (n + 1 : ℕ)) :
    ∫ x, P.eval x ∂measureT = sumExtrema n P := by
  have hmem : P ∈ degreeLT ℝ (2 * (n + 1)) := by
    rw [mem_degreeLT]; exact_mod_cast hP
  rw [← Sequence.span_degreeLT (chebyshevTsequence ℝ) (by simp),
    show Set.Iio (2 * (n + 1)) = (Finset.range (2 * (n + 1)) : Set ℕ) by simp,
    Submodule.mem_span_image_finset_iff_exists_fun'] at hmem
  obtain ⟨c, rfl⟩ := hmem
  simp_rw [eval_finsetSum, eval_smul]
  rw [MeasureTheory.integral_finsetSum, sumExtrema_sum]
  · simp_rw [sumExtrema_smul, smul_eq_mul, MeasureTheory.integral_const_mul]
    refine Finset.sum_congr rfl fun i hi => ?_
    congr 1
    simp only [chebyshevTsequence]
    have hn : ((n : ℝ) + 1) ≠ 0 := by positivity
    rcases Nat.eq_zero_or_pos i with rfl | hi0
    · rw [Nat.cast_zero, integral_eval_T_real_measureT_zero]
      simp [sumExtrema]
      field_simp; ring
    · rw [integral_eval_T_real_measureT_of_ne_zero (by omega)]
      have hd : ¬ 2 * (n + 1) ∣ i := Nat.not_dvd_of_pos_of_lt hi0 (by simpa using hi)
      have := sum_cos_extrema hd
      simp only [sumExtrema, T_real_cos]
      simp only [Int.cast_natCast, this]
      have e1 : (T ℝ (i : ℤ)).eval 1 = 1 := by simp
      have e2 : (T ℝ (i : ℤ)).eval (-1) = (-1) ^ i := by
        rw [← cos_pi, T_real_cos]; simpa using cos_nat_mul_pi i
      rw [e1, e2]; ring
  · simp_rw [← eval_smul]
    exact fun i hi => integrable_measureT (by fun_prop)

end IntegratorXX
