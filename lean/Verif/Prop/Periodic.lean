import Verif.Prop.Uniform
import Mathlib.Analysis.SpecialFunctions.Complex.Log
import Mathlib.Analysis.SpecialFunctions.Integrals.Basic
import Mathlib.Algebra.Field.GeomSum

/-!
# C110: UniformTrapezoid on periodic integrands
-/

namespace IntegratorXX

open Spec Real Finset

/-- The sum of a harmonic over equally spaced angles. -/
private theorem sum_harmonic (n : ℕ) (hn : 0 < n) (k : ℕ) (φ : ℝ) :
    ∑ i ∈ range n, cos (2 * π * k * (i / n) + φ) = if n ∣ k then n * cos φ else 0 := by
  have hn0 : (n : ℂ) ≠ 0 := by exact_mod_cast hn.ne'
  have hnr : (n : ℝ) ≠ 0 := by exact_mod_cast hn.ne'
  split_ifs with h
  · obtain ⟨m, rfl⟩ := h
    have e : ∀ i ∈ range n, cos (2 * π * ((n * m : ℕ) : ℝ) * (i / n) + φ) = cos φ := by
      intro i _
      have : 2 * π * ((n * m : ℕ) : ℝ) * (i / n) + φ = φ + ((m * i : ℕ) : ℝ) * (2 * π) := by
        push_cast
        field_simp
        ring
      rw [this, cos_add_nat_mul_two_pi]
    rw [sum_congr rfl e, sum_const, card_range, nsmul_eq_mul]
  · obtain ⟨ζ, hζ⟩ : ∃ ζ : ℂ, ζ = Complex.exp (2 * π * Complex.I * (k / n)) := ⟨_, rfl⟩
    have h1 : ζ ^ n = 1 := by
      rw [hζ, ← Complex.exp_nat_mul, Complex.exp_eq_one_iff]
      exact ⟨k, by push_cast; field_simp⟩
    have h2 : ζ ≠ 1 := by
      rw [hζ, Ne, Complex.exp_eq_one_iff]
      rintro ⟨m, hm⟩
      have h3 : (k : ℂ) / n = m := by
        have h4 : (2 * π * Complex.I : ℂ) ≠ 0 := Complex.two_pi_I_ne_zero
        refine mul_left_cancel₀ h4 ?_
        rw [hm]
        ring
      rw [div_eq_iff hn0] at h3
      have h5 : (k : ℤ) = m * n := by exact_mod_cast h3
      exact h (Int.natCast_dvd_natCast.1 ⟨m, by rw [h5]; ring⟩)
    have hs : ∑ i ∈ range n, ζ ^ i = 0 := by
      rw [geom_sum_eq h2, h1, sub_self, zero_div]
    have e : ∀ i ∈ range n, cos (2 * π * k * (i / n) + φ) = (Complex.exp (φ * Complex.I) * ζ ^ i).re := by
      intro i _
      rw [hζ, ← Complex.exp_nat_mul, ← Complex.exp_add, ← Complex.exp_ofReal_mul_I_re]
      congr 2
      push_cast
      ring
    rw [sum_congr rfl e, ← Complex.re_sum, ← mul_sum, hs, mul_zero, Complex.zero_re]

/-- The integral of a harmonic over a period. -/
private theorem integral_harmonic {lo up : ℝ} (h : lo ≠ up) (k : ℕ) (φ : ℝ) :
    ∫ x in lo..up, cos (2 * π * k * ((x - lo) / (up - lo)) + φ) = if k = 0 then (up - lo) * cos φ else 0 := by
  have hd : up - lo ≠ 0 := sub_ne_zero.2 h.symm
  split_ifs with hk
  · subst hk
    simp
  · have hk0 : (k : ℝ) ≠ 0 := by exact_mod_cast hk
    have hc : 2 * π * k / (up - lo) ≠ 0 := by
      have := pi_pos
      positivity
    have e : ∀ x : ℝ, 2 * π * k * ((x - lo) / (up - lo)) + φ =
        2 * π * k / (up - lo) * x + (φ - 2 * π * k / (up - lo) * lo) := by
      intro x
      field_simp
      ring
    simp only [e]
    rw [intervalIntegral.integral_comp_mul_add (fun x => cos x) hc, integral_cos]
    have e1 : 2 * π * k / (up - lo) * up + (φ - 2 * π * k / (up - lo) * lo) =
        (2 * π * k / (up - lo) * lo + (φ - 2 * π * k / (up - lo) * lo)) + k * (2 * π) := by
      field_simp
      ring
    rw [e1, sin_add_nat_mul_two_pi, sub_self, smul_zero]

private theorem ruleSum_lin2 (x w : List ℝ) (f g : ℝ → ℝ) (a b : ℝ) :
    ruleSum x w (fun t => a * f t + b * g t) = a * ruleSum x w f + b * ruleSum x w g := by
  unfold ruleSum
  induction x.zip w with
  | nil => simp
  | cons e l ih =>
    simp only [List.map_cons, List.sum_cons]
    rw [ih]
    ring

private theorem ruleSum_sum (x w : List ℝ) (n : ℕ) (f : ℕ → ℝ → ℝ) :
    ruleSum x w (fun t => ∑ k ∈ range n, f k t) = ∑ k ∈ range n, ruleSum x w (f k) := by
  induction n with
  | zero =>
    unfold ruleSum
    simp
  | succ n ih =>
    simp only [sum_range_succ]
    have := ruleSum_lin2 x w (fun t => ∑ k ∈ range n, f k t) (f n) 1 1
    simp only [one_mul] at this
    rw [this, ih]

/-- **C110.**  `UniformTrapezoid(npts, lo, up)` with `lo ≠ up` on functions of period `up - lo`: of the harmonic with
frequency `k` it returns the integral over the interval unless `k` is a positive multiple of `npts - 1`; then the
integral is 0, but the rule sees a constant. -/
theorem C110_harmonics (b : Build) (npts : ℕ) (hn : 2 ≤ npts) (hn' : npts < 2 ^ 64) (lo up : ℝ) (h : lo ≠ up) :
    Returns (construct b (uniformTrapezoid npts lo up)) (fun q => ∀ (k : ℕ) (φ : ℝ),
      (ruleSum q.points q.weights (fun x => cos (2 * π * k * ((x - lo) / (up - lo)) + φ)) =
        if npts - 1 ∣ k then (up - lo) * cos φ else 0) ∧
      ∫ x in lo..up, cos (2 * π * k * ((x - lo) / (up - lo)) + φ) = if k = 0 then (up - lo) * cos φ else 0) := by
  obtain ⟨q, hq, -, -, -, -, -, hs, -⟩ := C17_uniform_trapezoid b npts hn hn' lo up
  refine ⟨q, hq, fun k φ => ⟨?_, integral_harmonic h k φ⟩⟩
  obtain ⟨m, rfl⟩ : ∃ m, npts = m + 2 := ⟨npts - 2, by omega⟩
  rw [hs, trapezoidal_integral, show m + 2 - 1 = m + 1 by omega, Nat.add_sub_cancel]
  have hd : up - lo ≠ 0 := sub_ne_zero.2 h.symm
  have hm : ((m + 1 : ℕ) : ℝ) ≠ 0 := by positivity
  have H := sum_harmonic (m + 1) (by omega) k φ
  rw [sum_range_succ'] at H
  have e0 : 2 * π * k * ((lo - lo) / (up - lo)) + φ = φ := by simp
  have e1 : 2 * π * k * ((up - lo) / (up - lo)) + φ = φ + k * (2 * π) := by
    rw [div_self hd]
    ring
  have e2 : 2 * π * k * (((0 : ℕ) : ℝ) / ((m + 1 : ℕ) : ℝ)) + φ = φ := by simp
  rw [e2] at H
  rw [e0, e1, cos_add_nat_mul_two_pi]
  have e3 : ∀ i ∈ range m, cos (2 * π * k * ((lo + ((i : ℝ) + 1) * (up - lo) / ((m + 1 : ℕ) : ℝ) - lo) / (up - lo)) + φ) =
      cos (2 * π * k * (((i + 1 : ℕ) : ℝ) / ((m + 1 : ℕ) : ℝ)) + φ) := by
    intro i _
    have e : (lo + ((i : ℝ) + 1) * (up - lo) / ((m + 1 : ℕ) : ℝ) - lo) / (up - lo) =
        ((i + 1 : ℕ) : ℝ) / ((m + 1 : ℕ) : ℝ) := by
      push_cast at hm ⊢
      field_simp
      ring
    rw [e]
  rw [sum_congr rfl e3]
  have e4 : (cos φ + cos φ) / 2 + ∑ i ∈ range m, cos (2 * π * k * (((i + 1 : ℕ) : ℝ) / ((m + 1 : ℕ) : ℝ)) + φ) =
      if m + 1 ∣ k then ((m + 1 : ℕ) : ℝ) * cos φ else 0 := by
    rw [← H]
    ring
  rw [e4]
  split_ifs
  · field_simp
  · rw [mul_zero]

/-- So it is exact for trigonometric polynomials with frequencies below `npts - 1`, and frequency `npts - 1` is missed. -/
theorem C110_trigonometric (b : Build) (npts : ℕ) (hn : 2 ≤ npts) (hn' : npts < 2 ^ 64) (lo up : ℝ) (h : lo ≠ up) :
    Returns (construct b (uniformTrapezoid npts lo up)) (fun q =>
      (∀ c s : ℕ → ℝ, ruleSum q.points q.weights (fun x => ∑ k ∈ range (npts - 1),
          (c k * cos (2 * π * k * ((x - lo) / (up - lo))) + s k * sin (2 * π * k * ((x - lo) / (up - lo))))) =
        ∫ x in lo..up, ∑ k ∈ range (npts - 1),
          (c k * cos (2 * π * k * ((x - lo) / (up - lo))) + s k * sin (2 * π * k * ((x - lo) / (up - lo))))) ∧
      ruleSum q.points q.weights (fun x => cos (2 * π * (npts - 1 : ℕ) * ((x - lo) / (up - lo)))) ≠
        ∫ x in lo..up, cos (2 * π * (npts - 1 : ℕ) * ((x - lo) / (up - lo)))) := by
  obtain ⟨q, hq, H⟩ := C110_harmonics b npts hn hn' lo up h
  have hd : up - lo ≠ 0 := sub_ne_zero.2 h.symm
  have hsin : ∀ (k : ℕ) (x : ℝ), sin (2 * π * k * ((x - lo) / (up - lo))) =
      cos (2 * π * k * ((x - lo) / (up - lo)) + -(π / 2)) := by
    intro k x
    rw [← sub_eq_add_neg, cos_sub_pi_div_two]
  have hcos : ∀ (k : ℕ) (x : ℝ), cos (2 * π * k * ((x - lo) / (up - lo))) =
      cos (2 * π * k * ((x - lo) / (up - lo)) + 0) := by
    intro k x
    rw [add_zero]
  have key : ∀ (k : ℕ) (φ : ℝ), k < npts - 1 →
      ruleSum q.points q.weights (fun x => cos (2 * π * k * ((x - lo) / (up - lo)) + φ)) =
      ∫ x in lo..up, cos (2 * π * k * ((x - lo) / (up - lo)) + φ) := by
    intro k φ hk
    rw [(H k φ).1, (H k φ).2]
    by_cases h0 : k = 0
    · rw [if_pos h0, if_pos (h0 ▸ dvd_zero _)]
    · rw [if_neg h0, if_neg (fun hdv => h0 (Nat.eq_zero_of_dvd_of_lt hdv hk))]
  refine ⟨q, hq, fun c s => ?_, ?_⟩
  · have hI : ∀ (k : ℕ) (φ : ℝ),
        IntervalIntegrable (fun x => cos (2 * π * k * ((x - lo) / (up - lo)) + φ)) MeasureTheory.volume lo up :=
      fun k φ => Continuous.intervalIntegrable (by fun_prop) _ _
    simp only [hsin]
    simp only [hcos]
    rw [intervalIntegral.integral_finsetSum (fun k _ => ((hI k 0).const_mul _).add ((hI k _).const_mul _))]
    have e : ∀ k ∈ range (npts - 1), ∫ x in lo..up, (c k * cos (2 * π * k * ((x - lo) / (up - lo)) + 0) +
        s k * cos (2 * π * k * ((x - lo) / (up - lo)) + -(π / 2))) =
        c k * ruleSum q.points q.weights (fun x => cos (2 * π * k * ((x - lo) / (up - lo)) + 0)) +
        s k * ruleSum q.points q.weights (fun x => cos (2 * π * k * ((x - lo) / (up - lo)) + -(π / 2))) := by
      intro k hk
      rw [intervalIntegral.integral_add ((hI k 0).const_mul _) ((hI k _).const_mul _),
        intervalIntegral.integral_const_mul, intervalIntegral.integral_const_mul, key k _ (mem_range.1 hk),
        key k _ (mem_range.1 hk)]
    rw [sum_congr rfl e]
    rw [ruleSum_sum]
    exact sum_congr rfl fun k _ => ruleSum_lin2 _ _ _ _ _ _
  · have e := H (npts - 1) 0
    simp only [add_zero, cos_zero, mul_one] at e
    rw [e.1, e.2, if_pos (dvd_refl _), if_neg (by omega)]
    exact hd

/-- Nine points are exact for frequencies up to 7 on `[0, 2π]`. -/
example : (2 : ℕ) ≤ 9 ∧ 9 < 2 ^ 64 ∧ (0 : ℝ) ≠ 2 * π := ⟨by norm_num, by norm_num, by have := pi_pos; positivity⟩

end IntegratorXX
