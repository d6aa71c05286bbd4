import Verif.Lemmas.NewtonRules
import Verif.Spec.GaussError
import Mathlib.RingTheory.Polynomial.Bernstein

/-!
# Rules close to a positive rule with polynomial exactness
-/

namespace IntegratorXX

open Spec Polynomial Finset

/-- Bernstein approximation of a function with Lipschitz constant `K` on `[-1, 1]`. -/
theorem bernstein_lipschitz {f : ℝ → ℝ} {K : ℝ}
    (hK : ∀ x ∈ Set.Icc (-1 : ℝ) 1, ∀ y ∈ Set.Icc (-1 : ℝ) 1, |f x - f y| ≤ K * |x - y|) {d : ℕ} (hd : 1 ≤ d) :
    ∃ p : ℝ[X], p.natDegree ≤ d ∧ ∀ x ∈ Set.Icc (-1 : ℝ) 1, |f x - p.eval x| ≤ K / √(d : ℝ) := by
  have hd0 : (0 : ℝ) < d := by exact_mod_cast hd
  have hs : 0 < √(d : ℝ) := Real.sqrt_pos.2 hd0
  have hss : √(d : ℝ) * √(d : ℝ) = d := Real.mul_self_sqrt hd0.le
  have hK0 : 0 ≤ K := by
    have := (abs_nonneg _).trans (hK 1 (by norm_num) 0 (by norm_num))
    rw [sub_zero, abs_one] at this
    linarith
  refine ⟨(∑ k ∈ range (d + 1), C (f (2 * (k / d) - 1)) * bernsteinPolynomial ℝ d k).comp (C (1 / 2) * (X + 1)), ?_, ?_⟩
  · refine natDegree_comp_le.trans ?_
    have h1 : (∑ k ∈ range (d + 1), C (f (2 * (k / d) - 1)) * bernsteinPolynomial ℝ d k).natDegree ≤ d := by
      refine natDegree_sum_le_of_forall_le _ _ (fun k hk => ?_)
      refine (natDegree_C_mul_le _ _).trans ?_
      unfold bernsteinPolynomial
      have hk : k ≤ d := by have := mem_range.1 hk; omega
      compute_degree
      omega
    have h2 : (C (1 / 2 : ℝ) * (X + 1)).natDegree ≤ 1 := by compute_degree
    calc _ ≤ d * 1 := Nat.mul_le_mul h1 h2
      _ = d := mul_one _
  · intro x hx
    obtain ⟨t, ht⟩ : ∃ t, t = (x + 1) / 2 := ⟨_, rfl⟩
    have hxt : x = 2 * t - 1 := by rw [ht]; ring
    have ht0 : 0 ≤ t := by rw [ht]; linarith [hx.1]
    have ht1 : t ≤ 1 := by rw [ht]; linarith [hx.2]
    obtain ⟨B, hB⟩ : ∃ B : ℕ → ℝ, B = fun k => (bernsteinPolynomial ℝ d k).eval t := ⟨_, rfl⟩
    have hB0 : ∀ k, 0 ≤ B k := by
      intro k
      rw [hB]
      unfold bernsteinPolynomial
      simp only [eval_mul, eval_natCast, eval_pow, eval_X, eval_sub, eval_one]
      have : 0 ≤ 1 - t := by linarith
      positivity
    have h1 : ∑ k ∈ range (d + 1), B k = 1 := by
      have := congrArg (fun p => p.eval t) (bernsteinPolynomial.sum ℝ d)
      simpa [hB, eval_finsetSum] using this
    have h2 : ∑ k ∈ range (d + 1), (t - k / d) ^ 2 * B k = t * (1 - t) / d := by
      have := congrArg (fun p => p.eval t) (bernsteinPolynomial.variance ℝ d)
      simp only [eval_finsetSum, eval_mul, eval_pow, eval_sub, nsmul_eq_mul, eval_natCast, eval_X, eval_one] at this
      rw [eq_div_iff hd0.ne']
      have e : ∑ k ∈ range (d + 1), (t - k / d) ^ 2 * B k = (∑ k ∈ range (d + 1), (d * t - k) ^ 2 * B k) / d ^ 2 := by
        rw [sum_div]
        refine sum_congr rfl (fun k _ => ?_)
        field_simp
      rw [e, hB, this]
      field_simp
    have he : (∑ k ∈ range (d + 1), C (f (2 * (k / d) - 1)) * bernsteinPolynomial ℝ d k).eval t =
        ∑ k ∈ range (d + 1), f (2 * (k / d) - 1) * B k := by
      simp [hB, eval_finsetSum]
    have hev : eval x (C (1 / 2 : ℝ) * (X + 1)) = t := by
      simp only [eval_mul, eval_C, eval_add, eval_X, eval_one, ht]
      ring
    rw [eval_comp, hev, he]
    have e1 : f x - ∑ k ∈ range (d + 1), f (2 * (k / d) - 1) * B k =
        ∑ k ∈ range (d + 1), (f x - f (2 * (k / d) - 1)) * B k := by
      simp only [sub_mul]
      rw [sum_sub_distrib, ← mul_sum, h1, mul_one]
    rw [e1]
    refine (abs_sum_le_sum_abs _ _).trans ?_
    have hterm : ∀ k ∈ range (d + 1), |(f x - f (2 * (k / d) - 1)) * B k| ≤
        K * (2 * √(d : ℝ) * ((t - k / d) ^ 2 * B k) + 1 / (2 * √(d : ℝ)) * B k) := by
      intro k hk
      have hk : (k : ℝ) ≤ d := by exact_mod_cast (by have := mem_range.1 hk; omega : k ≤ d)
      have hkd : (k : ℝ) / d ≤ 1 := (div_le_one hd0).2 hk
      have hkd0 : 0 ≤ (k : ℝ) / d := by positivity
      rw [abs_mul, abs_of_nonneg (hB0 k)]
      have g1 := hK x hx (2 * (k / d) - 1) ⟨by linarith, by linarith⟩
      have g2 : |x - (2 * (k / d) - 1)| = 2 * |t - k / d| := by
        rw [hxt, ← abs_two (α := ℝ), ← abs_mul]
        congr 1
        rw [abs_two]
        ring
      rw [g2] at g1
      have g3 : 2 * |t - k / d| ≤ 2 * √(d : ℝ) * (t - k / d) ^ 2 + 1 / (2 * √(d : ℝ)) := by
        obtain ⟨u, hu⟩ : ∃ u, u = |t - k / d| := ⟨_, rfl⟩
        have hu2 : (t - k / d) ^ 2 = u ^ 2 := by rw [hu, sq_abs]
        rw [hu2, ← hu]
        have : 2 * √(d : ℝ) * u ^ 2 + 1 / (2 * √(d : ℝ)) - 2 * u = (2 * √(d : ℝ) * u - 1) ^ 2 / (2 * √(d : ℝ)) := by
          field_simp
          ring
        have h3 : 0 ≤ (2 * √(d : ℝ) * u - 1) ^ 2 / (2 * √(d : ℝ)) := by positivity
        linarith
      have g4 := g1.trans (mul_le_mul_of_nonneg_left g3 hK0)
      refine (mul_le_mul_of_nonneg_right g4 (hB0 k)).trans (le_of_eq ?_)
      ring
    refine (sum_le_sum hterm).trans ?_
    rw [← mul_sum, sum_add_distrib, ← mul_sum, ← mul_sum, h1, h2]
    have h4 : t * (1 - t) ≤ 1 / 4 := by nlinarith [sq_nonneg (t - 1 / 2)]
    have h5 : 2 * √(d : ℝ) * (t * (1 - t) / d) + 1 / (2 * √(d : ℝ)) * 1 ≤ 1 / √(d : ℝ) := by
      have : 2 * √(d : ℝ) * (t * (1 - t) / d) = 2 * (t * (1 - t)) / √(d : ℝ) := by
        rw [eq_div_iff hs.ne']
        calc 2 * √(d : ℝ) * (t * (1 - t) / d) * √(d : ℝ) = 2 * (t * (1 - t) / d) * (√(d : ℝ) * √(d : ℝ)) := by ring
          _ = 2 * (t * (1 - t)) := by rw [hss]; field_simp
      rw [this]
      have h6 : 2 * (t * (1 - t)) / √(d : ℝ) ≤ (1 / 2) / √(d : ℝ) := by gcongr; linarith
      have h7 : 1 / (2 * √(d : ℝ)) * 1 = (1 / 2) / √(d : ℝ) := by field_simp
      have h8 : (1 / 2) / √(d : ℝ) + (1 / 2) / √(d : ℝ) = 1 / √(d : ℝ) := by field_simp; norm_num
      linarith
    calc _ ≤ K * (1 / √(d : ℝ)) := mul_le_mul_of_nonneg_left h5 hK0
      _ = K / √(d : ℝ) := by ring

/-- A rule near to one with positive weights which is exact for polynomials. -/
theorem gaussError_of_near (n m : ℕ) (hm : 2 ≤ m) (ξ ω x w : ℕ → ℝ) (d τ : ℝ)
    (hξ : ∀ i < n, |ξ i| ≤ 1) (hx : ∀ i < n, |x i| ≤ 1) (hd : ∀ i < n, |x i - ξ i| ≤ d)
    (hω : ∀ i < n, 0 ≤ ω i) (hw : ∀ i < n, |w i - ω i| ≤ ω i * τ)
    (hex : ∀ p : ℝ[X], p.degree < m → ∑ i ∈ range n, ω i * p.eval (ξ i) = ∫ t in (-1 : ℝ)..1, p.eval t) :
    GaussError m (2 * d) (2 * τ) ((List.range n).map x) ((List.range n).map w) := by
  have hsum : ∑ i ∈ range n, ω i = 2 := by
    have := hex 1 (by rw [degree_one]; exact_mod_cast (by omega : 0 < m))
    simp only [eval_one, mul_one] at this
    rw [this]
    simp
    norm_num
  intro f K M hK hM
  have hK0 : 0 ≤ K := by
    have := (abs_nonneg _).trans (hK 1 (by norm_num) 0 (by norm_num))
    rw [sub_zero, abs_one] at this
    linarith
  have hcont : ContinuousOn f (Set.Icc (-1 : ℝ) 1) := by
    have : LipschitzOnWith (Real.toNNReal K) f (Set.Icc (-1 : ℝ) 1) :=
      LipschitzOnWith.of_dist_le_mul (fun x hx y hy => by
        rw [Real.dist_eq, Real.dist_eq, Real.coe_toNNReal _ hK0]
        exact hK x hx y hy)
    exact this.continuousOn
  have hint : IntervalIntegrable f MeasureTheory.volume (-1) 1 := by
    refine ContinuousOn.intervalIntegrable ?_
    rwa [Set.uIcc_of_le (by norm_num)]
  have hnear : |ruleSum ((List.range n).map x) ((List.range n).map w) f - ∑ i ∈ range n, ω i * f (ξ i)| ≤
      2 * d * K + 2 * τ * M := by
    rw [ruleSum_map_range, ← sum_sub_distrib]
    refine (abs_sum_le_sum_abs _ _).trans ?_
    have : ∀ i ∈ range n, |w i * f (x i) - ω i * f (ξ i)| ≤ ω i * (d * K + τ * M) := by
      intro i hi
      have hi := mem_range.1 hi
      have mx : x i ∈ Set.Icc (-1 : ℝ) 1 := abs_le.1 (hx i hi)
      have mξ : ξ i ∈ Set.Icc (-1 : ℝ) 1 := abs_le.1 (hξ i hi)
      have e : w i * f (x i) - ω i * f (ξ i) = (w i - ω i) * f (x i) + ω i * (f (x i) - f (ξ i)) := by ring
      rw [e]
      refine (abs_add_le _ _).trans ?_
      rw [abs_mul, abs_mul, abs_of_nonneg (hω i hi)]
      have g1 : |w i - ω i| * |f (x i)| ≤ ω i * τ * M :=
        mul_le_mul (hw i hi) (hM _ mx) (abs_nonneg _) ((abs_nonneg _).trans (hw i hi))
      have g2 : ω i * |f (x i) - f (ξ i)| ≤ ω i * (K * d) :=
        mul_le_mul_of_nonneg_left ((hK _ mx _ mξ).trans (mul_le_mul_of_nonneg_left (hd i hi) hK0)) (hω i hi)
      nlinarith
    refine (sum_le_sum this).trans (le_of_eq ?_)
    rw [← sum_mul, hsum]
    ring
  have hmain : ∀ (p : ℝ[X]) (δ : ℝ), p.degree < m → (∀ x ∈ Set.Icc (-1 : ℝ) 1, |f x - p.eval x| ≤ δ) →
      |ruleSum ((List.range n).map x) ((List.range n).map w) f - ∫ t in (-1 : ℝ)..1, f t| ≤
        4 * δ + 2 * d * K + 2 * τ * M := by
    intro p δ hp hδ
    have h1 : |∑ i ∈ range n, ω i * f (ξ i) - ∑ i ∈ range n, ω i * p.eval (ξ i)| ≤ 2 * δ := by
      rw [← sum_sub_distrib]
      refine (abs_sum_le_sum_abs _ _).trans ?_
      have : ∀ i ∈ range n, |ω i * f (ξ i) - ω i * p.eval (ξ i)| ≤ ω i * δ := by
        intro i hi
        have hi := mem_range.1 hi
        rw [← mul_sub, abs_mul, abs_of_nonneg (hω i hi)]
        exact mul_le_mul_of_nonneg_left (hδ _ (abs_le.1 (hξ i hi))) (hω i hi)
      refine (sum_le_sum this).trans (le_of_eq ?_)
      rw [← sum_mul, hsum]
    have h2 : |(∫ t in (-1 : ℝ)..1, f t) - ∫ t in (-1 : ℝ)..1, p.eval t| ≤ 2 * δ := by
      rw [← intervalIntegral.integral_sub hint (p.continuous.intervalIntegrable _ _)]
      have := intervalIntegral.norm_integral_le_of_norm_le_const (a := (-1 : ℝ)) (b := 1) (C := δ)
        (f := fun t => f t - p.eval t) (fun t ht => by
          rw [Set.uIoc_of_le (by norm_num)] at ht
          exact hδ t ⟨ht.1.le, ht.2⟩)
      rw [Real.norm_eq_abs] at this
      refine this.trans (le_of_eq ?_)
      norm_num
      ring
    rw [hex p hp] at h1
    rw [abs_le] at *
    constructor <;> linarith [hnear.1, hnear.2, h1.1, h1.2, h2.1, h2.2]
  refine ⟨hmain, ?_⟩
  obtain ⟨p, hp, hδ⟩ := bernstein_lipschitz hK (d := m - 1) (by omega)
  have e : ((m - 1 : ℕ) : ℝ) = m - 1 := by rw [Nat.cast_sub (by omega)]; simp
  rw [e] at hδ
  have := hmain p _ (lt_of_le_of_lt degree_le_natDegree (by exact_mod_cast (by omega : p.natDegree < m))) hδ
  refine this.trans (le_of_eq ?_)
  ring

end IntegratorXX
