import Mathlib.MeasureTheory.Integral.IntervalIntegral.IntegrationByParts
import Mathlib.Analysis.SpecialFunctions.Integrals.Basic

/-!
# Equidistant sums of functions with a Lipschitz derivative
-/

namespace IntegratorXX

open Set MeasureTheory intervalIntegral

/-- Integration by parts against `x - e`, with the derivative compared with a constant. -/
theorem parts_cell {G G' ψ : ℝ → ℝ} {p q e s : ℝ} (hpq : p ≤ q)
    (hd : ∀ x ∈ Icc p q, HasDerivWithinAt G (G' x) (Icc p q) x) (hc : ContinuousOn G' (Icc p q))
    (hψ : ContinuousOn ψ (Icc p q)) (hb : ∀ x ∈ Icc p q, |G' x - s| * |x - e| ≤ ψ x) :
    |(∫ x in p..q, G x) - (G q * (q - e) - G p * (p - e) - s * (((q - e) ^ 2 - (p - e) ^ 2) / 2))| ≤
      ∫ x in p..q, ψ x := by
  rw [← uIcc_of_le hpq] at hd hc hψ
  have hv : ∀ x ∈ uIcc p q, HasDerivWithinAt (fun x => x - e) 1 (uIcc p q) x := fun x _ =>
    ((hasDerivAt_id x).sub_const e).hasDerivWithinAt
  have hp := integral_mul_deriv_eq_deriv_mul_of_hasDerivWithinAt (u := G) (u' := G') (v := fun x => x - e)
    (v' := fun _ => 1) hd hv hc.intervalIntegrable (by simp)
  simp only [mul_one] at hp
  have hs : ∫ x in p..q, s * (x - e) = s * (((q - e) ^ 2 - (p - e) ^ 2) / 2) := by
    rw [intervalIntegral.integral_const_mul, integral_comp_sub_right (fun x => x) e, integral_id]
  have i1 : IntervalIntegrable (fun x => G' x * (x - e)) volume p q :=
    ContinuousOn.intervalIntegrable (hc.mul (by fun_prop))
  have i2 : IntervalIntegrable (fun x => s * (x - e)) volume p q :=
    ContinuousOn.intervalIntegrable (by fun_prop)
  rw [hp, ← hs, show ∀ A B C : ℝ, A - B - (A - C) = -(B - C) by intros; ring, abs_neg,
    ← intervalIntegral.integral_sub i1 i2, ← Real.norm_eq_abs]
  refine intervalIntegral.norm_integral_le_of_norm_le hpq (Filter.Eventually.of_forall fun x hx => ?_) hψ.intervalIntegrable
  have := hb x ⟨hx.1.le, hx.2⟩
  rwa [Real.norm_eq_abs, ← sub_mul, abs_mul]

/-- One cell of the trapezoidal rule. -/
theorem trapezoid_cell {G G' : ℝ → ℝ} {a h L : ℝ} (h0 : 0 ≤ h)
    (hd : ∀ x ∈ Icc a (a + h), HasDerivWithinAt G (G' x) (Icc a (a + h)) x)
    (hL : ∀ x ∈ Icc a (a + h), ∀ y ∈ Icc a (a + h), |G' x - G' y| ≤ L * |x - y|)
    (hc : ContinuousOn G' (Icc a (a + h))) :
    |h * ((G a + G (a + h)) / 2) - ∫ x in a..(a + h), G x| ≤ L * h ^ 3 / 12 := by
  have hm : a + h / 2 ∈ Icc a (a + h) := ⟨by linarith, by linarith⟩
  have := parts_cell (ψ := fun x => L * (x - (a + h / 2)) ^ 2) (e := a + h / 2) (s := G' (a + h / 2))
    (by linarith) hd hc (by fun_prop) (by
      intro x hx
      refine (mul_le_mul_of_nonneg_right (hL x hx _ hm) (abs_nonneg _)).trans (le_of_eq ?_)
      rw [mul_assoc, ← sq, sq_abs])
  rw [intervalIntegral.integral_const_mul, integral_comp_sub_right (fun x => x ^ 2), integral_pow] at this
  rw [abs_sub_comm]
  convert this using 1
  · congr 1; ring
  · push_cast; ring

/-- One cell of the midpoint rule. -/
theorem midpoint_cell {G G' : ℝ → ℝ} {a h L : ℝ} (h0 : 0 ≤ h)
    (hd : ∀ x ∈ Icc a (a + h), HasDerivWithinAt G (G' x) (Icc a (a + h)) x)
    (hL : ∀ x ∈ Icc a (a + h), ∀ y ∈ Icc a (a + h), |G' x - G' y| ≤ L * |x - y|)
    (hc : ContinuousOn G' (Icc a (a + h))) :
    |h * G (a + h / 2) - ∫ x in a..(a + h), G x| ≤ L * h ^ 3 / 24 := by
  have hm : a + h / 2 ∈ Icc a (a + h) := ⟨by linarith, by linarith⟩
  have s1 : Icc a (a + h / 2) ⊆ Icc a (a + h) := Icc_subset_Icc_right (by linarith)
  have s2 : Icc (a + h / 2) (a + h) ⊆ Icc a (a + h) := Icc_subset_Icc_left (by linarith)
  have t1 := parts_cell (ψ := fun x => L * ((h / 2) * (x - a) - (x - a) ^ 2)) (e := a) (s := G' (a + h / 2))
    (by linarith) (fun x hx => (hd x (s1 hx)).mono s1) (hc.mono s1) (by fun_prop) (by
      intro x hx
      refine (mul_le_mul_of_nonneg_right (hL x (s1 hx) _ hm) (abs_nonneg _)).trans (le_of_eq ?_)
      rw [abs_of_nonpos (by linarith [hx.2]), abs_of_nonneg (by linarith [hx.1])]
      ring)
  have t2 := parts_cell (ψ := fun x => L * ((-(h / 2)) * (x - (a + h)) - (x - (a + h)) ^ 2)) (e := a + h)
    (s := G' (a + h / 2))
    (by linarith) (fun x hx => (hd x (s2 hx)).mono s2) (hc.mono s2) (by fun_prop) (by
      intro x hx
      refine (mul_le_mul_of_nonneg_right (hL x (s2 hx) _ hm) (abs_nonneg _)).trans (le_of_eq ?_)
      rw [abs_of_nonneg (by linarith [hx.1]), abs_of_nonpos (by linarith [hx.2])]
      ring)
  have hGc : ContinuousOn G (Icc a (a + h)) := fun x hx => (hd x hx).continuousWithinAt
  have i1 : IntervalIntegrable G volume a (a + h / 2) :=
    ContinuousOn.intervalIntegrable (by rw [uIcc_of_le (by linarith)]; exact hGc.mono s1)
  have i2 : IntervalIntegrable G volume (a + h / 2) (a + h) :=
    ContinuousOn.intervalIntegrable (by rw [uIcc_of_le (by linarith)]; exact hGc.mono s2)
  have e1 : ∀ c d k u : ℝ, ∫ x in c..d, L * (k * (x - u) - (x - u) ^ 2) =
      L * (k * (((d - u) ^ 2 - (c - u) ^ 2) / 2) - ((d - u) ^ 3 - (c - u) ^ 3) / 3) := by
    intro c d k u
    rw [intervalIntegral.integral_const_mul, intervalIntegral.integral_sub (ContinuousOn.intervalIntegrable (by fun_prop))
      (ContinuousOn.intervalIntegrable (by fun_prop)), intervalIntegral.integral_const_mul,
      integral_comp_sub_right (fun x => x), integral_comp_sub_right (fun x => x ^ 2), integral_id, integral_pow]
    norm_num
  rw [e1] at t1 t2
  rw [← integral_add_adjacent_intervals i1 i2, abs_sub_comm]
  have := (abs_add_le _ _).trans (add_le_add t1 t2)
  refine le_trans (le_of_eq ?_) (this.trans (le_of_eq ?_))
  · congr 1; ring
  · ring

theorem continuousOn_of_lip {f : ℝ → ℝ} {K : ℝ} {s : Set ℝ}
    (hf : ∀ x ∈ s, ∀ y ∈ s, |f x - f y| ≤ K * |x - y|) : ContinuousOn f s := by
  have : LipschitzOnWith (Real.toNNReal K) f s := by
    refine LipschitzOnWith.of_dist_le_mul fun x hx y hy => ?_
    rw [Real.dist_eq, Real.dist_eq]
    exact (hf x hx y hy).trans (mul_le_mul_of_nonneg_right (Real.le_coe_toNNReal K) (abs_nonneg _))
  exact this.continuousOn

private theorem sum_cells {G : ℝ → ℝ} {a h B : ℝ} (v : ℕ → ℝ) (N : ℕ)
    (hi : ∀ i < N, IntervalIntegrable G volume (a + i * h) (a + i * h + h))
    (hv : ∀ i < N, |v i - ∫ x in (a + i * h)..(a + i * h + h), G x| ≤ B) :
    |∑ i ∈ Finset.range N, v i - ∫ x in a..(a + N * h), G x| ≤ N * B := by
  have e : ∫ x in a..(a + N * h), G x = ∑ i ∈ Finset.range N, ∫ x in (a + i * h)..(a + i * h + h), G x := by
    have := sum_integral_adjacent_intervals (f := G) (μ := volume) (a := fun i : ℕ => a + i * h) (n := N) (by
      intro i hiN
      have := hi i hiN
      convert this using 1
      push_cast; ring)
    simp only [Nat.cast_zero, zero_mul, add_zero] at this
    rw [← this]
    refine Finset.sum_congr rfl fun i _ => ?_
    congr 1
    push_cast; ring
  rw [e, ← Finset.sum_sub_distrib]
  refine (Finset.abs_sum_le_sum_abs _ _).trans ?_
  refine (Finset.sum_le_sum fun i hi => hv i (Finset.mem_range.1 hi)).trans (le_of_eq ?_)
  simp

/-- The composite midpoint rule. -/
theorem midpoint_second_order {G G' : ℝ → ℝ} {a h L : ℝ} (h0 : 0 ≤ h) (N : ℕ)
    (hd : ∀ x ∈ Icc a (a + N * h), HasDerivWithinAt G (G' x) (Icc a (a + N * h)) x)
    (hL : ∀ x ∈ Icc a (a + N * h), ∀ y ∈ Icc a (a + N * h), |G' x - G' y| ≤ L * |x - y|) :
    |∑ i ∈ Finset.range N, h * G (a + (i + 1 / 2) * h) - ∫ x in a..(a + N * h), G x| ≤
      N * (L * h ^ 3 / 24) := by
  have hc := continuousOn_of_lip hL
  have hsub : ∀ i < N, Icc (a + i * h) (a + i * h + h) ⊆ Icc a (a + N * h) := by
    intro i hi
    have hi : ((i : ℝ) + 1) * h ≤ N * h := mul_le_mul_of_nonneg_right (by exact_mod_cast hi) h0
    have : 0 ≤ (i : ℝ) * h := by positivity
    exact Icc_subset_Icc (by linarith) (by linarith)
  refine sum_cells _ N (fun i hi => ?_) fun i hi => ?_
  · refine ContinuousOn.intervalIntegrable ?_
    rw [uIcc_of_le (by linarith)]
    exact fun x hx => ((hd x (hsub i hi hx)).mono (hsub i hi)).continuousWithinAt
  · have := midpoint_cell (a := a + i * h) h0 (fun x hx => (hd x (hsub i hi hx)).mono (hsub i hi))
      (fun x hx y hy => hL x (hsub i hi hx) y (hsub i hi hy)) (hc.mono (hsub i hi))
    rwa [show a + i * h + h / 2 = a + (i + 1 / 2) * h by ring] at this

/-- The composite trapezoidal rule for a function that vanishes at both ends. -/
theorem trapezoid_second_order {G G' : ℝ → ℝ} {a h L : ℝ} (h0 : 0 ≤ h) (N : ℕ)
    (hd : ∀ x ∈ Icc a (a + (N + 1 : ℕ) * h), HasDerivWithinAt G (G' x) (Icc a (a + (N + 1 : ℕ) * h)) x)
    (hL : ∀ x ∈ Icc a (a + (N + 1 : ℕ) * h), ∀ y ∈ Icc a (a + (N + 1 : ℕ) * h), |G' x - G' y| ≤ L * |x - y|)
    (ha : G a = 0) (hb : G (a + (N + 1 : ℕ) * h) = 0) :
    |∑ i ∈ Finset.range N, h * G (a + (i + 1) * h) - ∫ x in a..(a + (N + 1 : ℕ) * h), G x| ≤
      (N + 1 : ℕ) * (L * h ^ 3 / 12) := by
  have hc := continuousOn_of_lip hL
  have hsub : ∀ i < N + 1, Icc (a + i * h) (a + i * h + h) ⊆ Icc a (a + (N + 1 : ℕ) * h) := by
    intro i hi
    have hi : ((i : ℝ) + 1) * h ≤ (N + 1 : ℕ) * h := mul_le_mul_of_nonneg_right (by exact_mod_cast hi) h0
    have : 0 ≤ (i : ℝ) * h := by positivity
    exact Icc_subset_Icc (by linarith) (by linarith)
  have hs := sum_cells (G := G) (a := a) (h := h) (B := L * h ^ 3 / 12)
    (fun i => h * ((G (a + i * h) + G (a + i * h + h)) / 2)) (N + 1) (fun i hi => by
      refine ContinuousOn.intervalIntegrable ?_
      rw [uIcc_of_le (by linarith)]
      exact fun x hx => ((hd x (hsub i hi hx)).mono (hsub i hi)).continuousWithinAt) (fun i hi =>
      trapezoid_cell (a := a + i * h) h0 (fun x hx => (hd x (hsub i hi hx)).mono (hsub i hi))
      (fun x hx y hy => hL x (hsub i hi hx) y (hsub i hi hy)) (hc.mono (hsub i hi)))
  refine le_trans (le_of_eq ?_) hs
  congr 2
  have e : ∀ i : ℕ, h * ((G (a + i * h) + G (a + i * h + h)) / 2) =
      h / 2 * G (a + i * h) + h / 2 * G (a + ((i : ℝ) + 1) * h) := by
    intro i
    rw [show a + i * h + h = a + ((i : ℝ) + 1) * h by ring]
    ring
  simp only [e]
  rw [Finset.sum_add_distrib, Finset.sum_range_succ', Finset.sum_range_succ (fun i : ℕ => h / 2 * G (a + ((i : ℝ) + 1) * h))]
  push_cast at hb ⊢
  rw [hb, zero_mul, add_zero, ha, mul_zero, add_zero, ← Finset.sum_add_distrib]
  exact Finset.sum_congr rfl fun i _ => by ring

end IntegratorXX
