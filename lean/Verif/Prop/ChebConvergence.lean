import Verif.Lemmas.ChebRiemann
import Mathlib.Analysis.Real.Pi.Bounds

/-!
# C79: the Chebyshev rules converge
-/

namespace IntegratorXX

open Spec Set Real MeasureTheory

private theorem exists_large {δ : ℝ} (hδ : 0 < δ) : ∃ N : ℕ, ∀ n : ℕ, N ≤ n → π / ((n : ℝ) + 1) < δ / 2 ∧ 1 ≤ n := by
  obtain ⟨N, hN⟩ := exists_nat_gt (2 * π / δ)
  refine ⟨N + 1, fun n hn => ⟨?_, by omega⟩⟩
  have h1 : ((N : ℝ) + 1) ≤ n := by exact_mod_cast hn
  rw [div_lt_iff₀ hδ] at hN
  rw [div_lt_iff₀ (by positivity)]
  nlinarith

private theorem half_le {n : ℕ} (hn : 1 ≤ n) : π / (n : ℝ) ≤ 2 * (π / ((n : ℝ) + 1)) := by
  have h1 : (1 : ℝ) ≤ n := by exact_mod_cast hn
  have hp := pi_pos
  rw [← mul_div_assoc, div_le_div_iff₀ (by positivity) (by positivity)]
  nlinarith

/-- **C79.**  For every continuous function the four Chebyshev rules converge to its plain integral as the
number of points grows.  There is no size limit in these four constructors, so `N` is a genuine threshold. -/
theorem C79_chebyshev_converges (b : Build) {ε : ℝ} (hε : 0 < ε) :
    (∀ f : ℝ → ℝ, ContinuousOn f (Icc (-1) 1) → ∃ N : ℕ, ∀ n ≥ N,
      Returns (construct b (gaussChebyshev1 n)) (fun q =>
        |ruleSum q.points q.weights f - ∫ x in (-1 : ℝ)..1, f x| ≤ ε)) ∧
    (∀ f : ℝ → ℝ, ContinuousOn f (Icc (-1) 1) → ∃ N : ℕ, ∀ n ≥ N,
      Returns (construct b (gaussChebyshev2 n)) (fun q =>
        |ruleSum q.points q.weights f - ∫ x in (-1 : ℝ)..1, f x| ≤ ε)) ∧
    (∀ f : ℝ → ℝ, ContinuousOn f (Icc (-1) 1) → ∃ N : ℕ, ∀ n ≥ N,
      Returns (construct b (gaussChebyshev2Modified n)) (fun q =>
        |ruleSum q.points q.weights f - ∫ x in (-1 : ℝ)..1, f x| ≤ ε)) ∧
    (∀ f : ℝ → ℝ, ContinuousOn f (Icc 0 1) → ∃ N : ℕ, ∀ n ≥ N,
      Returns (construct b (gaussChebyshev3 n)) (fun q =>
        |ruleSum q.points q.weights f - ∫ x in (0 : ℝ)..1, f x| ≤ ε)) := by
  have hp := pi_pos
  -- the sums whose samples are the inner ends of the `n + 1` cells
  have key : ∀ {φ φd : ℝ → ℝ} (s : Subst φ φd π (-1) 1) {f : ℝ → ℝ}, ContinuousOn f (Icc (-1) 1) →
      ∃ N : ℕ, ∀ n ≥ N, |∑ i ∈ Finset.range n, π / ((n : ℝ) + 1) *
        (fun θ => f (φ θ) * φd θ) ((i + 1) * (π / ((n : ℝ) + 1))) - ∫ x in (-1 : ℝ)..1, f x| ≤ ε := by
    intro φ φd s f hf
    obtain ⟨δ, hδ, h⟩ := s.converges hf hε
    obtain ⟨N, hN⟩ := exists_large hδ
    refine ⟨N, fun n hn => ?_⟩
    obtain ⟨h1, h2⟩ := hN n hn
    have e : ((n + 1 : ℕ) : ℝ) * (π / ((n : ℝ) + 1)) = π := by push_cast; field_simp
    have hc : 0 < π / ((n : ℝ) + 1) := by positivity
    have := h (n + 1) (π / (n + 1)) (fun i => (i + 1) * (π / (n + 1))) hc (by linarith)
      (by rw [e]) (by rw [e]; linarith) (fun i _ => ⟨by nlinarith, le_rfl⟩)
    rw [Finset.sum_range_succ, indicator_of_notMem (a := ((n : ℝ) + 1) * (π / (n + 1))) (by
      push_cast at e
      rw [e]
      exact fun hm => lt_irrefl _ hm.2), mul_zero, add_zero] at this
    rw [Finset.sum_congr rfl] at this
    · exact this
    · intro i hi
      have hi : ((i : ℝ) + 1) ≤ n := by exact_mod_cast Finset.mem_range.1 hi
      rw [indicator_of_mem]
      refine ⟨by positivity, ?_⟩
      push_cast at e
      nlinarith
  refine ⟨fun f hf => ?_, fun f hf => ?_, fun f hf => ?_, fun f hf => ?_⟩
  · obtain ⟨δ, hδ, h⟩ := subst_cos.converges hf hε
    obtain ⟨N, hN⟩ := exists_large hδ
    refine ⟨N, fun n hn => ?_⟩
    obtain ⟨h1, h2⟩ := hN n hn
    have h3 := half_le h2
    have h4 : (1 : ℝ) ≤ n := by exact_mod_cast h2
    have hc : 0 < π / (n : ℝ) := by positivity
    have e : (n : ℝ) * (π / n) = π := by field_simp
    refine ⟨_, gc1_real n b, ?_⟩
    dsimp only
    rw [gc1_sum]
    have := h n (π / n) (fun i => (i + 1 / 2) * (π / n)) hc (by linarith) (by rw [e]) (by rw [e]; linarith)
      (fun i _ => ⟨by nlinarith, by nlinarith⟩)
    rw [Finset.sum_congr rfl] at this
    · exact this
    · intro i hi
      have hi : ((i : ℝ) + 1) ≤ n := by exact_mod_cast Finset.mem_range.1 hi
      rw [indicator_of_mem]
      exact ⟨by positivity, by nlinarith⟩
  · obtain ⟨N, hN⟩ := key subst_cos hf
    refine ⟨N, fun n hn => ⟨_, gc2_real n b, ?_⟩⟩
    dsimp only
    rw [gc2_sum]
    exact hN n hn
  · obtain ⟨N, hN⟩ := key subst_gmap hf
    refine ⟨N, fun n hn => ⟨_, gc2m_real n b, ?_⟩⟩
    dsimp only
    rw [gc2m_sum]
    exact hN n hn
  · obtain ⟨δ, hδ, h⟩ := subst_cos_sq.converges hf hε
    obtain ⟨N, hN⟩ := exists_large hδ
    refine ⟨N, fun n hn => ?_⟩
    obtain ⟨h1, h2⟩ := hN n hn
    have h3 : π / (2 * (n : ℝ) + 1) ≤ π / ((n : ℝ) + 1) := by gcongr; linarith [n.cast_nonneg (α := ℝ)]
    have hc : 0 < π / (2 * (n : ℝ) + 1) := by positivity
    have e : (2 * (n : ℝ) + 1) * (π / (2 * n + 1)) = π := by field_simp
    refine ⟨_, gc3_real n b, ?_⟩
    dsimp only
    rw [gc3_sum]
    have := h n (π / (2 * n + 1)) (fun i => (i + 1 / 2) * (π / (2 * n + 1))) hc (by linarith) (by linarith)
      (by linarith) (fun i _ => ⟨by nlinarith, by nlinarith⟩)
    rw [Finset.sum_congr rfl] at this
    · exact this
    · intro i hi
      have hi : ((i : ℝ) + 1) ≤ n := by exact_mod_cast Finset.mem_range.1 hi
      rw [indicator_of_mem]
      exact ⟨by positivity, by nlinarith⟩

/-- `|x|` is continuous and not a polynomial: the rules of enough points give its integral to any accuracy. -/
example : ∃ N : ℕ, ∀ n ≥ N, Returns (construct ⟨true⟩ (gaussChebyshev2Modified n)) (fun q =>
    |ruleSum q.points q.weights (fun x => |x|) - (∫ x in (-1 : ℝ)..1, |x|)| ≤ 1 / 10 ^ 6) :=
  (C79_chebyshev_converges ⟨true⟩ (by norm_num)).2.2.1 _ continuous_abs.continuousOn

private theorem abs_pow_four_sub_le {x y : ℝ} (hx : |x| ≤ 1) (hy : |y| ≤ 1) : |x ^ 4 - y ^ 4| ≤ 4 * |x - y| := by
  have e : x ^ 4 - y ^ 4 = (x ^ 3 + x ^ 2 * y + x * y ^ 2 + y ^ 3) * (x - y) := by ring
  rw [e, abs_mul]
  refine mul_le_mul_of_nonneg_right ?_ (abs_nonneg _)
  have h : ∀ a b : ℕ, |x ^ a * y ^ b| ≤ 1 := fun a b => by
    rw [abs_mul, abs_pow, abs_pow]
    exact mul_le_one₀ (pow_le_one₀ (abs_nonneg _) hx) (by positivity) (pow_le_one₀ (abs_nonneg _) hy)
  have h1 := abs_le.1 (h 3 0)
  have h2 := abs_le.1 (h 2 1)
  have h3 := abs_le.1 (h 1 2)
  have h4 := abs_le.1 (h 0 3)
  simp only [pow_zero, pow_one, mul_one, one_mul] at h1 h2 h3 h4
  exact abs_le.2 ⟨by linarith, by linarith⟩

private theorem lip_of_deriv {φ φd : ℝ → ℝ} {D : ℝ} (h : ∀ x, HasDerivAt φ (-φd x) x) (hD : ∀ x, |φd x| ≤ D) (x y : ℝ) :
    |φ x - φ y| ≤ D * |x - y| := by
  have := Convex.norm_image_sub_le_of_norm_hasDerivWithin_le (f := φ) (f' := fun x => -φd x) (C := D)
    (s := Set.univ) (x := y) (y := x) (fun x _ => (h x).hasDerivWithinAt)
    (fun x _ => by rw [norm_neg]; exact hD x) convex_univ trivial trivial
  simpa [Real.norm_eq_abs] using this

/-- The error for a function with Lipschitz constant `K` and bound `M`, for every number of points. -/
theorem C79_chebyshev_rate (b : Build) {n : ℕ} {K M : ℝ} (hK : 0 ≤ K) (hM : 0 ≤ M) {f : ℝ → ℝ} :
    ((∀ x ∈ Icc (-1 : ℝ) 1, ∀ y ∈ Icc (-1 : ℝ) 1, |f x - f y| ≤ K * |x - y|) →
      (∀ x ∈ Icc (-1 : ℝ) 1, |f x| ≤ M) →
      (1 ≤ n → Returns (construct b (gaussChebyshev1 n)) (fun q =>
        |ruleSum q.points q.weights f - ∫ x in (-1 : ℝ)..1, f x| ≤ π ^ 2 * (K + M) / n)) ∧
      Returns (construct b (gaussChebyshev2 n)) (fun q =>
        |ruleSum q.points q.weights f - ∫ x in (-1 : ℝ)..1, f x| ≤ π ^ 2 * (K + M) / (n + 1)) ∧
      Returns (construct b (gaussChebyshev2Modified n)) (fun q =>
        |ruleSum q.points q.weights f - ∫ x in (-1 : ℝ)..1, f x| ≤ π ^ 2 * (3 * K + 7 * M) / (n + 1))) ∧
    ((∀ x ∈ Icc (0 : ℝ) 1, ∀ y ∈ Icc (0 : ℝ) 1, |f x - f y| ≤ K * |x - y|) →
      (∀ x ∈ Icc (0 : ℝ) 1, |f x| ≤ M) →
      Returns (construct b (gaussChebyshev3 n)) (fun q =>
        |ruleSum q.points q.weights f - ∫ x in (0 : ℝ)..1, f x| ≤ π ^ 2 * (K + 2 * M) / (2 * n + 1))) := by
  have hp := pi_pos
  have hp3 := pi_gt_three
  have key : ∀ {φ φd : ℝ → ℝ} (s : Subst φ φd π (-1) 1) {L : ℝ}, 0 ≤ L →
      ContinuousOn f (Icc (-1) 1) → φd π = 0 →
      (∀ x ∈ Icc 0 π, ∀ y ∈ Icc 0 π, |f (φ x) * φd x - f (φ y) * φd y| ≤ L * |x - y|) →
      |∑ i ∈ Finset.range n, π / ((n : ℝ) + 1) *
        (fun θ => f (φ θ) * φd θ) ((i + 1) * (π / ((n : ℝ) + 1))) - ∫ x in (-1 : ℝ)..1, f x| ≤
        π ^ 2 * L / (n + 1) := by
    intro φ φd s L hL0 hf h0 hL
    have e : ((n + 1 : ℕ) : ℝ) * (π / ((n : ℝ) + 1)) = π := by push_cast; field_simp
    have hc : 0 < π / ((n : ℝ) + 1) := by positivity
    have := riemann_lipschitz (g := fun θ => f (φ θ) * φd θ) (a := 0) (h := π / ((n : ℝ) + 1)) (K := L) hc.le hL0
      (fun i => (i + 1) * (π / ((n : ℝ) + 1))) (n + 1) (by rw [e, zero_add]; exact s.contOn hf)
      (fun i _ => ⟨by nlinarith, by rw [zero_add]⟩) (by rw [e, zero_add]; exact hL)
    rw [e, zero_add, ← s.integral hf, Finset.sum_range_succ] at this
    push_cast at e
    dsimp only at this ⊢
    rw [e, h0, mul_zero, mul_zero, add_zero] at this
    refine this.trans (le_of_eq ?_)
    ring
  have hs : ∀ x, |sin x| ≤ 1 := abs_sin_le_one
  refine ⟨fun hf hfM => ⟨fun hn => ?_, ?_, ?_⟩, fun hf hfM => ?_⟩
  · have h4 : (1 : ℝ) ≤ n := by exact_mod_cast hn
    have hc : 0 < π / (n : ℝ) := by positivity
    have e : (n : ℝ) * (π / n) = π := by field_simp
    have hcf := contOn_of_lipschitz hf
    have hL := subst_cos.lipschitz hK zero_le_one hM hf hfM
      (fun x y => (abs_cos_sub_cos_le x y).trans (le_of_eq (one_mul _).symm)) hs
      (fun x y => (abs_sin_sub_sin_le x y).trans (le_of_eq (one_mul _).symm))
    refine ⟨_, gc1_real n b, ?_⟩
    dsimp only
    rw [gc1_sum]
    have := riemann_lipschitz (g := fun θ => f (cos θ) * sin θ) (a := 0) (h := π / (n : ℝ)) (K := K * 1 * 1 + M * 1)
      hc.le (by positivity)
      (fun i => (i + 1 / 2) * (π / (n : ℝ))) n (by rw [e, zero_add]; exact subst_cos.contOn hcf)
      (fun i _ => ⟨by nlinarith, by nlinarith⟩) (by rw [e, zero_add]; exact hL)
    rw [e, zero_add, ← subst_cos.integral hcf] at this
    refine this.trans (le_of_eq ?_)
    ring
  · have hcf := contOn_of_lipschitz hf
    have hL := subst_cos.lipschitz hK zero_le_one hM hf hfM
      (fun x y => (abs_cos_sub_cos_le x y).trans (le_of_eq (one_mul _).symm)) hs
      (fun x y => (abs_sin_sub_sin_le x y).trans (le_of_eq (one_mul _).symm))
    refine ⟨_, gc2_real n b, ?_⟩
    dsimp only
    rw [gc2_sum]
    refine (key subst_cos (by positivity) hcf sin_pi hL).trans (le_of_eq ?_)
    ring
  · have hcf := contOn_of_lipschitz hf
    have hD : ∀ x, |16 / (3 * π) * sin x ^ 4| ≤ 16 / (3 * π) := fun x => by
      rw [abs_mul, abs_of_pos (by positivity : 0 < 16 / (3 * π)), abs_pow]
      exact mul_le_of_le_one_right (by positivity) (pow_le_one₀ (abs_nonneg _) (hs x))
    have hB : ∀ x y, |16 / (3 * π) * sin x ^ 4 - 16 / (3 * π) * sin y ^ 4| ≤ 16 / (3 * π) * 4 * |x - y| := by
      intro x y
      rw [← mul_sub, abs_mul, abs_of_pos (by positivity : 0 < 16 / (3 * π)), mul_assoc]
      refine mul_le_mul_of_nonneg_left ?_ (by positivity)
      exact (abs_pow_four_sub_le (hs x) (hs y)).trans
        (mul_le_mul_of_nonneg_left (abs_sin_sub_sin_le x y) (by norm_num))
    have hL := subst_gmap.lipschitz hK (by positivity) hM hf hfM (lip_of_deriv subst_gmap.deriv hD) hD hB
    refine ⟨_, gc2m_real n b, ?_⟩
    dsimp only
    rw [gc2m_sum]
    refine (key subst_gmap (by positivity) hcf (by simp) hL).trans ?_
    have h314 := pi_gt_d2
    have c1 : 16 / (3 * π) ≤ 1.7 := by
      rw [div_le_iff₀ (by positivity)]; linarith
    have c0 : 0 < 16 / (3 * π) := by positivity
    have c2 : 16 / (3 * π) * (16 / (3 * π)) ≤ 3 := by nlinarith
    rw [mul_assoc K]
    refine div_le_div_of_nonneg_right (mul_le_mul_of_nonneg_left ?_ (by positivity)) (by positivity)
    nlinarith
  · have hcf := contOn_of_lipschitz hf
    have hsc : ∀ x, 2 * (cos x * sin x) = sin (2 * x) := fun x => by rw [sin_two_mul]; ring
    have hD : ∀ x, |2 * (cos x * sin x)| ≤ 1 := fun x => by rw [hsc]; exact abs_sin_le_one _
    have hB : ∀ x y, |2 * (cos x * sin x) - 2 * (cos y * sin y)| ≤ 2 * |x - y| := by
      intro x y
      rw [hsc, hsc]
      refine (abs_sin_sub_sin_le _ _).trans (le_of_eq ?_)
      rw [← mul_sub, abs_mul, abs_of_pos (by norm_num : (0 : ℝ) < 2)]
    have hL := subst_cos_sq.lipschitz hK zero_le_one hM hf hfM (lip_of_deriv subst_cos_sq.deriv hD) hD hB
    have hn0 : (0 : ℝ) ≤ n := n.cast_nonneg
    obtain ⟨h, hh⟩ : ∃ h, h = π / (2 * (n : ℝ) + 1) := ⟨_, rfl⟩
    have hc : 0 < h := by rw [hh]; positivity
    have e : (2 * (n : ℝ) + 1) * h = π := by rw [hh]; field_simp
    refine ⟨_, gc3_real n b, ?_⟩
    dsimp only
    rw [gc3_sum, ← hh, subst_cos_sq.integral hcf]
    have hcont := subst_cos_sq.contOn hcf
    have hnh : 0 ≤ n * h := by positivity
    have hle : n * h ≤ π / 2 := by linarith
    have r := riemann_lipschitz (g := fun θ => f (cos θ ^ 2) * (2 * (cos θ * sin θ))) (a := 0) (h := h)
      (K := K * 1 * 1 + M * 2) hc.le (by positivity) (fun i => (i + 1 / 2) * h) n
      (by rw [zero_add]; exact hcont.mono (Icc_subset_Icc_right hle))
      (fun i _ => ⟨by nlinarith, by nlinarith⟩)
      (by
        rw [zero_add]
        exact fun x hx y hy => hL x ⟨hx.1, hx.2.trans hle⟩ y ⟨hy.1, hy.2.trans hle⟩)
    rw [zero_add] at r
    have i1 : IntervalIntegrable (fun θ => f (cos θ ^ 2) * (2 * (cos θ * sin θ))) volume 0 (n * h) :=
      ContinuousOn.intervalIntegrable (by
        rw [uIcc_of_le hnh]; exact hcont.mono (Icc_subset_Icc_right hle))
    have i2 : IntervalIntegrable (fun θ => f (cos θ ^ 2) * (2 * (cos θ * sin θ))) volume (n * h) (π / 2) :=
      ContinuousOn.intervalIntegrable (by
        rw [uIcc_of_le hle]; exact hcont.mono (Icc_subset_Icc_left hnh))
    have r2 := intervalIntegral.norm_integral_le_of_norm_le_const (a := n * h) (b := π / 2) (C := M)
      (f := fun θ => f (cos θ ^ 2) * (2 * (cos θ * sin θ))) (fun x hx => by
        rw [uIoc_of_le hle] at hx
        rw [norm_mul]
        have m1 := hfM (cos x ^ 2) (subst_cos_sq.maps x ⟨hnh.trans hx.1.le, hx.2⟩)
        calc _ ≤ M * 1 := mul_le_mul m1 (hD x) (abs_nonneg _) hM
          _ = M := mul_one M)
    rw [Real.norm_eq_abs, abs_of_nonneg (by linarith : 0 ≤ π / 2 - n * h)] at r2
    rw [← intervalIntegral.integral_add_adjacent_intervals i1 i2]
    have r3 : π / 2 - n * h = h / 2 := by linarith
    rw [r3] at r2
    have goal : π ^ 2 * (K + 2 * M) / (2 * n + 1) = π * h * (K + 2 * M) := by rw [hh]; ring
    rw [goal]
    have b1 : (K * 1 * 1 + M * 2) * h * (n * h) ≤ (K + 2 * M) * h * (π / 2) := by
      rw [mul_one, mul_one, mul_comm M]
      exact mul_le_mul_of_nonneg_left hle (by positivity)
    have b2 : M * (h / 2) ≤ (K + 2 * M) * h * (π / 2) := by
      have : 0 ≤ K * h := by positivity
      have : 0 ≤ M * h := by positivity
      nlinarith
    rw [← sub_sub]
    refine (abs_sub _ _).trans ?_
    linarith

/-- `|x|` has Lipschitz constant and bound `1`: 2000 points of GaussChebyshev1 leave an error below `0.01`. -/
example : Returns (construct ⟨true⟩ (gaussChebyshev1 2000)) (fun q =>
    |ruleSum q.points q.weights (fun x => |x|) - (∫ x in (-1 : ℝ)..1, |x|)| ≤ π ^ 2 * (1 + 1) / (2000 : ℕ)) :=
  ((C79_chebyshev_rate ⟨true⟩ (n := 2000) zero_le_one zero_le_one).1
    (fun x _ y _ => (abs_abs_sub_abs_le_abs_sub x y).trans (le_of_eq (one_mul _).symm))
    (fun x hx => by rw [abs_abs]; exact abs_le.2 hx)).1 (by norm_num)

end IntegratorXX
