import Verif.Lemmas.RadialRiemann
import Verif.Lemmas.SecondOrder
import Verif.Lemmas.ChebRiemann
import Mathlib.Analysis.Calculus.MeanValue
import Mathlib.Analysis.Real.Pi.Bounds
import Mathlib.Analysis.SpecialFunctions.ImproperIntegrals

/-!
# C98: the Chebyshev and radial rules are of second order
-/

namespace IntegratorXX

open Spec RadialTraits Set Real MeasureTheory

/-- Lipschitz constant and bound of a function on a set. -/
private def LipB (s : Set ℝ) (u : ℝ → ℝ) (L M : ℝ) : Prop :=
  (∀ x ∈ s, ∀ y ∈ s, |u x - u y| ≤ L * |x - y|) ∧ ∀ x ∈ s, |u x| ≤ M

private theorem LipB.mul {s : Set ℝ} {u v : ℝ → ℝ} {L M L' M' : ℝ} (hu : LipB s u L M) (hv : LipB s v L' M') :
    LipB s (fun x => u x * v x) (L * M' + M * L') (M * M') := by
  refine ⟨fun x hx y hy => ?_, fun x hx => ?_⟩
  · have e : u x * v x - u y * v y = (u x - u y) * v x + u y * (v x - v y) := by ring
    rw [e]
    refine (abs_add_le _ _).trans ?_
    rw [abs_mul, abs_mul, add_mul]
    refine add_le_add ?_ ?_
    · rw [show L * M' * |x - y| = L * |x - y| * M' by ring]
      exact mul_le_mul (hu.1 x hx y hy) (hv.2 x hx) (abs_nonneg _) ((abs_nonneg _).trans (hu.1 x hx y hy))
    · rw [mul_assoc]
      exact mul_le_mul (hu.2 y hy) (hv.1 x hx y hy) (abs_nonneg _) ((abs_nonneg _).trans (hu.2 y hy))
  · rw [abs_mul]
    exact mul_le_mul (hu.2 x hx) (hv.2 x hx) (abs_nonneg _) ((abs_nonneg _).trans (hu.2 x hx))

private theorem LipB.add {s : Set ℝ} {u v : ℝ → ℝ} {L M L' M' : ℝ} (hu : LipB s u L M) (hv : LipB s v L' M') :
    LipB s (fun x => u x + v x) (L + L') (M + M') := by
  refine ⟨fun x hx y hy => ?_, fun x hx => ?_⟩
  · rw [show u x + v x - (u y + v y) = (u x - u y) + (v x - v y) by ring, add_mul]
    exact (abs_add_le _ _).trans (add_le_add (hu.1 x hx y hy) (hv.1 x hx y hy))
  · exact (abs_add_le _ _).trans (add_le_add (hu.2 x hx) (hv.2 x hx))

private theorem LipB.neg {s : Set ℝ} {u : ℝ → ℝ} {L M : ℝ} (hu : LipB s u L M) : LipB s (fun x => -u x) L M := by
  refine ⟨fun x hx y hy => ?_, fun x hx => ?_⟩
  · rw [show -u x - -u y = -(u x - u y) by ring, abs_neg]
    exact hu.1 x hx y hy
  · rw [abs_neg]; exact hu.2 x hx

private theorem LipB.smul {s : Set ℝ} {u : ℝ → ℝ} {L M c : ℝ} (hc : 0 ≤ c) (hu : LipB s u L M) :
    LipB s (fun x => c * u x) (c * L) (c * M) := by
  refine ⟨fun x hx y hy => ?_, fun x hx => ?_⟩
  · rw [← mul_sub, abs_mul, abs_of_nonneg hc, mul_assoc]
    exact mul_le_mul_of_nonneg_left (hu.1 x hx y hy) hc
  · rw [abs_mul, abs_of_nonneg hc]
    exact mul_le_mul_of_nonneg_left (hu.2 x hx) hc

private theorem LipB.comp {s r : Set ℝ} {u φ : ℝ → ℝ} {L M A : ℝ} (hL : 0 ≤ L) (hu : LipB r u L M)
    (hφ : ∀ x ∈ s, φ x ∈ r) (hA : ∀ x ∈ s, ∀ y ∈ s, |φ x - φ y| ≤ A * |x - y|) :
    LipB s (fun x => u (φ x)) (L * A) M := by
  refine ⟨fun x hx y hy => (hu.1 _ (hφ x hx) _ (hφ y hy)).trans ?_, fun x hx => hu.2 _ (hφ x hx)⟩
  rw [mul_assoc]
  exact mul_le_mul_of_nonneg_left (hA x hx y hy) hL

private theorem lipB_sin (s : Set ℝ) : LipB s sin 1 1 :=
  ⟨fun x _ y _ => (abs_sin_sub_sin_le x y).trans (le_of_eq (one_mul _).symm), fun x _ => abs_sin_le_one x⟩

private theorem lipB_cos (s : Set ℝ) : LipB s cos 1 1 :=
  ⟨fun x _ y _ => (abs_cos_sub_cos_le x y).trans (le_of_eq (one_mul _).symm), fun x _ => abs_cos_le_one x⟩

private theorem lipB_of_deriv {f f' : ℝ → ℝ} {c d K M : ℝ}
    (hf : ∀ x ∈ Icc c d, HasDerivWithinAt f (f' x) (Icc c d) x) (hK : ∀ x ∈ Icc c d, |f' x| ≤ K)
    (hM : ∀ x ∈ Icc c d, |f x| ≤ M) : LipB (Icc c d) f K M := by
  refine ⟨fun x hx y hy => ?_, hM⟩
  have := Convex.norm_image_sub_le_of_norm_hasDerivWithin_le (f := f) (f' := f') (C := K) hf hK
    (convex_Icc c d) hy hx
  simpa [Real.norm_eq_abs] using this

/-- What is needed of the integrand: a derivative with Lipschitz constant `K` and bound `K₁`, and bound `M`. -/
private theorem pull_deriv {f f' φ φd φd' : ℝ → ℝ} {T c d : ℝ} (s : Subst φ φd T c d)
    (hφd : ∀ θ, HasDerivAt φd (φd' θ) θ)
    (hf : ∀ x ∈ Icc c d, HasDerivWithinAt f (f' x) (Icc c d) x) :
    ∀ θ ∈ Icc 0 T, HasDerivWithinAt (fun θ => f (φ θ) * φd θ)
      (-(f' (φ θ) * (φd θ * φd θ)) + f (φ θ) * φd' θ) (Icc 0 T) θ := by
  intro θ hθ
  have h1 : HasDerivWithinAt (fun θ => f (φ θ)) (f' (φ θ) * -φd θ) (Icc 0 T) θ :=
    (hf _ (s.maps θ hθ)).comp θ (s.deriv θ).hasDerivWithinAt s.maps
  exact (h1.mul (hφd θ).hasDerivWithinAt).congr_deriv (by ring)

private theorem pull_lip {f f' φ φd φd' : ℝ → ℝ} {T c d K K₁ M A Ld Md Ld' Md' : ℝ} (s : Subst φ φd T c d)
    (hK : 0 ≤ K) (hK₁ : 0 ≤ K₁) (hA : ∀ x ∈ Icc 0 T, ∀ y ∈ Icc 0 T, |φ x - φ y| ≤ A * |x - y|)
    (hd : LipB (Icc 0 T) φd Ld Md) (hd' : LipB (Icc 0 T) φd' Ld' Md')
    (h0 : LipB (Icc c d) f K₁ M) (h1 : LipB (Icc c d) f' K K₁) :
    ∀ x ∈ Icc 0 T, ∀ y ∈ Icc 0 T,
      |(-(f' (φ x) * (φd x * φd x)) + f (φ x) * φd' x) - (-(f' (φ y) * (φd y * φd y)) + f (φ y) * φd' y)| ≤
        (K * A * (Md * Md) + K₁ * (Ld * Md + Md * Ld) + (K₁ * A * Md' + M * Ld')) * |x - y| :=
  (((h1.comp hK s.maps hA).mul (hd.mul hd)).neg.add ((h0.comp hK₁ s.maps hA).mul hd')).1

/-- **C98.**  The Chebyshev rules are of second order for every integrand whose derivative is Lipschitz: with `K` the
Lipschitz constant of `f'` and `K₁`, `M` bounds of `f'` and `f`, the error against the plain integral is
`O((K+K₁+M)/n²)` with the constants below, for every number of points. -/
theorem C98_chebyshev_second_order (b : Build) {n : ℕ} {K K₁ M : ℝ} (hK : 0 ≤ K) (hK₁ : 0 ≤ K₁) (hM : 0 ≤ M)
    {f f' : ℝ → ℝ} :
    ((∀ x ∈ Icc (-1 : ℝ) 1, HasDerivWithinAt f (f' x) (Icc (-1) 1) x) →
      (∀ x ∈ Icc (-1 : ℝ) 1, ∀ y ∈ Icc (-1 : ℝ) 1, |f' x - f' y| ≤ K * |x - y|) →
      (∀ x ∈ Icc (-1 : ℝ) 1, |f' x| ≤ K₁) → (∀ x ∈ Icc (-1 : ℝ) 1, |f x| ≤ M) →
      (1 ≤ n → Returns (construct b (gaussChebyshev1 n)) (fun q =>
        |ruleSum q.points q.weights f - ∫ x in (-1 : ℝ)..1, f x| ≤ π ^ 3 * (K + 3 * K₁ + M) / (24 * n ^ 2))) ∧
      Returns (construct b (gaussChebyshev2 n)) (fun q =>
        |ruleSum q.points q.weights f - ∫ x in (-1 : ℝ)..1, f x| ≤
          π ^ 3 * (K + 3 * K₁ + M) / (12 * (n + 1) ^ 2)) ∧
      Returns (construct b (gaussChebyshev2Modified n)) (fun q =>
        |ruleSum q.points q.weights f - ∫ x in (-1 : ℝ)..1, f x| ≤
          π ^ 3 * (5 * K + 35 * K₁ + 28 * M) / (12 * (n + 1) ^ 2))) ∧
    ((∀ x ∈ Icc (0 : ℝ) 1, HasDerivWithinAt f (f' x) (Icc 0 1) x) →
      (∀ x ∈ Icc (0 : ℝ) 1, ∀ y ∈ Icc (0 : ℝ) 1, |f' x - f' y| ≤ K * |x - y|) →
      (∀ x ∈ Icc (0 : ℝ) 1, |f' x| ≤ K₁) → (∀ x ∈ Icc (0 : ℝ) 1, |f x| ≤ M) →
      Returns (construct b (gaussChebyshev3 n)) (fun q =>
        |ruleSum q.points q.weights f - ∫ x in (0 : ℝ)..1, f x| ≤
          π ^ 3 * (K + 8 * K₁ + 8 * M) / (48 * (2 * n + 1) ^ 2))) := by
  have hp := pi_pos
  have hp3 := pi_gt_three
  -- the two rules on the points `i π/(n+1)`
  have key : ∀ {φ φd φd' : ℝ → ℝ} (s : Subst φ φd π (-1) 1) {L : ℝ},
      (∀ x ∈ Icc (-1 : ℝ) 1, HasDerivWithinAt f (f' x) (Icc (-1) 1) x) →
      (∀ θ, HasDerivAt φd (φd' θ) θ) → φd 0 = 0 → φd π = 0 →
      (∀ x ∈ Icc 0 π, ∀ y ∈ Icc 0 π, |(-(f' (φ x) * (φd x * φd x)) + f (φ x) * φd' x) -
        (-(f' (φ y) * (φd y * φd y)) + f (φ y) * φd' y)| ≤ L * |x - y|) →
      |∑ i ∈ Finset.range n, π / ((n : ℝ) + 1) *
        (fun θ => f (φ θ) * φd θ) ((i + 1) * (π / ((n : ℝ) + 1))) - ∫ x in (-1 : ℝ)..1, f x| ≤
        π ^ 3 * L / (12 * (n + 1) ^ 2) := by
    intro φ φd φd' s L hf hφd h0 hπ hL
    have hcf : ContinuousOn f (Icc (-1) 1) := fun x hx => (hf x hx).continuousWithinAt
    have e : ((n + 1 : ℕ) : ℝ) * (π / ((n : ℝ) + 1)) = π := by push_cast; field_simp
    have hc : 0 < π / ((n : ℝ) + 1) := by positivity
    have := trapezoid_second_order (G := fun θ => f (φ θ) * φd θ)
      (G' := fun θ => -(f' (φ θ) * (φd θ * φd θ)) + f (φ θ) * φd' θ) (a := 0)
      (h := π / ((n : ℝ) + 1)) (L := L) hc.le n
      (by rw [e, zero_add]; exact pull_deriv s hφd hf) (by rw [e, zero_add]; exact hL)
      (by simp [h0]) (by rw [e, zero_add]; simp [hπ])
    rw [e, zero_add, ← s.integral hcf] at this
    simp only [zero_add] at this
    refine this.trans (le_of_eq ?_)
    push_cast
    field_simp
  refine ⟨fun hf h1 h1b h0b => ⟨fun hn => ?_, ?_, ?_⟩, fun hf h1 h1b h0b => ?_⟩
  · have h4 : (1 : ℝ) ≤ n := by exact_mod_cast hn
    have hc : 0 < π / (n : ℝ) := by positivity
    have e : (n : ℝ) * (π / n) = π := by field_simp
    have hcf : ContinuousOn f (Icc (-1) 1) := fun x hx => (hf x hx).continuousWithinAt
    have hL := pull_lip subst_cos hK hK₁ (lipB_cos _).1 (lipB_sin _) (lipB_cos _) (lipB_of_deriv hf h1b h0b) ⟨h1, h1b⟩
    refine ⟨_, gc1_real n b, ?_⟩
    dsimp only
    rw [gc1_sum]
    have := midpoint_second_order (G := fun θ => f (cos θ) * sin θ)
      (G' := fun θ => -(f' (cos θ) * (sin θ * sin θ)) + f (cos θ) * cos θ) (a := 0) (h := π / (n : ℝ)) hc.le n
      (by rw [e, zero_add]; exact pull_deriv subst_cos hasDerivAt_sin hf) (by rw [e, zero_add]; exact hL)
    rw [e, zero_add, ← subst_cos.integral hcf] at this
    simp only [zero_add] at this
    refine this.trans (le_of_eq ?_)
    field_simp
    ring
  · have hL := pull_lip subst_cos hK hK₁ (lipB_cos _).1 (lipB_sin _) (lipB_cos _) (lipB_of_deriv hf h1b h0b) ⟨h1, h1b⟩
    refine ⟨_, gc2_real n b, ?_⟩
    dsimp only
    rw [gc2_sum]
    refine (key subst_cos hf hasDerivAt_sin sin_zero sin_pi hL).trans (le_of_eq ?_)
    ring
  · have c0 : 0 < 16 / (3 * π) := by positivity
    have c1 : 16 / (3 * π) ≤ 1.7 := by
      have h314 := pi_gt_d2
      rw [div_le_iff₀ (by positivity)]; linarith
    obtain ⟨c, hc⟩ : ∃ c, c = 16 / (3 * π) := ⟨_, rfl⟩
    have hsub := subst_gmap
    have hsin3 := ((lipB_sin (Icc 0 π)).mul (lipB_sin _)).mul (lipB_sin _)
    have hd : LipB (Icc 0 π) (fun t => 16 / (3 * π) * sin t ^ 4) (4 * c) c := by
      have := (hsin3.mul (lipB_sin _)).smul c0.le
      rw [← hc] at this ⊢
      convert this using 1
      · funext t; ring
      · ring
      · ring
    have hd' : LipB (Icc 0 π) (fun t => 16 / (3 * π) * (4 * sin t ^ 3 * cos t)) (16 * c) (4 * c) := by
      have := (hsin3.mul (lipB_cos _)).smul (c := 4 * c) (by rw [hc]; positivity)
      rw [← hc]
      convert this using 1
      · funext t; ring
      · ring
      · ring
    have hA : ∀ x ∈ Icc 0 π, ∀ y ∈ Icc 0 π, |gmap x - gmap y| ≤ c * |x - y| := by
      have := lipB_of_deriv (f := gmap) (f' := fun t => -(16 / (3 * π) * sin t ^ 4)) (c := 0) (d := π) (K := c) (M := 1)
        (fun x _ => (gmap_deriv x).hasDerivWithinAt) (fun x hx => by rw [abs_neg]; exact hd.2 x hx)
        (fun x hx => abs_le.2 (hsub.maps x hx))
      exact this.1
    have hL := pull_lip hsub hK hK₁ hA hd hd' (lipB_of_deriv hf h1b h0b) ⟨h1, h1b⟩
    refine ⟨_, gc2m_real n b, ?_⟩
    dsimp only
    rw [gc2m_sum]
    refine (key hsub hf (fun θ => ?_) (by simp) (by simp) hL).trans ?_
    · exact (((hasDerivAt_sin θ).pow 4).const_mul (16 / (3 * π))).congr_deriv (by push_cast; ring)
    · rw [← hc] at c0 c1
      have c2 : c * c ≤ 2.89 := by nlinarith
      have c3 : c * c * c ≤ 4.92 := by nlinarith
      refine div_le_div_of_nonneg_right (mul_le_mul_of_nonneg_left ?_ (by positivity)) (by positivity)
      have g1 : K * (c * c * c) ≤ K * 4.92 := mul_le_mul_of_nonneg_left c3 hK
      have g2 : K₁ * (c * c) ≤ K₁ * 2.89 := mul_le_mul_of_nonneg_left c2 hK₁
      have g3 : M * c ≤ M * 1.7 := mul_le_mul_of_nonneg_left c1 hM
      nlinarith
  · have hcf : ContinuousOn f (Icc 0 1) := fun x hx => (hf x hx).continuousWithinAt
    have hsc : ∀ x, 2 * (cos x * sin x) = sin (2 * x) := fun x => by rw [sin_two_mul]; ring
    have hd : LipB (Icc 0 (π / 2)) (fun t => 2 * (cos t * sin t)) 2 1 := by
      refine ⟨fun x _ y _ => ?_, fun x _ => ?_⟩
      · dsimp only
        rw [hsc, hsc]
        refine (abs_sin_sub_sin_le _ _).trans (le_of_eq ?_)
        rw [← mul_sub, abs_mul, abs_of_pos (by norm_num : (0 : ℝ) < 2)]
      · dsimp only
        rw [hsc]; exact abs_sin_le_one _
    have hd' : LipB (Icc 0 (π / 2)) (fun t => 2 * cos (2 * t)) 4 2 := by
      refine ⟨fun x _ y _ => ?_, fun x _ => ?_⟩
      · rw [← mul_sub, abs_mul, abs_of_pos (by norm_num : (0 : ℝ) < 2)]
        have := abs_cos_sub_cos_le (2 * x) (2 * y)
        rw [← mul_sub, abs_mul, abs_of_pos (by norm_num : (0 : ℝ) < 2)] at this
        linarith
      · rw [abs_mul, abs_of_pos (by norm_num : (0 : ℝ) < 2)]
        linarith [abs_cos_le_one (2 * x)]
    have hA : ∀ x ∈ Icc 0 (π / 2), ∀ y ∈ Icc 0 (π / 2), |cos x ^ 2 - cos y ^ 2| ≤ 1 * |x - y| := by
      have := lipB_of_deriv (f := fun t => cos t ^ 2) (f' := fun t => -(2 * (cos t * sin t))) (c := 0) (d := π / 2)
        (K := 1) (M := 1)
        (fun x _ => (subst_cos_sq.deriv x).hasDerivWithinAt) (fun x hx => by rw [abs_neg]; exact hd.2 x hx)
        (fun x hx => by
          rw [abs_of_nonneg (sq_nonneg _)]
          exact (subst_cos_sq.maps x hx).2)
      exact this.1
    have h0 := lipB_of_deriv hf h1b h0b
    have hL := pull_lip subst_cos_sq hK hK₁ hA hd hd' h0 ⟨h1, h1b⟩
    have hG := ((h0.comp hK₁ subst_cos_sq.maps hA).mul hd).1
    have hder := pull_deriv subst_cos_sq (φd' := fun t => 2 * cos (2 * t)) (fun θ => by
      have := ((hasDerivAt_id θ).const_mul 2).sin
      simp only [id, mul_one] at this
      rw [show (fun t : ℝ => 2 * (cos t * sin t)) = fun t => sin (2 * t) from funext hsc]
      exact this.congr_deriv (mul_comm _ _)) hf
    have hn0 : (0 : ℝ) ≤ n := n.cast_nonneg
    obtain ⟨h, hh⟩ : ∃ h, h = π / (2 * (n : ℝ) + 1) := ⟨_, rfl⟩
    have hc : 0 < h := by rw [hh]; positivity
    have e : (2 * (n : ℝ) + 1) * h = π := by rw [hh]; field_simp
    refine ⟨_, gc3_real n b, ?_⟩
    dsimp only
    rw [gc3_sum, ← hh, subst_cos_sq.integral hcf]
    have hcont := subst_cos_sq.contOn hcf
    have hnh : 0 ≤ n * h := by positivity
    have hle : n * h ≤ π / 2 := by linarith
    have r := midpoint_second_order (G := fun θ => f (cos θ ^ 2) * (2 * (cos θ * sin θ)))
      (G' := fun θ => -(f' (cos θ ^ 2) * (2 * (cos θ * sin θ) * (2 * (cos θ * sin θ)))) +
        f (cos θ ^ 2) * (2 * cos (2 * θ))) (a := 0) (h := h) hc.le n
      (by
        rw [zero_add]
        exact fun x hx => (hder x ⟨hx.1, hx.2.trans hle⟩).mono (Icc_subset_Icc_right hle))
      (by
        rw [zero_add]
        exact fun x hx y hy => hL x ⟨hx.1, hx.2.trans hle⟩ y ⟨hy.1, hy.2.trans hle⟩)
    simp only [zero_add] at r
    have i1 : IntervalIntegrable (fun θ => f (cos θ ^ 2) * (2 * (cos θ * sin θ))) volume 0 (n * h) :=
      ContinuousOn.intervalIntegrable (by
        rw [uIcc_of_le hnh]; exact hcont.mono (Icc_subset_Icc_right hle))
    have i2 : IntervalIntegrable (fun θ => f (cos θ ^ 2) * (2 * (cos θ * sin θ))) volume (n * h) (π / 2) :=
      ContinuousOn.intervalIntegrable (by
        rw [uIcc_of_le hle]; exact hcont.mono (Icc_subset_Icc_left hnh))
    have r2 := intervalIntegral.norm_integral_le_of_norm_le (a := n * h) (b := π / 2)
      (f := fun θ => f (cos θ ^ 2) * (2 * (cos θ * sin θ))) (μ := volume)
      (g := fun θ => (K₁ * 1 * 1 + M * 2) * (π / 2 - θ)) hle (Filter.Eventually.of_forall fun θ hθ => by
        have := hG θ ⟨hnh.trans hθ.1.le, hθ.2⟩ (π / 2) ⟨by positivity, le_rfl⟩
        dsimp only at this
        rw [cos_pi_div_two, abs_of_nonpos (by linarith [hθ.2] : θ - π / 2 ≤ 0)] at this
        simp only [zero_mul, mul_zero, sub_zero, neg_sub] at this
        exact this) (ContinuousOn.intervalIntegrable (by fun_prop))
    rw [intervalIntegral.integral_const_mul, intervalIntegral.integral_comp_sub_left (fun x => x), integral_id,
      Real.norm_eq_abs] at r2
    rw [← intervalIntegral.integral_add_adjacent_intervals i1 i2, ← sub_sub]
    refine (abs_sub _ _).trans ((add_le_add r r2).trans ?_)
    rw [sub_self, show π / 2 - n * h = h / 2 by linarith]
    have hh2 : π ^ 3 / (48 * (2 * (n : ℝ) + 1) ^ 2) = π / 48 * h ^ 2 := by rw [hh]; field_simp
    rw [show π ^ 3 * (K + 8 * K₁ + 8 * M) / (48 * (2 * (n : ℝ) + 1) ^ 2) =
      π ^ 3 / (48 * (2 * (n : ℝ) + 1) ^ 2) * (K + 8 * K₁ + 8 * M) by ring, hh2]
    have hX : 0 ≤ K + 6 * K₁ + 4 * M := by positivity
    have hY : 0 ≤ K₁ + 2 * M := by positivity
    have g1 : n * h * ((K + 6 * K₁ + 4 * M) * h ^ 2) ≤ π / 2 * ((K + 6 * K₁ + 4 * M) * h ^ 2) :=
      mul_le_mul_of_nonneg_right hle (by positivity)
    have g2 : 3 * ((K₁ + 2 * M) * h ^ 2) ≤ π * ((K₁ + 2 * M) * h ^ 2) :=
      mul_le_mul_of_nonneg_right hp3.le (by positivity)
    nlinarith

/-- `x ↦ x²` on `[-1,1]` satisfies the hypotheses. -/
example : Returns (construct ⟨true⟩ (gaussChebyshev2 99 : Outcome (List ℝ × List ℝ))) (fun q =>
    |ruleSum q.points q.weights (fun x => x ^ 2) - ∫ x in (-1 : ℝ)..1, x ^ 2| ≤
      π ^ 3 * (2 + 3 * 2 + 1) / (12 * ((99 : ℕ) + 1) ^ 2)) :=
  ((C98_chebyshev_second_order ⟨true⟩ (K := 2) (K₁ := 2) (M := 1) (f := fun x => x ^ 2) (f' := fun x => 2 * x)
    (by norm_num) (by norm_num) (by norm_num)).1
    (fun x _ => (((hasDerivAt_id x).pow 2).congr_deriv (by simp)).hasDerivWithinAt)
    (fun x _ y _ => by rw [← mul_sub, abs_mul, abs_of_pos (by norm_num : (0 : ℝ) < 2)])
    (fun x hx => by rw [abs_le]; constructor <;> linarith [hx.1, hx.2])
    (fun x hx => by rw [abs_of_nonneg (sq_nonneg x)]; nlinarith [hx.1, hx.2])).2.1

/-- The radial rules are of second order for every integrand whose pullback extends to the closed interval, vanishes
at both ends and has a Lipschitz derivative. -/
theorem C98_radial_second_order (b : Build) {t : RadialTraits ℝ} (h : radialValid t)
    (hn : t.inclusive = true → t.npts + 2 < sizeMod) {f G G' : ℝ → ℝ} {L : ℝ}
    (hG : ∀ θ ∈ Ioo 0 (radialLength t), radialPullback t f θ = G θ)
    (hd : ∀ θ ∈ Icc 0 (radialLength t), HasDerivWithinAt G (G' θ) (Icc 0 (radialLength t)) θ)
    (hL : ∀ x ∈ Icc 0 (radialLength t), ∀ y ∈ Icc 0 (radialLength t), |G' x - G' y| ≤ L * |x - y|)
    (h0 : G 0 = 0) (hT0 : G (radialLength t) = 0) :
    IntegrableOn f (Ioi 0) ∧
    Returns (construct b t.generate) (fun q =>
      |ruleSum q.points q.weights f - ∫ r in Ioi 0, f r| ≤
        radialLength t ^ 3 * L / (12 * (t.npts + 1) ^ 2)) := by
  have hT := radialLength_pos t
  have hGc : ContinuousOn G (Icc 0 (radialLength t)) := fun x hx => (hd x hx).continuousWithinAt
  obtain ⟨hi, he⟩ := radialPullback_integral h f
  refine ⟨hi.2 ?_, ?_⟩
  · rw [integrableOn_congr_fun hG measurableSet_Ioo]
    exact hGc.integrableOn_Icc.mono_set Ioo_subset_Icc_self
  rw [generate_real' t hn, construct_ok b (by simp)]
  refine ⟨_, rfl, ?_⟩
  dsimp only
  rw [radial_sum h, he, setIntegral_congr_fun measurableSet_Ioo hG, ← integral_Ioc_eq_integral_Ioo,
    ← intervalIntegral.integral_of_le hT.le]
  obtain ⟨s, hs⟩ : ∃ s, s = radialLength t / ((t.npts : ℝ) + 1) := ⟨_, rfl⟩
  have e : ((t.npts + 1 : ℕ) : ℝ) * s = radialLength t := by rw [hs]; push_cast; field_simp
  have hs0 : 0 < s := by rw [hs]; positivity
  have := trapezoid_second_order (G := G) (G' := G') (a := 0) (h := s) (L := L) hs0.le t.npts
    (by rw [e, zero_add]; exact hd) (by rw [e, zero_add]; exact hL) h0 (by rw [e, zero_add]; exact hT0)
  rw [e, zero_add] at this
  simp only [zero_add] at this
  rw [← hs, Finset.sum_congr rfl (g := fun i : ℕ => s * G ((i + 1) * s))]
  · refine this.trans (le_of_eq ?_)
    rw [hs]
    push_cast
    field_simp
  · intro i hi
    have hi : ((i : ℝ) + 1) ≤ t.npts := by exact_mod_cast Finset.mem_range.1 hi
    push_cast at e
    rw [hG _ ⟨by positivity, by nlinarith⟩]

/-- The rule of Mura and Knowles on `e^{-2r/R}`: the error is at most `11 R / (2 (n+1)²)`. -/
theorem C98_muraknowles_exponential (b : Build) {n : ℕ} (hn : n + 2 < sizeMod) {R : ℝ} (hR : 0 < R) :
    Returns (construct b (RadialTraits.mk n R).generate) (fun q =>
      |ruleSum q.points q.weights (fun r => exp (-(2 * r / R))) - R / 2| ≤ 11 * R / (2 * (n + 1) ^ 2)) := by
  have hv : radialValid (RadialTraits.mk n R) := hR
  have hc3 : ∀ x ∈ Icc (0 : ℝ) 1, ∀ y ∈ Icc (0 : ℝ) 1,
      |3 * R * (2 * x - 5 * x ^ 4) - 3 * R * (2 * y - 5 * y ^ 4)| ≤ 66 * R * |x - y| := by
    intro x hx y hy
    have e : 3 * R * (2 * x - 5 * x ^ 4) - 3 * R * (2 * y - 5 * y ^ 4) =
        3 * R * (2 - 5 * ((x + y) * (x ^ 2 + y ^ 2))) * (x - y) := by ring
    rw [e, abs_mul]
    refine mul_le_mul_of_nonneg_right ?_ (abs_nonneg _)
    rw [abs_mul, abs_of_pos (by positivity)]
    have hx0 := hx.1
    have hy0 := hy.1
    have h1 : (x + y) * (x ^ 2 + y ^ 2) ≤ 2 * 2 :=
      mul_le_mul (by linarith [hx.2, hy.2]) (by nlinarith [hx.2, hy.2]) (by positivity) (by norm_num)
    have h2 : 0 ≤ (x + y) * (x ^ 2 + y ^ 2) := by positivity
    have h3 : |2 - 5 * ((x + y) * (x ^ 2 + y ^ 2))| ≤ 22 := abs_le.2 ⟨by linarith, by linarith⟩
    nlinarith
  have := C98_radial_second_order b (t := RadialTraits.mk n R) hv (fun _ => hn)
    (f := fun r => exp (-(2 * r / R))) (G := fun x => 3 * R * (x ^ 2 - x ^ 5))
    (G' := fun x => 3 * R * (2 * x - 5 * x ^ 4)) (L := 66 * R)
    (by
      intro x hx
      have hx' : x ∈ Ioo (0 : ℝ) 1 := hx
      rw [radialPullback_eq hv hx]
      simp only [radialPhi, radialPhi', inclusive, if_true, smul_eq_mul]
      rw [abs_of_pos (jacobian_pos (RadialTraits.mk n R) hv hx)]
      have hx3 : 0 < 1 - x ^ 3 := by
        have : x ^ 3 < 1 := pow_lt_one₀ hx'.1.le hx'.2 (by norm_num)
        linarith
      have e : exp (-(2 * radialMap (RadialTraits.mk n R) x / R)) = (1 - x ^ 3) ^ 2 := by
        rw [← exp_log (by positivity : 0 < (1 - x ^ 3) ^ 2), log_pow]
        congr 1
        simp only [radialMap]
        push_cast
        field_simp
      rw [e]
      simp only [jacobian, Arith.real_lit]
      push_cast
      field_simp)
    (by
      intro x _
      refine HasDerivAt.hasDerivWithinAt ?_
      exact ((((hasDerivAt_id x).pow 2).sub ((hasDerivAt_id x).pow 5)).const_mul (3 * R)).congr_deriv (by simp))
    hc3 (by simp) (by simp [radialLength])
  have hI : ∫ r in Ioi (0 : ℝ), exp (-(2 * r / R)) = R / 2 := by
    have := integral_exp_mul_Ioi (a := -(2 / R)) (by simp; positivity) 0
    rw [mul_zero, exp_zero] at this
    refine Eq.trans (setIntegral_congr_fun measurableSet_Ioi fun r _ => ?_) (this.trans ?_)
    · congr 1
      ring
    · rw [neg_div_neg_eq, one_div_div]
  rw [hI] at this
  obtain ⟨q, hq, hb⟩ := this.2
  refine ⟨q, hq, hb.trans (le_of_eq ?_)⟩
  simp only [radialLength, npts]
  field_simp
  norm_num

/-- Becke's rule on `1/(1+r)⁴`. -/
example (b : Build) (n : ℕ) : Returns (construct b (becke n (1 : ℝ)).generate) (fun q =>
    |ruleSum q.points q.weights (fun r => 1 / (1 + r) ^ 4) - ∫ r in Ioi (0 : ℝ), 1 / (1 + r) ^ 4| ≤
      π ^ 3 * (1 / 8 * 18) / (12 * (n + 1) ^ 2)) := by
  have hv : radialValid (becke n (1 : ℝ)) := one_pos
  have h1c : ∀ s : Set ℝ, LipB s (fun θ => 1 - cos θ) 1 2 := fun s =>
    ⟨fun x hx y hy => by
      rw [show 1 - cos x - (1 - cos y) = cos y - cos x by ring, abs_sub_comm]
      exact (lipB_cos s).1 x hx y hy, fun x _ => by
      rw [abs_le]; constructor <;> linarith [neg_one_le_cos x, cos_le_one x]⟩
  have hlip := fun s : Set ℝ => ((((h1c s).mul ((lipB_sin s).mul (lipB_sin s))).smul (c := 2) (by norm_num)).add
    (((h1c s).mul (h1c s)).mul (lipB_cos s))).smul (c := 1 / 8) (by norm_num)
  refine (C98_radial_second_order b (t := becke n (1 : ℝ)) hv (fun h => by cases h)
    (G := fun θ => 1 / 8 * ((1 - cos θ) ^ 2 * sin θ))
    (G' := fun θ => 1 / 8 * (2 * ((1 - cos θ) * (sin θ * sin θ)) + (1 - cos θ) * (1 - cos θ) * cos θ))
    (L := 1 / 8 * 18) ?_ ?_ ?_ (by simp) (by simp [radialLength])).2
  · intro θ hθ
    have hc := cos_mem_Ioo hθ
    rw [radialPullback_eq hv hθ]
    simp only [radialPhi, radialPhi', inclusive, Bool.false_eq_true, if_false, smul_eq_mul]
    rw [mul_neg, abs_neg, abs_mul, abs_of_pos (jacobian_pos (becke n 1) hv hc),
      abs_of_pos (sin_pos_of_pos_of_lt_pi hθ.1 hθ.2)]
    have h1 : 0 < 1 - cos θ := by linarith [hc.2]
    simp only [radialMap, jacobian, Arith.real_lit, Arith.real_pow, Arith.real_ofNat, Real.rpow_natCast]
    have e : 1 + 1 * ((1 + cos θ) / (1 - cos θ)) = 2 / (1 - cos θ) := by field_simp; ring
    rw [e]
    push_cast
    field_simp
    ring
  · intro θ _
    refine HasDerivAt.hasDerivWithinAt ?_
    exact (((((hasDerivAt_cos θ).const_sub 1).pow 2).mul (hasDerivAt_sin θ)).const_mul (1 / 8)).congr_deriv (by
      simp only [Pi.pow_apply]; push_cast; ring)
  · convert (hlip _).1 using 5
    norm_num

end IntegratorXX
