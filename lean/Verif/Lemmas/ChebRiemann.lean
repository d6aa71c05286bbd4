import Verif.Lemmas.ChebReal
import Verif.Lemmas.Riemann
import Mathlib.MeasureTheory.Integral.IntervalIntegral.IntegrationByParts
import Mathlib.Analysis.SpecialFunctions.Trigonometric.Bounds
import Mathlib.Analysis.SpecialFunctions.Trigonometric.Deriv
import Mathlib.Analysis.Calculus.MeanValue

/-!
# The Chebyshev rules as Riemann sums
-/

namespace IntegratorXX

open Spec Set Real MeasureTheory

/-- A decreasing substitution of `[0, T]` for `[c, d]`. -/
structure Subst (φ φd : ℝ → ℝ) (T c d : ℝ) : Prop where
  pos : 0 < T
  deriv : ∀ θ, HasDerivAt φ (-φd θ) θ
  cont : Continuous φd
  maps : ∀ θ ∈ Icc 0 T, φ θ ∈ Icc c d
  start : φ 0 = d
  stop : φ T = c

namespace Subst

variable {φ φd : ℝ → ℝ} {T c d : ℝ}

theorem continuous (s : Subst φ φd T c d) : Continuous φ :=
  continuous_iff_continuousAt.2 fun θ => (s.deriv θ).continuousAt

theorem contOn (s : Subst φ φd T c d) {f : ℝ → ℝ} (hf : ContinuousOn f (Icc c d)) :
    ContinuousOn (fun θ => f (φ θ) * φd θ) (Icc 0 T) :=
  (hf.comp s.continuous.continuousOn s.maps).mul s.cont.continuousOn

theorem integral (s : Subst φ φd T c d) {f : ℝ → ℝ} (hf : ContinuousOn f (Icc c d)) :
    ∫ x in c..d, f x = ∫ θ in (0 : ℝ)..T, f (φ θ) * φd θ := by
  have h := intervalIntegral.integral_comp_mul_deriv' (a := 0) (b := T) (f := φ) (f' := fun θ => -φd θ) (g := f)
    (fun x _ => s.deriv x) s.cont.neg.continuousOn (hf.mono (by
      rw [uIcc_of_le s.pos.le]
      rintro _ ⟨θ, hθ, rfl⟩
      exact s.maps θ hθ))
  rw [s.start, s.stop, intervalIntegral.integral_symm c d] at h
  have e : (∫ x in (0 : ℝ)..T, (f ∘ φ) x * -φd x) = -∫ x in (0 : ℝ)..T, f (φ x) * φd x := by
    rw [← intervalIntegral.integral_neg]
    refine intervalIntegral.integral_congr fun x _ => ?_
    simp
  rw [e] at h
  linarith

/-- Convergence of the sums, samples at the ends being left out. -/
theorem converges (s : Subst φ φd T c d) {f : ℝ → ℝ} (hf : ContinuousOn f (Icc c d)) {ε : ℝ} (hε : 0 < ε) :
    ∃ δ > 0, ∀ (N : ℕ) (h : ℝ) (t : ℕ → ℝ), 0 < h → h < δ → N * h ≤ T → T - h ≤ N * h →
      (∀ i < N, t i ∈ Icc (i * h) ((i + 1) * h)) →
      |∑ i ∈ Finset.range N, h * (Ioo 0 T).indicator (fun θ => f (φ θ) * φd θ) (t i) - ∫ x in c..d, f x| ≤ ε := by
  have hg := s.contOn hf
  obtain ⟨M, hM⟩ := isCompact_Icc.exists_bound_of_continuousOn hg
  obtain ⟨δ, hδ, h⟩ := riemann_open s.pos (hg.mono Ioo_subset_Icc_self)
    (fun x hx => hM x (Ioo_subset_Icc_self hx)) hε
  refine ⟨δ, hδ, fun N h' t h1 h2 h3 h4 h5 => ?_⟩
  have := h N h' t h1 h2 (by linarith) (by linarith) (fun i hi => by
    have := h5 i hi
    rwa [zero_add, zero_add])
  rwa [← integral_Ioc_eq_integral_Ioo, ← intervalIntegral.integral_of_le s.pos.le, ← s.integral hf] at this

/-- The Lipschitz constant of the transformed function. -/
theorem lipschitz (s : Subst φ φd T c d) {f : ℝ → ℝ} {K M A D B : ℝ} (hK : 0 ≤ K) (hA : 0 ≤ A) (hM : 0 ≤ M)
    (hf : ∀ x ∈ Icc c d, ∀ y ∈ Icc c d, |f x - f y| ≤ K * |x - y|) (hfM : ∀ x ∈ Icc c d, |f x| ≤ M)
    (hφ : ∀ x y, |φ x - φ y| ≤ A * |x - y|) (hD : ∀ x, |φd x| ≤ D)
    (hφd : ∀ x y, |φd x - φd y| ≤ B * |x - y|) :
    ∀ x ∈ Icc 0 T, ∀ y ∈ Icc 0 T, |f (φ x) * φd x - f (φ y) * φd y| ≤ (K * A * D + M * B) * |x - y| := by
  intro x hx y hy
  have e : f (φ x) * φd x - f (φ y) * φd y = (f (φ x) - f (φ y)) * φd x + f (φ y) * (φd x - φd y) := by ring
  rw [e]
  refine (abs_add_le _ _).trans ?_
  rw [abs_mul, abs_mul]
  have h1 : |f (φ x) - f (φ y)| ≤ K * (A * |x - y|) :=
    (hf _ (s.maps x hx) _ (s.maps y hy)).trans (mul_le_mul_of_nonneg_left (hφ x y) hK)
  have h2 : |f (φ x) - f (φ y)| * |φd x| ≤ K * (A * |x - y|) * D :=
    mul_le_mul h1 (hD x) (abs_nonneg _) (by positivity)
  have h3 : |f (φ y)| * |φd x - φd y| ≤ M * (B * |x - y|) :=
    mul_le_mul (hfM _ (s.maps y hy)) (hφd x y) (abs_nonneg _) hM
  linarith

end Subst

theorem contOn_of_lipschitz {f : ℝ → ℝ} {K : ℝ} {s : Set ℝ}
    (hf : ∀ x ∈ s, ∀ y ∈ s, |f x - f y| ≤ K * |x - y|) : ContinuousOn f s := by
  have : LipschitzOnWith (Real.toNNReal K) f s := by
    refine LipschitzOnWith.of_dist_le_mul fun x hx y hy => ?_
    rw [Real.dist_eq, Real.dist_eq]
    exact (hf x hx y hy).trans (mul_le_mul_of_nonneg_right (Real.le_coe_toNNReal K) (abs_nonneg _))
  exact this.continuousOn

/-- The substitution of GaussChebyshev1 and GaussChebyshev2. -/
theorem subst_cos : Subst cos sin π (-1) 1 where
  pos := pi_pos
  deriv := hasDerivAt_cos
  cont := continuous_sin
  maps := fun θ _ => ⟨neg_one_le_cos θ, cos_le_one θ⟩
  start := cos_zero
  stop := cos_pi

theorem gmap_deriv (t : ℝ) : HasDerivAt gmap (-(16 / (3 * π) * sin t ^ 4)) t := by
  have hs := hasDerivAt_sin t
  have hc := hasDerivAt_cos t
  have h1 : HasDerivAt (fun t : ℝ => 1 - 2 * t / π) (-(2 / π)) t := by
    have := (((hasDerivAt_id t).const_mul 2).div_const π).const_sub 1
    simpa using this
  have h2 : HasDerivAt (fun t : ℝ => 2 / π * (1 + 2 / 3 * sin t ^ 2))
      (2 / π * (2 / 3 * (2 * sin t * cos t))) t := by
    have := (((hs.pow 2).const_mul (2 / 3)).const_add 1).const_mul (2 / π)
    refine this.congr_deriv ?_
    simp
  have h3 := h1.add ((h2.mul hc).mul hs)
  refine h3.congr_deriv ?_
  simp only [Pi.mul_apply]
  have hp := pi_ne_zero
  have e : cos t ^ 2 = 1 - sin t ^ 2 := cos_sq' t
  field_simp
  ring_nf
  simp only [e]
  ring

/-- The substitution of GaussChebyshev2Modified. -/
theorem subst_gmap : Subst gmap (fun t => 16 / (3 * π) * sin t ^ 4) π (-1) 1 where
  pos := pi_pos
  deriv := gmap_deriv
  cont := by fun_prop
  maps := by
    have h0 : gmap 0 = 1 := by simp [gmap]
    have h1 : gmap π = -1 := by
      have := pi_ne_zero
      simp [gmap]
      field_simp
      ring
    have hanti : Antitone gmap := by
      apply antitone_of_deriv_nonpos
      · exact fun t => (gmap_deriv t).differentiableAt
      · intro t
        rw [(gmap_deriv t).deriv]
        have := pi_pos
        have : 0 ≤ 16 / (3 * π) * sin t ^ 4 := by positivity
        linarith
    intro θ hθ
    constructor
    · rw [← h1]; exact hanti hθ.2
    · rw [← h0]; exact hanti hθ.1
  start := by simp [gmap]
  stop := by
    have := pi_ne_zero
    simp [gmap]
    field_simp
    ring

/-- The substitution of GaussChebyshev3. -/
theorem subst_cos_sq : Subst (fun t => cos t ^ 2) (fun t => 2 * (cos t * sin t)) (π / 2) 0 1 where
  pos := by have := pi_pos; positivity
  deriv := by
    intro t
    refine ((hasDerivAt_cos t).pow 2).congr_deriv ?_
    simp
    ring
  cont := by fun_prop
  maps := fun θ _ => ⟨sq_nonneg _, by
    have := abs_le_one_iff_mul_self_le_one.1 (abs_cos_le_one θ)
    rw [sq]; exact this⟩
  start := by simp
  stop := by simp

theorem gc1_sum (n : ℕ) (f : ℝ → ℝ) :
    ruleSum ((List.range n).map (fun j => cos (gc1A n j))) ((List.range n).map (fun j => π / n * sin (gc1A n j))) f =
      ∑ i ∈ Finset.range n, π / n * (fun θ => f (cos θ) * sin θ) ((i + 1 / 2) * (π / n)) := by
  rw [ruleSum_map_range, ← Finset.sum_range_reflect]
  refine Finset.sum_congr rfl fun i hi => ?_
  have hi := Finset.mem_range.1 hi
  have hn : (n : ℝ) ≠ 0 := by exact_mod_cast (by omega : n ≠ 0)
  have e : gc1A n (n - 1 - i) = (i + 1 / 2) * (π / n) := by
    unfold gc1A
    rw [show n - 1 - (n - 1 - i) = i by omega]
    field_simp
  rw [e]
  ring

theorem gc2A_reflect' {n i : ℕ} (hi : i < n) : gc2A n (n - 1 - i) = (i + 1) * (π / (n + 1)) := by
  unfold gc2A
  rw [show n - (n - 1 - i) = i + 1 by omega]
  push_cast
  ring

theorem gc2_sum (n : ℕ) (f : ℝ → ℝ) :
    ruleSum ((List.range n).map (fun j => cos (gc2A n j)))
      ((List.range n).map (fun j => π / (n + 1) * sin (gc2A n j))) f =
      ∑ i ∈ Finset.range n, π / (n + 1) * (fun θ => f (cos θ) * sin θ) ((i + 1) * (π / (n + 1))) := by
  rw [ruleSum_map_range, ← Finset.sum_range_reflect]
  refine Finset.sum_congr rfl fun i hi => ?_
  rw [gc2A_reflect' (Finset.mem_range.1 hi)]
  ring

theorem gc2m_sum (n : ℕ) (f : ℝ → ℝ) :
    ruleSum ((List.range n).map (fun j => gmap (gc2A n j)))
      ((List.range n).map (fun j => 16 / (3 * (n + 1)) * sin (gc2A n j) ^ 4)) f =
      ∑ i ∈ Finset.range n, π / (n + 1) *
        (fun θ => f (gmap θ) * (16 / (3 * π) * sin θ ^ 4)) ((i + 1) * (π / (n + 1))) := by
  rw [ruleSum_map_range, ← Finset.sum_range_reflect]
  refine Finset.sum_congr rfl fun i hi => ?_
  rw [gc2A_reflect' (Finset.mem_range.1 hi)]
  have := pi_ne_zero
  have hn : (n : ℝ) + 1 ≠ 0 := by positivity
  dsimp only
  generalize sin ((i + 1) * (π / ((n : ℝ) + 1))) = s
  generalize f (gmap ((i + 1) * (π / ((n : ℝ) + 1)))) = y
  field_simp

theorem gc3_sum (n : ℕ) (f : ℝ → ℝ) :
    ruleSum ((List.range n).map (fun j => cos (gc3A n j) ^ 2))
      ((List.range n).map (fun j => 2 * π / (2 * n + 1) * (cos (gc3A n j) * sin (gc3A n j)))) f =
      ∑ i ∈ Finset.range n, π / (2 * n + 1) *
        (fun θ => f (cos θ ^ 2) * (2 * (cos θ * sin θ))) ((i + 1 / 2) * (π / (2 * n + 1))) := by
  rw [ruleSum_map_range, ← Finset.sum_range_reflect]
  refine Finset.sum_congr rfl fun i hi => ?_
  have hi := Finset.mem_range.1 hi
  have e : gc3A n (n - 1 - i) = (i + 1 / 2) * (π / (2 * n + 1)) := by
    unfold gc3A
    rw [show n - 1 - (n - 1 - i) = i by omega]
    push_cast
    field_simp
  rw [e]
  ring

end IntegratorXX
