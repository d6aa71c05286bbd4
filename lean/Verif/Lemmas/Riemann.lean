import Mathlib.MeasureTheory.Integral.IntervalIntegral.Basic
import Mathlib.MeasureTheory.Integral.DominatedConvergence
import Mathlib.Topology.UniformSpace.HeineCantor
import Mathlib.Analysis.SpecialFunctions.Trigonometric.Basic

/-!
# Convergence of Riemann sums
-/

namespace IntegratorXX

open MeasureTheory Set Filter Topology

/-- Sum over cells of length `h` against the integral, given a bound for the oscillation. -/
theorem riemann_cells {g ψ : ℝ → ℝ} {a h : ℝ} (h0 : 0 ≤ h) (t : ℕ → ℝ) (N : ℕ)
    (hg : IntervalIntegrable g volume a (a + N * h)) (hψ : IntervalIntegrable ψ volume a (a + N * h))
    (hosc : ∀ i < N, ∀ y ∈ Ioc (a + i * h) (a + (i + 1) * h), |g (t i) - g y| ≤ ψ y) :
    |∑ i ∈ Finset.range N, h * g (t i) - ∫ x in a..(a + N * h), g x| ≤ ∫ x in a..(a + N * h), ψ x := by
  induction N with
  | zero => simp
  | succ N ih =>
    have hle : a + N * h ≤ a + (N + 1) * h := by linarith
    have hN0 : (0 : ℝ) ≤ N * h := by positivity
    push_cast at hg hψ ⊢
    have m1 : Set.uIcc a (a + N * h) ⊆ Set.uIcc a (a + (N + 1) * h) := by
      rw [uIcc_of_le (by linarith), uIcc_of_le (by linarith)]
      exact Icc_subset_Icc_right hle
    have m2 : Set.uIcc (a + N * h) (a + (N + 1) * h) ⊆ Set.uIcc a (a + (N + 1) * h) := by
      rw [uIcc_of_le hle, uIcc_of_le (by linarith)]
      exact Icc_subset_Icc_left (by linarith)
    have g1 := hg.mono_set m1
    have g2 := hg.mono_set m2
    have p1 := hψ.mono_set m1
    have p2 := hψ.mono_set m2
    have ih' := ih g1 p1 (fun i hi => hosc i (by omega))
    rw [Finset.sum_range_succ, ← intervalIntegral.integral_add_adjacent_intervals g1 g2,
      ← intervalIntegral.integral_add_adjacent_intervals p1 p2]
    have hc : |h * g (t N) - ∫ x in (a + N * h)..(a + (N + 1) * h), g x| ≤
        ∫ x in (a + N * h)..(a + (N + 1) * h), ψ x := by
      have e : h * g (t N) = ∫ x in (a + N * h)..(a + (N + 1) * h), g (t N) := by
        rw [intervalIntegral.integral_const, smul_eq_mul]
        ring
      rw [e, ← intervalIntegral.integral_sub (by simp) g2]
      refine intervalIntegral.norm_integral_le_of_norm_le (f := fun x => g (t N) - g x) hle
        (ae_of_all _ fun y hy => ?_) p2
      exact hosc N (by omega) y ⟨hy.1, by exact_mod_cast hy.2⟩
    have e : ∑ i ∈ Finset.range N, h * g (t i) + h * g (t N) -
        ((∫ x in a..(a + N * h), g x) + ∫ x in (a + N * h)..(a + (N + 1) * h), g x) =
        (∑ i ∈ Finset.range N, h * g (t i) - ∫ x in a..(a + N * h), g x) +
        (h * g (t N) - ∫ x in (a + N * h)..(a + (N + 1) * h), g x) := by ring
    rw [e]
    exact (abs_add_le _ _).trans (add_le_add ih' hc)

/-- The rate for Lipschitz functions. -/
theorem riemann_lipschitz {g : ℝ → ℝ} {a h K : ℝ} (h0 : 0 ≤ h) (hK : 0 ≤ K) (t : ℕ → ℝ) (N : ℕ)
    (hg : ContinuousOn g (Icc a (a + N * h)))
    (ht : ∀ i < N, t i ∈ Icc (a + i * h) (a + (i + 1) * h))
    (hL : ∀ x ∈ Icc a (a + N * h), ∀ y ∈ Icc a (a + N * h), |g x - g y| ≤ K * |x - y|) :
    |∑ i ∈ Finset.range N, h * g (t i) - ∫ x in a..(a + N * h), g x| ≤ K * h * (N * h) := by
  have hN0 : (0 : ℝ) ≤ N * h := by positivity
  have hle : a ≤ a + N * h := by linarith
  refine (riemann_cells (ψ := fun _ => K * h) h0 t N ?_ (by simp) ?_).trans ?_
  · exact ContinuousOn.intervalIntegrable (by rwa [uIcc_of_le hle])
  · intro i hi y hy
    have hti := ht i hi
    have hiN : ((i : ℝ) + 1) * h ≤ N * h := mul_le_mul_of_nonneg_right (by exact_mod_cast hi) h0
    have hi0 : 0 ≤ (i : ℝ) * h := by positivity
    have hsub : ∀ x ∈ Icc (a + i * h) (a + (i + 1) * h), x ∈ Icc a (a + N * h) :=
      fun x hx => ⟨by linarith [hx.1], by linarith [hx.2]⟩
    refine (hL _ (hsub _ hti) _ (hsub _ (Ioc_subset_Icc_self hy))).trans (mul_le_mul_of_nonneg_left ?_ hK)
    rw [abs_le]
    constructor <;> linarith [hti.1, hti.2, hy.1, hy.2]
  · rw [intervalIntegral.integral_const, smul_eq_mul]
    apply le_of_eq
    ring

/-- A bounded continuous function on a bounded open interval is integrable. -/
theorem integrableOn_Ioo_of_bounded {g : ℝ → ℝ} {a b M : ℝ} (hg : ContinuousOn g (Ioo a b))
    (hM : ∀ x ∈ Ioo a b, |g x| ≤ M) : IntegrableOn g (Ioo a b) := by
  refine IntegrableOn.of_bound (by simp) (hg.aestronglyMeasurable measurableSet_Ioo) M ?_
  exact (ae_restrict_iff' measurableSet_Ioo).2 (ae_of_all _ fun x hx => hM x hx)

/-- Riemann sums of a bounded continuous function on an open interval converge, even if the values at the
ends are replaced by zero. -/
theorem riemann_open {g : ℝ → ℝ} {a b M : ℝ} (hab : a < b) (hg : ContinuousOn g (Ioo a b))
    (hM : ∀ x ∈ Ioo a b, |g x| ≤ M) {ε : ℝ} (hε : 0 < ε) :
    ∃ δ > 0, ∀ (N : ℕ) (h : ℝ) (t : ℕ → ℝ), 0 < h → h < δ → a + N * h ≤ b → b - h ≤ a + N * h →
      (∀ i < N, t i ∈ Icc (a + i * h) (a + (i + 1) * h)) →
      |∑ i ∈ Finset.range N, h * (Ioo a b).indicator g (t i) - ∫ x in Ioo a b, g x| ≤ ε := by
  have hM0 : 0 ≤ M := (abs_nonneg _).trans (hM ((a + b) / 2) ⟨by linarith, by linarith⟩)
  have hG : ∀ x, |(Ioo a b).indicator g x| ≤ M := by
    intro x
    by_cases hx : x ∈ Ioo a b
    · rw [indicator_of_mem hx]; exact hM x hx
    · rw [indicator_of_notMem hx, abs_zero]; exact hM0
  obtain ⟨G, hGd⟩ : ∃ G, G = (Ioo a b).indicator g := ⟨_, rfl⟩
  rw [← hGd] at hG ⊢
  have hGi : Integrable G := by
    rw [hGd, integrable_indicator_iff measurableSet_Ioo]
    exact integrableOn_Ioo_of_bounded hg hM
  have hGint : ∀ c d : ℝ, IntervalIntegrable G volume c d := fun c d => hGi.intervalIntegrable
  -- the distance from the ends
  obtain ⟨η, hη, hη1⟩ : ∃ η > 0, η * (18 * M + 1) ≤ ε := by
    refine ⟨ε / (18 * M + 1), by positivity, le_of_eq ?_⟩
    field_simp
  obtain ⟨δ₁, hδ₁, huc⟩ : ∃ δ > 0, ∀ x ∈ Icc (a + η) (b - η), ∀ y ∈ Icc (a + η) (b - η),
      |x - y| < δ → |g x - g y| ≤ ε / (2 * (b - a)) := by
    have hc : ContinuousOn g (Icc (a + η) (b - η)) :=
      hg.mono (fun x hx => ⟨by linarith [hx.1], by linarith [hx.2]⟩)
    have := isCompact_Icc.uniformContinuousOn_of_continuous hc
    rw [Metric.uniformContinuousOn_iff_le] at this
    obtain ⟨δ, hδ, h⟩ := this (ε / (2 * (b - a))) (div_pos hε (by linarith))
    exact ⟨δ, hδ, fun x hx y hy hxy => h x hx y hy hxy.le⟩
  refine ⟨min η δ₁, lt_min hη hδ₁, fun N h t h0 hδ hNb hNb' ht => ?_⟩
  have hhη : h < η := lt_of_lt_of_le hδ (min_le_left _ _)
  have hhδ : h < δ₁ := lt_of_lt_of_le hδ (min_le_right _ _)
  have hN0 : 0 ≤ (N : ℝ) * h := by positivity
  obtain ⟨S, hS⟩ : ∃ S : Set ℝ, S = Icc a (a + 2 * η) ∪ Icc (b - 2 * η) b := ⟨_, rfl⟩
  have hSm : MeasurableSet S := by rw [hS]; exact measurableSet_Icc.union measurableSet_Icc
  have hSv : volume S ≤ ENNReal.ofReal (4 * η) := by
    rw [hS]
    refine (measure_union_le _ _).trans ?_
    rw [Real.volume_Icc, Real.volume_Icc, ← ENNReal.ofReal_add (by linarith) (by linarith)]
    exact ENNReal.ofReal_le_ofReal (by linarith)
  have hSf : volume S ≠ ⊤ := ne_top_of_le_ne_top ENNReal.ofReal_ne_top hSv
  have hSr : volume.real S ≤ 4 * η := ENNReal.toReal_le_of_le_ofReal (by linarith) hSv
  have hSi : Integrable (S.indicator (fun _ => 2 * M)) := by
    rw [integrable_indicator_iff hSm]
    exact integrableOn_const hSf
  have key := riemann_cells (g := G) (a := a) (ψ := fun y => ε / (2 * (b - a)) + S.indicator (fun _ => 2 * M) y)
    h0.le t N (hGint _ _) ((intervalIntegrable_const).add hSi.intervalIntegrable) (by
      intro i hi y hy
      by_cases hyS : y ∈ S
      · rw [indicator_of_mem hyS]
        have := abs_sub (G (t i)) (G y)
        have := hG (t i)
        have := hG y
        have : 0 ≤ ε / (2 * (b - a)) := div_nonneg hε.le (by linarith)
        linarith
      · rw [indicator_of_notMem hyS, add_zero]
        have hti := ht i hi
        have hiN : ((i : ℝ) + 1) * h ≤ N * h := mul_le_mul_of_nonneg_right (by exact_mod_cast hi) h0.le
        have hi0 : 0 ≤ (i : ℝ) * h := by positivity
        rw [hS, mem_union, not_or] at hyS
        have y1 : a + 2 * η < y := by
          by_contra hc
          exact hyS.1 ⟨by linarith [hy.1], not_lt.1 hc⟩
        have y2 : y < b - 2 * η := by
          by_contra hc
          exact hyS.2 ⟨not_lt.1 hc, by linarith [hy.2]⟩
        have d1 : |t i - y| ≤ h := by
          rw [abs_le]
          constructor <;> linarith [hti.1, hti.2, hy.1, hy.2]
        have d2 := abs_le.1 d1
        have q1 : t i ∈ Ioo a b := ⟨by linarith, by linarith⟩
        have q2 : y ∈ Ioo a b := ⟨by linarith, by linarith⟩
        rw [hGd, indicator_of_mem q1, indicator_of_mem q2]
        exact huc _ ⟨by linarith, by linarith⟩ _ ⟨by linarith, by linarith⟩ (by linarith))
  have hψ : ∫ y in a..(a + N * h), (ε / (2 * (b - a)) + S.indicator (fun _ => 2 * M) y) ≤
      ε / 2 + 8 * M * η := by
    rw [intervalIntegral.integral_add intervalIntegrable_const hSi.intervalIntegrable,
      intervalIntegral.integral_const, smul_eq_mul]
    refine add_le_add ?_ ?_
    · have : (a + N * h - a) * (ε / (2 * (b - a))) ≤ (b - a) * (ε / (2 * (b - a))) :=
        mul_le_mul_of_nonneg_right (by linarith) (div_nonneg hε.le (by linarith))
      refine this.trans (le_of_eq ?_)
      have : b - a ≠ 0 := by linarith
      field_simp
    · rw [intervalIntegral.integral_of_le (by linarith)]
      refine (setIntegral_le_integral hSi (ae_of_all _ fun y => ?_)).trans ?_
      · exact indicator_nonneg (fun _ _ => by positivity) y
      · rw [integral_indicator hSm, setIntegral_const, smul_eq_mul]
        have := mul_le_mul_of_nonneg_right hSr (by positivity : 0 ≤ 2 * M)
        linarith
  have hrest : |∫ x in (a + N * h)..b, G x| ≤ M * h := by
    have := intervalIntegral.norm_integral_le_of_norm_le_const (a := a + N * h) (b := b) (f := G) (C := M)
      (fun x _ => hG x)
    rw [abs_of_nonneg (by linarith)] at this
    refine this.trans (mul_le_mul_of_nonneg_left (by linarith) hM0)
  have htot : ∫ x in Ioo a b, g x = (∫ x in a..(a + N * h), G x) + ∫ x in (a + N * h)..b, G x := by
    rw [intervalIntegral.integral_add_adjacent_intervals (hGint _ _) (hGint _ _),
      intervalIntegral.integral_of_le hab.le, integral_Ioc_eq_integral_Ioo, hGd]
    exact setIntegral_congr_fun measurableSet_Ioo (fun x hx => (indicator_of_mem hx g).symm)
  rw [htot, ← sub_sub]
  refine (abs_sub _ _).trans ?_
  have : M * h ≤ M * η := mul_le_mul_of_nonneg_left hhη.le hM0
  have : 0 ≤ M * η := by positivity
  linarith

end IntegratorXX
