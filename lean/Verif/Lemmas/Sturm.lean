import Mathlib.Analysis.Calculus.Deriv.MeanValue
import Mathlib.Analysis.SpecialFunctions.Trigonometric.Basic
import Mathlib.Analysis.SpecialFunctions.Trigonometric.Deriv
import Mathlib.Topology.Order.IntermediateValue
import Mathlib.Tactic.LinearCombination
import Mathlib.Tactic.FieldSimp
import Mathlib.Tactic.Ring

/-!
# Sturm comparison with `u'' + l² u = 0`
-/

namespace IntegratorXX

open Set Filter Topology Real

/-- A continuous function without zeros on an open interval has one sign there. -/
theorem sign_of_no_zero {u : ℝ → ℝ} {a b : ℝ} (hc : ContinuousOn u (Ioo a b))
    (h : ∀ t ∈ Ioo a b, u t ≠ 0) : (∀ t ∈ Ioo a b, 0 < u t) ∨ ∀ t ∈ Ioo a b, u t < 0 := by
  by_contra hcon
  push Not at hcon
  obtain ⟨⟨s, hs, hs'⟩, t, ht, ht'⟩ := hcon
  have hsub : uIcc s t ⊆ Ioo a b := by
    intro y hy
    rw [mem_uIcc] at hy
    rcases hy with ⟨h1, h2⟩ | ⟨h1, h2⟩
    · exact ⟨hs.1.trans_le h1, h2.trans_lt ht.2⟩
    · exact ⟨ht.1.trans_le h1, h2.trans_lt hs.2⟩
  have := intermediate_value_uIcc (hc.mono hsub)
  obtain ⟨y, hy, hy0⟩ := this (mem_uIcc.2 (.inl ⟨hs', ht'⟩))
  exact h y (hsub hy) hy0

private theorem wronskian_deriv {u u1 q : ℝ → ℝ} {a l t : ℝ} (h1 : HasDerivAt u (u1 t) t)
    (h2 : HasDerivAt u1 (-(q t * u t)) t) :
    HasDerivAt (fun t => u1 t * sin (l * (t - a)) - u t * (l * cos (l * (t - a))))
      ((l ^ 2 - q t) * u t * sin (l * (t - a))) t := by
  have hi : HasDerivAt (fun t => l * (t - a)) l t := by
    simpa using ((hasDerivAt_id t).sub_const a).const_mul l
  have hs := hi.sin
  have hc := hi.cos.const_mul l
  exact ((h2.mul hs).sub (h1.mul hc)).congr_deriv (by ring)

private theorem sturm_zero_pos {u u1 q : ℝ → ℝ} {a l : ℝ} (hl : 0 < l)
    (h1 : ∀ t ∈ Icc a (a + π / l), HasDerivAt u (u1 t) t)
    (h2 : ∀ t ∈ Icc a (a + π / l), HasDerivAt u1 (-(q t * u t)) t)
    (hq : ∀ t ∈ Ioo a (a + π / l), l ^ 2 < q t)
    (hpos : ∀ t ∈ Ioo a (a + π / l), 0 < u t) : False := by
  have hπ := Real.pi_pos
  have hlen : 0 < π / l := by positivity
  have hab : a < a + π / l := by linarith
  have ha : a ∈ Icc a (a + π / l) := left_mem_Icc.2 hab.le
  have hb : a + π / l ∈ Icc a (a + π / l) := right_mem_Icc.2 hab.le
  have ua : 0 ≤ u a := by
    refine ge_of_tendsto ((h1 a ha).continuousAt.tendsto.mono_left
      (nhdsWithin_le_nhds (s := Ioi a))) ?_
    exact mem_of_superset (Ioo_mem_nhdsGT hab) (fun t ht => (hpos t ht).le)
  have ub : 0 ≤ u (a + π / l) := by
    refine ge_of_tendsto ((h1 _ hb).continuousAt.tendsto.mono_left
      (nhdsWithin_le_nhds (s := Iio (a + π / l)))) ?_
    exact mem_of_superset (Ioo_mem_nhdsLT hab) (fun t ht => (hpos t ht).le)
  have hW := fun t ht => wronskian_deriv (a := a) (l := l) (h1 t ht) (h2 t ht)
  have hanti : StrictAntiOn (fun t => u1 t * sin (l * (t - a)) - u t * (l * cos (l * (t - a))))
      (Icc a (a + π / l)) := by
    refine strictAntiOn_of_deriv_neg (convex_Icc _ _) (fun t ht => (hW t ht).continuousAt.continuousWithinAt) ?_
    intro t ht
    rw [interior_Icc] at ht
    rw [(hW t (Ioo_subset_Icc_self ht)).deriv]
    have hs : 0 < sin (l * (t - a)) := by
      apply sin_pos_of_pos_of_lt_pi
      · exact mul_pos hl (by linarith [ht.1])
      · have : t - a < π / l := by linarith [ht.2]
        rw [lt_div_iff₀ hl] at this
        linarith
    have := hpos t ht
    have := hq t ht
    have h3 : 0 < u t * sin (l * (t - a)) := by positivity
    nlinarith
  have := hanti ha hb hab
  dsimp only at this
  rw [show l * (a + π / l - a) = π by field_simp; ring] at this
  simp only [sub_self, mul_zero, sin_zero, cos_zero, sin_pi, cos_pi] at this
  nlinarith

/-- If `u'' = -q u` with `q > l²`, every interval of length `π/l` contains a zero of `u`. -/
theorem sturm_zero {u u1 q : ℝ → ℝ} {a l : ℝ} (hl : 0 < l)
    (h1 : ∀ t ∈ Icc a (a + π / l), HasDerivAt u (u1 t) t)
    (h2 : ∀ t ∈ Icc a (a + π / l), HasDerivAt u1 (-(q t * u t)) t)
    (hq : ∀ t ∈ Ioo a (a + π / l), l ^ 2 < q t) :
    ∃ t ∈ Ioo a (a + π / l), u t = 0 := by
  by_contra hcon
  push Not at hcon
  have hc : ContinuousOn u (Ioo a (a + π / l)) := fun t ht =>
    (h1 t (Ioo_subset_Icc_self ht)).continuousAt.continuousWithinAt
  rcases sign_of_no_zero hc hcon with h | h
  · exact sturm_zero_pos hl h1 h2 hq h
  · refine sturm_zero_pos (u := fun t => -u t) (u1 := fun t => -u1 t) (q := q) hl
      (fun t ht => (h1 t ht).neg) (fun t ht => ((h2 t ht).neg).congr_deriv (by ring)) hq
      (fun t ht => neg_pos.2 (h t ht))

private theorem sturm_gap_pos {u u1 q : ℝ → ℝ} {a b l : ℝ} (hl : 0 < l) (hab : a < b)
    (hcu : ContinuousOn u (Icc a b)) (hcu1 : ContinuousOn u1 (Icc a b))
    (h1 : ∀ t ∈ Ioo a b, HasDerivAt u (u1 t) t)
    (h2 : ∀ t ∈ Ioo a b, HasDerivAt u1 (-(q t * u t)) t)
    (hb : HasDerivAt u (u1 b) b) (ua : u a = 0) (ub : u b = 0)
    (hq : ∀ t ∈ Ioo a b, q t < l ^ 2) (hpos : ∀ t ∈ Ioo a b, 0 < u t) : π / l ≤ b - a := by
  by_contra hcon
  push Not at hcon
  rw [lt_div_iff₀ hl] at hcon
  have hπ := Real.pi_pos
  have u1b : u1 b ≤ 0 := by
    have h3 := (hasDerivAt_iff_tendsto_slope.1 hb).mono_left
      (nhdsWithin_mono b (fun t (ht : t ∈ Iio b) => (ne_of_lt ht : t ≠ b)))
    refine le_of_tendsto h3 ?_
    refine mem_of_superset (Ioo_mem_nhdsLT hab) (fun t ht => ?_)
    show slope u b t ≤ 0
    rw [slope_def_field, ub, sub_zero]
    exact div_nonpos_of_nonneg_of_nonpos (hpos t ht).le (by linarith [ht.2])
  have hmono : StrictMonoOn (fun t => u1 t * sin (l * (t - a)) - u t * (l * cos (l * (t - a))))
      (Icc a b) := by
    refine strictMonoOn_of_deriv_pos (convex_Icc _ _) ?_ ?_
    · refine (hcu1.mul ?_).sub (hcu.mul ?_)
      · exact (by fun_prop : Continuous fun t => sin (l * (t - a))).continuousOn
      · exact (by fun_prop : Continuous fun t => l * cos (l * (t - a))).continuousOn
    · intro t ht
      rw [interior_Icc] at ht
      rw [(wronskian_deriv (h1 t ht) (h2 t ht)).deriv]
      have hs : 0 < sin (l * (t - a)) := by
        apply sin_pos_of_pos_of_lt_pi
        · exact mul_pos hl (by linarith [ht.1])
        · nlinarith [ht.2]
      have := hpos t ht
      have := hq t ht
      have h3 : 0 < u t * sin (l * (t - a)) := by positivity
      nlinarith
  have := hmono (left_mem_Icc.2 hab.le) (right_mem_Icc.2 hab.le) hab
  dsimp only at this
  rw [ua, ub] at this
  simp only [sub_self, mul_zero, sin_zero, zero_mul, sub_zero] at this
  have hs : 0 ≤ sin (l * (b - a)) := by
    apply sin_nonneg_of_nonneg_of_le_pi
    · exact mul_nonneg hl.le (by linarith)
    · nlinarith
  nlinarith

/-- If `u'' = -q u` with `q < l²`, consecutive zeros of `u` are at least `π/l` apart. -/
theorem sturm_gap {u u1 q : ℝ → ℝ} {a b l : ℝ} (hl : 0 < l) (hab : a < b)
    (hcu : ContinuousOn u (Icc a b)) (hcu1 : ContinuousOn u1 (Icc a b))
    (h1 : ∀ t ∈ Ioo a b, HasDerivAt u (u1 t) t)
    (h2 : ∀ t ∈ Ioo a b, HasDerivAt u1 (-(q t * u t)) t)
    (hb : HasDerivAt u (u1 b) b) (ua : u a = 0) (ub : u b = 0)
    (hq : ∀ t ∈ Ioo a b, q t < l ^ 2) (hne : ∀ t ∈ Ioo a b, u t ≠ 0) : π / l ≤ b - a := by
  rcases sign_of_no_zero (hcu.mono Ioo_subset_Icc_self) hne with h | h
  · exact sturm_gap_pos hl hab hcu hcu1 h1 h2 hb ua ub hq h
  · exact sturm_gap_pos (u := fun t => -u t) (u1 := fun t => -u1 t) (q := q) hl hab hcu.neg hcu1.neg
      (fun t ht => (h1 t ht).neg) (fun t ht => ((h2 t ht).neg).congr_deriv (by ring)) hb.neg
      (by simp [ua]) (by simp [ub]) hq (fun t ht => neg_pos.2 (h t ht))

end IntegratorXX
