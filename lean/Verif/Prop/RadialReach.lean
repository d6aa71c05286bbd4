import Verif.Prop.Radial
import Mathlib.Analysis.SpecialFunctions.Trigonometric.Bounds

/-!
# C109: the distances a radial grid covers
-/

namespace IntegratorXX

open Spec RadialTraits

private theorem reach (b : Build) (t : RadialTraits ℝ) (hn : t.npts + 2 < sizeMod) (h1 : 1 ≤ t.npts) :
    Returns (construct b t.generate) (fun q => q.points.length = t.npts ∧
      q.points[0]? = some (radialMap t (t.nodeXR 0)) ∧
      q.points[t.npts - 1]? = some (radialMap t (t.nodeXR (t.npts - 1)))) := by
  refine ⟨_, by rw [generate_real t hn]; exact construct_ok b (by simp), by simp, ?_, ?_⟩
  · rw [List.getElem?_map, List.getElem?_range (by omega), Option.map_some, transform_eq_radialMap]
  · rw [List.getElem?_map, List.getElem?_range (by omega), Option.map_some, transform_eq_radialMap]

private theorem inner_angle {n : ℕ} (h1 : 1 ≤ n) : Real.cos (gc2A n 0) = -Real.cos (Real.pi / (n + 1)) := by
  rw [← Real.cos_pi_sub]
  congr 1
  unfold gc2A
  rw [Nat.sub_zero]
  field_simp
  ring

private theorem outer_angle {n : ℕ} (h1 : 1 ≤ n) : Real.cos (gc2A n (n - 1)) = Real.cos (Real.pi / (n + 1)) := by
  congr 1
  unfold gc2A
  rw [show n - (n - 1) = 1 by omega]
  simp

/-- The half angle: `0 < y ≤ π/4`, `1 + cos 2y = 2 cos² y`, `1 - cos 2y = 2 sin² y`. -/
private theorem half {n : ℕ} (h1 : 1 ≤ n) : ∃ y, y = Real.pi / (2 * ((n : ℝ) + 1)) ∧ 0 < y ∧ y ≤ Real.pi / 4 ∧
    1 + Real.cos (Real.pi / (n + 1)) = 2 * Real.cos y ^ 2 ∧ 1 - Real.cos (Real.pi / (n + 1)) = 2 * Real.sin y ^ 2 ∧
    1 / 2 ≤ Real.cos y ^ 2 ∧ 0 < Real.cos y ∧ 1 / ((n : ℝ) + 1) ≤ Real.sin y ∧ Real.sin y ≤ y := by
  have hn : (1 : ℝ) ≤ n := by exact_mod_cast h1
  have hpi := Real.pi_pos
  have h0 : 0 < Real.pi / (2 * ((n : ℝ) + 1)) := by positivity
  have h4 : Real.pi / (2 * ((n : ℝ) + 1)) ≤ Real.pi / 4 := by
    gcongr
    linarith
  have e : Real.pi / ((n : ℝ) + 1) = 2 * (Real.pi / (2 * ((n : ℝ) + 1))) := by field_simp
  have hc : √2 / 2 ≤ Real.cos (Real.pi / (2 * ((n : ℝ) + 1))) := by
    rw [← Real.cos_pi_div_four]
    exact Real.cos_le_cos_of_nonneg_of_le_pi h0.le (by linarith) h4
  have hs2 : 0 < √(2 : ℝ) := by positivity
  refine ⟨_, rfl, h0, h4, ?_, ?_, ?_, by linarith, ?_, Real.sin_le h0.le⟩
  · rw [e, Real.cos_two_mul]; ring
  · rw [e, Real.cos_two_mul, Real.sin_sq]; ring
  · have : (√2 / 2) ^ 2 ≤ Real.cos (Real.pi / (2 * ((n : ℝ) + 1))) ^ 2 := by gcongr
    rw [div_pow, Real.sq_sqrt (by norm_num)] at this
    linarith
  · have := Real.mul_le_sin h0.le (by linarith)
    refine le_trans (le_of_eq ?_) this
    field_simp

/-- **C109.**  Becke: the outermost radius grows like the square of the number of points. -/
theorem C109_becke (b : Build) (n : ℕ) (h1 : 1 ≤ n) (hn : n + 2 < sizeMod) (R : ℝ) (hR : 0 < R) :
    Returns (construct b (RadialTraits.becke n R).generate) (fun q => q.points.length = n ∧
      ∃ a z, q.points[0]? = some a ∧ q.points[n - 1]? = some z ∧ a * z = R ^ 2 ∧
        2 / Real.pi ^ 2 * (n + 1) ^ 2 * R ≤ z ∧ z ≤ 4 / Real.pi ^ 2 * (n + 1) ^ 2 * R) := by
  obtain ⟨q, hq, hl, ha, hz⟩ := reach b (.becke n R) hn h1
  refine ⟨q, hq, hl, _, _, ha, hz, ?_⟩
  obtain ⟨y, hy, y0, y4, e1, e2, c2, c0, s1, s2⟩ := half h1
  have hs : 0 < Real.sin y := lt_of_lt_of_le (by positivity) s1
  have ea : radialMap (.becke n R) (nodeXR (.becke n R) 0) = R * (Real.sin y ^ 2 / Real.cos y ^ 2) := by
    show R * ((1 + Real.cos (gc2A n 0)) / (1 - Real.cos (gc2A n 0))) = _
    rw [inner_angle h1, sub_neg_eq_add, ← sub_eq_add_neg, e1, e2]
    rw [mul_div_mul_left _ _ (by norm_num)]
  have ez : radialMap (.becke n R) (nodeXR (.becke n R) (n - 1)) = R * (Real.cos y ^ 2 / Real.sin y ^ 2) := by
    show R * ((1 + Real.cos (gc2A n (n - 1))) / (1 - Real.cos (gc2A n (n - 1)))) = _
    rw [outer_angle h1, e1, e2, mul_div_mul_left _ _ (by norm_num)]
  have hyinv : ((n : ℝ) + 1) = Real.pi / (2 * y) := by
    rw [hy]
    have := Real.pi_pos
    field_simp
  refine ⟨?_, ?_, ?_⟩
  · rw [ea]
    show R * (Real.sin y ^ 2 / Real.cos y ^ 2) * radialMap (.becke n R) (nodeXR (.becke n R) (n - 1)) = R ^ 2
    rw [ez]
    field_simp
  · show _ ≤ radialMap (.becke n R) (nodeXR (.becke n R) (n - 1))
    rw [ez, hyinv]
    have hpi := Real.pi_pos
    have e : 2 / Real.pi ^ 2 * (Real.pi / (2 * y)) ^ 2 * R = R * (1 / 2 / y ^ 2) := by field_simp
    rw [e]
    gcongr
  · show radialMap (.becke n R) (nodeXR (.becke n R) (n - 1)) ≤ _
    rw [ez, hyinv]
    have hpi := Real.pi_pos
    have e : 4 / Real.pi ^ 2 * (Real.pi / (2 * y)) ^ 2 * R = R * (1 / y ^ 2) := by field_simp; ring
    rw [e]
    have ht : y ≤ Real.tan y := Real.le_tan y0.le (by linarith)
    have ht2 : y ^ 2 ≤ Real.tan y ^ 2 := by gcongr
    rw [Real.tan_eq_sin_div_cos, div_pow] at ht2
    have : Real.cos y ^ 2 / Real.sin y ^ 2 = 1 / (Real.sin y ^ 2 / Real.cos y ^ 2) := by field_simp
    rw [this]
    gcongr

/-- **C109.**  MurrayHandyLaming: from `R/n^M` to `R n^M`. -/
theorem C109_mhl (b : Build) (M n : ℕ) (h1 : 1 ≤ n) (hn : n + 2 < sizeMod) (R : ℝ) :
    Returns (construct b (RadialTraits.mhl M n R).generate) (fun q => q.points.length = n ∧
      q.points[0]? = some (R / n ^ M) ∧ q.points[n - 1]? = some (R * n ^ M)) := by
  obtain ⟨q, hq, hl, ha, hz⟩ := reach b (.mhl M n R) hn h1
  have hn1 : (1 : ℝ) ≤ n := by exact_mod_cast h1
  refine ⟨q, hq, hl, ha.trans (congrArg some ?_), hz.trans (congrArg some ?_)⟩
  · show R * ((((0 : ℕ) : ℝ) + 1) / (n + 1) / (1 - (((0 : ℕ) : ℝ) + 1) / (n + 1))) ^ M = R / n ^ M
    have e : (((0 : ℕ) : ℝ) + 1) / (n + 1) / (1 - (((0 : ℕ) : ℝ) + 1) / (n + 1)) = (n : ℝ)⁻¹ := by
      have e : (1 : ℝ) - 1 / (n + 1) = n / (n + 1) := by field_simp; ring
      rw [Nat.cast_zero, zero_add, e]
      field_simp
    rw [e, inv_pow, div_eq_mul_inv]
  · show R * ((((n - 1 : ℕ) : ℝ) + 1) / (n + 1) / (1 - (((n - 1 : ℕ) : ℝ) + 1) / (n + 1))) ^ M = R * n ^ M
    have e : (((n - 1 : ℕ) : ℝ) + 1) / (n + 1) / (1 - (((n - 1 : ℕ) : ℝ) + 1) / (n + 1)) = (n : ℝ) := by
      have e : (1 : ℝ) - n / (n + 1) = 1 / (n + 1) := by field_simp; ring
      rw [Nat.cast_sub h1, Nat.cast_one, sub_add_cancel, e]
      field_simp
    rw [e]

/-- **C109.**  MuraKnowles: the outermost radius grows with the logarithm of the number of points only. -/
theorem C109_mk (b : Build) (n : ℕ) (h1 : 1 ≤ n) (hn : n + 2 < sizeMod) (R : ℝ) (hR : 0 < R) :
    Returns (construct b (RadialTraits.mk n R).generate) (fun q => q.points.length = n ∧
      ∃ a z, q.points[0]? = some a ∧ q.points[n - 1]? = some z ∧
        R / (n + 1) ^ 3 ≤ a ∧ a ≤ 8 / 7 * (R / (n + 1) ^ 3) ∧
        R * Real.log ((n + 1) / 3) ≤ z ∧ z ≤ R * Real.log (n + 1)) := by
  obtain ⟨q, hq, hl, ha, hz⟩ := reach b (.mk n R) hn h1
  have hn1 : (1 : ℝ) ≤ n := by exact_mod_cast h1
  refine ⟨q, hq, hl, _, _, ha, hz, ?_⟩
  set c : ℝ := (n : ℝ) + 1 with hc
  have hc2 : 2 ≤ c := by linarith
  have ea : radialMap (.mk n R) (nodeXR (.mk n R) 0) = R * -Real.log (1 - 1 / c ^ 3) := by
    show -R * Real.log (1 - ((((0 : ℕ) : ℝ) + 1) / (n + 1)) ^ 3) = _
    rw [Nat.cast_zero, zero_add, div_pow, one_pow]
    ring
  have ez : radialMap (.mk n R) (nodeXR (.mk n R) (n - 1)) = R * -Real.log (1 - (1 - 1 / c) ^ 3) := by
    show -R * Real.log (1 - ((((n - 1 : ℕ) : ℝ) + 1) / (n + 1)) ^ 3) = _
    rw [Nat.cast_sub h1, Nat.cast_one, sub_add_cancel]
    have : (n : ℝ) / (n + 1) = 1 - 1 / c := by rw [hc]; field_simp; ring
    rw [this]
    ring
  have hy0 : 0 < 1 / c ^ 3 := by positivity
  have hy8 : 1 / c ^ 3 ≤ 1 / 8 := by
    have : (2 : ℝ) ^ 3 ≤ c ^ 3 := by gcongr
    have e : (1 : ℝ) / 8 = 1 / 2 ^ 3 := by norm_num
    rw [e]
    gcongr
  have hw0 : 0 < 1 / c := by positivity
  have hw2 : 1 / c ≤ 1 / 2 := by gcongr
  have hrc : R / c ^ 3 = R * (1 / c ^ 3) := by ring
  rw [ea]
  refine ⟨?_, ?_, ?_, ?_⟩
  · rw [hrc]
    gcongr
    have := Real.log_le_sub_one_of_pos (show 0 < 1 - 1 / c ^ 3 by linarith)
    linarith
  · rw [hrc]
    have h2 := Real.log_le_sub_one_of_pos (inv_pos.2 (show 0 < 1 - 1 / c ^ 3 by linarith))
    rw [Real.log_inv] at h2
    generalize 1 / c ^ 3 = y at *
    have h3 : (1 - y)⁻¹ - 1 ≤ 8 / 7 * y := by
      have h4 : (1 - y)⁻¹ ≤ 1 + 8 / 7 * y := by
        rw [inv_le_iff_one_le_mul₀ (by linarith)]
        nlinarith
      linarith
    have := mul_le_mul_of_nonneg_left (h2.trans h3) hR.le
    linarith
  · show _ ≤ radialMap (.mk n R) (nodeXR (.mk n R) (n - 1))
    rw [ez]
    gcongr
    rw [← Real.log_inv]
    have hp : 0 < 1 - (1 - 1 / c) ^ 3 := by
      have e : 1 - (1 - 1 / c) ^ 3 = 1 / c * (3 - 3 * (1 / c) + (1 / c) ^ 2) := by ring
      rw [e]
      exact mul_pos hw0 (by nlinarith)
    refine Real.log_le_log (by positivity) ?_
    rw [le_inv_comm₀ (by positivity) hp, inv_div]
    have e : (3 : ℝ) / c = 3 * (1 / c) := by ring
    rw [e]
    generalize 1 / c = w at *
    nlinarith [mul_pos hw0 hw0]
  · show radialMap (.mk n R) (nodeXR (.mk n R) (n - 1)) ≤ _
    rw [ez]
    gcongr
    rw [← Real.log_inv]
    have hp : 1 / c ≤ 1 - (1 - 1 / c) ^ 3 := by
      generalize 1 / c = w at *
      nlinarith [mul_pos hw0 hw0]
    refine Real.log_le_log (inv_pos.2 (by linarith)) ?_
    rw [inv_le_comm₀ (by linarith) (by linarith), ← one_div]
    exact hp

/-- **C109.**  TreutlerAhlrichs: likewise, with a factor between 1 and `2^alpha`. -/
theorem C109_ta (b : Build) (n : ℕ) (h1 : 1 ≤ n) (hn : n + 2 < sizeMod) (R alpha : ℝ) (hR : 0 < R) (ha : 0 ≤ alpha) :
    Returns (construct b (RadialTraits.ta n R alpha).generate) (fun q => q.points.length = n ∧
      ∃ a z, q.points[0]? = some a ∧ q.points[n - 1]? = some z ∧
        R / ln2Literal * (2 / ((n : ℝ) + 1) ^ 2) ^ alpha * (1 / ((n : ℝ) + 1) ^ 2) ≤ a ∧
        a ≤ R / ln2Literal * (Real.pi ^ 2 / (2 * ((n : ℝ) + 1) ^ 2)) ^ alpha * (Real.pi ^ 2 / (2 * ((n : ℝ) + 1) ^ 2)) ∧
        R / ln2Literal * (2 * Real.log (2 * ((n : ℝ) + 1) / Real.pi)) ≤ z ∧
        z ≤ R / ln2Literal * 2 ^ alpha * (2 * Real.log ((n : ℝ) + 1))) := by
  obtain ⟨q, hq, hl, ha', hz⟩ := reach b (.ta n R alpha) hn h1
  refine ⟨q, hq, hl, _, _, ha', hz, ?_⟩
  obtain ⟨y, hy, y0, y4, e1, e2, c2, c0, s1, s2⟩ := half h1
  have hn1 : (1 : ℝ) ≤ n := by exact_mod_cast h1
  have hpi := Real.pi_pos
  have hs : 0 < Real.sin y := lt_of_lt_of_le (by positivity) s1
  have hln := ln2Literal_pos
  have hsc := Real.sin_sq_add_cos_sq y
  have ea : radialMap (.ta n R alpha) (nodeXR (.ta n R alpha) 0) =
      R / ln2Literal * (2 * Real.sin y ^ 2) ^ alpha * Real.log (1 / Real.cos y ^ 2) := by
    show R / ln2Literal * (1 + Real.cos (gc2A n 0)) ^ alpha * Real.log (2 / (1 - Real.cos (gc2A n 0))) = _
    rw [inner_angle h1, sub_neg_eq_add, ← sub_eq_add_neg, e1, e2]
    congr 2
    field_simp
  have ez : radialMap (.ta n R alpha) (nodeXR (.ta n R alpha) (n - 1)) =
      R / ln2Literal * (2 * Real.cos y ^ 2) ^ alpha * (2 * Real.log (1 / Real.sin y)) := by
    show R / ln2Literal * (1 + Real.cos (gc2A n (n - 1))) ^ alpha *
      Real.log (2 / (1 - Real.cos (gc2A n (n - 1)))) = _
    rw [outer_angle h1, e1, e2]
    congr 1
    have : 2 / (2 * Real.sin y ^ 2) = (1 / Real.sin y) ^ 2 := by field_simp
    rw [this, Real.log_pow]
    norm_num
  have hy2 : Real.pi ^ 2 / (2 * ((n : ℝ) + 1) ^ 2) = 2 * y ^ 2 := by rw [hy]; field_simp
  have hsn : 1 / ((n : ℝ) + 1) ^ 2 ≤ Real.sin y ^ 2 := by
    rw [← one_div_pow]
    gcongr
  have h2n : 2 / ((n : ℝ) + 1) ^ 2 = 2 * (1 / ((n : ℝ) + 1) ^ 2) := by ring
  have lo : Real.sin y ^ 2 ≤ Real.log (1 / Real.cos y ^ 2) := by
    rw [one_div, Real.log_inv]
    have := Real.log_le_sub_one_of_pos (show 0 < Real.cos y ^ 2 by positivity)
    linarith
  have hi : Real.log (1 / Real.cos y ^ 2) ≤ 2 * y ^ 2 := by
    have h3 := Real.log_le_sub_one_of_pos (show 0 < 1 / Real.cos y ^ 2 by positivity)
    have h4 : 1 / Real.cos y ^ 2 - 1 = Real.sin y ^ 2 / Real.cos y ^ 2 := by
      field_simp
      linarith
    have h5 : Real.sin y ^ 2 / Real.cos y ^ 2 ≤ y ^ 2 / (1 / 2) := by gcongr
    rw [h4] at h3
    linarith
  rw [ea]
  refine ⟨?_, ?_, ?_, ?_⟩
  · rw [h2n]
    have h6 := hsn.trans lo
    gcongr
  · rw [hy2]
    have : (0 : ℝ) ≤ Real.log (1 / Real.cos y ^ 2) := le_trans (by positivity) lo
    gcongr
  · show _ ≤ radialMap (.ta n R alpha) (nodeXR (.ta n R alpha) (n - 1))
    rw [ez]
    have h7 : (1 : ℝ) ≤ (2 * Real.cos y ^ 2) ^ alpha := Real.one_le_rpow (by linarith) ha
    have h8 : Real.log (2 * ((n : ℝ) + 1) / Real.pi) ≤ Real.log (1 / Real.sin y) := by
      refine Real.log_le_log (by positivity) ?_
      have : 2 * ((n : ℝ) + 1) / Real.pi = 1 / y := by rw [hy]; field_simp
      rw [this]
      gcongr
    have h9 : 0 ≤ Real.log (1 / Real.sin y) := Real.log_nonneg (by
      rw [le_div_iff₀ hs, one_mul]
      exact Real.sin_le_one y)
    have h10 : R / ln2Literal * 1 ≤ R / ln2Literal * (2 * Real.cos y ^ 2) ^ alpha := by gcongr
    rw [mul_one] at h10
    calc R / ln2Literal * (2 * Real.log (2 * ((n : ℝ) + 1) / Real.pi)) ≤
          R / ln2Literal * (2 * Real.log (1 / Real.sin y)) := by gcongr
      _ ≤ R / ln2Literal * (2 * Real.cos y ^ 2) ^ alpha * (2 * Real.log (1 / Real.sin y)) :=
          mul_le_mul_of_nonneg_right h10 (by positivity)
  · show radialMap (.ta n R alpha) (nodeXR (.ta n R alpha) (n - 1)) ≤ _
    rw [ez]
    have h8 : Real.log (1 / Real.sin y) ≤ Real.log ((n : ℝ) + 1) := by
      refine Real.log_le_log (by positivity) ?_
      rw [div_le_iff₀ hs]
      rw [div_le_iff₀ (by positivity)] at s1
      linarith
    have h9 : 0 ≤ Real.log (1 / Real.sin y) := Real.log_nonneg (by
      rw [le_div_iff₀ hs, one_mul]
      exact Real.sin_le_one y)
    have h11 : 2 * Real.cos y ^ 2 ≤ 2 := by nlinarith [Real.cos_le_one y]
    gcongr

/-- The hypotheses hold for a grid of 75 points. -/
example : 1 ≤ 75 ∧ 75 + 2 < sizeMod ∧ (0 : ℝ) < 2 ∧ (0 : ℝ) ≤ 0.6 := by
  refine ⟨by norm_num, by simp [sizeMod], by norm_num, by norm_num⟩

end IntegratorXX
