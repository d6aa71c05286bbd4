import Verif.Prop.Pruning
import Verif.Prop.Radial
import Verif.Spec.CutRadius

/-!
# C108: the distances at which the pruning schemes change the angular grid
-/

namespace IntegratorXX

open Spec RadialTraits

/-- The node at the fraction `1/k` of the points. -/
private noncomputable def cutNode (t : RadialTraits ℝ) (k : ℕ) : ℝ :=
  if t.inclusive then 1 / (k : ℝ) else -Real.cos (Real.pi / k)

private theorem pi_div_mem {k : ℕ} (hk : 2 ≤ k) : 0 < Real.pi / k ∧ Real.pi / k < Real.pi := by
  have h2 : (2 : ℝ) ≤ k := by exact_mod_cast hk
  refine ⟨by positivity, ?_⟩
  rw [div_lt_iff₀ (by positivity)]
  nlinarith [Real.pi_pos]

private theorem cos_pi_div {k : ℕ} (hk : 2 ≤ k) : -1 < Real.cos (Real.pi / k) ∧ Real.cos (Real.pi / k) < 1 := by
  obtain ⟨h0, h1⟩ := pi_div_mem hk
  constructor
  · rw [← Real.cos_pi]; exact Real.cos_lt_cos_of_nonneg_of_le_pi h0.le le_rfl h1
  · rw [← Real.cos_zero]; exact Real.cos_lt_cos_of_nonneg_of_le_pi le_rfl h1.le h0

private theorem cutNode_mem (t : RadialTraits ℝ) {k : ℕ} (hk : 2 ≤ k) : cutNode t k ∈ radialDomain t := by
  have h2 : (2 : ℝ) ≤ k := by exact_mod_cast hk
  obtain ⟨c0, c1⟩ := cos_pi_div hk
  have h1 : t.inclusive = false → cutNode t k ∈ Set.Ioo (-1 : ℝ) 1 := by
    intro h
    simp only [cutNode, h]
    constructor
    · simp only [Bool.false_eq_true, if_false]; linarith
    · simp only [Bool.false_eq_true, if_false]; linarith
  have h3 : t.inclusive = true → cutNode t k ∈ Set.Ioo (0 : ℝ) 1 := by
    intro h
    simp only [cutNode, h, if_true]
    refine ⟨by positivity, ?_⟩
    rw [div_lt_one (by positivity)]; linarith
  cases t with
  | becke => exact h1 rfl
  | mhl => exact h3 rfl
  | mk => exact h3 rfl
  | ta => exact h1 rfl

private theorem cutRadius_eq (t : RadialTraits ℝ) {k : ℕ} (hk : 2 ≤ k) : radialMap t (cutNode t k) = cutRadius t k := by
  have h2 : (2 : ℝ) ≤ k := by exact_mod_cast hk
  cases t with
  | becke n R =>
    show R * ((1 + -Real.cos (Real.pi / k)) / (1 - -Real.cos (Real.pi / k))) = R * Real.tan (Real.pi / (2 * k)) ^ 2
    have e : Real.pi / k = 2 * (Real.pi / (2 * k)) := by field_simp
    obtain ⟨h0, h1⟩ := pi_div_mem hk
    have hc : Real.cos (Real.pi / (2 * k)) ≠ 0 := by
      refine (Real.cos_pos_of_mem_Ioo ⟨?_, ?_⟩).ne' <;> rw [e] at h0 h1 <;> linarith
    rw [e, Real.cos_two_mul, Real.tan_eq_sin_div_cos, div_pow, Real.sin_sq]
    congr 1
    have : 1 - -(2 * Real.cos (Real.pi / (2 * k)) ^ 2 - 1) = 2 * Real.cos (Real.pi / (2 * k)) ^ 2 := by ring
    rw [this]
    field_simp
    ring
  | mhl M n R =>
    show R * ((1 / (k : ℝ)) / (1 - 1 / (k : ℝ))) ^ M = R * (1 / ((k : ℝ) - 1)) ^ M
    congr 2
    have : (k : ℝ) - 1 ≠ 0 := by linarith
    have : (k : ℝ) ≠ 0 := by linarith
    field_simp
  | mk n R =>
    show -R * Real.log (1 - (1 / (k : ℝ)) ^ 3) = -R * Real.log (1 - 1 / (k : ℝ) ^ 3)
    rw [div_pow, one_pow]
  | ta n R alpha =>
    show R / ln2Literal * (1 + -Real.cos (Real.pi / k)) ^ alpha * Real.log (2 / (1 - -Real.cos (Real.pi / k))) = _
    rw [sub_neg_eq_add, ← sub_eq_add_neg]
    rfl

private theorem node_lt (t : RadialTraits ℝ) {k : ℕ} (hk : 2 ≤ k) {i : ℕ} (hi : i < t.npts) :
    t.nodeXR i < cutNode t k ↔ i + 1 < t.npts / k + 1 := by
  have h2 : (2 : ℝ) ≤ k := by exact_mod_cast hk
  have hk0 : (0 : ℝ) < k := by linarith
  have hn0 : (0 : ℝ) < t.npts + 1 := by positivity
  have harith : i + 1 < t.npts / k + 1 ↔ (i + 1) * k < t.npts + 1 := by
    rw [Nat.lt_succ_iff, Nat.le_div_iff_mul_le (by omega), Nat.lt_succ_iff]
  have hreal : (((i : ℝ) + 1) / (t.npts + 1) < 1 / k) ↔ (i + 1) * k < t.npts + 1 := by
    rw [div_lt_div_iff₀ hn0 hk0, one_mul]
    exact_mod_cast Iff.rfl
  rw [harith, ← hreal]
  unfold nodeXR cutNode
  split_ifs
  · rfl
  · have e : Real.cos (gc2A t.npts i) = -Real.cos (Real.pi * (((i : ℝ) + 1) / (t.npts + 1))) := by
      rw [← Real.cos_pi_sub]
      congr 1
      unfold gc2A
      rw [Nat.cast_sub hi.le]
      field_simp
      ring
    rw [e, neg_lt_neg_iff]
    have hlt : ((i : ℝ) + 1) / (t.npts + 1) < 1 := by
      rw [div_lt_one hn0]
      have : (i : ℝ) < t.npts := by exact_mod_cast hi
      linarith
    have hpos : 0 < ((i : ℝ) + 1) / (t.npts + 1) := by positivity
    obtain ⟨h0, h1⟩ := pi_div_mem hk
    have hpi := Real.pi_pos
    have ek : Real.pi / k = Real.pi * (1 / k) := by ring
    rw [Real.strictAntiOn_cos.lt_iff_gt ⟨h0.le, h1.le⟩ ⟨by positivity, by nlinarith⟩, ek, mul_lt_mul_iff_right₀ hpi]

private theorem cutAt (b : Build) (t : RadialTraits ℝ) (h : radialValid t) (hn : t.npts + 2 < sizeMod) {k : ℕ}
    (hk : 2 ≤ k) : Returns (construct b t.generate) (fun q => CutAt q (t.npts / k + 1) (cutRadius t k)) := by
  refine ⟨_, by rw [generate_real t hn]; exact construct_ok b (by simp), ?_⟩
  intro i r hr
  dsimp only at hr
  rw [List.getElem?_map, Option.map_eq_some_iff] at hr
  obtain ⟨j, hj, rfl⟩ := hr
  rw [List.getElem?_eq_some_iff] at hj
  obtain ⟨hi, hj⟩ := hj
  rw [List.getElem_range] at hj
  subst hj
  have hi : i < t.npts := by simpa using hi
  rw [transform_eq_radialMap, ← cutRadius_eq t hk,
    (radialMap_strictMono t h).lt_iff_lt (nodeXR_mem t hi) (cutNode_mem t hk), node_lt t hk hi]

/-- **C108.**  Robust pruning: the innermost region ends with the first radial point whose distance is not below
`cutRadius t 4`, the second one with the first whose distance is not below `cutRadius t 2`.  These distances do not
depend on the number of radial points. -/
theorem C108_robust_cuts (b : Build) (unp : UnprunedSpec (RadialTraits ℝ)) (t : RadialTraits ℝ)
    (ht : unp.radialTraits = some t) (h : radialValid t) (hn : t.npts + 2 < sizeMod) (s : PrunedSpec (RadialTraits ℝ))
    (hs : createPrunedSpec .robust unp = .ok s) :
    Returns (construct b t.generate) (fun q => ∃ r₀ r₁ r₂, s.regions = [r₀, r₁, r₂] ∧
      CutAt q r₀.idxEn (cutRadius t 4) ∧ CutAt q r₁.idxEn (cutRadius t 2)) := by
  unfold createPrunedSpec at hs
  simp only [ht] at hs
  unfold robustScheme at hs
  cases ha : unp.angularQuad with
  | other c => simp [ha] at hs
  | fam f =>
    simp only [ha] at hs
    rw [Outcome.bind_eq_ok] at hs
    obtain ⟨⟨low, med⟩, -, hs⟩ := hs
    simp only [ht, Outcome.ok.injEq] at hs
    subst hs
    obtain ⟨q, hq, h4⟩ := cutAt b t h hn (show 2 ≤ 4 by omega)
    obtain ⟨q', hq', h2⟩ := cutAt b t h hn (show 2 ≤ 2 by omega)
    rw [hq] at hq'
    cases hq'
    exact ⟨q, hq, _, _, _, rfl, h4, h2⟩

/-- **C108.**  Treutler pruning: the same with `cutRadius t 3` and `cutRadius t 2`. -/
theorem C108_treutler_cuts (b : Build) (unp : UnprunedSpec (RadialTraits ℝ)) (t : RadialTraits ℝ)
    (ht : unp.radialTraits = some t) (h : radialValid t) (hn : t.npts + 2 < sizeMod) (s : PrunedSpec (RadialTraits ℝ))
    (hs : createPrunedSpec .treutler unp = .ok s) :
    Returns (construct b t.generate) (fun q => ∃ r₀ r₁ r₂, s.regions = [r₀, r₁, r₂] ∧
      CutAt q r₀.idxEn (cutRadius t 3) ∧ CutAt q r₁.idxEn (cutRadius t 2)) := by
  unfold createPrunedSpec at hs
  simp only [ht] at hs
  unfold treutlerScheme at hs
  cases ha : unp.angularQuad with
  | other c => simp [ha] at hs
  | fam f =>
    simp only [ha, ht, Outcome.ok.injEq] at hs
    subst hs
    obtain ⟨q, hq, h4⟩ := cutAt b t h hn (show 2 ≤ 3 by omega)
    obtain ⟨q', hq', h2⟩ := cutAt b t h hn (show 2 ≤ 2 by omega)
    rw [hq] at hq'
    cases hq'
    exact ⟨q, hq, _, _, _, rfl, h4, h2⟩

/-- **C108.**  The distances: half of the points are below `R` for Becke and MurrayHandyLaming, and for TreutlerAhlrichs
up to the rounding of the decimal for `ln 2`; for MuraKnowles below `R log (8/7)`.  A third and a quarter of the points
are below `R/3` and `(3 - 2 √2) R` for Becke and `R/4` and `R/9` for MurrayHandyLaming with exponent 2. -/
theorem C108_distances (n M : ℕ) (R alpha : ℝ) :
    cutRadius (.becke n R) 2 = R ∧ cutRadius (.mhl M n R) 2 = R ∧ cutRadius (.mk n R) 2 = R * Real.log (8 / 7) ∧
    |cutRadius (.ta n R alpha) 2 - R| ≤ |R| / 10 ^ 23 ∧
    cutRadius (.becke n R) 3 = R / 3 ∧ cutRadius (.mhl 2 n R) 3 = R / 4 ∧
    cutRadius (.becke n R) 4 = (3 - 2 * √2) * R ∧ cutRadius (.mhl 2 n R) 4 = R / 9 := by
  refine ⟨?_, ?_, ?_, ?_, ?_, ?_, ?_, ?_⟩
  · show R * Real.tan (Real.pi / (2 * (2 : ℕ))) ^ 2 = R
    rw [show Real.pi / (2 * (2 : ℕ)) = Real.pi / 4 by norm_num, Real.tan_pi_div_four]
    ring
  · show R * (1 / (((2 : ℕ) : ℝ) - 1)) ^ M = R
    norm_num
  · show -R * Real.log (1 - 1 / ((2 : ℕ) : ℝ) ^ 3) = _
    rw [show (1 : ℝ) - 1 / ((2 : ℕ) : ℝ) ^ 3 = (8 / 7)⁻¹ by norm_num, Real.log_inv]
    ring
  · show |R / ln2Literal * (1 - Real.cos (Real.pi / (2 : ℕ))) ^ alpha *
      Real.log (2 / (1 + Real.cos (Real.pi / (2 : ℕ)))) - R| ≤ _
    rw [show Real.pi / (2 : ℕ) = Real.pi / 2 by norm_num, Real.cos_pi_div_two, sub_zero, Real.one_rpow, add_zero,
      div_one, mul_one]
    have hl : |ln2Literal - Real.log 2| ≤ 1 / 10 ^ 24 := by
      have := C19_ln2_literal
      rwa [taLn2_real] at this
    have hp : (1 : ℝ) / 2 ≤ ln2Literal := by unfold ln2Literal; norm_num
    have e : R / ln2Literal * Real.log 2 - R = R * (-(ln2Literal - Real.log 2) / ln2Literal) := by
      have : ln2Literal ≠ 0 := by linarith
      field_simp
      ring
    rw [e, abs_mul, abs_div, abs_neg, abs_of_pos (show 0 < ln2Literal by linarith)]
    have h2 : |ln2Literal - Real.log 2| / ln2Literal ≤ 1 / 10 ^ 23 := by
      rw [div_le_iff₀ (by linarith)]
      refine hl.trans ?_
      have : (1 : ℝ) / 10 ^ 24 ≤ 1 / 10 ^ 23 * (1 / 2) := by norm_num
      refine this.trans ?_
      gcongr
    calc |R| * (|ln2Literal - Real.log 2| / ln2Literal) ≤ |R| * (1 / 10 ^ 23) := by gcongr
      _ = |R| / 10 ^ 23 := by ring
  · show R * Real.tan (Real.pi / (2 * (3 : ℕ))) ^ 2 = R / 3
    rw [show Real.pi / (2 * (3 : ℕ)) = Real.pi / 6 by norm_num, Real.tan_pi_div_six, div_pow,
      Real.sq_sqrt (by norm_num)]
    ring
  · show R * (1 / (((3 : ℕ) : ℝ) - 1)) ^ 2 = R / 4
    norm_num
    ring
  · show R * Real.tan (Real.pi / (2 * (4 : ℕ))) ^ 2 = _
    rw [show Real.pi / (2 * (4 : ℕ)) = Real.pi / 8 by norm_num, Real.tan_eq_sin_div_cos, div_pow,
      Real.sin_pi_div_eight, Real.cos_pi_div_eight, div_pow, div_pow, Real.sq_sqrt, Real.sq_sqrt]
    · have h2 := Real.sq_sqrt (show (0 : ℝ) ≤ 2 by norm_num)
      have h3 := Real.sqrt_nonneg (2 : ℝ)
      have : (2 + √2) ≠ 0 := by linarith
      field_simp
      ring_nf
      rw [h2]
      ring
    · positivity
    · have := Real.sqrt_le_sqrt (show (2 : ℝ) ≤ 4 by norm_num)
      rw [show (4 : ℝ) = 2 ^ 2 by norm_num, Real.sqrt_sq (by norm_num)] at this
      linarith
  · show R * (1 / (((4 : ℕ) : ℝ) - 1)) ^ 2 = R / 9
    norm_num
    ring

/-- The specification of a Becke grid with 75 points and 302 Lebedev points. -/
example : ∃ (unp : UnprunedSpec (RadialTraits ℝ)) (t : RadialTraits ℝ) (s : PrunedSpec (RadialTraits ℝ)),
    unp.radialTraits = some t ∧ radialValid t ∧ t.npts + 2 < sizeMod ∧ createPrunedSpec .robust unp = .ok s ∧
    t.npts = 75 := by
  exact ⟨⟨.becke, some (.becke 75 1), .fam .lebedevLaikov, 302⟩, .becke 75 1, _, rfl, one_pos,
    by simp [RadialTraits.npts, sizeMod], rfl, rfl⟩

end IntegratorXX
