import Verif.Lemmas.RadialReal
import Verif.Lemmas.Riemann
import Verif.Lemmas.ChebRiemann
import Verif.Lemmas.RuleSum
import Verif.Spec.RadialPullback
import Mathlib.MeasureTheory.Function.Jacobian
import Mathlib.Analysis.SpecialFunctions.Trigonometric.Inverse

/-!
# The radial rules as Riemann sums
-/

namespace IntegratorXX

open Spec RadialTraits Set Real MeasureTheory

/-- The substitution from the divided interval to the radius. -/
noncomputable def radialPhi (t : RadialTraits ℝ) (θ : ℝ) : ℝ :=
  if t.inclusive then radialMap t θ else radialMap t (cos θ)

/-- Its derivative. -/
noncomputable def radialPhi' (t : RadialTraits ℝ) (θ : ℝ) : ℝ :=
  if t.inclusive then t.jacobian θ else t.jacobian (cos θ) * -sin θ

theorem radialLength_eq (t : RadialTraits ℝ) : radialLength t = if t.inclusive then 1 else π := by
  cases t <;> rfl

theorem radialLength_pos (t : RadialTraits ℝ) : 0 < radialLength t := by
  rw [radialLength_eq]
  split_ifs
  · exact zero_lt_one
  · exact pi_pos

theorem radialDomain_eq (t : RadialTraits ℝ) :
    radialDomain t = if t.inclusive then Ioo 0 1 else Ioo (-1) 1 := by
  cases t <;> rfl

theorem cos_mem_Ioo {θ : ℝ} (h : θ ∈ Ioo 0 π) : cos θ ∈ Ioo (-1 : ℝ) 1 := by
  constructor
  · rw [← cos_pi]
    exact cos_lt_cos_of_nonneg_of_le_pi h.1.le le_rfl h.2
  · rw [← cos_zero]
    exact cos_lt_cos_of_nonneg_of_le_pi le_rfl h.2.le h.1

theorem radialPhi_mem {t : RadialTraits ℝ} (h : radialValid t) {θ : ℝ} (hθ : θ ∈ Ioo 0 (radialLength t)) :
    radialPhi t θ ∈ Ioi (0 : ℝ) := by
  have hd := radialDomain_eq t
  rw [radialLength_eq] at hθ
  unfold radialPhi
  split_ifs with hi
  · rw [if_pos hi] at hd hθ
    exact radialMap_pos t h (by rw [hd]; exact hθ)
  · rw [if_neg hi] at hd hθ
    exact radialMap_pos t h (by rw [hd]; exact cos_mem_Ioo hθ)

theorem radialPhi_deriv {t : RadialTraits ℝ} (h : radialValid t) {θ : ℝ} (hθ : θ ∈ Ioo 0 (radialLength t)) :
    HasDerivAt (radialPhi t) (radialPhi' t θ) θ := by
  have hd := radialDomain_eq t
  have hw := radialWellFormed_of_valid h
  rw [radialLength_eq] at hθ
  by_cases hi : t.inclusive = true
  · rw [if_pos hi] at hd hθ
    have e : radialPhi t = radialMap t := by funext x; simp [radialPhi, hi]
    rw [e, radialPhi', if_pos hi]
    exact radialMap_hasDerivAt t hw (by rw [hd]; exact hθ)
  · rw [if_neg hi] at hd hθ
    have e : radialPhi t = radialMap t ∘ cos := by funext x; simp [radialPhi, hi]
    rw [e, radialPhi', if_neg hi]
    exact (radialMap_hasDerivAt t hw (by rw [hd]; exact cos_mem_Ioo hθ)).comp θ (hasDerivAt_cos θ)

theorem radialPullback_eq {t : RadialTraits ℝ} (h : radialValid t) {θ : ℝ} (hθ : θ ∈ Ioo 0 (radialLength t))
    (f : ℝ → ℝ) : radialPullback t f θ = |radialPhi' t θ| • f (radialPhi t θ) := by
  have hw := radialWellFormed_of_valid h
  rw [smul_eq_mul]
  cases t with
  | becke n R =>
    have hc := cos_mem_Ioo (θ := θ) hθ
    have hs := sin_pos_of_pos_of_lt_pi hθ.1 hθ.2
    simp only [radialPullback, radialPhi, radialPhi', inclusive, Bool.false_eq_true, if_false]
    rw [(radialMap_hasDerivAt _ hw hc).deriv, mul_neg, abs_neg, abs_mul, abs_of_pos hs,
      abs_of_pos (jacobian_pos _ h hc)]
    ring
  | mhl M n R =>
    simp only [radialPullback, radialPhi, radialPhi', inclusive, if_true]
    rw [(radialMap_hasDerivAt _ hw hθ).deriv, abs_of_pos (jacobian_pos _ h hθ)]
    ring
  | mk n R =>
    simp only [radialPullback, radialPhi, radialPhi', inclusive, if_true]
    rw [(radialMap_hasDerivAt _ hw hθ).deriv, abs_of_pos (jacobian_pos _ h hθ)]
    ring
  | ta n R al =>
    have hc := cos_mem_Ioo (θ := θ) hθ
    have hs := sin_pos_of_pos_of_lt_pi hθ.1 hθ.2
    simp only [radialPullback, radialPhi, radialPhi', inclusive, Bool.false_eq_true, if_false]
    rw [(radialMap_hasDerivAt _ hw hc).deriv, mul_neg, abs_neg, abs_mul, abs_of_pos hs,
      abs_of_pos (jacobian_pos _ h hc)]
    ring

theorem radialPhi_image {t : RadialTraits ℝ} (h : radialValid t) :
    radialPhi t '' Ioo 0 (radialLength t) = Ioi 0 := by
  have hd := radialDomain_eq t
  apply Subset.antisymm
  · rintro _ ⟨θ, hθ, rfl⟩
    exact radialPhi_mem h hθ
  · rw [← radialMap_image t h]
    rintro _ ⟨x, hx, rfl⟩
    rw [radialLength_eq]
    by_cases hi : t.inclusive = true
    · rw [if_pos hi] at hd ⊢
      rw [hd] at hx
      exact ⟨x, hx, by simp [radialPhi, hi]⟩
    · rw [if_neg hi] at hd ⊢
      rw [hd] at hx
      refine ⟨arccos x, ⟨?_, ?_⟩, ?_⟩
      · exact arccos_pos.2 hx.2
      · refine lt_of_le_of_ne (arccos_le_pi x) fun hc => ?_
        have := cos_arccos hx.1.le hx.2.le
        rw [hc, cos_pi] at this
        linarith [hx.1]
      · simp [radialPhi, hi, cos_arccos hx.1.le hx.2.le]

theorem radialPhi_injOn {t : RadialTraits ℝ} (h : radialValid t) :
    InjOn (radialPhi t) (Ioo 0 (radialLength t)) := by
  have hd := radialDomain_eq t
  have hinj := (radialMap_strictMono t h).injOn
  intro x hx y hy hxy
  rw [radialLength_eq] at hx hy
  by_cases hi : t.inclusive = true
  · rw [if_pos hi] at hd hx hy
    simp only [radialPhi, hi, if_true] at hxy
    exact hinj (by rw [hd]; exact hx) (by rw [hd]; exact hy) hxy
  · rw [if_neg hi] at hd hx hy
    simp only [radialPhi, hi] at hxy
    have := hinj (by rw [hd]; exact cos_mem_Ioo hx) (by rw [hd]; exact cos_mem_Ioo hy) hxy
    exact injOn_cos ⟨hx.1.le, hx.2.le⟩ ⟨hy.1.le, hy.2.le⟩ this

/-- The change of variables, with integrability. -/
theorem radialPullback_integral {t : RadialTraits ℝ} (h : radialValid t) (f : ℝ → ℝ) :
    (IntegrableOn f (Ioi 0) ↔ IntegrableOn (radialPullback t f) (Ioo 0 (radialLength t))) ∧
    ∫ r in Ioi 0, f r = ∫ θ in Ioo 0 (radialLength t), radialPullback t f θ := by
  rw [← radialPhi_image h]
  constructor
  · rw [integrableOn_image_iff_integrableOn_abs_deriv_smul measurableSet_Ioo
      (fun x hx => (radialPhi_deriv h hx).hasDerivWithinAt) (radialPhi_injOn h)]
    exact integrableOn_congr_fun (fun x hx => (radialPullback_eq h hx f).symm) measurableSet_Ioo
  · rw [integral_image_eq_integral_abs_deriv_smul measurableSet_Ioo
      (fun x hx => (radialPhi_deriv h hx).hasDerivWithinAt) (radialPhi_injOn h)]
    exact setIntegral_congr_fun measurableSet_Ioo (fun x hx => (radialPullback_eq h hx f).symm)

theorem jacobian_continuousOn {t : RadialTraits ℝ} (h : radialValid t) :
    ContinuousOn t.jacobian (radialDomain t) := by
  cases t with
  | becke n R =>
    change ContinuousOn (fun x => (becke n R).jacobian x) _
    simp only [jacobian, Arith.real_lit, Arith.real_pow, Arith.real_ofNat, Real.rpow_natCast]
    refine ContinuousOn.div (by fun_prop) (by fun_prop) fun x hx => ?_
    have : 0 < 1 - x := by linarith [hx.2]
    push_cast
    positivity
  | mhl M n R =>
    change ContinuousOn (fun x => (mhl M n R).jacobian x) _
    simp only [jacobian, Arith.real_lit, Arith.real_pow, Arith.real_ofNat, Real.rpow_natCast]
    refine ContinuousOn.div (by fun_prop) (by fun_prop) fun x hx => ?_
    have : 0 < 1 - x := by linarith [hx.2]
    push_cast
    positivity
  | mk n R =>
    change ContinuousOn (fun x => (RadialTraits.mk n R).jacobian x) _
    simp only [jacobian, Arith.real_lit]
    refine ContinuousOn.div (by fun_prop) (by fun_prop) fun x hx => ?_
    have h1 : x ^ 3 < 1 := pow_lt_one₀ hx.1.le hx.2 (by norm_num)
    push_cast
    have : x * x * x = x ^ 3 := by ring
    rw [this]
    linarith
  | ta n R al =>
    have h2 : ∀ x ∈ radialDomain (ta n R al), 0 < 1 - x := fun x hx => by linarith [hx.2]
    have h3 : ∀ x ∈ radialDomain (ta n R al), 0 < 1 + x := fun x hx => by linarith [hx.1]
    change ContinuousOn (fun x => (ta n R al).jacobian x) _
    simp only [jacobian, taA, taLn2, Arith.real_lit, Arith.real_pow, Arith.real_log]
    push_cast
    refine ContinuousOn.mul ?_ (ContinuousOn.add ?_ ?_)
    · refine ContinuousOn.div_const (ContinuousOn.mul continuousOn_const ?_) _
      exact ContinuousOn.rpow_const (by fun_prop) (fun x hx => Or.inl (h3 x hx).ne')
    · refine ContinuousOn.div (ContinuousOn.mul continuousOn_const ?_) (by fun_prop) fun x hx => (h3 x hx).ne'
      refine ContinuousOn.log (ContinuousOn.div (by fun_prop) (by fun_prop) fun x hx => (h2 x hx).ne') fun x hx => ?_
      have := h2 x hx
      positivity
    · exact ContinuousOn.div (by fun_prop) (by fun_prop) fun x hx => (h2 x hx).ne'

theorem radialPullback_continuousOn {t : RadialTraits ℝ} (h : radialValid t) {f : ℝ → ℝ}
    (hf : ContinuousOn f (Ioi 0)) : ContinuousOn (radialPullback t f) (Ioo 0 (radialLength t)) := by
  have hd := radialDomain_eq t
  have hj := jacobian_continuousOn h
  have h1 : ContinuousOn (radialPhi t) (Ioo 0 (radialLength t)) :=
    fun x hx => (radialPhi_deriv h hx).continuousAt.continuousWithinAt
  have h2 : ContinuousOn (radialPhi' t) (Ioo 0 (radialLength t)) := by
    rw [radialLength_eq]
    by_cases hi : t.inclusive = true
    · rw [if_pos hi] at hd ⊢
      have e : radialPhi' t = t.jacobian := by funext x; simp [radialPhi', hi]
      rw [e, ← hd]
      exact hj
    · rw [if_neg hi] at hd ⊢
      have e : radialPhi' t = fun x => t.jacobian (cos x) * -sin x := by funext x; simp [radialPhi', hi]
      rw [e]
      refine ContinuousOn.mul (hj.comp continuous_cos.continuousOn fun x hx => ?_) (by fun_prop)
      rw [hd]
      exact cos_mem_Ioo hx
  have h3 : ContinuousOn (fun θ => |radialPhi' t θ| • f (radialPhi t θ)) (Ioo 0 (radialLength t)) :=
    h2.abs.smul (hf.comp h1 fun x hx => radialPhi_mem h hx)
  exact h3.congr fun x hx => radialPullback_eq h hx f

/-- The generated lists in exact arithmetic; the size matters only for the two schemes on the trapezoid. -/
theorem generate_real' (t : RadialTraits ℝ) (hn : t.inclusive = true → t.npts + 2 < sizeMod) :
    t.generate = .ok ((List.range t.npts).map (fun i => t.transform (t.nodeXR i)),
      (List.range t.npts).map (fun i => t.nodeWR i * t.jacobian (t.nodeXR i))) := by
  by_cases hi : t.inclusive = true
  · exact generate_real t (hn hi)
  · have ht : t.inclusive = false := by simpa using hi
    have := generate_of_base t (mirrorFn t.npts (gc2X ℝ t.npts) (fun x => -x) (Arith.lit 0))
      (mirrorFn t.npts (gc2W ℝ t.npts) id (Arith.pi / Arith.ofNat (t.npts + 1)))
      (by rw [ht]; simp [baseGenerate, ht, gaussChebyshev2_eq])
    rw [this]
    congr 2
    · apply List.map_congr_left
      intro i hi
      rw [← nodeX_real t (by simpa using hi)]
      simp [nodeX, ht]
    · apply List.map_congr_left
      intro i hi
      rw [← nodeX_real t (by simpa using hi), ← nodeW_real t (by simpa using hi)]
      simp [nodeX, nodeW, ht]

/-- The rule as a sum of equidistant samples. -/
theorem radial_sum {t : RadialTraits ℝ} (h : radialValid t) (f : ℝ → ℝ) :
    ruleSum ((List.range t.npts).map (fun i => t.transform (t.nodeXR i)))
      ((List.range t.npts).map (fun i => t.nodeWR i * t.jacobian (t.nodeXR i))) f =
      ∑ i ∈ Finset.range t.npts, radialLength t / (t.npts + 1) *
        radialPullback t f ((i + 1) * (radialLength t / (t.npts + 1))) := by
  rw [ruleSum_map_range]
  have hT := radialLength_pos t
  have hmem : ∀ i < t.npts, ((i : ℝ) + 1) * (radialLength t / (t.npts + 1)) ∈ Ioo 0 (radialLength t) := by
    intro i hi
    have hi : ((i : ℝ) + 1) ≤ t.npts := by exact_mod_cast hi
    refine ⟨by positivity, ?_⟩
    rw [mul_div_assoc', div_lt_iff₀ (by positivity)]
    nlinarith
  by_cases hi : t.inclusive = true
  · refine Finset.sum_congr rfl fun i hin => ?_
    rw [radialPullback_eq h (hmem i (Finset.mem_range.1 hin))]
    have hl := radialLength_eq t
    rw [if_pos hi] at hl
    have hm := hmem i (Finset.mem_range.1 hin)
    have hd := radialDomain_eq t
    rw [if_pos hi] at hd
    rw [hl] at hm ⊢
    simp only [nodeXR, nodeWR, hi, if_true, radialPhi, radialPhi', smul_eq_mul]
    rw [abs_of_pos (jacobian_pos t h (by rw [hd]; exact hm)), transform_eq_radialMap, mul_one_div]
    ring
  · rw [← Finset.sum_range_reflect]
    refine Finset.sum_congr rfl fun i hin => ?_
    rw [radialPullback_eq h (hmem i (Finset.mem_range.1 hin))]
    have hl := radialLength_eq t
    rw [if_neg hi] at hl
    have hm := hmem i (Finset.mem_range.1 hin)
    have hd := radialDomain_eq t
    rw [if_neg hi] at hd
    rw [hl] at hm ⊢
    have hi' : t.inclusive = false := by simpa using hi
    simp only [nodeXR, nodeWR, hi', Bool.false_eq_true, if_false, radialPhi, radialPhi', smul_eq_mul]
    rw [gc2A_reflect' (Finset.mem_range.1 hin), mul_neg, abs_neg, abs_mul,
      abs_of_pos (jacobian_pos t h (by rw [hd]; exact cos_mem_Ioo hm)),
      abs_of_pos (sin_pos_of_pos_of_lt_pi hm.1 hm.2), transform_eq_radialMap]
    ring

end IntegratorXX
