import Verif.Lemmas.RadialRiemann
import Mathlib.MeasureTheory.Integral.ExpDecay
import Mathlib.Analysis.SpecialFunctions.ImproperIntegrals

/-!
# C80: error and convergence of the radial rules
-/

namespace IntegratorXX

open Spec RadialTraits Set Real MeasureTheory

/-- **C80.**  The error of the four radial rules for every continuous integrand on `(0,∞)`.  `radialPullback t f` is
`f(r) dr` in the variable that is divided into `npts + 1` equal parts; if it is bounded by `M` and varies by at most
`ε` over one part, then `f` is integrable and the rule misses its integral by at most `ε T + M T/(npts+1)`. -/
theorem C80_radial_error (b : Build) {t : RadialTraits ℝ} (h : radialValid t)
    (hn : t.inclusive = true → t.npts + 2 < sizeMod) {f : ℝ → ℝ} (hf : ContinuousOn f (Ioi 0)) {M ε : ℝ}
    (hM : ∀ θ ∈ Ioo 0 (radialLength t), |radialPullback t f θ| ≤ M)
    (hε : ∀ x ∈ Ioo 0 (radialLength t), ∀ y ∈ Ioo 0 (radialLength t),
      |x - y| ≤ radialLength t / (t.npts + 1) → |radialPullback t f x - radialPullback t f y| ≤ ε) :
    IntegrableOn f (Ioi 0) ∧
    Returns (construct b t.generate) (fun q =>
      |ruleSum q.points q.weights f - ∫ r in Ioi 0, f r| ≤
        ε * radialLength t + M * (radialLength t / (t.npts + 1))) := by
  have hT := radialLength_pos t
  have hc := radialPullback_continuousOn h hf
  have hint := integrableOn_Ioo_of_bounded hc hM
  obtain ⟨hi, he⟩ := radialPullback_integral h f
  refine ⟨hi.2 hint, ?_⟩
  rw [generate_real' t hn, construct_ok b (by simp)]
  refine ⟨_, rfl, ?_⟩
  dsimp only
  rw [radial_sum h, he, ← integral_Ioc_eq_integral_Ioo, ← intervalIntegral.integral_of_le hT.le]
  obtain ⟨s, hs⟩ : ∃ s, s = radialLength t / ((t.npts : ℝ) + 1) := ⟨_, rfl⟩
  have e : ((t.npts : ℝ) + 1) * s = radialLength t := by rw [hs]; field_simp
  rw [← hs] at hε ⊢
  have hs0 : 0 < s := by rw [hs]; positivity
  have hns : (0 : ℝ) ≤ t.npts * s := by positivity
  have hlt : t.npts * s < radialLength t := by linarith
  have hmid : radialLength t / 2 ∈ Ioo 0 (radialLength t) := ⟨by linarith, by linarith⟩
  have hε0 : 0 ≤ ε := (abs_nonneg _).trans (hε _ hmid _ hmid (by simpa using hs0.le))
  have hii : ∀ c d, c ∈ Icc 0 (radialLength t) → d ∈ Icc 0 (radialLength t) →
      IntervalIntegrable (radialPullback t f) volume c d := by
    intro c d hc hd
    have : IntervalIntegrable (radialPullback t f) volume 0 (radialLength t) := by
      rw [intervalIntegrable_iff_integrableOn_Ioo_of_le hT.le]
      exact hint
    refine this.mono_set ?_
    rw [uIcc_of_le hT.le]
    exact uIcc_subset_Icc hc hd
  have r := riemann_cells (g := radialPullback t f) (ψ := fun _ => ε) (a := 0) (h := s) hs0.le
    (fun i => (i + 1) * s) t.npts (by
      rw [zero_add]
      exact hii _ _ ⟨le_rfl, hT.le⟩ ⟨hns, hlt.le⟩) (by simp) (by
      intro i hi y hy
      have hi : ((i : ℝ) + 1) * s ≤ t.npts * s := mul_le_mul_of_nonneg_right (by exact_mod_cast hi) hs0.le
      have hi0 : 0 ≤ (i : ℝ) * s := by positivity
      rw [zero_add, zero_add] at hy
      have := hy.1
      have := hy.2
      refine hε _ ⟨by positivity, by linarith⟩ _ ⟨by linarith, by linarith⟩ ?_
      rw [abs_of_nonneg (by linarith)]
      linarith)
  rw [zero_add, intervalIntegral.integral_const, smul_eq_mul, sub_zero] at r
  have r2 := intervalIntegral.norm_integral_le_of_norm_le_const_ae (a := t.npts * s) (b := radialLength t)
    (C := M) (f := radialPullback t f) (by
      have hae : ∀ᵐ x : ℝ, x ≠ radialLength t := by
        simp [ae_iff]
      filter_upwards [hae] with x hx hx'
      rw [uIoc_of_le hlt.le] at hx'
      exact hM x ⟨lt_of_le_of_lt hns hx'.1, lt_of_le_of_ne hx'.2 hx⟩)
  rw [Real.norm_eq_abs, abs_of_nonneg (by linarith : 0 ≤ radialLength t - t.npts * s),
    show radialLength t - t.npts * s = s by linarith] at r2
  rw [← intervalIntegral.integral_add_adjacent_intervals (hii 0 (t.npts * s) ⟨le_rfl, hT.le⟩ ⟨hns, hlt.le⟩)
    (hii (t.npts * s) _ ⟨hns, hlt.le⟩ ⟨hT.le, le_rfl⟩), ← sub_sub]
  refine (abs_sub _ _).trans ?_
  have : t.npts * s * ε ≤ ε * radialLength t := by
    rw [mul_comm]; exact mul_le_mul_of_nonneg_left hlt.le hε0
  linarith

private theorem exists_small {T δ : ℝ} (hT : 0 < T) (hδ : 0 < δ) :
    ∃ N : ℕ, ∀ n : ℕ, N ≤ n → T / ((n : ℝ) + 1) < δ := by
  obtain ⟨N, hN⟩ := exists_nat_gt (T / δ)
  refine ⟨N, fun n hn => ?_⟩
  have h1 : (N : ℝ) ≤ n := by exact_mod_cast hn
  rw [div_lt_iff₀ hδ] at hN
  rw [div_lt_iff₀ (by positivity)]
  nlinarith

private theorem converges_of_bounded (b : Build) (t : ℕ → RadialTraits ℝ) (hv : ∀ n, radialValid (t n))
    (hnp : ∀ n, (t n).npts = n) (hin : ∀ n, (t n).inclusive = false) {f : ℝ → ℝ}
    (hsame : ∀ n, radialPullback (t n) f = radialPullback (t 0) f)
    (hf : ContinuousOn f (Ioi 0)) {M : ℝ} (hM : ∀ θ ∈ Ioo 0 π, |radialPullback (t 0) f θ| ≤ M) {ε : ℝ} (hε : 0 < ε) :
    IntegrableOn f (Ioi 0) ∧ ∃ N : ℕ, ∀ n ≥ N, Returns (construct b (t n).generate) (fun q =>
      |ruleSum q.points q.weights f - ∫ r in Ioi 0, f r| ≤ ε) := by
  have hl : ∀ n, radialLength (t n) = π := fun n => by rw [radialLength_eq, hin]; simp
  have hc := radialPullback_continuousOn (hv 0) hf
  rw [hl] at hc
  obtain ⟨hi, he⟩ := radialPullback_integral (hv 0) f
  rw [hl] at hi he
  refine ⟨hi.2 (integrableOn_Ioo_of_bounded hc hM), ?_⟩
  obtain ⟨δ, hδ, hr⟩ := riemann_open pi_pos hc hM hε
  obtain ⟨N, hN⟩ := exists_small pi_pos hδ
  refine ⟨N, fun n hn => ?_⟩
  rw [generate_real' (t n) (by simp [hin]), construct_ok b (by simp)]
  refine ⟨_, rfl, ?_⟩
  dsimp only
  rw [radial_sum (hv n), he, hl, hsame, hnp]
  have e : ((n + 1 : ℕ) : ℝ) * (π / ((n : ℝ) + 1)) = π := by push_cast; field_simp
  have hp := pi_pos
  have hc : 0 < π / ((n : ℝ) + 1) := by positivity
  have := hr (n + 1) (π / (n + 1)) (fun i => (i + 1) * (π / (n + 1))) hc (hN n hn)
    (by rw [e, zero_add]) (by rw [e]; linarith) (fun i _ => ⟨by nlinarith, by rw [zero_add]⟩)
  rw [Finset.sum_range_succ, indicator_of_notMem (a := ((n : ℝ) + 1) * (π / (n + 1))) (by
    push_cast at e
    rw [e]
    exact fun hm => lt_irrefl _ hm.2), mul_zero, add_zero] at this
  rw [Finset.sum_congr rfl] at this
  · exact this
  · intro i hi
    have hi : ((i : ℝ) + 1) ≤ n := by exact_mod_cast Finset.mem_range.1 hi
    rw [indicator_of_mem]
    refine ⟨by positivity, ?_⟩
    push_cast at e
    nlinarith

/-- Becke's rule converges, for every continuous integrand that decays like `1/r²`, and whatever the scale `R`. -/
theorem C80_becke_converges (b : Build) {R : ℝ} (hR : 0 < R) {f : ℝ → ℝ} (hf : ContinuousOn f (Ioi 0)) {C : ℝ}
    (hdecay : ∀ r > 0, |f r| * (R + r) ^ 2 ≤ C) {ε : ℝ} (hε : 0 < ε) :
    IntegrableOn f (Ioi 0) ∧ ∃ N : ℕ, ∀ n ≥ N, Returns (construct b (becke n R).generate) (fun q =>
      |ruleSum q.points q.weights f - ∫ r in Ioi 0, f r| ≤ ε) := by
  refine converges_of_bounded b (fun n => becke n R) (fun _ => hR) (fun _ => rfl) (fun _ => rfl) (fun _ => rfl) hf
    (M := C / (2 * R)) (fun θ hθ => ?_) hε
  have hv : radialValid (becke 0 R) := hR
  have hc := cos_mem_Ioo hθ
  have hr := radialMap_pos (becke 0 R) hv hc
  have hd := hdecay _ hr
  rw [radialPullback_eq hv hθ]
  simp only [radialPhi, radialPhi', inclusive, Bool.false_eq_true, if_false, smul_eq_mul]
  rw [mul_neg, abs_neg, abs_mul, abs_abs, abs_mul, abs_of_pos (jacobian_pos (becke 0 R) hv hc)]
  generalize hy : |f (radialMap (becke 0 R) (cos θ))| = y at *
  have hy0 : 0 ≤ y := by rw [← hy]; exact abs_nonneg _
  have h1 : 0 < 1 - cos θ := by linarith [hc.2]
  have hs1 := abs_sin_le_one θ
  have hs0 := abs_nonneg (sin θ)
  simp only [radialMap, jacobian, Arith.real_lit, Arith.real_pow, Arith.real_ofNat, Real.rpow_natCast] at hd ⊢
  have e1 : R + R * ((1 + cos θ) / (1 - cos θ)) = 2 * R / (1 - cos θ) := by field_simp; ring
  rw [e1, div_pow] at hd
  push_cast
  rw [le_div_iff₀ (by positivity)]
  have hd' : R * 2 / (1 - cos θ) ^ 2 * y * (2 * R) ≤ C := by
    refine le_trans (le_of_eq ?_) hd
    ring
  calc R * 2 / (1 - cos θ) ^ 2 * |sin θ| * y * (2 * R)
      = R * 2 / (1 - cos θ) ^ 2 * y * (2 * R) * |sin θ| := by ring
    _ ≤ R * 2 / (1 - cos θ) ^ 2 * y * (2 * R) * 1 := mul_le_mul_of_nonneg_left hs1 (by positivity)
    _ ≤ C := by rw [mul_one]; exact hd'

/-- `1/(1+r)²` satisfies the hypothesis for `R = 1`. -/
example : ∃ N : ℕ, ∀ n ≥ N, Returns (construct ⟨true⟩ (becke n (1 : ℝ)).generate) (fun q =>
    |ruleSum q.points q.weights (fun r => 1 / (1 + r) ^ 2) - ∫ r in Ioi (0 : ℝ), 1 / (1 + r) ^ 2| ≤ 1 / 10 ^ 6) :=
  (C80_becke_converges ⟨true⟩ one_pos (C := 1) (f := fun r => 1 / (1 + r) ^ 2)
    (ContinuousOn.div (by fun_prop) (by fun_prop) fun r hr => by
      have : (0 : ℝ) < r := hr
      positivity)
    (fun r hr => by
      rw [abs_of_pos (by positivity), div_mul_cancel₀ _ (by positivity)]) (by norm_num)).2

/-- The rule of Treutler and Ahlrichs converges for every continuous integrand decaying like `2^{-r/R}`. -/
theorem C80_ta_converges (b : Build) {R α : ℝ} (hR : 0 < R) (hα : 0 ≤ α) {f : ℝ → ℝ} (hf : ContinuousOn f (Ioi 0))
    {C : ℝ} (hdecay : ∀ r > 0, |f r| ≤ C * exp (-(r * ln2Literal / R))) {ε : ℝ} (hε : 0 < ε) :
    IntegrableOn f (Ioi 0) ∧ ∃ N : ℕ, ∀ n ≥ N, Returns (construct b (ta n R α).generate) (fun q =>
      |ruleSum q.points q.weights f - ∫ r in Ioi 0, f r| ≤ ε) := by
  refine converges_of_bounded b (fun n => ta n R α) (fun _ => ⟨hR, hα⟩) (fun _ => rfl) (fun _ => rfl)
    (fun _ => rfl) hf (M := R * 2 ^ α / ln2Literal * (α + 1) * C) (fun θ hθ => ?_) hε
  have hv : radialValid (ta 0 R α) := ⟨hR, hα⟩
  have hl := ln2Literal_pos
  have hc := cos_mem_Ioo hθ
  have hr := radialMap_pos (ta 0 R α) hv hc
  have hd := hdecay _ hr
  rw [radialPullback_eq hv hθ]
  simp only [radialPhi, radialPhi', inclusive, Bool.false_eq_true, if_false, smul_eq_mul]
  rw [mul_neg, abs_neg, abs_mul, abs_abs, abs_mul, abs_of_pos (jacobian_pos (ta 0 R α) hv hc)]
  generalize hy : |f (radialMap (ta 0 R α) (cos θ))| = y at *
  have hy0 : 0 ≤ y := by rw [← hy]; exact abs_nonneg _
  have hC0 : 0 ≤ C := by
    by_contra hneg
    have := mul_neg_of_neg_of_pos (not_le.1 hneg) (exp_pos (-(radialMap (ta 0 R α) (cos θ) * ln2Literal / R)))
    linarith
  obtain ⟨x, hx⟩ : ∃ x, x = cos θ := ⟨_, rfl⟩
  rw [← hx] at hc hd hr ⊢
  have h1 : 0 < 1 - x := by linarith [hc.2]
  have h2 : 0 < 1 + x := by linarith [hc.1]
  have hs1 := abs_sin_le_one θ
  have hs0 := abs_nonneg (sin θ)
  -- the logarithm
  have hlog0 : 0 ≤ log (2 / (1 - x)) := log_nonneg (by rw [le_div_iff₀ h1]; linarith)
  have hlog : log (2 / (1 - x)) ≤ (1 + x) / (1 - x) := by
    have := log_le_sub_one_of_pos (by positivity : 0 < 2 / (1 - x))
    refine this.trans (le_of_eq ?_)
    field_simp
    ring
  have hpow0 : 0 < (1 + x) ^ α := rpow_pos_of_pos h2 α
  have hpow : (1 + x) ^ α ≤ 2 ^ α := rpow_le_rpow h2.le (by linarith) hα
  -- the Jacobian
  have hJ : (ta 0 R α).jacobian x ≤ R * 2 ^ α / ln2Literal * ((α + 1) / (1 - x)) := by
    simp only [jacobian, taA, taLn2_real, Arith.real_lit, Arith.real_pow, Arith.real_log]
    push_cast
    rw [show (1 : ℝ) + 1 = 2 by norm_num]
    have i1 : α * log (2 / (1 - x)) / (1 + x) + 1 / (1 - x) ≤ (α + 1) / (1 - x) := by
      rw [add_div]
      refine add_le_add ?_ le_rfl
      rw [div_le_div_iff₀ h2 h1]
      rw [le_div_iff₀ h1] at hlog
      nlinarith
    have i0 : 0 ≤ α * log (2 / (1 - x)) / (1 + x) + 1 / (1 - x) := by positivity
    exact mul_le_mul (div_le_div_of_nonneg_right (mul_le_mul_of_nonneg_left hpow hR.le) hl.le) i1 i0 (by positivity)
  -- the decay
  have hyx : y ≤ C * (1 - x) := by
    by_cases hx0 : 0 ≤ x
    · refine hd.trans (mul_le_mul_of_nonneg_left ?_ hC0)
      have e : radialMap (ta 0 R α) x * ln2Literal / R = (1 + x) ^ α * log (2 / (1 - x)) := by
        simp only [radialMap]
        field_simp
      rw [e]
      have : log (2 / (1 - x)) ≤ (1 + x) ^ α * log (2 / (1 - x)) :=
        le_mul_of_one_le_left hlog0 (one_le_rpow (by linarith) hα)
      calc exp (-((1 + x) ^ α * log (2 / (1 - x)))) ≤ exp (-log (2 / (1 - x))) := exp_le_exp.2 (by linarith)
        _ = (1 - x) / 2 := by rw [exp_neg, exp_log (by positivity), inv_div]
        _ ≤ 1 - x := by linarith
    · refine hd.trans (mul_le_mul_of_nonneg_left ?_ hC0)
      refine (exp_le_one_iff.2 ?_).trans (by linarith)
      have : 0 < radialMap (ta 0 R α) x * ln2Literal / R := by positivity
      linarith
  have hJ0 := (jacobian_pos (ta 0 R α) hv hc).le
  calc (ta 0 R α).jacobian x * |sin θ| * y ≤ (ta 0 R α).jacobian x * 1 * y :=
        mul_le_mul_of_nonneg_right (mul_le_mul_of_nonneg_left hs1 hJ0) hy0
    _ = (ta 0 R α).jacobian x * y := by rw [mul_one]
    _ ≤ R * 2 ^ α / ln2Literal * ((α + 1) / (1 - x)) * (C * (1 - x)) :=
        mul_le_mul hJ hyx hy0 (by positivity)
    _ = R * 2 ^ α / ln2Literal * (α + 1) * C := by field_simp

/-- `e^{-r}` satisfies the hypothesis for `R = 1`. -/
example : ∃ N : ℕ, ∀ n ≥ N, Returns (construct ⟨true⟩ (ta n (1 : ℝ) 0.6).generate) (fun q =>
    |ruleSum q.points q.weights (fun r => exp (-r)) - ∫ r in Ioi (0 : ℝ), exp (-r)| ≤ 1 / 10 ^ 6) :=
  (C80_ta_converges ⟨true⟩ one_pos (by norm_num) (C := 1) (by fun_prop) (fun r hr => by
    rw [abs_of_pos (exp_pos _), one_mul, exp_le_exp, ln2Literal]
    have : 0 < r := hr
    norm_num
    nlinarith) (by norm_num)).2

/-- Mura and Knowles' rule with `R = 1` for `e^{-r}`: the samples are those of `3x²`, and `n` points give the
integral `1` with an error of at most `9/(n+1)`. -/
theorem C80_mk_exp (b : Build) {n : ℕ} (hn : n + 2 < sizeMod) :
    Returns (construct b (RadialTraits.mk n (1 : ℝ)).generate) (fun q =>
      |ruleSum q.points q.weights (fun r => exp (-r)) - 1| ≤ 9 / (n + 1)) := by
  have hv : radialValid (RadialTraits.mk n (1 : ℝ)) := one_pos
  have hpb : ∀ x ∈ Ioo (0 : ℝ) 1, radialPullback (RadialTraits.mk n (1 : ℝ)) (fun r => exp (-r)) x = 3 * x ^ 2 := by
    intro x hx
    have h1 : x ^ 3 < 1 := pow_lt_one₀ hx.1.le hx.2 (by norm_num)
    rw [radialPullback_eq hv hx]
    simp only [radialPhi, radialPhi', inclusive, if_true, smul_eq_mul]
    rw [abs_of_pos (jacobian_pos _ hv hx)]
    simp only [radialMap, jacobian, Arith.real_lit]
    push_cast
    rw [show -(-1 * log (1 - x ^ 3)) = log (1 - x ^ 3) by ring, exp_log (by linarith),
      show x * x * x = x ^ 3 by ring]
    have : 1 - x ^ 3 ≠ 0 := by linarith
    field_simp
  have := (C80_radial_error b (t := RadialTraits.mk n (1 : ℝ)) hv (fun _ => hn) (f := fun r => exp (-r)) (M := 3)
    (ε := 6 * (1 / (n + 1))) (by fun_prop) (fun x hx => by
      have hx : x ∈ Ioo (0 : ℝ) 1 := hx
      rw [hpb x hx, abs_of_nonneg (by positivity)]
      nlinarith [hx.1, hx.2]) (fun x hx y hy hxy => by
      have hx : x ∈ Ioo (0 : ℝ) 1 := hx
      have hy : y ∈ Ioo (0 : ℝ) 1 := hy
      have hxy : |x - y| ≤ 1 / ((n : ℝ) + 1) := hxy
      rw [hpb x hx, hpb y hy, show 3 * x ^ 2 - 3 * y ^ 2 = 3 * (x + y) * (x - y) by ring, abs_mul,
        abs_of_pos (by linarith [hx.1, hy.1])]
      exact mul_le_mul (by linarith [hx.2, hy.2]) hxy (abs_nonneg _) (by norm_num))).2
  obtain ⟨q, hq, h⟩ := this
  refine ⟨q, hq, ?_⟩
  dsimp only at h ⊢
  rw [integral_exp_neg_Ioi_zero] at h
  refine h.trans (le_of_eq ?_)
  simp only [radialLength, npts]
  ring

end IntegratorXX
