import Verif.Prop.PrunedConvergence
import Verif.Prop.RadialDecay
import Mathlib.MeasureTheory.Integral.IntegralEqImproper

/-!
# C102: the error of grids in space, with explicit constants

The radial bounds of C101 put into the error split of C82.
-/

namespace IntegratorXX

open Spec RadialTraits Set Real MeasureTheory Filter Topology

/-- The integral over the sphere is at most `4π` times the sum of the coefficients. -/
private theorem sphereInt_le {p : MvPolynomial (Fin 3) ℝ} {l : ℕ} (hp : p.IsHomogeneous l) :
    |sphereInt (polyAt p)| ≤ 4 * π * coeffSum p := by
  have hpt : ∀ θ φ : ℝ, |polyAt p ⟨sin θ * cos φ, sin θ * sin φ, cos θ⟩| ≤ coeffSum p := by
    intro θ φ
    have h := polyAt_le hp ⟨sin θ * cos φ, sin θ * sin φ, cos θ⟩
    have e : len (⟨sin θ * cos φ, sin θ * sin φ, cos θ⟩ : Pt ℝ) = 1 := by
      unfold len normSq
      rw [Real.sqrt_eq_one]
      have h1 := sin_sq_add_cos_sq θ
      have h2 := sin_sq_add_cos_sq φ
      dsimp only
      linear_combination (sin θ) ^ 2 * h2 + h1
    rwa [e, one_pow, mul_one] at h
  have hin : ∀ θ ∈ Ioc 0 π, ‖(∫ φ in (0 : ℝ)..(2 * π), polyAt p ⟨sin θ * cos φ, sin θ * sin φ, cos θ⟩) * sin θ‖ ≤
      coeffSum p * (2 * π) * sin θ := by
    intro θ hθ
    have h := intervalIntegral.norm_integral_le_of_norm_le_const (a := 0) (b := 2 * π) (C := coeffSum p)
      (f := fun φ => polyAt p ⟨sin θ * cos φ, sin θ * sin φ, cos θ⟩) (fun φ _ => hpt θ φ)
    have hs : 0 ≤ sin θ := sin_nonneg_of_nonneg_of_le_pi hθ.1.le hθ.2
    rw [sub_zero, abs_of_pos two_pi_pos] at h
    rw [norm_mul, Real.norm_of_nonneg hs]
    exact mul_le_mul_of_nonneg_right h hs
  have h := intervalIntegral.norm_integral_le_of_norm_le pi_pos.le (ae_of_all volume hin)
    (Continuous.intervalIntegrable (by fun_prop) _ _)
  rw [intervalIntegral.integral_const_mul, integral_sin] at h
  simp only [cos_zero, cos_pi] at h
  unfold sphereInt
  refine h.trans (le_of_eq ?_)
  ring

private theorem ruleSum_mono {x w : List ℝ} {f g : ℝ → ℝ} (hx : ∀ r ∈ x, 0 < r) (hw : ∀ r ∈ w, 0 < r)
    (h : ∀ r, 0 < r → f r ≤ g r) : ruleSum x w f ≤ ruleSum x w g := by
  unfold ruleSum
  refine List.sum_le_sum fun e he => ?_
  exact mul_le_mul_of_nonneg_left (h _ (hx _ (List.of_mem_zip he).1)) (hw _ (List.of_mem_zip he).2).le

private theorem ruleSum_smul (x w : List ℝ) (c : ℝ) (f : ℝ → ℝ) :
    ruleSum x w (fun r => c * f r) = c * ruleSum x w f := by
  unfold ruleSum
  rw [← List.sum_map_mul_left]
  congr 2
  ext e
  ring

/-- The slowest function with the decay of C101. -/
private theorem reference_decay {R : ℝ} (hR : 0 < R) :
    AlgebraicDecay R (fun r => 1 / (1 + r / R) ^ 3) (fun r => -3 / (R * (1 + r / R) ^ 4))
      (fun r => 12 / (R ^ 2 * (1 + r / R) ^ 5)) 1 3 12 := by
  have h0 : ∀ r : ℝ, 0 < r → 0 < 1 + r / R := fun r hr => by positivity
  have hd : ∀ r : ℝ, HasDerivAt (fun r => 1 + r / R) (1 / R) r := fun r =>
    ((hasDerivAt_id r).div_const R).const_add 1
  refine ⟨fun r hr => ?_, fun r hr => ?_, fun r hr => ?_, fun r hr => ?_, fun r hr => ?_⟩
  · have := (h0 r hr).ne'
    refine ((hasDerivAt_const r (1 : ℝ)).div ((hd r).pow 3) (pow_ne_zero _ this)).congr_deriv ?_
    simp only [Pi.pow_apply]
    generalize 1 + r / R = u at *
    field_simp
    norm_num
    ring
  · have := (h0 r hr).ne'
    refine ((hasDerivAt_const r (-3 : ℝ)).div (((hd r).pow 4).const_mul R)
      (mul_ne_zero hR.ne' (pow_ne_zero _ this))).congr_deriv ?_
    simp only [Pi.pow_apply]
    generalize 1 + r / R = u at *
    field_simp
    norm_num
    ring
  · have := h0 r hr
    rw [abs_of_pos (by positivity)]
    generalize 1 + r / R = u at *
    field_simp
    exact le_rfl
  · have := h0 r hr
    rw [abs_div, abs_of_pos (by positivity : 0 < R * (1 + r / R) ^ 4)]
    generalize 1 + r / R = u at *
    norm_num
    field_simp
    exact le_rfl
  · have := h0 r hr
    rw [abs_of_pos (by positivity)]
    generalize 1 + r / R = u at *
    field_simp
    exact le_rfl

private theorem reference_integral {R : ℝ} (hR : 0 < R) (hi : IntegrableOn (fun r => 1 / (1 + r / R) ^ 3) (Ioi 0)) :
    ∫ r in Ioi (0 : ℝ), 1 / (1 + r / R) ^ 3 = R / 2 := by
  have hd : ∀ r : ℝ, HasDerivAt (fun r => 1 + r / R) (1 / R) r := fun r =>
    ((hasDerivAt_id r).div_const R).const_add 1
  have h := integral_Ioi_of_hasDerivAt_of_tendsto' (a := 0) (m := 0) (f := fun r => -(R / 2) / (1 + r / R) ^ 2)
    (f' := fun r => 1 / (1 + r / R) ^ 3) (fun r hr => by
      have h0 : (1 + r / R) ≠ 0 := by
        have : 0 ≤ r / R := div_nonneg hr hR.le
        positivity
      refine ((hasDerivAt_const r (-(R / 2))).div ((hd r).pow 2) (pow_ne_zero _ h0)).congr_deriv ?_
      simp only [Pi.pow_apply]
      generalize 1 + r / R = u at *
      field_simp
      norm_num
      ring) hi (by
      refine Tendsto.div_atTop tendsto_const_nhds ?_
      refine (tendsto_pow_atTop two_ne_zero).comp ?_
      exact tendsto_atTop_add_const_left _ _ (tendsto_id.atTop_div_const hR))
  rw [h]
  norm_num

/-- Nodes slightly off the sphere: the mean value theorem along the ray. -/
private theorem off_sphere_core {l : ℕ} {F f f1 : ℝ → ℝ} {ρ B D : ℝ} (hρ : 0 < ρ)
    (hd : ∀ r, 0 < r → HasDerivAt f (f1 r) r) (hf : f = fun ρ => ρ ^ (2 + l) * F ρ) (hBD : 0 ≤ 2 * B * D)
    (hb : ∀ y, 0 < y → |y - 1| ≤ 1 / 10 ^ 14 →
      |(f1 (ρ * y) * (ρ * y) - (l + 2) * f (ρ * y)) / y ^ (3 + l)| ≤ 2 * B * D) {s : ℝ}
    (hs : |s - 1| ≤ 1 / 10 ^ 14) :
    |ρ ^ (2 + l) * (F (ρ * s) - F ρ)| ≤ 2 / 10 ^ 14 * B * D := by
  obtain ⟨g, hg⟩ : ∃ g : ℝ → ℝ, g = fun y => ρ ^ (2 + l) * F (ρ * y) := ⟨_, rfl⟩
  obtain ⟨J, hJ⟩ : ∃ J : Set ℝ, J = Icc (1 - 1 / 10 ^ 14) (1 + 1 / 10 ^ 14) := ⟨_, rfl⟩
  have hJpos : ∀ y ∈ J, 0 < y := fun y hy => by
    rw [hJ] at hy
    have := hy.1
    norm_num at this ⊢
    linarith
  have hge : ∀ y, 0 < y → g y = f (ρ * y) / y ^ (2 + l) := fun y hy => by
    rw [hg, hf]
    dsimp only
    rw [mul_pow]
    field_simp
  have hder : ∀ y ∈ J, HasDerivWithinAt g ((f1 (ρ * y) * (ρ * y) - (l + 2) * f (ρ * y)) / y ^ (3 + l)) J y := by
    intro y hy
    have hy0 := hJpos y hy
    have e1 : HasDerivAt (fun y => f (ρ * y)) (f1 (ρ * y) * ρ) y := by
      have := (hd (ρ * y) (by positivity)).comp y ((hasDerivAt_id y).const_mul ρ)
      rwa [mul_one] at this
    have e2 := e1.div (hasDerivAt_pow (2 + l) y) (pow_ne_zero _ hy0.ne')
    refine ((e2.congr_of_eventuallyEq ?_).congr_deriv ?_).hasDerivWithinAt
    · filter_upwards [eventually_gt_nhds hy0] with z hz using hge z hz
    · rw [show 2 + l - 1 = 1 + l by omega]
      push_cast
      field_simp
      ring
  have hbound : ∀ y ∈ J, ‖(f1 (ρ * y) * (ρ * y) - (l + 2) * f (ρ * y)) / y ^ (3 + l)‖ ≤ 2 * B * D := by
    intro y hy
    refine hb y (hJpos y hy) ?_
    rw [hJ] at hy
    rw [abs_le]
    constructor <;> linarith [hy.1, hy.2]
  have h1J : (1 : ℝ) ∈ J := by rw [hJ]; constructor <;> norm_num
  have hsJ : s ∈ J := by
    rw [hJ]
    obtain ⟨u1, u2⟩ := abs_le.1 hs
    constructor <;> linarith
  have hcv : Convex ℝ J := by rw [hJ]; exact convex_Icc _ _
  have hm := hcv.norm_image_sub_le_of_norm_hasDerivWithin_le hder hbound h1J hsJ
  rw [Real.norm_eq_abs, Real.norm_eq_abs, hg] at hm
  dsimp only at hm
  rw [mul_one, ← mul_sub] at hm
  refine hm.trans ?_
  refine (mul_le_mul_of_nonneg_left hs hBD).trans (le_of_eq ?_)
  ring

/-- Nodes slightly off the sphere, for integrands with an algebraic decay. -/
private theorem off_sphere {R : ℝ} (hR : 0 < R) {l : ℕ} (hl : l ≤ 10 ^ 6) {F f1 f2 : ℝ → ℝ} {A0 A1 A2 : ℝ}
    (h : AlgebraicDecay R (fun ρ => ρ ^ (2 + l) * F ρ) f1 f2 A0 A1 A2) {ρ : ℝ} (hρ : 0 < ρ) {s : ℝ}
    (hs : |s - 1| ≤ 1 / 10 ^ 14) :
    |ρ ^ (2 + l) * (F (ρ * s) - F ρ)| ≤ 2 / 10 ^ 14 * ((l + 2) * A0 + A1) * (1 / (1 + ρ / R) ^ 3) := by
  have hA0 : 0 ≤ A0 := le_trans (by positivity) (h.bound0 1 one_pos)
  have hA1 : 0 ≤ A1 := le_trans (by positivity) (h.bound1 1 one_pos)
  obtain ⟨f, hf⟩ : ∃ f : ℝ → ℝ, f = fun ρ => ρ ^ (2 + l) * F ρ := ⟨_, rfl⟩
  rw [← hf] at h
  have hl' : (l : ℝ) ≤ 10 ^ 6 := by exact_mod_cast hl
  refine off_sphere_core hρ h.deriv hf (by positivity) (fun y hy0 hyn => ?_) hs
  have hb0 := h.bound0 (ρ * y) (by positivity)
  have hb1 := h.bound1 (ρ * y) (by positivity)
  rw [abs_div, abs_of_pos (pow_pos hy0 (3 + l))]
  obtain ⟨v, hv⟩ : ∃ v, v = 1 + ρ * y / R := ⟨_, rfl⟩
  have hv0 : 0 < v := by rw [hv]; positivity
  rw [← hv] at hb0 hb1
  have k0 : |f (ρ * y)| ≤ A0 / v ^ 3 := by
    rw [le_div_iff₀ (by positivity)]
    linarith
  have k1 : |f1 (ρ * y) * (ρ * y)| ≤ A1 / v ^ 3 := by
    rw [le_div_iff₀ (by positivity), abs_mul, abs_of_pos (by positivity : 0 < ρ * y)]
    refine le_trans ?_ hb1
    have : ρ * y ≤ R * v := by
      rw [hv]
      field_simp
      linarith
    calc |f1 (ρ * y)| * (ρ * y) * v ^ 3 = |f1 (ρ * y)| * v ^ 3 * (ρ * y) := by ring
      _ ≤ |f1 (ρ * y)| * v ^ 3 * (R * v) := mul_le_mul_of_nonneg_left this (by positivity)
      _ = _ := by ring
  have k2 : |f1 (ρ * y) * (ρ * y) - (l + 2) * f (ρ * y)| ≤ ((l + 2) * A0 + A1) / v ^ 3 := by
    refine (abs_sub _ _).trans ?_
    rw [abs_mul ((l : ℝ) + 2), abs_of_pos (by positivity : (0 : ℝ) < l + 2)]
    have := mul_le_mul_of_nonneg_left k0 (by positivity : (0 : ℝ) ≤ l + 2)
    calc _ ≤ A1 / v ^ 3 + (l + 2) * (A0 / v ^ 3) := add_le_add k1 this
      _ = _ := by ring
  -- the powers of `y` and the shift of the argument
  have hpow : (1 + ρ / R) ^ 3 ≤ 2 * (y ^ (3 + l) * v ^ 3) := by
    have hy1 : min 1 y * (1 + ρ / R) ≤ v := by
      have hq : 0 < ρ / R := by positivity
      rw [hv, show ρ * y / R = ρ / R * y by ring]
      rcases min_cases 1 y with ⟨c1, c2⟩ | ⟨c1, c2⟩ <;> rw [c1] <;> nlinarith
    have hm0 : 0 < min 1 y := lt_min one_pos hy0
    have hmn : |min 1 y - 1| ≤ 1 / 10 ^ 14 := by
      rcases min_cases 1 y with ⟨c1, c2⟩ | ⟨c1, c2⟩ <;> rw [c1]
      · norm_num
      · exact hyn
    have hn1 := pow_near hmn hm0.le (6 + l) (by push_cast; norm_num; linarith)
    have hn2 : 1 / 2 ≤ min 1 y ^ (6 + l) := by
      have := (abs_le.1 hn1).1
      push_cast at this
      have h3 : 2 * ((6 + (l : ℝ)) * (1 / 10 ^ 14)) ≤ 1 / 2 := by norm_num; linarith
      linarith
    have h4 : min 1 y ^ (3 + l) ≤ y ^ (3 + l) := pow_le_pow_left₀ hm0.le (min_le_right _ _) _
    have h5 : (min 1 y * (1 + ρ / R)) ^ 3 ≤ v ^ 3 := pow_le_pow_left₀ (by positivity) hy1 _
    have h6 : min 1 y ^ (3 + l) * (min 1 y * (1 + ρ / R)) ^ 3 ≤ y ^ (3 + l) * v ^ 3 :=
      mul_le_mul h4 h5 (by positivity) (by positivity)
    have h7 : min 1 y ^ (3 + l) * (min 1 y * (1 + ρ / R)) ^ 3 = min 1 y ^ (6 + l) * (1 + ρ / R) ^ 3 := by
      rw [mul_pow, ← mul_assoc, ← pow_add, show 3 + l + 3 = 6 + l by ring]
    have h8 := mul_le_mul_of_nonneg_right hn2 (by positivity : 0 ≤ (1 + ρ / R) ^ 3)
    linarith
  have hc : 0 ≤ (l + 2) * A0 + A1 := by positivity
  calc _ ≤ ((l + 2) * A0 + A1) / v ^ 3 / y ^ (3 + l) := div_le_div_of_nonneg_right k2 (by positivity)
    _ = ((l + 2) * A0 + A1) * (1 / (y ^ (3 + l) * v ^ 3)) := by field_simp
    _ ≤ ((l + 2) * A0 + A1) * (2 / (1 + ρ / R) ^ 3) := by
      refine mul_le_mul_of_nonneg_left ?_ hc
      rw [div_le_div_iff₀ (by positivity) (by positivity)]
      linarith
    _ = _ := by ring

private theorem reference_decay_exp {μ R : ℝ} (hR : 0 < R) (hμ : 0 < μ) :
    ExponentialDecay μ R (fun r => exp (-(μ * (r / R)))) (fun r => -(μ / R) * exp (-(μ * (r / R))))
      (fun r => (μ / R) ^ 2 * exp (-(μ * (r / R)))) 1 μ (μ ^ 2) := by
  have hd : ∀ r : ℝ, HasDerivAt (fun r => exp (-(μ * (r / R)))) (-(μ / R) * exp (-(μ * (r / R)))) r := fun r => by
    refine (((((hasDerivAt_id r).div_const R).const_mul μ).neg).exp).congr_deriv ?_
    simp only [id, Pi.neg_apply]
    ring
  have e : ∀ r, exp (μ * (r / R)) * exp (-(μ * (r / R))) = 1 := fun r => by rw [← exp_add]; simp
  refine ⟨fun r _ => hd r, fun r _ => ((hd r).const_mul _).congr_deriv (by ring), fun r _ => ?_, fun r _ => ?_,
    fun r _ => ?_⟩
  · rw [abs_of_pos (exp_pos _), e]
  · rw [abs_mul, abs_neg, abs_of_pos (by positivity : 0 < μ / R), abs_of_pos (exp_pos _)]
    refine le_of_eq ?_
    calc _ = R * (μ / R) * (exp (μ * (r / R)) * exp (-(μ * (r / R)))) := by ring
      _ = μ := by rw [e]; field_simp
  · rw [abs_mul, abs_of_pos (by positivity : 0 < (μ / R) ^ 2), abs_of_pos (exp_pos _)]
    refine le_of_eq ?_
    calc _ = (R * (μ / R)) ^ 2 * (exp (μ * (r / R)) * exp (-(μ * (r / R)))) := by ring
      _ = μ ^ 2 := by rw [e]; field_simp

private theorem reference_integral_exp {μ R : ℝ} (hR : 0 < R) (hμ : 0 < μ)
    (hi : IntegrableOn (fun r => exp (-(μ * (r / R)))) (Ioi 0)) :
    ∫ r in Ioi (0 : ℝ), exp (-(μ * (r / R))) = R / μ := by
  have h := integral_Ioi_of_hasDerivAt_of_tendsto' (a := 0) (m := 0) (f := fun r => -(R / μ) * exp (-(μ * (r / R))))
    (f' := fun r => exp (-(μ * (r / R)))) (fun r hr => by
      refine ((((((hasDerivAt_id r).div_const R).const_mul μ).neg).exp).const_mul _).congr_deriv ?_
      simp only [id, Pi.neg_apply]
      field_simp) hi (by
      rw [show (0 : ℝ) = -(R / μ) * 0 by ring]
      refine Tendsto.const_mul _ (tendsto_exp_atBot.comp ?_)
      refine tendsto_neg_atTop_atBot.comp ?_
      exact (tendsto_id.atTop_div_const hR).const_mul_atTop hμ)
  rw [h]
  simp

/-- A factor that grows like the argument costs a little of the exponential. -/
private theorem exp_shift {μ q y : ℝ} (hμ : 0 ≤ μ) (hμ3 : μ ≤ 3) (hq : 0 < q) (hy : |y - 1| ≤ 1 / 10 ^ 14) :
    exp (-((μ + 1) * (q * y))) ≤ exp (-(μ * q)) ∧ q * exp (-((μ + 1) * (q * y))) ≤ exp (-(μ * q)) := by
  have hy1 : 1 - 1 / 10 ^ 14 ≤ y := by linarith [(abs_le.1 hy).1]
  have hk : 9 / 10 ≤ (μ + 1) * y - μ := by norm_num at hy1; nlinarith
  have e : exp (-((μ + 1) * (q * y))) ≤ exp (-(9 / 10 * q)) * exp (-(μ * q)) := by
    rw [← exp_add, exp_le_exp]
    nlinarith
  have hp := exp_pos (-(μ * q))
  constructor
  · refine e.trans ?_
    have : exp (-(9 / 10 * q)) ≤ 1 := by rw [exp_le_one_iff]; linarith
    nlinarith
  · have h1 : q * exp (-(9 / 10 * q)) ≤ 1 := by
      have h2 := add_one_le_exp (9 / 10 * q - 1)
      have h3 : exp (9 / 10 * q - 1) = exp (9 / 10 * q) / exp 1 := exp_sub _ _
      have h4 := exp_one_gt_d9
      rw [h3, le_div_iff₀ (exp_pos 1)] at h2
      rw [exp_neg, ← div_eq_mul_inv, div_le_one (exp_pos _)]
      nlinarith
    calc q * exp (-((μ + 1) * (q * y))) ≤ q * (exp (-(9 / 10 * q)) * exp (-(μ * q))) := mul_le_mul_of_nonneg_left e hq.le
      _ = q * exp (-(9 / 10 * q)) * exp (-(μ * q)) := by ring
      _ ≤ 1 * exp (-(μ * q)) := mul_le_mul_of_nonneg_right h1 hp.le
      _ = _ := one_mul _

/-- Nodes slightly off the sphere, for integrands with an exponential decay. -/
private theorem off_sphere_exp {μ R : ℝ} (hμ : 0 ≤ μ) (hμ3 : μ ≤ 3) (hR : 0 < R) {l : ℕ} (hl : l ≤ 10 ^ 6)
    {F f1 f2 : ℝ → ℝ} {A0 A1 A2 : ℝ}
    (h : ExponentialDecay (μ + 1) R (fun ρ => ρ ^ (2 + l) * F ρ) f1 f2 A0 A1 A2) {ρ : ℝ} (hρ : 0 < ρ) {s : ℝ}
    (hs : |s - 1| ≤ 1 / 10 ^ 14) :
    |ρ ^ (2 + l) * (F (ρ * s) - F ρ)| ≤ 2 / 10 ^ 14 * ((l + 2) * A0 + A1) * exp (-(μ * (ρ / R))) := by
  obtain ⟨f, hf⟩ : ∃ f : ℝ → ℝ, f = fun ρ => ρ ^ (2 + l) * F ρ := ⟨_, rfl⟩
  have hA0 : 0 ≤ A0 := le_trans (by positivity) (h.bound0 1 one_pos)
  have hA1 : 0 ≤ A1 := le_trans (by positivity) (h.bound1 1 one_pos)
  rw [← hf] at h
  have hl' : (l : ℝ) ≤ 10 ^ 6 := by exact_mod_cast hl
  refine off_sphere_core hρ h.deriv hf (by positivity) (fun y hy0 hyn => ?_) hs
  obtain ⟨s0, s1⟩ := exp_shift hμ hμ3 (by positivity : 0 < ρ / R) hyn
  rw [show ρ / R * y = ρ * y / R by ring] at s0 s1
  have hb0 := h.bound0 (ρ * y) (by positivity)
  have hb1 := h.bound1 (ρ * y) (by positivity)
  obtain ⟨X, hX⟩ : ∃ X, X = exp ((μ + 1) * (ρ * y / R)) := ⟨_, rfl⟩
  obtain ⟨Y, hY⟩ : ∃ Y, Y = exp (-(μ * (ρ / R))) := ⟨_, rfl⟩
  have hX0 : 0 < X := by rw [hX]; exact exp_pos _
  have hY0 : 0 < Y := by rw [hY]; exact exp_pos _
  rw [exp_neg, ← hX, ← hY] at s0 s1
  rw [← hX] at hb0 hb1
  rw [← hY]
  have hn1 := pow_near hyn hy0.le (3 + l) (by push_cast; norm_num; linarith)
  have hn2 : 1 / 2 ≤ y ^ (3 + l) := by
    have := (abs_le.1 hn1).1
    push_cast at this
    have h3 : 2 * ((3 + (l : ℝ)) * (1 / 10 ^ 14)) ≤ 1 / 2 := by norm_num; linarith
    linarith
  have hn3 := pow_near hyn hy0.le (2 + l) (by push_cast; norm_num; linarith)
  have hn4 : 1 / 2 ≤ y ^ (2 + l) := by
    have := (abs_le.1 hn3).1
    push_cast at this
    have h3 : 2 * ((2 + (l : ℝ)) * (1 / 10 ^ 14)) ≤ 1 / 2 := by norm_num; linarith
    linarith
  have k0 : |f (ρ * y)| ≤ A0 * Y := by
    have : |f (ρ * y)| ≤ A0 * X⁻¹ := by
      rw [← div_eq_mul_inv, le_div_iff₀ hX0]
      linarith
    exact this.trans (mul_le_mul_of_nonneg_left s0 hA0)
  have k1 : |f1 (ρ * y)| * ρ ≤ A1 * Y := by
    have h1 : R * |f1 (ρ * y)| ≤ A1 * X⁻¹ := by
      rw [← div_eq_mul_inv, le_div_iff₀ hX0]
      linarith
    calc |f1 (ρ * y)| * ρ = R * |f1 (ρ * y)| * (ρ / R) := by field_simp
      _ ≤ A1 * X⁻¹ * (ρ / R) := mul_le_mul_of_nonneg_right h1 (by positivity)
      _ = A1 * (ρ / R * X⁻¹) := by ring
      _ ≤ A1 * Y := mul_le_mul_of_nonneg_left s1 hA1
  have m0 : (l + 2) * |f (ρ * y)| / y ^ (3 + l) ≤ 2 * ((l + 2) * A0 * Y) := by
    rw [div_le_iff₀ (by positivity)]
    have h1 := mul_le_mul_of_nonneg_left k0 (by positivity : (0 : ℝ) ≤ l + 2)
    have h2 : 0 ≤ (l + 2) * A0 * Y := by positivity
    nlinarith
  have m1 : |f1 (ρ * y)| * (ρ * y) / y ^ (3 + l) ≤ 2 * (A1 * Y) := by
    rw [show |f1 (ρ * y)| * (ρ * y) / y ^ (3 + l) = |f1 (ρ * y)| * ρ / y ^ (2 + l) by
      rw [show 3 + l = 2 + l + 1 by ring, pow_succ]
      field_simp, div_le_iff₀ (by positivity)]
    have h2 : 0 ≤ A1 * Y := by positivity
    nlinarith
  rw [abs_div, abs_of_pos (pow_pos hy0 (3 + l))]
  have k2 := abs_sub (f1 (ρ * y) * (ρ * y)) ((l + 2) * f (ρ * y))
  rw [abs_mul ((l : ℝ) + 2), abs_of_pos (by positivity : (0 : ℝ) < l + 2), abs_mul (f1 (ρ * y)),
    abs_of_pos (by positivity : 0 < ρ * y)] at k2
  refine (div_le_div_of_nonneg_right k2 (by positivity)).trans ?_
  rw [add_div]
  refine (add_le_add m1 m0).trans (le_of_eq ?_)
  ring

/-- The split of C82 with bounds for its three parts. -/
private theorem assemble {R E S A0 c I W T r0 r1 r2 K : ℝ} (hI : I ≤ 4 * π * c) (hc : 0 ≤ c) (hT : 0 ≤ T)
    (h0 : 0 ≤ r0) (hr0 : r0 ≤ E) (hA0 : 0 ≤ A0) (hr1 : r1 ≤ A0 * S) (hK : 0 ≤ K) (hr2 : r2 ≤ K * S) (hS : S ≤ W * R) :
    I * r0 + T * c * r1 + 16 * π * c * r2 ≤ c * (4 * π * E + W * R * (T * A0 + 16 * π * K)) := by
  have hE : 0 ≤ E := h0.trans hr0
  have a1 : I * r0 ≤ 4 * π * c * E := by
    refine (mul_le_mul_of_nonneg_right hI h0).trans (mul_le_mul_of_nonneg_left hr0 ?_)
    have := pi_pos
    positivity
  have a2 : T * c * r1 ≤ T * c * (A0 * (W * R)) :=
    mul_le_mul_of_nonneg_left (hr1.trans (mul_le_mul_of_nonneg_left hS hA0)) (by positivity)
  have a3 : 16 * π * c * r2 ≤ 16 * π * c * (K * (W * R)) := by
    refine mul_le_mul_of_nonneg_left (hr2.trans (mul_le_mul_of_nonneg_left hS hK)) ?_
    have := pi_pos
    positivity
  calc _ ≤ 4 * π * c * E + T * c * (A0 * (W * R)) + 16 * π * c * (K * (W * R)) := by linarith
    _ = _ := by ring

private theorem space_bound (b : Build) {rq : RadialQuad} {t : RadialTraits ℝ} (hm : Matches rq t)
    (hv : radialValid t) (hn : t.npts + 2 < sizeMod) (fam : AngFam) (rs : List PruningRegion)
    (hst : StartsOk (rs.map (fun r => (r.idxSt, r.angularSize)))) (hlt : ∀ r ∈ rs, r.idxSt < t.npts)
    (hdebug : b.asserts = true → ∀ r ∈ rs.tail, r.idxSt < t.npts - 1)
    {p : MvPolynomial (Fin 3) ℝ} {l : ℕ} (hp : p.IsHomogeneous l)
    (hang : ∀ r ∈ rs, r.angularQuad = .fam fam ∧ fam.orderByNpts r.angularSize ≠ -1 ∧
      ¬ (fam = .ahrensBeylkin ∧ r.angularSize = 552) ∧ (l : Int) ≤ fam.orderByNpts r.angularSize)
    {R : ℝ} {F D : ℝ → ℝ} {A0 K E W : ℝ} (hA0 : 0 ≤ A0) (hK : 0 ≤ K)
    (h0 : ∀ ρ, 0 < ρ → |ρ ^ (2 + l) * F ρ| ≤ A0 * D ρ)
    (hH : l ≤ 10 ^ 6 → ∀ ρ, 0 < ρ → ∀ s, |s - 1| ≤ 1 / 10 ^ 14 → |ρ ^ (2 + l) * (F (ρ * s) - F ρ)| ≤ K * D ρ)
    (hi : IntegrableOn (fun ρ => ρ ^ (2 + l) * F ρ) (Ioi 0))
    (hE : Returns (construct b t.generate) (fun q => |ruleSum q.points q.weights (fun ρ => ρ ^ (2 + l) * F ρ) -
      ∫ ρ in Ioi 0, ρ ^ (2 + l) * F ρ| ≤ E))
    (hW : Returns (construct b t.generate) (fun q => ruleSum q.points q.weights D ≤ W * R)) :
    Integrable (fun x : E3 => F ‖x‖ * polyAt p ⟨x 0, x 1, x 2⟩) ∧
    Returns (generatePrunedGrid b (angData ℝ) rq t rs) (fun s =>
      |ruleSum s.quad.points s.quad.weights (fun u => F (√(normSq u)) * polyAt p u) -
          ∫ x : E3, F ‖x‖ * polyAt p ⟨x 0, x 1, x 2⟩| ≤
        coeffSum p * (4 * π * E + W * R * (tableErr fam l * A0 + 16 * π * K))) := by
  refine ⟨space_integrable hp hi, ?_⟩
  have hl6 : l ≤ 10 ^ 6 := by
    obtain ⟨r0, rest, rfl⟩ : ∃ r0 rest, rs = r0 :: rest := by
      cases rs with
      | nil => simp [StartsOk] at hst
      | cons r0 rest => exact ⟨_, _, rfl⟩
    have h1 := hang r0 (by simp)
    have := order_le fam _ h1.2.1
    omega
  obtain ⟨q, hq, s, hs, hsum⟩ := C82_pruned_grid_error b hm hv hn fam rs hst hlt hdebug hp hang
    (H := fun ρ => K * D ρ) (hH hl6)
  obtain ⟨q', hq', hpos⟩ := C21_radial_quadrature b t hv hn
  obtain rfl : q = q' := Outcome.ok.inj (hq.symm.trans hq')
  obtain ⟨q', hq', hE⟩ := hE
  obtain rfl : q = q' := Outcome.ok.inj (hq.symm.trans hq')
  obtain ⟨q', hq', hW⟩ := hW
  obtain rfl : q = q' := Outcome.ok.inj (hq.symm.trans hq')
  refine ⟨s, hs, hsum.trans ?_⟩
  refine assemble (S := ruleSum q.points q.weights D) (sphereInt_le hp)
    (Finset.sum_nonneg fun _ _ => abs_nonneg _) ?_ (abs_nonneg _) hE hA0 ?_ hK ?_ hW
  · unfold tableErr
    have := pi_pos
    cases fam <;> positivity
  · rw [← ruleSum_smul]
    exact ruleSum_mono hpos.2.2.1 hpos.2.2.2.1 h0
  · rw [← ruleSum_smul]

private theorem algebraic_bounds {R : ℝ} (hR : 0 < R) {f f1 f2 : ℝ → ℝ} {A0 A1 A2 : ℝ}
    (h : AlgebraicDecay R f f1 f2 A0 A1 A2) :
    0 ≤ A0 ∧ 0 ≤ A1 ∧ ∀ r, 0 < r → |f r| ≤ A0 * (1 / (1 + r / R) ^ 3) := by
  refine ⟨le_trans (by positivity) (h.bound0 1 one_pos), le_trans (by positivity) (h.bound1 1 one_pos), fun r hr => ?_⟩
  have := h.bound0 r hr
  rw [mul_one_div, le_div_iff₀ (by positivity)]
  linarith

private theorem exponential_bounds {μ R : ℝ} (hR : 0 < R) {f f1 f2 : ℝ → ℝ} {A0 A1 A2 : ℝ}
    (h : ExponentialDecay (μ + 1) R f f1 f2 A0 A1 A2) :
    0 ≤ A0 ∧ 0 ≤ A1 ∧ (∀ r, 0 < r → |f r| ≤ A0 * exp (-(μ * (r / R)))) ∧ ExponentialDecay μ R f f1 f2 A0 A1 A2 := by
  have hexp : ∀ r, 0 < r → exp (μ * (r / R)) ≤ exp ((μ + 1) * (r / R)) := fun r hr => by
    rw [exp_le_exp]
    have : 0 < r / R := by positivity
    linarith
  have hb : ∀ r, 0 < r → exp (μ * (r / R)) * |f r| ≤ A0 := fun r hr =>
    (mul_le_mul_of_nonneg_right (hexp r hr) (abs_nonneg _)).trans (h.bound0 r hr)
  refine ⟨le_trans (by positivity) (h.bound0 1 one_pos), le_trans (by positivity) (h.bound1 1 one_pos), fun r hr => ?_,
    h.deriv, h.deriv2, hb, fun r hr => ?_, fun r hr => ?_⟩
  · have := hb r hr
    rw [exp_neg, ← div_eq_mul_inv, le_div_iff₀ (exp_pos _)]
    linarith
  · exact (mul_le_mul_of_nonneg_right (hexp r hr) (by positivity)).trans (h.bound1 r hr)
  · exact (mul_le_mul_of_nonneg_right (hexp r hr) (by positivity)).trans (h.bound2 r hr)

/-- The sum of a rule on the slowest function, from its error. -/
private theorem reference_sum {R E I W : ℝ} {D : ℝ → ℝ} {o : Outcome (Quad ℝ ℝ)}
    (hI : IntegrableOn D (Ioi 0) → ∫ r in Ioi 0, D r = I)
    (h : IntegrableOn D (Ioi 0) ∧ Returns o (fun q => |ruleSum q.points q.weights D - ∫ r in Ioi 0, D r| ≤ E))
    (hE : E ≤ W * R - I) :
    Returns o (fun q => ruleSum q.points q.weights D ≤ W * R) := by
  obtain ⟨hi, q, hq, hb⟩ := h
  refine ⟨q, hq, ?_⟩
  rw [hI hi] at hb
  have := (abs_le.1 hb).2
  linarith

/-- **C102.**  A pruned grid of the factory with the Becke radial rule, for the integrand `F(|x|) p(x)` with `p`
homogeneous of a degree at most the order of every angular grid used, and `ρ^(2+l) F(ρ)` with the decay of C101: the
error against the integral over space falls with the square of the number of radial points, down to the rounding of the
angular tables. -/
theorem C102_becke (b : Build) (n : ℕ) (hn : n + 2 < sizeMod) {R : ℝ} (hR : 0 < R) (fam : AngFam)
    (rs : List PruningRegion)
    (hst : StartsOk (rs.map (fun r => (r.idxSt, r.angularSize)))) (hlt : ∀ r ∈ rs, r.idxSt < n)
    (hdebug : b.asserts = true → ∀ r ∈ rs.tail, r.idxSt < n - 1)
    {p : MvPolynomial (Fin 3) ℝ} {l : ℕ} (hp : p.IsHomogeneous l)
    (hang : ∀ r ∈ rs, r.angularQuad = .fam fam ∧ fam.orderByNpts r.angularSize ≠ -1 ∧
      ¬ (fam = .ahrensBeylkin ∧ r.angularSize = 552) ∧ (l : Int) ≤ fam.orderByNpts r.angularSize)
    {F f1 f2 : ℝ → ℝ} {A0 A1 A2 : ℝ} (h : AlgebraicDecay R (fun ρ => ρ ^ (2 + l) * F ρ) f1 f2 A0 A1 A2) :
    Integrable (fun x : E3 => F ‖x‖ * polyAt p ⟨x 0, x 1, x 2⟩) ∧
    Returns (generatePrunedGrid b (angData ℝ) .becke (becke n R) rs) (fun s =>
      |ruleSum s.quad.points s.quad.weights (fun u => F (√(normSq u)) * polyAt p u) -
          ∫ x : E3, F ‖x‖ * polyAt p ⟨x 0, x 1, x 2⟩| ≤
        coeffSum p * R * (π ^ 4 * (6 * A0 + 9 * A1 + 2 * A2) / (12 * (n + 1) ^ 2) + 10 * tableErr fam l * A0 +
          π * ((l + 2) * A0 + A1) * (32 / 10 ^ 13))) := by
  obtain ⟨hi, hE⟩ := C101_becke b n hR h
  obtain ⟨hA0, hA1, h0⟩ := algebraic_bounds hR h
  have hn1 : 1 ≤ n := by
    cases rs with
    | nil => simp [StartsOk] at hst
    | cons r0 rest => have := hlt r0 (by simp); omega
  have hW := reference_sum (R := R) (W := 10) (reference_integral hR) (C101_becke b n hR (reference_decay hR)) (by
    have hn1' : (1 : ℝ) ≤ n := by exact_mod_cast hn1
    have hsq : (4 : ℝ) ≤ (n + 1) ^ 2 := by nlinarith
    have hpi : π ^ 3 ≤ 31.1 := by
      have := pow_le_pow_left₀ pi_pos.le pi_lt_d4.le 3
      norm_num at this ⊢
      linarith
    rw [div_le_iff₀ (by positivity)]
    have h1 : π ^ 3 * R ≤ 31.1 * R := mul_le_mul_of_nonneg_right hpi hR.le
    have h2 := mul_le_mul_of_nonneg_left hsq hR.le
    norm_num at h1 ⊢
    linarith)
  obtain ⟨h1, s, hs, h2⟩ := space_bound b (.becke n R) hR hn fam rs hst hlt hdebug hp hang hA0
    (by positivity : 0 ≤ 2 / 10 ^ 14 * ((l + 2) * A0 + A1)) h0 (fun hl ρ hρ s hs => off_sphere hR hl h hρ hs) hi hE hW
  refine ⟨h1, s, hs, h2.trans (le_of_eq ?_)⟩
  generalize ((n : ℝ) + 1) ^ 2 = D
  ring

/-- The same with the Murray-Handy-Laming radial rule. -/
theorem C102_murray_handy_laming (b : Build) (n : ℕ) (hn : n + 2 < sizeMod) {R : ℝ} (hR : 0 < R) (fam : AngFam)
    (rs : List PruningRegion)
    (hst : StartsOk (rs.map (fun r => (r.idxSt, r.angularSize)))) (hlt : ∀ r ∈ rs, r.idxSt < n)
    (hdebug : b.asserts = true → ∀ r ∈ rs.tail, r.idxSt < n - 1)
    {p : MvPolynomial (Fin 3) ℝ} {l : ℕ} (hp : p.IsHomogeneous l)
    (hang : ∀ r ∈ rs, r.angularQuad = .fam fam ∧ fam.orderByNpts r.angularSize ≠ -1 ∧
      ¬ (fam = .ahrensBeylkin ∧ r.angularSize = 552) ∧ (l : Int) ≤ fam.orderByNpts r.angularSize)
    {F f1 f2 : ℝ → ℝ} {A0 A1 A2 : ℝ} (h : AlgebraicDecay R (fun ρ => ρ ^ (2 + l) * F ρ) f1 f2 A0 A1 A2) :
    Integrable (fun x : E3 => F ‖x‖ * polyAt p ⟨x 0, x 1, x 2⟩) ∧
    Returns (generatePrunedGrid b (angData ℝ) .murrayHandyLaming (mhl 2 n R) rs) (fun s =>
      |ruleSum s.quad.points s.quad.weights (fun u => F (√(normSq u)) * polyAt p u) -
          ∫ x : E3, F ‖x‖ * polyAt p ⟨x 0, x 1, x 2⟩| ≤
        coeffSum p * R * (16 * π * (6 * A0 + 9 * A1 + 2 * A2) / (3 * (n + 1) ^ 2) + 20 * tableErr fam l * A0 +
          π * ((l + 2) * A0 + A1) * (64 / 10 ^ 13))) := by
  obtain ⟨hi, hE⟩ := C101_murray_handy_laming b n hn hR h
  obtain ⟨hA0, hA1, h0⟩ := algebraic_bounds hR h
  have hn1 : 1 ≤ n := by
    cases rs with
    | nil => simp [StartsOk] at hst
    | cons r0 rest => have := hlt r0 (by simp); omega
  have hW := reference_sum (R := R) (W := 20) (reference_integral hR) (C101_murray_handy_laming b n hn hR (reference_decay hR)) (by
    have hn1' : (1 : ℝ) ≤ n := by exact_mod_cast hn1
    have hsq : (4 : ℝ) ≤ (n + 1) ^ 2 := by nlinarith
    rw [div_le_iff₀ (by positivity)]
    have h2 := mul_le_mul_of_nonneg_left hsq hR.le
    norm_num at h2 ⊢
    linarith)
  obtain ⟨h1, s, hs, h2⟩ := space_bound b (.mhl n R) ⟨hR, by norm_num⟩ hn fam rs hst hlt hdebug hp hang hA0
    (by positivity : 0 ≤ 2 / 10 ^ 14 * ((l + 2) * A0 + A1)) h0 (fun hl ρ hρ s hs => off_sphere hR hl h hρ hs) hi hE hW
  refine ⟨h1, s, hs, h2.trans (le_of_eq ?_)⟩
  generalize ((n : ℝ) + 1) ^ 2 = D
  ring

/-- The Mura-Knowles radial rule, for integrands with `ρ^(2+l) F(ρ)` decaying like `exp(-4ρ/R)`. -/
theorem C102_muraknowles (b : Build) (n : ℕ) (hn : n + 2 < sizeMod) {R : ℝ} (hR : 0 < R) (fam : AngFam)
    (rs : List PruningRegion)
    (hst : StartsOk (rs.map (fun r => (r.idxSt, r.angularSize)))) (hlt : ∀ r ∈ rs, r.idxSt < n)
    (hdebug : b.asserts = true → ∀ r ∈ rs.tail, r.idxSt < n - 1)
    {p : MvPolynomial (Fin 3) ℝ} {l : ℕ} (hp : p.IsHomogeneous l)
    (hang : ∀ r ∈ rs, r.angularQuad = .fam fam ∧ fam.orderByNpts r.angularSize ≠ -1 ∧
      ¬ (fam = .ahrensBeylkin ∧ r.angularSize = 552) ∧ (l : Int) ≤ fam.orderByNpts r.angularSize)
    {F f1 f2 : ℝ → ℝ} {A0 A1 A2 : ℝ} (h : ExponentialDecay 4 R (fun ρ => ρ ^ (2 + l) * F ρ) f1 f2 A0 A1 A2) :
    Integrable (fun x : E3 => F ‖x‖ * polyAt p ⟨x 0, x 1, x 2⟩) ∧
    Returns (generatePrunedGrid b (angData ℝ) .muraKnowles (RadialTraits.mk n R) rs) (fun s =>
      |ruleSum s.quad.points s.quad.weights (fun u => F (√(normSq u)) * polyAt p u) -
          ∫ x : E3, F ‖x‖ * polyAt p ⟨x 0, x 1, x 2⟩| ≤
        coeffSum p * R * (9 * π * (2 * A0 + 3 * A1 + A2) / (n + 1) ^ 2 + 12 * tableErr fam l * A0 +
          π * ((l + 2) * A0 + A1) * (384 / 10 ^ 14))) := by
  have h' : ExponentialDecay (3 + 1) R (fun ρ => ρ ^ (2 + l) * F ρ) f1 f2 A0 A1 A2 := by norm_num; exact h
  obtain ⟨hA0, hA1, h0, h3⟩ := exponential_bounds hR h'
  obtain ⟨hi, hE⟩ := C101_muraknowles b n hn hR h3
  have hn1 : 1 ≤ n := by
    cases rs with
    | nil => simp [StartsOk] at hst
    | cons r0 rest => have := hlt r0 (by simp); omega
  have hW := reference_sum (R := R) (W := 12) (reference_integral_exp hR (by norm_num))
    (C101_muraknowles b n hn hR (reference_decay_exp hR (by norm_num))) (by
    have hn1' : (1 : ℝ) ≤ n := by exact_mod_cast hn1
    have hsq : (4 : ℝ) ≤ (n + 1) ^ 2 := by nlinarith
    rw [div_le_iff₀ (by positivity)]
    have h2 := mul_le_mul_of_nonneg_left hsq hR.le
    norm_num at h2 ⊢
    linarith)
  obtain ⟨h1, s, hs, h2⟩ := space_bound b (.mk n R) hR hn fam rs hst hlt hdebug hp hang hA0
    (by positivity : 0 ≤ 2 / 10 ^ 14 * ((l + 2) * A0 + A1)) h0
    (fun hl ρ hρ s hs => off_sphere_exp (by norm_num) (by norm_num) hR hl h' hρ hs) hi hE hW
  refine ⟨h1, s, hs, h2.trans (le_of_eq ?_)⟩
  generalize ((n : ℝ) + 1) ^ 2 = D
  ring

/-- The Treutler-Ahlrichs radial rule, for integrands with `ρ^(2+l) F(ρ)` decaying like `exp(-2ρ/R)`. -/
theorem C102_treutler_ahlrichs (b : Build) (n : ℕ) (hn : n + 2 < sizeMod) {R α : ℝ} (hR : 0 < R) (hα : 1 / 2 ≤ α)
    (hα' : α ≤ 1) (fam : AngFam) (rs : List PruningRegion)
    (hst : StartsOk (rs.map (fun r => (r.idxSt, r.angularSize)))) (hlt : ∀ r ∈ rs, r.idxSt < n)
    (hdebug : b.asserts = true → ∀ r ∈ rs.tail, r.idxSt < n - 1)
    {p : MvPolynomial (Fin 3) ℝ} {l : ℕ} (hp : p.IsHomogeneous l)
    (hang : ∀ r ∈ rs, r.angularQuad = .fam fam ∧ fam.orderByNpts r.angularSize ≠ -1 ∧
      ¬ (fam = .ahrensBeylkin ∧ r.angularSize = 552) ∧ (l : Int) ≤ fam.orderByNpts r.angularSize)
    {F f1 f2 : ℝ → ℝ} {A0 A1 A2 : ℝ} (h : ExponentialDecay 2 R (fun ρ => ρ ^ (2 + l) * F ρ) f1 f2 A0 A1 A2) :
    Integrable (fun x : E3 => F ‖x‖ * polyAt p ⟨x 0, x 1, x 2⟩) ∧
    Returns (generatePrunedGrid b (angData ℝ) .treutlerAhlrichs (ta n R α) rs) (fun s =>
      |ruleSum s.quad.points s.quad.weights (fun u => F (√(normSq u)) * polyAt p u) -
          ∫ x : E3, F ‖x‖ * polyAt p ⟨x 0, x 1, x 2⟩| ≤
        coeffSum p * R * (10 * π ^ 4 * (2 * A0 + 27 * A1 + 36 * A2) / (n + 1) ^ 2 + 1300 * tableErr fam l * A0 +
          π * ((l + 2) * A0 + A1) * (416 / 10 ^ 12))) := by
  have h' : ExponentialDecay (1 + 1) R (fun ρ => ρ ^ (2 + l) * F ρ) f1 f2 A0 A1 A2 := by norm_num; exact h
  obtain ⟨hA0, hA1, h0, h3⟩ := exponential_bounds hR h'
  obtain ⟨hi, hE⟩ := C101_treutler_ahlrichs b n hR hα hα' h3
  have hn1 : 1 ≤ n := by
    cases rs with
    | nil => simp [StartsOk] at hst
    | cons r0 rest => have := hlt r0 (by simp); omega
  have hW := reference_sum (R := R) (W := 1300) (reference_integral_exp hR (by norm_num))
    (C101_treutler_ahlrichs b n hR hα hα' (reference_decay_exp hR (by norm_num))) (by
    have hn1' : (1 : ℝ) ≤ n := by exact_mod_cast hn1
    have hsq : (4 : ℝ) ≤ (n + 1) ^ 2 := by nlinarith
    have hpi : π ^ 3 ≤ 31.1 := by
      have := pow_le_pow_left₀ pi_pos.le pi_lt_d4.le 3
      norm_num at this ⊢
      linarith
    rw [div_le_iff₀ (by positivity)]
    have h1 : π ^ 3 * R ≤ 31.1 * R := mul_le_mul_of_nonneg_right hpi hR.le
    have h2 := mul_le_mul_of_nonneg_left hsq hR.le
    norm_num at h1 ⊢
    linarith)
  obtain ⟨h1, s, hs, h2⟩ := space_bound b (.ta n R α) ⟨hR, by linarith⟩ hn fam rs hst hlt hdebug hp hang hA0
    (by positivity : 0 ≤ 2 / 10 ^ 14 * ((l + 2) * A0 + A1)) h0
    (fun hl ρ hρ s hs => off_sphere_exp (by norm_num) (by norm_num) hR hl h' hρ hs) hi hE hW
  refine ⟨h1, s, hs, h2.trans (le_of_eq ?_)⟩
  generalize ((n : ℝ) + 1) ^ 2 = D
  ring

/-- An unpruned grid is the pruned grid with one region. -/
private theorem unpruned_eq (b : Build) (rq : RadialQuad) (t : RadialTraits ℝ) {r : Quad ℝ ℝ}
    (hr : radialGenerate b rq t = .ok r) (hrc : Consistent r) (h1 : 1 ≤ r.npts) (fam : AngFam) (nang : Nat)
    (h : fam.orderByNpts nang ≠ -1) (m : Nat) :
    generateGridUnpruned b (angData ℝ) ⟨rq, some t, .fam fam, nang⟩ =
      generatePrunedGrid b (angData ℝ) rq t [⟨0, m, .fam fam, nang⟩] := by
  obtain ⟨a, ha⟩ : ∃ a, angConstruct b (angData ℝ) fam nang = .ok a := ⟨_, angData_construct b fam _ h⟩
  have hac : Consistent a := by
    have hk : fam.dispatch nang = some nang := by
      rw [fam.dispatch_iff]
      exact ⟨rfl, _, (fam.orderByNpts_iff _ _).1 ⟨rfl, h⟩⟩
    obtain ⟨-, -, l1, l2, l3⟩ := angConstruct_supported b _ (angData_typed ℝ) fam nang nang hk
    rw [ha] at l3
    injection l3 with l3
    subst l3
    simp [Consistent, l1, l2]
  obtain ⟨p, s, hp, hs1, hs2⟩ := C35_single_region b r a (origin ℝ) hrc hac h1
  have e1 : generateGridUnpruned b (angData ℝ) ⟨rq, some t, .fam fam, nang⟩ = .ok s := by
    simp only [generateGridUnpruned, generateUnprunedGrid, ha, hr, Outcome.ok_bind, hs2]
  have e2 : generatePrunedGrid b (angData ℝ) rq t [⟨0, m, .fam fam, nang⟩] = .ok s := by
    unfold Partition.make at hp
    simp only [Partition.addAll, Outcome.bind_eq_ok] at hp
    obtain ⟨p1, ⟨p2, hp2, hp3⟩, hp4⟩ := hp
    obtain rfl : p2 = p1 := Outcome.ok.inj hp3
    simp only [generatePrunedGrid, hr, Outcome.ok_bind, makePrunedGrid, makePrunedGridImpl, addRegions, ha, hp2, hp4, hs1]
    simp
  rw [e1, e2]

/-- An unpruned grid with the Becke radial rule. -/
theorem C102_becke_unpruned (b : Build) (n : ℕ) (h1 : 1 ≤ n) (hn : n + 2 < sizeMod) {R : ℝ} (hR : 0 < R) (fam : AngFam)
    (nang : Nat) (h : fam.orderByNpts nang ≠ -1) (ha : ¬ (fam = .ahrensBeylkin ∧ nang = 552))
    {p : MvPolynomial (Fin 3) ℝ} {l : ℕ} (hp : p.IsHomogeneous l) (hdeg : (l : Int) ≤ fam.orderByNpts nang)
    {F f1 f2 : ℝ → ℝ} {A0 A1 A2 : ℝ} (hF : AlgebraicDecay R (fun ρ => ρ ^ (2 + l) * F ρ) f1 f2 A0 A1 A2) :
    Integrable (fun x : E3 => F ‖x‖ * polyAt p ⟨x 0, x 1, x 2⟩) ∧
    Returns (generateGridUnpruned b (angData ℝ) ⟨.becke, some (becke n R), .fam fam, nang⟩) (fun s =>
      |ruleSum s.quad.points s.quad.weights (fun u => F (√(normSq u)) * polyAt p u) -
          ∫ x : E3, F ‖x‖ * polyAt p ⟨x 0, x 1, x 2⟩| ≤
        coeffSum p * R * (π ^ 4 * (6 * A0 + 9 * A1 + 2 * A2) / (12 * (n + 1) ^ 2) + 10 * tableErr fam l * A0 +
          π * ((l + 2) * A0 + A1) * (32 / 10 ^ 13))) := by
  obtain ⟨q, hq, q1, q2, -⟩ := C21_radial_quadrature b (becke n R) hR hn
  have hg : radialGenerate b .becke (becke n R) = .ok q := hq
  rw [unpruned_eq b _ _ hg (by unfold Consistent; rw [q1, q2]) (by unfold Quad.npts; rw [q1]; exact h1) fam nang h n]
  exact C102_becke b n hn hR fam [⟨0, n, .fam fam, nang⟩] (by simp [StartsOk]) (by simp; omega) (by simp) hp
    (by simpa using ⟨h, fun h1 h2 => ha ⟨h1, h2⟩, hdeg⟩) hF

/-- An unpruned grid with the Murray-Handy-Laming radial rule. -/
theorem C102_murray_handy_laming_unpruned (b : Build) (n : ℕ) (h1 : 1 ≤ n) (hn : n + 2 < sizeMod) {R : ℝ} (hR : 0 < R)
    (fam : AngFam) (nang : Nat) (h : fam.orderByNpts nang ≠ -1) (ha : ¬ (fam = .ahrensBeylkin ∧ nang = 552))
    {p : MvPolynomial (Fin 3) ℝ} {l : ℕ} (hp : p.IsHomogeneous l) (hdeg : (l : Int) ≤ fam.orderByNpts nang)
    {F f1 f2 : ℝ → ℝ} {A0 A1 A2 : ℝ} (hF : AlgebraicDecay R (fun ρ => ρ ^ (2 + l) * F ρ) f1 f2 A0 A1 A2) :
    Integrable (fun x : E3 => F ‖x‖ * polyAt p ⟨x 0, x 1, x 2⟩) ∧
    Returns (generateGridUnpruned b (angData ℝ) ⟨.murrayHandyLaming, some (mhl 2 n R), .fam fam, nang⟩) (fun s =>
      |ruleSum s.quad.points s.quad.weights (fun u => F (√(normSq u)) * polyAt p u) -
          ∫ x : E3, F ‖x‖ * polyAt p ⟨x 0, x 1, x 2⟩| ≤
        coeffSum p * R * (16 * π * (6 * A0 + 9 * A1 + 2 * A2) / (3 * (n + 1) ^ 2) + 20 * tableErr fam l * A0 +
          π * ((l + 2) * A0 + A1) * (64 / 10 ^ 13))) := by
  obtain ⟨q, hq, q1, q2, -⟩ := C21_radial_quadrature b (mhl 2 n R) ⟨hR, by norm_num⟩ hn
  have hg : radialGenerate b .murrayHandyLaming (mhl 2 n R) = .ok q := hq
  rw [unpruned_eq b _ _ hg (by unfold Consistent; rw [q1, q2]) (by unfold Quad.npts; rw [q1]; exact h1) fam nang h n]
  exact C102_murray_handy_laming b n hn hR fam [⟨0, n, .fam fam, nang⟩] (by simp [StartsOk]) (by simp; omega) (by simp) hp
    (by simpa using ⟨h, fun h1 h2 => ha ⟨h1, h2⟩, hdeg⟩) hF

/-- The hypotheses hold for `x y / (|x|^4 (1+|x|)^3)` on the grid of 75 radial and 302 angular points. -/
example : AlgebraicDecay 1 (fun ρ => ρ ^ (2 + 2) * (1 / (ρ ^ 4 * (1 + ρ / 1) ^ 3)))
      (fun r => -3 / (1 * (1 + r / 1) ^ 4)) (fun r => 12 / (1 ^ 2 * (1 + r / 1) ^ 5)) 1 3 12 ∧
    (MvPolynomial.X 0 * MvPolynomial.X 1 : MvPolynomial (Fin 3) ℝ).IsHomogeneous 2 ∧
    AngFam.lebedevLaikov.orderByNpts (302 : Nat) ≠ -1 ∧
    ((2 : Nat) : Int) ≤ AngFam.lebedevLaikov.orderByNpts (302 : Nat) := by
  have h := reference_decay one_pos
  have e : ∀ r : ℝ, 0 < r → r ^ (2 + 2) * (1 / (r ^ 4 * (1 + r / 1) ^ 3)) = 1 / (1 + r / 1) ^ 3 := fun r hr => by
    field_simp
  refine ⟨⟨fun r hr => ?_, h.deriv2, fun r hr => ?_, h.bound1, h.bound2⟩,
    (MvPolynomial.isHomogeneous_X ℝ (0 : Fin 3)).mul (MvPolynomial.isHomogeneous_X ℝ 1), by decide +kernel,
    by decide +kernel⟩
  · refine (h.deriv r hr).congr_of_eventuallyEq ?_
    filter_upwards [eventually_gt_nhds hr] with z hz using e z hz
  · rw [e r hr]
    exact h.bound0 r hr

/-- An unpruned grid with the Mura-Knowles radial rule. -/
theorem C102_muraknowles_unpruned (b : Build) (n : ℕ) (h1 : 1 ≤ n) (hn : n + 2 < sizeMod) {R : ℝ} (hR : 0 < R)
    (fam : AngFam) (nang : Nat) (h : fam.orderByNpts nang ≠ -1) (ha : ¬ (fam = .ahrensBeylkin ∧ nang = 552))
    {p : MvPolynomial (Fin 3) ℝ} {l : ℕ} (hp : p.IsHomogeneous l) (hdeg : (l : Int) ≤ fam.orderByNpts nang)
    {F f1 f2 : ℝ → ℝ} {A0 A1 A2 : ℝ} (hF : ExponentialDecay 4 R (fun ρ => ρ ^ (2 + l) * F ρ) f1 f2 A0 A1 A2) :
    Integrable (fun x : E3 => F ‖x‖ * polyAt p ⟨x 0, x 1, x 2⟩) ∧
    Returns (generateGridUnpruned b (angData ℝ) ⟨.muraKnowles, some (RadialTraits.mk n R), .fam fam, nang⟩) (fun s =>
      |ruleSum s.quad.points s.quad.weights (fun u => F (√(normSq u)) * polyAt p u) -
          ∫ x : E3, F ‖x‖ * polyAt p ⟨x 0, x 1, x 2⟩| ≤
        coeffSum p * R * (9 * π * (2 * A0 + 3 * A1 + A2) / (n + 1) ^ 2 + 12 * tableErr fam l * A0 +
          π * ((l + 2) * A0 + A1) * (384 / 10 ^ 14))) := by
  obtain ⟨q, hq, q1, q2, -⟩ := C21_radial_quadrature b (RadialTraits.mk n R) hR hn
  have hg : radialGenerate b .muraKnowles (RadialTraits.mk n R) = .ok q := hq
  rw [unpruned_eq b _ _ hg (by unfold Consistent; rw [q1, q2]) (by unfold Quad.npts; rw [q1]; exact h1) fam nang h n]
  exact C102_muraknowles b n hn hR fam [⟨0, n, .fam fam, nang⟩] (by simp [StartsOk]) (by simp; omega) (by simp) hp
    (by simpa using ⟨h, fun h1 h2 => ha ⟨h1, h2⟩, hdeg⟩) hF

/-- An unpruned grid with the Treutler-Ahlrichs radial rule. -/
theorem C102_treutler_ahlrichs_unpruned (b : Build) (n : ℕ) (h1 : 1 ≤ n) (hn : n + 2 < sizeMod) {R α : ℝ} (hR : 0 < R)
    (hα : 1 / 2 ≤ α) (hα' : α ≤ 1)
    (fam : AngFam) (nang : Nat) (h : fam.orderByNpts nang ≠ -1) (ha : ¬ (fam = .ahrensBeylkin ∧ nang = 552))
    {p : MvPolynomial (Fin 3) ℝ} {l : ℕ} (hp : p.IsHomogeneous l) (hdeg : (l : Int) ≤ fam.orderByNpts nang)
    {F f1 f2 : ℝ → ℝ} {A0 A1 A2 : ℝ} (hF : ExponentialDecay 2 R (fun ρ => ρ ^ (2 + l) * F ρ) f1 f2 A0 A1 A2) :
    Integrable (fun x : E3 => F ‖x‖ * polyAt p ⟨x 0, x 1, x 2⟩) ∧
    Returns (generateGridUnpruned b (angData ℝ) ⟨.treutlerAhlrichs, some (ta n R α), .fam fam, nang⟩) (fun s =>
      |ruleSum s.quad.points s.quad.weights (fun u => F (√(normSq u)) * polyAt p u) -
          ∫ x : E3, F ‖x‖ * polyAt p ⟨x 0, x 1, x 2⟩| ≤
        coeffSum p * R * (10 * π ^ 4 * (2 * A0 + 27 * A1 + 36 * A2) / (n + 1) ^ 2 + 1300 * tableErr fam l * A0 +
          π * ((l + 2) * A0 + A1) * (416 / 10 ^ 12))) := by
  obtain ⟨q, hq, q1, q2, -⟩ := C21_radial_quadrature b (ta n R α) ⟨hR, by linarith⟩ hn
  have hg : radialGenerate b .treutlerAhlrichs (ta n R α) = .ok q := hq
  rw [unpruned_eq b _ _ hg (by unfold Consistent; rw [q1, q2]) (by unfold Quad.npts; rw [q1]; exact h1) fam nang h n]
  exact C102_treutler_ahlrichs b n hn hR hα hα' fam [⟨0, n, .fam fam, nang⟩] (by simp [StartsOk]) (by simp; omega)
    (by simp) hp (by simpa using ⟨h, fun h1 h2 => ha ⟨h1, h2⟩, hdeg⟩) hF

/-- The hypotheses hold for `x y exp(-4|x|) / |x|^4` with Mura-Knowles and `R = 1`, and for `exp(-2|x|)/|x|^2` with
Treutler-Ahlrichs. -/
example : ExponentialDecay 4 1 (fun ρ => ρ ^ (2 + 2) * (exp (-(4 * (ρ / 1))) / ρ ^ 4))
      (fun r => -(4 / 1) * exp (-(4 * (r / 1)))) (fun r => (4 / 1) ^ 2 * exp (-(4 * (r / 1)))) 1 4 (4 ^ 2) ∧
    ExponentialDecay 2 1 (fun ρ => ρ ^ (2 + 0) * (exp (-(2 * (ρ / 1))) / ρ ^ 2))
      (fun r => -(2 / 1) * exp (-(2 * (r / 1)))) (fun r => (2 / 1) ^ 2 * exp (-(2 * (r / 1)))) 1 2 (2 ^ 2) := by
  have key : ∀ (μ : ℝ) (m : ℕ), 0 < μ → ExponentialDecay μ 1 (fun ρ => ρ ^ (2 + m) * (exp (-(μ * (ρ / 1))) / ρ ^ (2 + m)))
      (fun r => -(μ / 1) * exp (-(μ * (r / 1)))) (fun r => (μ / 1) ^ 2 * exp (-(μ * (r / 1)))) 1 μ (μ ^ 2) := by
    intro μ m hμ
    have h := reference_decay_exp one_pos hμ
    have e : ∀ r : ℝ, 0 < r → r ^ (2 + m) * (exp (-(μ * (r / 1))) / r ^ (2 + m)) = exp (-(μ * (r / 1))) :=
      fun r hr => by field_simp
    refine ⟨fun r hr => ?_, h.deriv2, fun r hr => ?_, h.bound1, h.bound2⟩
    · refine (h.deriv r hr).congr_of_eventuallyEq ?_
      filter_upwards [eventually_gt_nhds hr] with z hz using e z hz
    · rw [e r hr]
      exact h.bound0 r hr
  exact ⟨key 4 2 (by norm_num), key 2 0 (by norm_num)⟩

end IntegratorXX
