import Verif.Lemmas.SphereInt
import Verif.Spec.Space
import Mathlib.MeasureTheory.Constructions.HaarToSphere
import Mathlib.MeasureTheory.Measure.Haar.InnerProductSpace
import Mathlib.MeasureTheory.Integral.Pi
import Mathlib.MeasureTheory.Integral.Gamma
import Mathlib.Analysis.SpecialFunctions.Gaussian.GaussianIntegral
import Mathlib.MeasureTheory.Integral.Prod
import Mathlib.RingTheory.MvPolynomial.Homogeneous

/-!
# Polar coordinates in space, and the surface measure against the integral in angles
-/

namespace IntegratorXX

open Spec Set Real MeasureTheory Metric

theorem finrank_E3 : Module.finrank ℝ E3 = 3 := by simp

/-- Polar coordinates. -/
theorem polar_integral (F : ℝ → ℝ) (Y : E3 → ℝ) (l : ℕ) (hY : ∀ (r : ℝ) (u : E3), 0 < r → Y (r • u) = r ^ l * Y u) :
    ∫ x : E3, F ‖x‖ * Y x =
      (∫ u : sphere (0 : E3) 1, Y u ∂(volume : Measure E3).toSphere) * ∫ r in Ioi (0 : ℝ), r ^ (2 + l) * F r := by
  calc ∫ x : E3, F ‖x‖ * Y x
      = ∫ x : ({(0)}ᶜ : Set E3), F ‖x.1‖ * Y x.1 ∂((volume : Measure E3).comap (↑)) := by
        rw [integral_subtype_comap (measurableSet_singleton _).compl fun x : E3 => F ‖x‖ * Y x,
          restrict_compl_singleton]
    _ = ∫ x, Y x.1 * (x.2.1 ^ l * F x.2) ∂(volume : Measure E3).toSphere.prod (.volumeIoiPow (Module.finrank ℝ E3 - 1)) := by
        have := (volume : Measure E3).measurePreserving_homeomorphUnitSphereProd.integral_comp
          (Homeomorph.measurableEmbedding _) (fun x => Y x.1 * (x.2.1 ^ l * F x.2))
        rw [← this]
        refine integral_congr_ae (ae_of_all _ fun x => ?_)
        have hx : (x : E3) ≠ 0 := x.2
        have h0 : 0 < ‖(x : E3)‖ := norm_pos_iff.2 hx
        have e := hY ‖(x : E3)‖ (‖(x : E3)‖⁻¹ • (x : E3)) h0
        rw [smul_smul, mul_inv_cancel₀ h0.ne', one_smul] at e
        simp only [homeomorphUnitSphereProd_apply_snd_coe, homeomorphUnitSphereProd_apply_fst_coe]
        rw [e]
        ring
    _ = (∫ u : sphere (0 : E3) 1, Y u ∂(volume : Measure E3).toSphere) *
          ∫ r : Ioi (0 : ℝ), r.1 ^ l * F r ∂.volumeIoiPow (Module.finrank ℝ E3 - 1) :=
        integral_prod_mul (fun u : sphere (0 : E3) 1 => Y u) (fun r : Ioi (0 : ℝ) => r.1 ^ l * F r)
    _ = _ := by
        congr 1
        simp only [Measure.volumeIoiPow, ENNReal.ofReal, finrank_E3]
        rw [integral_withDensity_eq_integral_smul,
          integral_subtype_comap measurableSet_Ioi fun a : ℝ => Real.toNNReal (a ^ (3 - 1)) • (a ^ l * F a),
          setIntegral_congr_fun measurableSet_Ioi fun x hx => ?_]
        · rw [NNReal.smul_def, Real.coe_toNNReal _ (pow_nonneg (le_of_lt hx) _), smul_eq_mul]
          ring
        · exact (measurable_subtype_coe.pow_const _).real_toNNReal

/-- Integrability in polar coordinates. -/
theorem polar_integrable {F : ℝ → ℝ} {Y : E3 → ℝ} {l : ℕ} (hY : ∀ (r : ℝ) (u : E3), 0 < r → Y (r • u) = r ^ l * Y u)
    (hc : Continuous Y) (hF : IntegrableOn (fun r => r ^ (2 + l) * F r) (Ioi 0)) :
    Integrable (fun x : E3 => F ‖x‖ * Y x) := by
  rw [← restrict_compl_singleton (μ := (volume : Measure E3)) 0, ← IntegrableOn,
    integrableOn_iff_comap_subtypeVal (measurableSet_singleton _).compl]
  have e : ((fun x : E3 => F ‖x‖ * Y x) ∘ Subtype.val : ({(0)}ᶜ : Set E3) → ℝ) =
      (fun x : sphere (0 : E3) 1 × Ioi (0 : ℝ) => Y x.1 * (x.2.1 ^ l * F x.2)) ∘ homeomorphUnitSphereProd E3 := by
    funext x
    have hx : (x : E3) ≠ 0 := x.2
    have h0 : 0 < ‖(x : E3)‖ := norm_pos_iff.2 hx
    have e := hY ‖(x : E3)‖ (‖(x : E3)‖⁻¹ • (x : E3)) h0
    rw [smul_smul, mul_inv_cancel₀ h0.ne', one_smul] at e
    simp only [Function.comp_apply, homeomorphUnitSphereProd_apply_snd_coe, homeomorphUnitSphereProd_apply_fst_coe]
    rw [e]
    ring
  rw [e, (volume : Measure E3).measurePreserving_homeomorphUnitSphereProd.integrable_comp_emb
    (Homeomorph.measurableEmbedding _)]
  refine Integrable.mul_prod (f := fun u : sphere (0 : E3) 1 => Y u) (g := fun r : Ioi (0 : ℝ) => r.1 ^ l * F r) ?_ ?_
  · have hcs : Continuous (fun u : sphere (0 : E3) 1 => Y u) := hc.comp continuous_subtype_val
    have : CompactSpace (sphere (0 : E3) 1) := isCompact_iff_compactSpace.1 (isCompact_sphere 0 1)
    exact hcs.integrable_of_hasCompactSupport (HasCompactSupport.of_compactSpace _)
  · rw [Measure.volumeIoiPow, integrable_withDensity_iff_integrable_smul', finrank_E3]
    · rw [integrableOn_iff_comap_subtypeVal measurableSet_Ioi] at hF
      refine hF.congr (ae_of_all _ fun r => ?_)
      have hr : 0 < r.1 := r.2
      simp only [Function.comp_apply, smul_eq_mul]
      rw [ENNReal.toReal_ofReal (by positivity)]
      ring
    · fun_prop
    · simp

/-- The Gaussian moments on the half line. -/
theorem half_moment (n : ℕ) : ∫ r in Ioi (0 : ℝ), r ^ n * exp (-r ^ 2) = 1 / 2 * Gamma ((n + 1) / 2) := by
  have h := integral_rpow_mul_exp_neg_rpow (p := 2) (q := n) (by norm_num) (by
    have : (0 : ℝ) ≤ n := n.cast_nonneg
    linarith)
  rw [← h]
  refine setIntegral_congr_fun measurableSet_Ioi fun x _ => ?_
  simp only [rpow_natCast]
  norm_cast

theorem Gamma_half_odf (k : ℕ) : Gamma ((k : ℝ) + 1 / 2) = odf k * √π / 2 ^ k := by
  induction k with
  | zero => simp [odf, -one_div, Gamma_one_half_eq]
  | succ k ih =>
    have : ((k + 1 : ℕ) : ℝ) + 1 / 2 = ((k : ℝ) + 1 / 2) + 1 := by push_cast; ring
    rw [this, Gamma_add_one (by positivity), ih, odf]
    push_cast
    field_simp
    ring

/-- The even Gaussian moments on the line. -/
theorem line_moment_even (k : ℕ) : ∫ t : ℝ, t ^ (2 * k) * exp (-t ^ 2) = odf k * √π / 2 ^ k := by
  have h := integral_comp_abs (f := fun t : ℝ => t ^ (2 * k) * exp (-t ^ 2))
  simp only [sq_abs, pow_mul] at h
  have e : ∀ t : ℝ, t ^ (2 * k) * exp (-t ^ 2) = (t ^ 2) ^ k * exp (-t ^ 2) := fun t => by rw [pow_mul]
  simp only [e]
  rw [h]
  have := half_moment (2 * k)
  simp only [e] at this
  rw [this]
  have : (((2 * k : ℕ) : ℝ) + 1) / 2 = (k : ℝ) + 1 / 2 := by push_cast; ring
  rw [this, Gamma_half_odf]
  ring

theorem line_moment_odd {n : ℕ} (hn : n % 2 = 1) : ∫ t : ℝ, t ^ n * exp (-t ^ 2) = 0 := by
  have h := integral_neg_eq_self (μ := (volume : Measure ℝ)) (fun t : ℝ => t ^ n * exp (-t ^ 2))
  have e : (fun t : ℝ => (-t) ^ n * exp (-(-t) ^ 2)) = fun t => -(t ^ n * exp (-t ^ 2)) := by
    funext t
    rw [(Nat.odd_iff.2 hn).neg_pow, neg_sq]
    ring
  rw [e, integral_neg] at h
  linarith

/-- A Gaussian times a monomial over space. -/
theorem gauss_monomial (i j k : ℕ) :
    ∫ x : E3, exp (-‖x‖ ^ 2) * (x 0 ^ i * x 1 ^ j * x 2 ^ k) =
      (∫ t : ℝ, t ^ i * exp (-t ^ 2)) * (∫ t : ℝ, t ^ j * exp (-t ^ 2)) * ∫ t : ℝ, t ^ k * exp (-t ^ 2) := by
  have h := integral_fintype_prod_volume_eq_prod (𝕜 := ℝ) (ι := Fin 3) (E := fun _ => ℝ)
    (fun m t => t ^ (![i, j, k] m) * exp (-t ^ 2))
  rw [Fin.prod_univ_three] at h
  simp only [Matrix.cons_val_zero, Matrix.cons_val_one, Matrix.cons_val_two, Matrix.tail_cons, Matrix.head_cons] at h
  have e2 := (EuclideanSpace.volume_preserving_symm_measurableEquiv_toLp (Fin 3)).integral_comp
    (MeasurableEquiv.measurableEmbedding _) (fun x : Fin 3 → ℝ => ∏ m, (x m ^ (![i, j, k] m) * exp (-x m ^ 2)))
  refine Eq.trans ?_ (e2.trans ?_)
  · refine integral_congr_ae (ae_of_all _ fun x => ?_)
    simp only [Fin.prod_univ_three, EuclideanSpace.norm_sq_eq, Fin.sum_univ_three, Real.norm_eq_abs, sq_abs]
    simp only [Matrix.cons_val_zero, Matrix.cons_val_one, Matrix.cons_val_two, Matrix.tail_cons, Matrix.head_cons]
    rw [show -(x.ofLp 0 ^ 2 + x.ofLp 1 ^ 2 + x.ofLp 2 ^ 2) = -x.ofLp 0 ^ 2 + -x.ofLp 1 ^ 2 + -x.ofLp 2 ^ 2 by ring,
      exp_add, exp_add]
    have hs : ∀ m, (MeasurableEquiv.toLp 2 (Fin 3 → ℝ)).symm x m = x m := fun _ => rfl
    simp only [hs]
    ring
  · simpa using h

/-- The surface measure of monomials is their integral in angles. -/
theorem toSphere_monomial (i j k : ℕ) :
    ∫ u : sphere (0 : E3) 1, (u : E3) 0 ^ i * (u : E3) 1 ^ j * (u : E3) 2 ^ k ∂(volume : Measure E3).toSphere =
      sphereInt (fun u => u.x ^ i * u.y ^ j * u.z ^ k) := by
  have h := polar_integral (fun r => exp (-r ^ 2)) (fun x => x 0 ^ i * x 1 ^ j * x 2 ^ k) (i + j + k) (by
    intro r u _
    simp only [PiLp.smul_apply, smul_eq_mul]
    ring)
  rw [gauss_monomial, half_moment] at h
  have hG : 0 < Gamma (((2 + (i + j + k) : ℕ) + 1 : ℝ) / 2) := Gamma_pos_of_pos (by positivity)
  by_cases ho : i % 2 = 1 ∨ j % 2 = 1 ∨ k % 2 = 1
  · rw [sphereInt_mono_odd i j k ho]
    have h0 : (∫ t : ℝ, t ^ i * exp (-t ^ 2)) * (∫ t : ℝ, t ^ j * exp (-t ^ 2)) * ∫ t : ℝ, t ^ k * exp (-t ^ 2) = 0 := by
      rcases ho with ho | ho | ho
      · rw [line_moment_odd ho]; ring
      · rw [line_moment_odd ho]; ring
      · rw [line_moment_odd ho]; ring
    rw [h0] at h
    rcases mul_eq_zero.1 h.symm with h1 | h1
    · exact h1
    · exact absurd h1 (by positivity)
  · obtain ⟨a, rfl⟩ : ∃ a, i = 2 * a := ⟨i / 2, by omega⟩
    obtain ⟨b, rfl⟩ : ∃ b, j = 2 * b := ⟨j / 2, by omega⟩
    obtain ⟨c, rfl⟩ : ∃ c, k = 2 * c := ⟨k / 2, by omega⟩
    rw [sphereInt_mono_even, meanEven]
    rw [line_moment_even, line_moment_even, line_moment_even,
      show (((2 + (2 * a + 2 * b + 2 * c) : ℕ) : ℝ) + 1) / 2 = ((a + b + c + 1 : ℕ) : ℝ) + 1 / 2 by push_cast; ring,
      Gamma_half_odf] at h
    have h1 : (odf (a + b + c + 1) : ℝ) ≠ 0 := by exact_mod_cast (odf_pos _).ne'
    have h2 : √π ≠ 0 := by have := pi_pos; positivity
    have h3 : √π * √π = π := mul_self_sqrt pi_pos.le
    rw [mul_div_assoc', eq_div_iff h1, ← h3]
    generalize (∫ u : sphere (0 : E3) 1, (u : E3) 0 ^ (2 * a) * (u : E3) 1 ^ (2 * b) * (u : E3) 2 ^ (2 * c)
      ∂(volume : Measure E3).toSphere) = I at h ⊢
    have h4 : (2 : ℝ) ^ (a + b + c + 1) = 2 ^ a * 2 ^ b * 2 ^ c * 2 := by ring
    rw [h4] at h
    field_simp at h ⊢
    linarith

/-- A point of space as the library stores it. -/
noncomputable def toPt (x : E3) : Pt ℝ := ⟨x 0, x 1, x 2⟩

theorem polyAt_sum (p : MvPolynomial (Fin 3) ℝ) (u : Pt ℝ) :
    polyAt p u = ∑ m ∈ p.support, p.coeff m * (u.x ^ m 0 * u.y ^ m 1 * u.z ^ m 2) := by
  unfold polyAt
  rw [MvPolynomial.eval_eq']
  refine Finset.sum_congr rfl fun m _ => ?_
  rw [Fin.prod_univ_three]
  simp

theorem polyAt_continuous (p : MvPolynomial (Fin 3) ℝ) : Continuous (fun x : E3 => polyAt p (toPt x)) := by
  simp only [polyAt_sum, toPt]
  fun_prop

/-- The surface measure of polynomials is their integral in angles. -/
theorem toSphere_poly (p : MvPolynomial (Fin 3) ℝ) :
    ∫ u : sphere (0 : E3) 1, polyAt p (toPt u) ∂(volume : Measure E3).toSphere = sphereInt (polyAt p) := by
  rw [sphereInt_poly]
  simp only [polyAt_sum, toPt]
  have : CompactSpace (sphere (0 : E3) 1) := isCompact_iff_compactSpace.1 (isCompact_sphere 0 1)
  rw [integral_finsetSum]
  · refine Finset.sum_congr rfl fun m _ => ?_
    rw [integral_const_mul, toSphere_monomial]
  · intro m _
    have hcs : Continuous (fun u : sphere (0 : E3) 1 =>
        p.coeff m * ((u : E3) 0 ^ m 0 * (u : E3) 1 ^ m 1 * (u : E3) 2 ^ m 2)) := by fun_prop
    exact hcs.integrable_of_hasCompactSupport (HasCompactSupport.of_compactSpace _)

theorem polyAt_smul {p : MvPolynomial (Fin 3) ℝ} {l : ℕ} (hp : p.IsHomogeneous l) (r : ℝ) (u : Pt ℝ) :
    polyAt p ⟨r * u.x, r * u.y, r * u.z⟩ = r ^ l * polyAt p u := by
  rw [polyAt_sum, polyAt_sum, Finset.mul_sum]
  refine Finset.sum_congr rfl fun m hm => ?_
  have hd := hp (MvPolynomial.mem_support_iff.1 hm)
  rw [Finsupp.weight_apply, Finsupp.sum_fintype _ _ (by simp), Fin.sum_univ_three] at hd
  simp only [Pi.one_apply, smul_eq_mul, mul_one] at hd
  rw [← hd]
  simp only []
  ring

/-- The integral over space of a radial function times a homogeneous polynomial. -/
theorem space_integral {p : MvPolynomial (Fin 3) ℝ} {l : ℕ} (hp : p.IsHomogeneous l) (F : ℝ → ℝ) :
    (∫ x : E3, F ‖x‖ * polyAt p (toPt x)) = sphereInt (polyAt p) * ∫ r in Ioi (0 : ℝ), r ^ (2 + l) * F r := by
  rw [polar_integral F (fun x => polyAt p (toPt x)) l (fun r u _ => polyAt_smul hp r (toPt u)), toSphere_poly]

theorem space_integrable {p : MvPolynomial (Fin 3) ℝ} {l : ℕ} (hp : p.IsHomogeneous l) {F : ℝ → ℝ}
    (hF : IntegrableOn (fun r => r ^ (2 + l) * F r) (Ioi 0)) :
    Integrable (fun x : E3 => F ‖x‖ * polyAt p (toPt x)) :=
  polar_integrable (fun r u _ => polyAt_smul hp r (toPt u)) (polyAt_continuous p) hF

end IntegratorXX
