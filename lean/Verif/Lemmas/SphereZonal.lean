import Verif.Lemmas.SphereVolume
import Verif.Spec.Composite
import Mathlib.Analysis.InnerProductSpace.Projection.Reflection
import Mathlib.Analysis.SpecialFunctions.Integrals.Basic

/-!
# Integrals over the sphere of functions of one direction, and sums of coefficients
-/

namespace IntegratorXX

open Spec Set Real MeasureTheory Metric
open scoped InnerProductSpace

/-- The integral of a power of the component in a direction does not depend on the direction. -/
theorem toSphere_inner_pow (u v : E3) (h : ‖u‖ = ‖v‖) (k : ℕ) :
    ∫ x : sphere (0 : E3) 1, ⟪u, (x : E3)⟫_ℝ ^ k ∂(volume : Measure E3).toSphere =
      ∫ x : sphere (0 : E3) 1, ⟪v, (x : E3)⟫_ℝ ^ k ∂(volume : Measure E3).toSphere := by
  have hY : ∀ (w : E3) (r : ℝ) (x : E3), 0 < r → ⟪w, r • x⟫_ℝ ^ k = r ^ k * ⟪w, x⟫_ℝ ^ k := by
    intro w r x _
    rw [real_inner_smul_right, mul_pow]
  have h1 := polar_integral (fun r => exp (-r ^ 2)) (fun x => ⟪u, x⟫_ℝ ^ k) k (hY u)
  have h2 := polar_integral (fun r => exp (-r ^ 2)) (fun x => ⟪v, x⟫_ℝ ^ k) k (hY v)
  rw [half_moment] at h1 h2
  have hG : 0 < Gamma (((2 + k : ℕ) + 1 : ℝ) / 2) := Gamma_pos_of_pos (by positivity)
  set R := Submodule.reflection (ℝ ∙ (u - v))ᗮ with hR
  have hRu : R u = v := Submodule.reflection_sub h
  have e : ∫ x : E3, exp (-‖x‖ ^ 2) * ⟪v, x⟫_ℝ ^ k = ∫ x : E3, exp (-‖x‖ ^ 2) * ⟪u, x⟫_ℝ ^ k := by
    rw [← (LinearIsometryEquiv.measurePreserving R).integral_comp R.toHomeomorph.measurableEmbedding
      (fun x : E3 => exp (-‖x‖ ^ 2) * ⟪v, x⟫_ℝ ^ k)]
    refine integral_congr_ae (ae_of_all _ fun x => ?_)
    simp only [LinearIsometryEquiv.norm_map]
    rw [← hRu, LinearIsometryEquiv.inner_map_map]
  rw [h1, h2] at e
  exact (mul_right_cancel₀ (by positivity) e).symm

/-! ## Sums of coefficients -/

theorem coeffSum_of_subset {p : MvPolynomial (Fin 3) ℝ} {S : Finset (Fin 3 →₀ ℕ)} (h : p.support ⊆ S) :
    coeffSum p = ∑ m ∈ S, |p.coeff m| := by
  unfold coeffSum
  refine Finset.sum_subset h fun m _ hm => ?_
  rw [MvPolynomial.notMem_support_iff.1 hm, abs_zero]

theorem coeffSum_add_le (p q : MvPolynomial (Fin 3) ℝ) : coeffSum (p + q) ≤ coeffSum p + coeffSum q := by
  classical
  rw [coeffSum_of_subset (MvPolynomial.support_add (p := p) (q := q)),
    coeffSum_of_subset (p := p) Finset.subset_union_left,
    coeffSum_of_subset (p := q) Finset.subset_union_right, ← Finset.sum_add_distrib]
  exact Finset.sum_le_sum fun m _ => by
    rw [MvPolynomial.coeff_add]
    exact abs_add_le _ _

theorem coeffSum_zero : coeffSum 0 = 0 := by simp [coeffSum]

theorem coeffSum_sum_le {ι : Type} (s : Finset ι) (f : ι → MvPolynomial (Fin 3) ℝ) :
    coeffSum (∑ i ∈ s, f i) ≤ ∑ i ∈ s, coeffSum (f i) := by
  classical
  induction s using Finset.induction_on with
  | empty => simp [coeffSum_zero]
  | insert i s hi ih =>
    rw [Finset.sum_insert hi, Finset.sum_insert hi]
    exact (coeffSum_add_le _ _).trans (by linarith)

theorem coeffSum_monomial_le (m : Fin 3 →₀ ℕ) (a : ℝ) : coeffSum (MvPolynomial.monomial m a) ≤ |a| := by
  classical
  rw [coeffSum_of_subset (MvPolynomial.support_monomial_subset (s := m) (a := a)), Finset.sum_singleton,
    MvPolynomial.coeff_monomial, if_pos rfl]

theorem coeffSum_mul_le (p q : MvPolynomial (Fin 3) ℝ) : coeffSum (p * q) ≤ coeffSum p * coeffSum q := by
  have e : p * q = ∑ m ∈ p.support, ∑ n ∈ q.support, MvPolynomial.monomial (m + n) (p.coeff m * q.coeff n) := by
    conv_lhs => rw [p.as_sum, q.as_sum]
    rw [Finset.sum_mul_sum]
    simp only [MvPolynomial.monomial_mul]
  rw [e]
  refine (coeffSum_sum_le _ _).trans ?_
  unfold coeffSum
  rw [Finset.sum_mul_sum]
  refine Finset.sum_le_sum fun m _ => (coeffSum_sum_le _ _).trans (Finset.sum_le_sum fun n _ => ?_)
  rw [← abs_mul]
  exact coeffSum_monomial_le _ _

/-! ## The component in a direction -/

/-- The component in the direction `u` as a polynomial. -/
noncomputable def dirPoly (u : Pt ℝ) : MvPolynomial (Fin 3) ℝ :=
  MvPolynomial.C u.x * MvPolynomial.X 0 + MvPolynomial.C u.y * MvPolynomial.X 1 + MvPolynomial.C u.z * MvPolynomial.X 2

theorem dirPoly_hom (u : Pt ℝ) (k : ℕ) : (dirPoly u ^ k).IsHomogeneous k := by
  have h : (dirPoly u).IsHomogeneous 1 :=
    ((MvPolynomial.isHomogeneous_C_mul_X _ _).add (MvPolynomial.isHomogeneous_C_mul_X _ _)).add
      (MvPolynomial.isHomogeneous_C_mul_X _ _)
  simpa using h.pow k

theorem polyAt_dirPoly (u x : Pt ℝ) (k : ℕ) :
    polyAt (dirPoly u ^ k) x = (u.x * x.x + u.y * x.y + u.z * x.z) ^ k := by
  simp [polyAt, dirPoly]

theorem coeffSum_dirPoly (u : Pt ℝ) (h : normSq u = 1) (k : ℕ) :
    coeffSum (dirPoly u ^ k) ≤ √3 ^ k := by
  have h1 : coeffSum (dirPoly u) ≤ √3 := by
    have hm : ∀ (a : ℝ) (i : Fin 3), coeffSum (MvPolynomial.C a * MvPolynomial.X i) ≤ |a| := fun a i => by
      rw [MvPolynomial.C_mul_X_eq_monomial]
      exact coeffSum_monomial_le _ _
    have h2 : coeffSum (dirPoly u) ≤ |u.x| + |u.y| + |u.z| := by
      refine (coeffSum_add_le _ _).trans (add_le_add ((coeffSum_add_le _ _).trans (add_le_add ?_ ?_)) ?_)
      all_goals exact hm _ _
    refine h2.trans (Real.le_sqrt_of_sq_le ?_)
    have h3 : |u.x| ^ 2 + |u.y| ^ 2 + |u.z| ^ 2 = 1 := by
      simp only [sq_abs]
      simpa [normSq, sq] using h
    nlinarith [sq_nonneg (|u.x| - |u.y|), sq_nonneg (|u.y| - |u.z|), sq_nonneg (|u.x| - |u.z|)]
  have h0 : ∀ p : MvPolynomial (Fin 3) ℝ, 0 ≤ coeffSum p := fun p => Finset.sum_nonneg fun _ _ => abs_nonneg _
  induction k with
  | zero =>
    rw [pow_zero, pow_zero, ← MvPolynomial.C_1, MvPolynomial.C_apply]
    exact (coeffSum_monomial_le _ _).trans (by simp)
  | succ k ih =>
    rw [pow_succ, pow_succ]
    exact (coeffSum_mul_le _ _).trans (mul_le_mul ih h1 (h0 _) (by positivity))

/-- The integral over the sphere of a power of the component in a direction. -/
theorem sphereInt_dirPoly (u : Pt ℝ) (h : normSq u = 1) (k : ℕ) :
    sphereInt (polyAt (dirPoly u ^ k)) = 2 * π * ∫ t in (-1 : ℝ)..1, t ^ k := by
  have key : ∀ w : Pt ℝ, sphereInt (polyAt (dirPoly w ^ k)) =
      ∫ x : sphere (0 : E3) 1, ⟪(!₂[w.x, w.y, w.z] : E3), (x : E3)⟫_ℝ ^ k ∂(volume : Measure E3).toSphere := by
    intro w
    rw [← toSphere_poly]
    refine integral_congr_ae (ae_of_all _ fun x => ?_)
    simp only [polyAt_dirPoly, toPt]
    congr 1
    simp [PiLp.inner_apply, Fin.sum_univ_three]
    ring
  have hn : ∀ w : Pt ℝ, normSq w = 1 → ‖(!₂[w.x, w.y, w.z] : E3)‖ = 1 := by
    intro w hw
    rw [EuclideanSpace.norm_eq, Fin.sum_univ_three]
    simp only [Real.norm_eq_abs, sq_abs]
    rw [Real.sqrt_eq_one]
    simpa [normSq, sq] using hw
  have hz : normSq (⟨0, 0, 1⟩ : Pt ℝ) = 1 := by simp [normSq]
  rw [key u, toSphere_inner_pow _ (!₂[(0 : ℝ), 0, 1] : E3) ((hn u h).trans (hn ⟨0, 0, 1⟩ hz).symm) k, ← key ⟨0, 0, 1⟩]
  unfold sphereInt
  simp only [polyAt_dirPoly, zero_mul, zero_add, one_mul, intervalIntegral.integral_const, sub_zero, smul_eq_mul]
  have hs := intervalIntegral.integral_comp_mul_deriv (a := 0) (b := π) (f := cos) (f' := fun θ => -sin θ)
    (g := fun t : ℝ => t ^ k) (fun x _ => hasDerivAt_cos x) (by fun_prop) (by fun_prop)
  simp only [Function.comp, cos_zero, cos_pi] at hs
  rw [intervalIntegral.integral_symm 1 (-1 : ℝ), ← hs, ← intervalIntegral.integral_neg, ← intervalIntegral.integral_const_mul]
  refine intervalIntegral.integral_congr fun θ _ => ?_
  ring

end IntegratorXX
