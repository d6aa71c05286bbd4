import Mathlib.Analysis.SpecialFunctions.Integrals.Basic
import Mathlib.MeasureTheory.Integral.IntervalIntegral.FundThmCalculus
import Verif.Spec.Sphere

/-!
# Integrals of monomials over the sphere
-/

namespace IntegratorXX

open Spec Real intervalIntegral

/-- The odd double factorial `1·3·…·(2n-1)`. -/
def odf : Nat → Nat
  | 0 => 1
  | n + 1 => (2 * n + 1) * odf n

theorem odf_pos (n : Nat) : 0 < odf n := by
  induction n with
  | zero => decide
  | succ n ih => exact Nat.mul_pos (by omega) ih

/-- `∫ cosᵃ sinᵇ` over a full turn. -/
noncomputable def trigI (a b : Nat) : ℝ := ∫ φ in (0 : ℝ)..(2 * π), cos φ ^ a * sin φ ^ b

/-- `∫ sinᵐ cosᶜ` over a half turn. -/
noncomputable def trigJ (m c : Nat) : ℝ := ∫ θ in (0 : ℝ)..π, sin θ ^ m * cos θ ^ c

private theorem deriv_cs (a b : Nat) (x : ℝ) :
    HasDerivAt (fun x => cos x ^ (a + 1) * sin x ^ (b + 1))
      ((b + 1) * (cos x ^ (a + 2) * sin x ^ b) - (a + 1) * (cos x ^ a * sin x ^ (b + 2))) x := by
  have h1 := (hasDerivAt_cos x).pow (a + 1)
  have h2 := (hasDerivAt_sin x).pow (b + 1)
  refine (h1.mul h2).congr_deriv ?_
  simp only [Nat.add_sub_cancel, Pi.pow_apply]
  push_cast
  ring

private theorem int_cs (lo up : ℝ) (a b : Nat)
    (h0 : cos lo ^ (a + 1) * sin lo ^ (b + 1) = 0) (h1 : cos up ^ (a + 1) * sin up ^ (b + 1) = 0) :
    (b + 1) * (∫ x in lo..up, cos x ^ (a + 2) * sin x ^ b) =
      (a + 1) * ∫ x in lo..up, cos x ^ a * sin x ^ (b + 2) := by
  have hc : ∀ p q : Nat, Continuous (fun x : ℝ => cos x ^ p * sin x ^ q) := fun p q => by fun_prop
  have key := integral_eq_sub_of_hasDerivAt (a := lo) (b := up)
    (fun x _ => deriv_cs a b x) (by
      apply Continuous.intervalIntegrable
      fun_prop)
  rw [h0, h1, integral_sub, integral_const_mul, integral_const_mul] at key
  · linarith
  · exact (Continuous.intervalIntegrable (by fun_prop) _ _)
  · exact (Continuous.intervalIntegrable (by fun_prop) _ _)

private theorem int_cs_sum (lo up : ℝ) (a b : Nat) :
    (∫ x in lo..up, cos x ^ (a + 2) * sin x ^ b) + (∫ x in lo..up, cos x ^ a * sin x ^ (b + 2)) =
      ∫ x in lo..up, cos x ^ a * sin x ^ b := by
  rw [← integral_add]
  · congr 1; ext x
    have := sin_sq_add_cos_sq x
    calc _ = cos x ^ a * sin x ^ b * (sin x ^ 2 + cos x ^ 2) := by ring
      _ = _ := by rw [this, mul_one]
  · exact (Continuous.intervalIntegrable (by fun_prop) _ _)
  · exact (Continuous.intervalIntegrable (by fun_prop) _ _)

theorem trigI_cos (a b : Nat) : (a + b + 2) * trigI (a + 2) b = (a + 1) * trigI a b := by
  have h1 := int_cs 0 (2 * π) a b (by simp) (by simp)
  have h2 := int_cs_sum 0 (2 * π) a b
  unfold trigI
  linear_combination h1 + (a + 1) * h2

theorem trigI_sin (a b : Nat) : (a + b + 2) * trigI a (b + 2) = (b + 1) * trigI a b := by
  have h1 := int_cs 0 (2 * π) a b (by simp) (by simp)
  have h2 := int_cs_sum 0 (2 * π) a b
  unfold trigI
  linear_combination (b + 1) * h2 - h1

theorem trigI_base : trigI 0 0 = 2 * π ∧ trigI 1 0 = 0 ∧ trigI 0 1 = 0 ∧ trigI 1 1 = 0 := by
  refine ⟨?_, ?_, ?_, ?_⟩ <;> unfold trigI
  · simp
  · simp
  · simp
  · have h := integral_eq_sub_of_hasDerivAt (a := 0) (b := 2 * π) (f := fun x => sin x ^ 2 / 2)
      (f' := fun x => cos x ^ 1 * sin x ^ 1) (fun x _ => by
        refine (((hasDerivAt_sin x).pow 2).div_const 2).congr_deriv ?_
        simp; ring) (Continuous.intervalIntegrable (by fun_prop) _ _)
    rw [h]; simp

/-- Odd powers integrate to zero over a full turn. -/
theorem trigI_odd (a b : Nat) (h : a % 2 = 1 ∨ b % 2 = 1) : trigI a b = 0 := by
  induction a using Nat.strong_induction_on generalizing b with
  | _ a iha =>
    match a, iha with
    | a + 2, iha =>
      have h1 := trigI_cos a b
      rw [iha a (by omega) b (by omega)] at h1
      have : (0 : ℝ) < a + b + 2 := by positivity
      simpa [this.ne'] using h1
    | 0, _ =>
      induction b using Nat.strong_induction_on with
      | _ b ihb =>
        match b, ihb with
        | b + 2, ihb =>
          have h1 := trigI_sin 0 b
          rw [ihb b (by omega) (by omega)] at h1
          have : (0 : ℝ) < (0 : Nat) + b + 2 := by positivity
          rw [mul_zero] at h1
          exact (mul_eq_zero.1 h1).resolve_left this.ne'
        | 0, _ => omega
        | 1, _ => exact trigI_base.2.2.1
    | 1, _ =>
      clear h
      induction b using Nat.strong_induction_on with
      | _ b ihb =>
        match b, ihb with
        | b + 2, ihb =>
          have h1 := trigI_sin 1 b
          rw [ihb b (by omega)] at h1
          have : (0 : ℝ) < (1 : Nat) + b + 2 := by positivity
          rw [mul_zero] at h1
          exact (mul_eq_zero.1 h1).resolve_left this.ne'
        | 0, _ => exact trigI_base.2.1
        | 1, _ => exact trigI_base.2.2.2

theorem trigI_even (i j : Nat) :
    trigI (2 * i) (2 * j) * (2 ^ (i + j) * (i + j).factorial) = 2 * π * (odf i * odf j) := by
  induction i with
  | zero =>
    induction j with
    | zero => simp [trigI_base.1, odf]
    | succ j ih =>
      have h := trigI_sin 0 (2 * j)
      simp only [zero_add, Nat.mul_zero] at ih ⊢
      rw [show 2 * (j + 1) = 2 * j + 2 by ring, Nat.factorial_succ]
      simp only [odf] at ih ⊢
      push_cast at h ih ⊢
      linear_combination 2 ^ j * (j.factorial : ℝ) * h + (2 * j + 1 : ℝ) * ih
  | succ i ih =>
    have h := trigI_cos (2 * i) (2 * j)
    rw [show 2 * (i + 1) = 2 * i + 2 by ring, show i + 1 + j = (i + j) + 1 by ring,
      Nat.factorial_succ, odf]
    push_cast at h ih ⊢
    linear_combination 2 ^ (i + j) * ((i + j).factorial : ℝ) * h + (2 * i + 1 : ℝ) * ih

theorem trigJ_eq (m c : Nat) : trigJ m c = ∫ x in (0 : ℝ)..π, cos x ^ c * sin x ^ m := by
  unfold trigJ; simp only [mul_comm]

theorem trigJ_cos (m c : Nat) : (m + c + 2) * trigJ m (c + 2) = (c + 1) * trigJ m c := by
  have h1 := int_cs 0 π c m (by simp) (by simp)
  have h2 := int_cs_sum 0 π c m
  rw [trigJ_eq, trigJ_eq]
  linear_combination h1 + (c + 1) * h2

theorem trigJ_sin (m c : Nat) : (m + c + 2) * trigJ (m + 2) c = (m + 1) * trigJ m c := by
  have h1 := int_cs 0 π c m (by simp) (by simp)
  have h2 := int_cs_sum 0 π c m
  rw [trigJ_eq, trigJ_eq]
  linear_combination (m + 1) * h2 - h1

theorem trigJ_one (m : Nat) : trigJ m 1 = 0 := by
  unfold trigJ
  have h := integral_eq_sub_of_hasDerivAt (a := 0) (b := π)
    (f := fun x => sin x ^ (m + 1) / (m + 1))
    (f' := fun x => sin x ^ m * cos x ^ 1) (fun x _ => by
      refine (((hasDerivAt_sin x).pow (m + 1)).div_const _).congr_deriv ?_
      have : (m + 1 : ℝ) ≠ 0 := by positivity
      simp only [Nat.add_sub_cancel]
      push_cast
      field_simp) (Continuous.intervalIntegrable (by fun_prop) _ _)
  rw [h]; simp

theorem trigJ_odd (m c : Nat) (h : c % 2 = 1) : trigJ m c = 0 := by
  induction c using Nat.strong_induction_on with
  | _ c ih =>
    match c, ih with
    | c + 2, ih =>
      have h1 := trigJ_cos m c
      rw [ih c (by omega) (by omega)] at h1
      have : (0 : ℝ) < m + c + 2 := by positivity
      simpa [this.ne'] using h1
    | 0, _ => omega
    | 1, _ => exact trigJ_one m

theorem trigJ_base (n : Nat) :
    trigJ (2 * n + 1) 0 * odf (n + 1) = 2 * (2 ^ n * n.factorial) := by
  induction n with
  | zero => simp [trigJ, odf]; norm_num
  | succ n ih =>
    have h := trigJ_sin (2 * n + 1) 0
    rw [show 2 * (n + 1) + 1 = 2 * n + 1 + 2 by ring, Nat.factorial_succ, odf]
    push_cast at h ih ⊢
    linear_combination (odf (n + 1) : ℝ) * h + 2 * (n + 1 : ℝ) * ih

theorem trigJ_even (n k : Nat) :
    trigJ (2 * n + 1) (2 * k) * odf (n + k + 1) = 2 * (2 ^ n * n.factorial) * odf k := by
  induction k with
  | zero => simpa [odf] using trigJ_base n
  | succ k ih =>
    have h := trigJ_cos (2 * n + 1) (2 * k)
    rw [show 2 * (k + 1) = 2 * k + 2 by ring, show n + (k + 1) + 1 = (n + k + 1) + 1 by ring,
      odf.eq_2 (n + k + 1), odf.eq_2 k]
    push_cast at h ih ⊢
    linear_combination (odf (n + k + 1) : ℝ) * h + (2 * k + 1 : ℝ) * ih

/-- The mean of `x^(2i) y^(2j) z^(2k)` over the sphere. -/
noncomputable def meanEven (i j k : Nat) : ℝ := (odf i * odf j * odf k : ℝ) / odf (i + j + k + 1)

theorem sphereInt_mono_eq (p q r : Nat) :
    sphereInt (fun u => u.x ^ p * u.y ^ q * u.z ^ r) = trigI p q * trigJ (p + q + 1) r := by
  unfold sphereInt trigI trigJ
  rw [← integral_const_mul]
  congr 1; ext θ
  have : ∀ φ : ℝ, (sin θ * cos φ) ^ p * (sin θ * sin φ) ^ q * cos θ ^ r =
      sin θ ^ (p + q) * cos θ ^ r * (cos φ ^ p * sin φ ^ q) := fun φ => by ring
  simp only [this]
  rw [integral_const_mul]
  ring

theorem sphereInt_mono_odd (p q r : Nat) (h : p % 2 = 1 ∨ q % 2 = 1 ∨ r % 2 = 1) :
    sphereInt (fun u => u.x ^ p * u.y ^ q * u.z ^ r) = 0 := by
  rw [sphereInt_mono_eq]
  rcases h with h | h | h
  · rw [trigI_odd _ _ (.inl h), zero_mul]
  · rw [trigI_odd _ _ (.inr h), zero_mul]
  · rw [trigJ_odd _ _ h, mul_zero]

theorem sphereInt_mono_even (i j k : Nat) :
    sphereInt (fun u => u.x ^ (2 * i) * u.y ^ (2 * j) * u.z ^ (2 * k)) =
      4 * π * meanEven i j k := by
  rw [sphereInt_mono_eq, meanEven]
  have h1 := trigI_even i j
  have h2 := trigJ_even (i + j) k
  have h3 : (odf (i + j + k + 1) : ℝ) ≠ 0 := by exact_mod_cast (odf_pos _).ne'
  have h4 : (2 ^ (i + j) * (i + j).factorial : ℝ) ≠ 0 := by positivity
  rw [show 2 * i + 2 * j + 1 = 2 * (i + j) + 1 by ring, mul_div_assoc', eq_div_iff h3]
  apply mul_right_cancel₀ h4
  linear_combination trigJ (2 * (i + j) + 1) (2 * k) * odf (i + j + k + 1) * h1 +
    2 * π * (odf i * odf j) * h2

/-- Sphere integrals of polynomials, monomial by monomial. -/
theorem sphereInt_poly (p : MvPolynomial (Fin 3) ℝ) :
    sphereInt (polyAt p) = ∑ m ∈ p.support, p.coeff m *
      sphereInt (fun u => u.x ^ m 0 * u.y ^ m 1 * u.z ^ m 2) := by
  have hp : ∀ u : Pt ℝ, polyAt p u =
      ∑ m ∈ p.support, p.coeff m * (u.x ^ m 0 * u.y ^ m 1 * u.z ^ m 2) := by
    intro u
    unfold polyAt
    rw [MvPolynomial.eval_eq']
    refine Finset.sum_congr rfl fun m _ => ?_
    rw [Fin.prod_univ_three]
    simp
  unfold sphereInt
  simp only [hp]
  have h1 : ∀ θ : ℝ, (∫ φ in (0 : ℝ)..(2 * π), ∑ m ∈ p.support, p.coeff m *
      ((sin θ * cos φ) ^ m 0 * (sin θ * sin φ) ^ m 1 * cos θ ^ m 2)) * sin θ =
      ∑ m ∈ p.support, p.coeff m * ((∫ φ in (0 : ℝ)..(2 * π),
        (sin θ * cos φ) ^ m 0 * (sin θ * sin φ) ^ m 1 * cos θ ^ m 2) * sin θ) := by
    intro θ
    rw [integral_finsetSum (fun m _ => Continuous.intervalIntegrable (by fun_prop) _ _),
      Finset.sum_mul]
    refine Finset.sum_congr rfl fun m _ => ?_
    rw [integral_const_mul]; ring
  simp only [h1]
  have h2 : ∀ m : Fin 3 →₀ ℕ, ∀ θ : ℝ, (∫ φ in (0 : ℝ)..(2 * π),
      (sin θ * cos φ) ^ m 0 * (sin θ * sin φ) ^ m 1 * cos θ ^ m 2) * sin θ =
      trigI (m 0) (m 1) * (sin θ ^ (m 0 + m 1 + 1) * cos θ ^ m 2) := by
    intro m θ
    have : ∀ φ : ℝ, (sin θ * cos φ) ^ m 0 * (sin θ * sin φ) ^ m 1 * cos θ ^ m 2 =
        sin θ ^ (m 0 + m 1) * cos θ ^ m 2 * (cos φ ^ m 0 * sin φ ^ m 1) := fun φ => by ring
    simp only [this]
    rw [integral_const_mul, trigI]
    ring
  simp only [h2]
  rw [integral_finsetSum (fun m _ => Continuous.intervalIntegrable (by fun_prop) _ _)]
  refine Finset.sum_congr rfl fun m _ => ?_
  rw [integral_const_mul]

end IntegratorXX
