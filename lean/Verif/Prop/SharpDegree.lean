import Verif.Prop.Chebyshev
import Verif.Prop.Legendre
import Verif.Prop.Uniform

/-!
# C100: the error of the Gauss rules at the first degree that they miss

The rules with `n` nodes are exact to degree `2n-1` (C04, C06, C08, C14), Gauss-Lobatto to degree `2n-3` (C16) and the
trapezoidal rule to degree 1 (C17).  For the next degree the error is a known multiple of the leading coefficient; in
particular none of the rules is exact there.
-/

namespace IntegratorXX

open Spec Real Polynomial

private theorem ruleSum_lin (x w : List ℝ) (f g : ℝ → ℝ) (a : ℝ) :
    ruleSum x w (fun t => f t - a * g t) = ruleSum x w f - a * ruleSum x w g := by
  unfold ruleSum
  induction x.zip w with
  | nil => simp
  | cons e l ih =>
    simp only [List.map_cons, List.sum_cons]
    rw [ih]
    ring

private theorem ruleSum_vanish (x w : List ℝ) (f : ℝ → ℝ) (h : ∀ t ∈ x, f t = 0) : ruleSum x w f = 0 := by
  unfold ruleSum
  rw [List.sum_eq_zero]
  intro y hy
  obtain ⟨e, he, rfl⟩ := List.mem_map.1 hy
  rw [h e.1 (List.of_mem_zip he).1, mul_zero]

/-- A rule exact below degree `d`, and a polynomial `M` of degree `d` vanishing at its nodes. -/
private theorem sharp_of_exact (x w : List ℝ) (g : ℝ → ℝ) (M : ℝ[X]) (d : ℕ) (hM : ∀ t ∈ x, M.eval t = 0)
    (hd : M.natDegree ≤ d) (hc : M.coeff d ≠ 0) (I : ℝ[X] → ℝ) (hI : ∀ p a, I (p - C a * M) = I p - a * I M)
    (hex : ∀ r : ℝ[X], r.degree < d → ruleSum x w (fun t => r.eval t * g t) = I r) (p : ℝ[X]) (hp : p.natDegree ≤ d) :
    I p = ruleSum x w (fun t => p.eval t * g t) + p.coeff d / M.coeff d * I M := by
  have hr : (p - C (p.coeff d / M.coeff d) * M).degree < d := by
    rw [degree_lt_iff_coeff_zero]
    intro m hm
    rw [coeff_sub, coeff_C_mul]
    rcases Nat.eq_or_lt_of_le hm with rfl | hm
    · field_simp
      ring
    · rw [coeff_eq_zero_of_natDegree_lt (lt_of_le_of_lt hp hm), coeff_eq_zero_of_natDegree_lt (lt_of_le_of_lt hd hm)]
      ring
  have h := hex _ hr
  rw [hI] at h
  have e : (fun t => (p - C (p.coeff d / M.coeff d) * M).eval t * g t) =
      fun t => p.eval t * g t - p.coeff d / M.coeff d * (M.eval t * g t) := by
    funext t
    simp only [eval_sub, eval_mul, eval_C]
    ring
  rw [e, ruleSum_lin x w (fun t => p.eval t * g t) (fun t => M.eval t * g t),
    ruleSum_vanish x w (fun t => M.eval t * g t) (fun t ht => by rw [hM t ht, zero_mul])] at h
  linarith

private theorem measureT_lin (p q : ℝ[X]) (a : ℝ) :
    ∫ x, (p - C a * q).eval x ∂Chebyshev.measureT =
      ∫ x, p.eval x ∂Chebyshev.measureT - a * ∫ x, q.eval x ∂Chebyshev.measureT := by
  simp only [eval_sub, eval_mul, eval_C]
  rw [MeasureTheory.integral_sub (Chebyshev.integrable_measureT (by fun_prop))
    (Chebyshev.integrable_measureT (by fun_prop)), MeasureTheory.integral_const_mul]

private theorem coeff_sq (q : ℝ[X]) (n : ℕ) (h : q.natDegree = n) : (q ^ 2).coeff (2 * n) = q.leadingCoeff ^ 2 := by
  rw [← h, coeff_pow_of_natDegree_le le_rfl]
  rfl

/-- **C100.**  GaussChebyshev1 on polynomials of degree `2n`. -/
theorem C100_chebyshev1 (b : Build) (npts : ℕ) (hn : 1 ≤ npts) (p : ℝ[X]) (hp : p.natDegree ≤ 2 * npts) :
    Returns (construct b (gaussChebyshev1 npts)) (fun q =>
      ∫ x in (-1 : ℝ)..1, p.eval x / √(1 - x ^ 2) =
        ruleSum q.points q.weights (fun x => p.eval x / √(1 - x ^ 2)) + p.coeff (2 * npts) * (π / 2 ^ (2 * npts - 1))) := by
  have hI : ∀ p : ℝ[X], ∫ x in (-1 : ℝ)..1, p.eval x / √(1 - x ^ 2) = ∫ x, p.eval x ∂Chebyshev.measureT := by
    intro p
    rw [Chebyshev.integral_measureT]
    simp only [div_eq_mul_inv, Real.sqrt_inv]
  have hT : (Chebyshev.T ℝ npts).natDegree = npts := by simp
  have hcoef : (Chebyshev.T ℝ npts ^ 2).coeff (2 * npts) = 2 ^ (2 * npts - 2) := by
    rw [coeff_sq _ _ hT, Chebyshev.leadingCoeff_T, ← pow_mul]
    congr 1
    simp
    omega
  refine ⟨_, gc1_real npts b, ?_⟩
  dsimp only
  have h := sharp_of_exact ((List.range npts).map (fun j => cos (gc1A npts j)))
    ((List.range npts).map (fun j => π / npts * sin (gc1A npts j))) (fun x => (√(1 - x ^ 2))⁻¹)
    (Chebyshev.T ℝ npts ^ 2) (2 * npts) ?_ ?_ (by rw [hcoef]; positivity)
    (fun p => ∫ x, p.eval x ∂Chebyshev.measureT) (fun p a => measureT_lin p _ a) ?_ p hp
  · rw [hI]
    simp only [div_eq_mul_inv] at h ⊢
    rw [h, hcoef]
    congr 1
    have e : ∫ x, (Chebyshev.T ℝ npts ^ 2).eval x ∂Chebyshev.measureT = π / 2 := by
      rw [← Chebyshev.integral_T_real_mul_self_measureT_of_ne_zero (n := npts) (by omega)]
      simp only [sq, eval_mul]
    rw [e, show 2 * npts - 1 = 2 * npts - 2 + 1 by omega, pow_succ]
    field_simp
  · intro t ht
    obtain ⟨j, hj, rfl⟩ := List.mem_map.1 ht
    have hj : j < npts := by simpa using hj
    rw [eval_pow, Chebyshev.T_real_cos]
    have : cos ((npts : ℤ) * gc1A npts j) = 0 := by
      rw [Real.cos_eq_zero_iff]
      refine ⟨(npts - 1 - j : ℕ), ?_⟩
      have : (npts : ℝ) ≠ 0 := by positivity
      unfold gc1A
      push_cast
      field_simp
    rw [this]
    norm_num
  · refine natDegree_pow_le.trans ?_
    rw [hT]
  · intro r hr
    obtain ⟨q, e, h⟩ := C04_gc1_exact b npts hn r (by exact_mod_cast hr)
    rw [gc1_real npts b] at e
    cases e
    rw [hI] at h
    simpa only [div_eq_mul_inv] using h

example : (X ^ 6 - 3 * X : ℝ[X]).natDegree ≤ 2 * 3 := by compute_degree

/-- **C100.**  GaussChebyshev2 on polynomials of degree `2n`. -/
theorem C100_chebyshev2 (b : Build) (npts : ℕ) (p : ℝ[X]) (hp : p.natDegree ≤ 2 * npts) :
    Returns (construct b (gaussChebyshev2 npts)) (fun q =>
      ∫ x in (-1 : ℝ)..1, p.eval x * √(1 - x ^ 2) =
        ruleSum q.points q.weights (fun x => p.eval x * √(1 - x ^ 2)) + p.coeff (2 * npts) * (π / 2 ^ (2 * npts + 1))) := by
  have hI : ∀ p : ℝ[X], ∫ x in (-1 : ℝ)..1, p.eval x * √(1 - x ^ 2) =
      ∫ x, ((1 - X ^ 2) * p : ℝ[X]).eval x ∂Chebyshev.measureT := by
    intro p
    rw [Chebyshev.integral_measureT]
    refine intervalIntegral.integral_congr fun x hx => ?_
    rw [Set.uIcc_of_le (by norm_num)] at hx
    have hx' : 0 ≤ 1 - x ^ 2 := by nlinarith [hx.1, hx.2]
    simp only [eval_mul, eval_sub, eval_one, eval_pow, eval_X, Real.sqrt_inv]
    rcases hx'.eq_or_lt with h | h
    · simp [← h]
    · have h2 := sqrt_pos.mpr h
      nth_rewrite 2 [← mul_self_sqrt hx']
      field_simp
  have hU : (Chebyshev.U ℝ npts).natDegree = npts := by simp
  have hcoef : (Chebyshev.U ℝ npts ^ 2).coeff (2 * npts) = 2 ^ (2 * npts) := by
    rw [coeff_sq _ _ hU, Chebyshev.leadingCoeff_U_natCast, ← pow_mul, mul_comm]
  refine ⟨_, gc2_real npts b, ?_⟩
  dsimp only
  have h := sharp_of_exact ((List.range npts).map (fun j => cos (gc2A npts j)))
    ((List.range npts).map (fun j => π / (npts + 1) * sin (gc2A npts j))) (fun x => √(1 - x ^ 2))
    (Chebyshev.U ℝ npts ^ 2) (2 * npts) ?_ ?_ (by rw [hcoef]; positivity)
    (fun p => ∫ x, ((1 - X ^ 2) * p : ℝ[X]).eval x ∂Chebyshev.measureT) (fun p a => ?_) ?_ p hp
  · rw [hI]
    rw [h, hcoef]
    congr 1
    have e : ∫ x, ((1 - X ^ 2) * Chebyshev.U ℝ npts ^ 2 : ℝ[X]).eval x ∂Chebyshev.measureT = π / 2 := by
      have e1 : ∫ x, ((1 - X ^ 2) * Chebyshev.U ℝ npts ^ 2 : ℝ[X]).eval x ∂Chebyshev.measureT =
          ∫ x, (1 - C 1 * (Chebyshev.T ℝ (npts + 1 : ℕ) * Chebyshev.T ℝ (npts + 1 : ℕ)) : ℝ[X]).eval x
            ∂Chebyshev.measureT := by
        rw [Chebyshev.integral_measureT_eq_integral_cos, Chebyshev.integral_measureT_eq_integral_cos]
        refine intervalIntegral.integral_congr fun t _ => ?_
        have h1 := Chebyshev.U_real_cos t npts
        have h2 := Chebyshev.T_real_cos t (npts + 1 : ℕ)
        simp only [eval_mul, eval_sub, eval_one, eval_pow, eval_X, eval_C]
        rw [h2, show 1 - cos t ^ 2 = sin t ^ 2 by rw [sin_sq], ← mul_pow, mul_comm (sin t), h1]
        push_cast
        rw [sin_sq]
        ring
      rw [e1, measureT_lin]
      have e2 := Chebyshev.integral_T_real_mul_self_measureT_of_ne_zero (n := npts + 1) (by omega)
      have e3 := Chebyshev.integral_eval_T_real_measureT_zero
      rw [Chebyshev.T_zero] at e3
      simp only [eval_mul] at e2 ⊢
      rw [e2, e3]
      ring
    rw [e, pow_succ]
    field_simp
  · intro t ht
    obtain ⟨j, hj, rfl⟩ := List.mem_map.1 ht
    have hj : j < npts := by simpa using hj
    have hs := sin_pos_of_pos_of_lt_pi (gc2A_pos hj) (gc2A_lt (n := npts) (j := j))
    have h1 := Chebyshev.U_real_cos (gc2A npts j) npts
    have h2 : sin (((npts : ℤ) + 1) * gc2A npts j) = 0 := by
      rw [Real.sin_eq_zero_iff]
      refine ⟨(npts - j : ℕ), ?_⟩
      have : (npts : ℝ) + 1 ≠ 0 := by positivity
      unfold gc2A
      push_cast
      field_simp
    rw [h2] at h1
    rw [eval_pow, (mul_eq_zero.1 h1).resolve_right hs.ne']
    norm_num
  · refine natDegree_pow_le.trans ?_
    rw [hU]
  · rw [← measureT_lin]
    congr 1
    funext x
    simp only [eval_mul, eval_sub, eval_C]
    ring
  · intro r hr
    obtain ⟨q, e, h⟩ := C06_gc2_exact b npts r (by exact_mod_cast hr)
    rw [gc2_real npts b] at e
    cases e
    rw [hI] at h
    exact h

/-- The polynomial `N` with `x N(x²) = T_{2n+1}(x)`. -/
private noncomputable def thirdKind (n : ℕ) : ℝ[X] :=
  (Chebyshev.U ℝ n - Chebyshev.U ℝ (n - 1)).comp (C 2 * X - C 1)

private theorem thirdKind_cos (n : ℕ) (t : ℝ) (h : sin t ≠ 0) :
    cos t * (thirdKind n).eval (cos t ^ 2) = cos ((2 * n + 1) * t) := by
  have h1 := Chebyshev.U_real_cos (2 * t) n
  have h2 := Chebyshev.U_real_cos (2 * t) ((n : ℤ) - 1)
  have e : 2 * cos t ^ 2 - 1 = cos (2 * t) := by rw [cos_two_mul]
  unfold thirdKind
  simp only [eval_comp, eval_sub, eval_mul, eval_C, eval_X, e]
  have h3 : (eval (cos (2 * t)) (Chebyshev.U ℝ n) - eval (cos (2 * t)) (Chebyshev.U ℝ ((n : ℤ) - 1))) * sin (2 * t) =
      2 * cos ((2 * n + 1) * t) * sin t := by
    rw [sub_mul, h1, h2, Real.sin_sub_sin]
    push_cast
    rw [show (((n : ℝ) + 1) * (2 * t) - ((n : ℝ) - 1 + 1) * (2 * t)) / 2 = t by ring,
      show (((n : ℝ) + 1) * (2 * t) + ((n : ℝ) - 1 + 1) * (2 * t)) / 2 = (2 * n + 1) * t by ring]
    ring
  rw [sin_two_mul] at h3
  have h4 : (cos t * (eval (cos (2 * t)) (Chebyshev.U ℝ n) - eval (cos (2 * t)) (Chebyshev.U ℝ ((n : ℤ) - 1)))) *
      (2 * sin t) = cos ((2 * n + 1) * t) * (2 * sin t) := by linarith
  exact mul_right_cancel₀ (by simpa using h) h4

private theorem thirdKind_degree (n : ℕ) : (thirdKind n).natDegree ≤ n ∧ (thirdKind n).coeff n = 4 ^ n := by
  have hl : (C 2 * X - C 1 : ℝ[X]).natDegree = 1 := by
    rw [natDegree_sub_C, natDegree_C_mul_X _ (by norm_num)]
  have hlc : (C 2 * X - C 1 : ℝ[X]).leadingCoeff = 2 := by
    rw [leadingCoeff, hl]
    simp [coeff_one]
  have hd : (Chebyshev.U ℝ n - Chebyshev.U ℝ (n - 1)).degree = n ∧
      (Chebyshev.U ℝ n - Chebyshev.U ℝ (n - 1)).leadingCoeff = 2 ^ n := by
    have hU : (Chebyshev.U ℝ n).degree = n := by
      rw [degree_eq_natDegree (by
        intro h
        have := Chebyshev.leadingCoeff_U_natCast ℝ n
        rw [h, leadingCoeff_zero] at this
        exact absurd this.symm (by positivity))]
      simp
    have hlt : (Chebyshev.U ℝ ((n : ℤ) - 1)).degree < (Chebyshev.U ℝ n).degree := by
      rw [hU]
      cases n with
      | zero => simp
      | succ m =>
        rw [show ((m + 1 : ℕ) : ℤ) - 1 = m by push_cast; ring]
        refine lt_of_le_of_lt degree_le_natDegree ?_
        rw [Chebyshev.natDegree_U_natCast]
        exact_mod_cast Nat.lt_succ_self m
    exact ⟨by rw [degree_sub_eq_left_of_degree_lt hlt, hU],
      by rw [leadingCoeff_sub_of_degree_lt hlt, Chebyshev.leadingCoeff_U_natCast]⟩
  have hnd : (Chebyshev.U ℝ n - Chebyshev.U ℝ (n - 1)).natDegree = n := natDegree_eq_of_degree_eq_some hd.1
  have hc : (thirdKind n).natDegree = n := by
    unfold thirdKind
    rw [natDegree_comp, hnd, hl, mul_one]
  refine ⟨hc.le, ?_⟩
  have : (thirdKind n).leadingCoeff = 4 ^ n := by
    unfold thirdKind
    rw [leadingCoeff_comp (by rw [hl]; exact one_ne_zero), hd.2, hlc, hnd, ← mul_pow]
    norm_num
  rwa [leadingCoeff, hc] at this

/-- **C100.**  GaussChebyshev3 on polynomials of degree `2n`. -/
theorem C100_chebyshev3 (b : Build) (npts : ℕ) (p : ℝ[X]) (hp : p.natDegree ≤ 2 * npts) :
    Returns (construct b (gaussChebyshev3 npts)) (fun q =>
      ∫ x in (0 : ℝ)..1, p.eval x * √(x / (1 - x)) =
        ruleSum q.points q.weights (fun x => p.eval x * √(x / (1 - x))) + p.coeff (2 * npts) * (π / 2 ^ (4 * npts + 1))) := by
  obtain ⟨d1, d2⟩ := thirdKind_degree npts
  have hcoef : (thirdKind npts ^ 2).coeff (2 * npts) = 2 ^ (4 * npts) := by
    rw [coeff_pow_of_natDegree_le d1, d2, show (4 : ℝ) = 2 ^ 2 by norm_num, ← pow_mul, ← pow_mul]
    congr 1
    ring
  have hpi := pi_pos
  refine ⟨_, gc3_real npts b, ?_⟩
  dsimp only
  have h := sharp_of_exact ((List.range npts).map (fun j => cos (gc3A npts j) ^ 2))
    ((List.range npts).map (fun j => 2 * π / (2 * npts + 1) * (cos (gc3A npts j) * sin (gc3A npts j))))
    (fun x => √(x / (1 - x))) (thirdKind npts ^ 2) (2 * npts) ?_ ?_ (by rw [hcoef]; positivity)
    (fun p => ∫ x, (X ^ 2 * p.comp (X ^ 2) : ℝ[X]).eval x ∂Chebyshev.measureT) (fun p a => ?_) ?_ p hp
  · rw [integral_gc3]
    rw [h, hcoef]
    congr 1
    have e : ∫ x, (X ^ 2 * (thirdKind npts ^ 2).comp (X ^ 2) : ℝ[X]).eval x ∂Chebyshev.measureT = π / 2 := by
      rw [← Chebyshev.integral_T_real_mul_self_measureT_of_ne_zero (n := 2 * npts + 1) (by omega),
        Chebyshev.integral_measureT_eq_integral_cos, Chebyshev.integral_measureT_eq_integral_cos]
      refine intervalIntegral.integral_congr_uIoo ?_
      intro t ht
      rw [Set.uIoo_of_le hpi.le] at ht
      have h1 := thirdKind_cos npts t (sin_pos_of_pos_of_lt_pi ht.1 ht.2).ne'
      have h2 := Chebyshev.T_real_cos t (2 * npts + 1 : ℕ)
      simp only [eval_mul, eval_pow, eval_X, eval_comp]
      rw [h2, ← mul_pow, h1]
      push_cast
      ring
    rw [e, pow_succ]
    field_simp
  · intro t ht
    obtain ⟨j, hj, rfl⟩ := List.mem_map.1 ht
    have hj : j < npts := by simpa using hj
    have h0 : 0 < gc3A npts j := gc3A_pos
    have h1 : gc3A npts j < π / 2 := gc3A_lt hj
    have hc : 0 < cos (gc3A npts j) := cos_pos_of_mem_Ioo ⟨by linarith, h1⟩
    have hs : 0 < sin (gc3A npts j) := sin_pos_of_pos_of_lt_pi h0 (by linarith)
    have h2 := thirdKind_cos npts (gc3A npts j) hs.ne'
    have h3 : cos ((2 * npts + 1) * gc3A npts j) = 0 := by
      rw [Real.cos_eq_zero_iff]
      refine ⟨(npts - 1 - j : ℕ), ?_⟩
      have : 2 * (npts : ℝ) + 1 ≠ 0 := by positivity
      unfold gc3A
      push_cast
      field_simp
    rw [h3] at h2
    rw [eval_pow, (mul_eq_zero.1 h2).resolve_left hc.ne']
    norm_num
  · refine natDegree_pow_le.trans ?_
    exact Nat.mul_le_mul_left 2 d1
  · rw [← measureT_lin]
    congr 1
    funext x
    simp only [eval_mul, eval_sub, eval_C, eval_comp]
    ring
  · intro r hr
    obtain ⟨q, e, h⟩ := C08_gc3_exact b npts r (by exact_mod_cast hr)
    rw [gc3_real npts b] at e
    cases e
    rw [integral_gc3] at h
    simpa only [mul_comm (√_)] using h

/-- **C100.**  The Gauss-Legendre rule with the weight formula of the code, on polynomials of degree `2n`. -/
theorem C100_gauss_legendre (n : ℕ) (hn : 1 ≤ n) (xs : List ℝ) (hnd : xs.Nodup) (hlen : xs.length = n)
    (hroot : ∀ x ∈ xs, (legendre n).eval x = 0) (p : ℝ[X]) (hp : p.natDegree ≤ 2 * n) :
    ∫ x in (-1 : ℝ)..1, p.eval x =
      ruleSum xs (xs.map (fun x => Arith.lit 2 / ((Arith.lit 1 - x * x) * (evalPn x n).2.1 * (evalPn x n).2.1))) p.eval +
        p.coeff (2 * n) / (legendre n).leadingCoeff ^ 2 * (2 / (2 * n + 1)) := by
  have hcoef : (legendre n ^ 2).coeff (2 * n) = (legendre n).leadingCoeff ^ 2 := coeff_sq _ _ (natDegree_legendre n)
  have h := sharp_of_exact xs (xs.map (fun x => Arith.lit 2 / ((Arith.lit 1 - x * x) * (evalPn x n).2.1 *
    (evalPn x n).2.1))) (fun _ => 1) (legendre n ^ 2) (2 * n)
    (fun t ht => by rw [eval_pow, hroot t ht]; norm_num)
    (natDegree_pow_le.trans (by rw [natDegree_legendre])) (by
      rw [hcoef]
      exact pow_ne_zero _ (leadingCoeff_ne_zero.2 (legendre_ne_zero n)))
    polyInt (fun p a => by rw [polyInt_sub, polyInt_C_mul])
    (fun r hr => by
      simp only [mul_one]
      exact C14_weight_formula_exact n hn xs hnd hlen hroot r (by exact_mod_cast hr)) p hp
  simp only [mul_one] at h
  show polyInt p = _
  rw [h, hcoef]
  congr 2
  have := legendre_norm n
  rw [← sq] at this
  have h2 : (2 * (n : ℝ) + 1) ≠ 0 := by positivity
  field_simp
  linarith

example : ∃ xs : List ℝ, xs.Nodup ∧ xs.length = 7 ∧ ∀ x ∈ xs, (legendre 7).eval x = 0 := by
  obtain ⟨xs, h1, h2, h3, -⟩ := C14_roots 7
  exact ⟨xs, h1, h2, fun x hx => (h3 x).1 hx⟩

/-- **C100.**  The Gauss-Lobatto rule with the weight formula of the code, on polynomials of degree `2n-2`. -/
theorem C100_gauss_lobatto (m : ℕ) (hm : 1 ≤ m) (xs : List ℝ) (hnd : xs.Nodup) (hlen : xs.length = m - 1)
    (hroot : ∀ x ∈ xs, (derivative (legendre m)).eval x = 0) (p : ℝ[X]) (hp : p.natDegree ≤ 2 * m) :
    let e : ℝ := Arith.lit 2 / (Arith.ofNat (m + 1) * (Arith.ofNat (m + 1) - Arith.lit 1))
    ∫ x in (-1 : ℝ)..1, p.eval x =
      ruleSum ([-1] ++ xs ++ [1]) ([e] ++ xs.map (fun x => e / ((evalPn x m).1 * (evalPn x m).1)) ++ [e]) p.eval -
        p.coeff (2 * m) / (legendre m).leadingCoeff ^ 2 * (2 * (m + 1) / (m * (2 * m + 1))) := by
  intro e
  obtain ⟨k, rfl⟩ : ∃ k, m = k + 1 := ⟨m - 1, by omega⟩
  set D := derivative (legendre (k + 1)) with hD
  have hDd : D.natDegree = k := natDegree_derivative_legendre k
  have hl0 : (legendre (k + 1)).leadingCoeff ≠ 0 := leadingCoeff_ne_zero.2 (legendre_ne_zero _)
  have hlc : (legendre (k + 1)).leadingCoeff = (legendre (k + 1)).coeff (k + 1) := by
    rw [leadingCoeff, natDegree_legendre]
  have hDc : D.coeff k = (k + 1) * (legendre (k + 1)).leadingCoeff := by
    rw [hD, derivative_legendre_coeff, hlc]
  have hDsq : (D ^ 2).coeff (2 * k) = ((k + 1) * (legendre (k + 1)).leadingCoeff) ^ 2 := by
    rw [coeff_pow_of_natDegree_le hDd.le, hDc]
  have hDn : (D ^ 2).natDegree ≤ 2 * k := natDegree_pow_le.trans (by rw [hDd])
  have hcoef : ((1 - X ^ 2) * D ^ 2).coeff (2 * (k + 1)) = -((k + 1) * (legendre (k + 1)).leadingCoeff) ^ 2 := by
    rw [sub_mul, one_mul, coeff_sub, coeff_eq_zero_of_natDegree_lt (lt_of_le_of_lt hDn (by omega)),
      mul_comm (X ^ 2), show 2 * (k + 1) = 2 * k + 2 by ring, coeff_mul_X_pow, hDsq]
    ring
  have hint : polyInt ((1 - X ^ 2) * D ^ 2) = (k + 1) * (k + 2) * (2 / (2 * (k + 1) + 1)) := by
    have h1 := polyInt_parts (legendre (k + 1)) ((1 - X ^ 2) * D)
    have h2 := legendre_norm (k + 1)
    rw [legendre_ode, ← hD, show ∀ a : ℝ, legendre (k + 1) * -(C a * legendre (k + 1)) =
      C (-a) * (legendre (k + 1) * legendre (k + 1)) from fun a => by rw [C_neg]; ring, polyInt_C_mul] at h1
    rw [show (1 - X ^ 2) * D ^ 2 = D * ((1 - X ^ 2) * D) by ring, h1]
    simp only [eval_mul, eval_sub, eval_one, eval_pow, eval_X]
    push_cast at h2 ⊢
    have h3 : (2 * ((k : ℝ) + 1) + 1) ≠ 0 := by positivity
    field_simp
    linear_combination ((k : ℝ) + 1) * (k + 2) * h2
  have h := sharp_of_exact ([-1] ++ xs ++ [1])
    ([e] ++ xs.map (fun x => e / ((evalPn x (k + 1)).1 * (evalPn x (k + 1)).1)) ++ [e]) (fun _ => 1)
    ((1 - X ^ 2) * D ^ 2) (2 * (k + 1)) (fun t ht => by
      simp only [eval_mul, eval_sub, eval_one, eval_pow, eval_X]
      rcases List.mem_append.1 ht with ht | ht
      · rcases List.mem_append.1 ht with ht | ht
        · rw [List.mem_singleton.1 ht]
          norm_num
        · rw [hroot t ht]
          ring
      · rw [List.mem_singleton.1 ht]
        norm_num)
    (natDegree_mul_le.trans (by
      have : (1 - X ^ 2 : ℝ[X]).natDegree ≤ 2 := by compute_degree
      omega))
    (by
      rw [hcoef]
      exact neg_ne_zero.2 (pow_ne_zero _ (mul_ne_zero (by positivity) hl0)))
    polyInt (fun p a => by rw [polyInt_sub, polyInt_C_mul])
    (fun r hr => by
      simp only [mul_one]
      exact C16_weight_formula_exact (k + 2) (by omega) xs hnd (by omega) hroot r (by
        rw [show 2 * (k + 2) - 2 = 2 * (k + 1) by omega]
        exact hr)) p hp
  simp only [mul_one] at h
  show polyInt p = _
  rw [h, hcoef, hint, sub_eq_add_neg]
  congr 1
  push_cast
  have h3 : (2 * ((k : ℝ) + 1) + 1) ≠ 0 := by positivity
  field_simp
  ring

example : ∃ xs : List ℝ, xs.Nodup ∧ xs.length = 7 - 1 ∧ ∀ x ∈ xs, (derivative (legendre 7)).eval x = 0 := by
  obtain ⟨xs, h1, h2, h3, -⟩ := C16_roots 7 (by norm_num)
  exact ⟨xs, h1, h2, fun x hx => (h3 x).1 hx⟩

private theorem sum_squares (a h : ℝ) (m : ℕ) :
    ∑ k ∈ Finset.range m, (a + ((k : ℝ) + 1) * h) ^ 2 =
      m * a ^ 2 + a * h * (m * (m + 1)) + h ^ 2 * (m * (m + 1) * (2 * m + 1)) / 6 := by
  induction m with
  | zero => simp
  | succ m ih =>
    rw [Finset.sum_range_succ, ih]
    push_cast
    ring

/-- **C100.**  The trapezoidal rule on quadratic functions. -/
theorem C100_trapezoid (b : Build) (npts : ℕ) (hn : 2 ≤ npts) (hn' : npts < 2 ^ 64) (lo up c₀ c₁ c₂ : ℝ) :
    Returns (construct b (uniformTrapezoid npts lo up)) (fun q =>
      ∫ x in lo..up, c₂ * x ^ 2 + (c₁ * x + c₀) =
        ruleSum q.points q.weights (fun x => c₂ * x ^ 2 + (c₁ * x + c₀)) -
          c₂ * ((up - lo) ^ 3 / (6 * (npts - 1) ^ 2))) := by
  obtain ⟨q, hq, -, -, -, -, -, h1, h2, -⟩ := C17_uniform_trapezoid b npts hn hn' lo up
  refine ⟨q, hq, ?_⟩
  obtain ⟨m, rfl⟩ : ∃ m, npts = m + 2 := ⟨npts - 2, by omega⟩
  have hs : ruleSum q.points q.weights (fun x => x ^ 2) =
      (up ^ 3 - lo ^ 3) / 3 + (up - lo) ^ 3 / (6 * (m + 1) ^ 2) := by
    rw [h1, trapezoidal_integral, show m + 2 - 1 = m + 1 by omega, Nat.add_sub_cancel]
    have := sum_squares lo ((up - lo) / (m + 1)) m
    have hm : (m : ℝ) + 1 ≠ 0 := by positivity
    simp only [mul_div_assoc]
    push_cast
    rw [this]
    field_simp
    ring
  have hl : ruleSum q.points q.weights (fun x => c₂ * x ^ 2 + (c₁ * x + c₀)) =
      c₂ * ruleSum q.points q.weights (fun x => x ^ 2) + ∫ x in lo..up, c₁ * x + c₀ := by
    have := ruleSum_lin q.points q.weights (fun x => c₁ * x + c₀) (fun x => x ^ 2) (-c₂)
    rw [← h2]
    have e : (fun x : ℝ => c₂ * x ^ 2 + (c₁ * x + c₀)) = fun x => c₁ * x + c₀ - -c₂ * x ^ 2 := by
      funext x
      ring
    rw [e, this]
    ring
  rw [hl, hs, intervalIntegral.integral_add (Continuous.intervalIntegrable (by fun_prop) _ _)
    (Continuous.intervalIntegrable (by fun_prop) _ _), intervalIntegral.integral_const_mul, integral_pow]
  push_cast
  ring

/-- **C100.**  Consequence: none of the rules is exact one degree higher. -/
theorem C100_not_exact (b : Build) (npts : ℕ) (hn : 1 ≤ npts) :
    Returns (construct b (gaussChebyshev1 npts)) (fun q =>
      ruleSum q.points q.weights (fun x => x ^ (2 * npts) / √(1 - x ^ 2)) <
        ∫ x in (-1 : ℝ)..1, x ^ (2 * npts) / √(1 - x ^ 2)) ∧
    Returns (construct b (gaussChebyshev2 npts)) (fun q =>
      ruleSum q.points q.weights (fun x => x ^ (2 * npts) * √(1 - x ^ 2)) <
        ∫ x in (-1 : ℝ)..1, x ^ (2 * npts) * √(1 - x ^ 2)) ∧
    Returns (construct b (gaussChebyshev3 npts)) (fun q =>
      ruleSum q.points q.weights (fun x => x ^ (2 * npts) * √(x / (1 - x))) <
        ∫ x in (0 : ℝ)..1, x ^ (2 * npts) * √(x / (1 - x))) := by
  have hpi := pi_pos
  have hX : (X ^ (2 * npts) : ℝ[X]).natDegree ≤ 2 * npts := natDegree_X_pow_le _
  refine ⟨?_, ?_, ?_⟩
  · obtain ⟨q, e, h⟩ := C100_chebyshev1 b npts hn _ hX
    refine ⟨q, e, ?_⟩
    simp only [eval_pow, eval_X, coeff_X_pow, if_true, one_mul] at h
    rw [h]
    exact lt_add_of_pos_right _ (by positivity)
  · obtain ⟨q, e, h⟩ := C100_chebyshev2 b npts _ hX
    refine ⟨q, e, ?_⟩
    simp only [eval_pow, eval_X, coeff_X_pow, if_true, one_mul] at h
    rw [h]
    exact lt_add_of_pos_right _ (by positivity)
  · obtain ⟨q, e, h⟩ := C100_chebyshev3 b npts _ hX
    refine ⟨q, e, ?_⟩
    simp only [eval_pow, eval_X, coeff_X_pow, if_true, one_mul] at h
    rw [h]
    exact lt_add_of_pos_right _ (by positivity)

end IntegratorXX
