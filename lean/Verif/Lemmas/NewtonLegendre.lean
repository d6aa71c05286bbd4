import Verif.Lemmas.LegendreAngles
import Verif.Lemmas.NewtonStep
import Verif.Lemmas.EvalPn
import Verif.Lemmas.NewtonForms
import Mathlib.Analysis.Convex.SpecificFunctions.Deriv
import Mathlib.Analysis.Real.Pi.Bounds
import Mathlib.Analysis.SpecialFunctions.Trigonometric.Bounds

/-!
# Convergence of the Newton iterations of GaussLegendre
-/

namespace IntegratorXX

open Polynomial Spec Set Real

local notation "P" => legendre

/-! ## Differences of cosines -/

theorem cos_sub_cos_le {a c : ℝ} (h0 : 0 ≤ a) (hac : a ≤ c) (hc : c ≤ π / 2) :
    cos a - cos c ≤ (c - a) * sin c := by
  rcases hac.eq_or_lt with rfl | h
  · simp
  · obtain ⟨x, hx, hd⟩ := exists_hasDerivAt_eq_slope cos (fun x => -sin x) h
      continuous_cos.continuousOn (fun x _ => hasDerivAt_cos x)
    rw [eq_div_iff (by linarith)] at hd
    have hs : sin x ≤ sin c := sin_le_sin_of_le_of_le_pi_div_two (by linarith [hx.1, pi_pos]) hc
      hx.2.le
    nlinarith

theorem sin_ge_chord {x c : ℝ} (h0 : 0 ≤ x) (hxc : x ≤ c) (hc0 : 0 < c) (hc : c ≤ π) :
    x * sin c ≤ c * sin x := by
  have ha : 0 ≤ 1 - x / c := by rw [sub_nonneg, div_le_one hc0]; exact hxc
  have hb : 0 ≤ x / c := by positivity
  have h := strictConcaveOn_sin_Icc.concaveOn.2 (⟨le_rfl, pi_pos.le⟩ : (0 : ℝ) ∈ Icc 0 π)
    (⟨hc0.le, hc⟩ : c ∈ Icc 0 π) ha hb (by ring)
  simp only [smul_eq_mul, mul_zero, sin_zero, zero_add] at h
  rw [div_mul_cancel₀ _ hc0.ne'] at h
  rw [div_mul_eq_mul_div, div_le_iff₀ hc0] at h
  linarith

theorem cos_sub_cos_ge_sq {b c : ℝ} (h0 : 0 ≤ b) (hbc : b ≤ c) (hc0 : 0 < c) (hc : c ≤ π) :
    sin c * (c ^ 2 - b ^ 2) ≤ 2 * c * (cos b - cos c) := by
  have hanti : AntitoneOn (fun x => 2 * c * cos x + sin c * x ^ 2) (Icc 0 c) := by
    have hd : ∀ x, HasDerivAt (fun x => 2 * c * cos x + sin c * x ^ 2)
        (2 * c * (-sin x) + sin c * (2 * x)) x := by
      intro x
      have := ((hasDerivAt_cos x).const_mul (2 * c)).add (((hasDerivAt_id x).fun_pow 2).const_mul (sin c))
      refine this.congr_deriv ?_
      simp
    refine antitoneOn_of_deriv_nonpos (convex_Icc _ _) (fun x _ => (hd x).continuousAt.continuousWithinAt)
      (fun x _ => (hd x).differentiableAt.differentiableWithinAt) ?_
    intro x hx
    rw [interior_Icc] at hx
    rw [(hd x).deriv]
    have := sin_ge_chord hx.1.le hx.2.le hc0 hc
    linarith
  have := hanti ⟨h0, hbc⟩ ⟨hc0.le, le_rfl⟩ hbc
  dsimp only at this
  linarith

theorem cos_sub_cos_ge {a c : ℝ} (h0 : 0 ≤ a) (hac : a ≤ c) (hc : c ≤ π - a) :
    (c - a) * sin a ≤ cos a - cos c := by
  rcases hac.eq_or_lt with rfl | h
  · simp
  · obtain ⟨x, hx, hd⟩ := exists_hasDerivAt_eq_slope cos (fun x => -sin x) h
      continuous_cos.continuousOn (fun x _ => hasDerivAt_cos x)
    rw [eq_div_iff (by linarith)] at hd
    have hs : sin a ≤ sin x := by
      rcases le_total x (π / 2) with h1 | h1
      · exact sin_le_sin_of_le_of_le_pi_div_two (by linarith [pi_pos]) h1 hx.1.le
      · rw [← sin_pi_sub x]
        exact sin_le_sin_of_le_of_le_pi_div_two (by linarith [pi_pos]) (by linarith)
          (by linarith [hx.2])
    nlinarith

theorem mul_cos_le_sin {x : ℝ} (h0 : 0 ≤ x) (h1 : x ≤ π / 2) : x * cos x ≤ sin x := by
  rcases h1.eq_or_lt with rfl | h
  · simp
  · have := le_tan h0 h
    rw [tan_eq_sin_div_cos, le_div_iff₀ (cos_pos_of_mem_Ioo ⟨by linarith [pi_pos], h⟩)] at this
    exact this

/-! ## Sums over the other roots -/

theorem legRoots_nodal (n : ℕ) :
    P n = C (P n).leadingCoeff * Lagrange.nodal (legRoots n) id :=
  eq_C_mul_nodal (P n) (legRoots n) (fun y hy => (mem_legRoots _ _).1 hy)
    (by rw [card_legRoots, natDegree_legendre])

theorem legRoots_sums (n : ℕ) (r : ℝ) (hr : r ∈ legRoots n) :
    (1 - r ^ 2) * rootSum (legRoots n) r = r ∧
    3 * (1 - r ^ 2) * rootSqSum (legRoots n) r ≤ n * (n + 1) := by
  have hroot := (mem_legRoots _ _).1 hr
  have hm := legendre_root_mem n r hroot
  have hs : 0 < 1 - r ^ 2 := by nlinarith
  obtain ⟨h1, h2⟩ := nodal_derivs (P n).leadingCoeff (legRoots n) r hr
  rw [← legRoots_nodal n] at h1 h2
  have h0 := legendre_simple_root n r hroot
  have o1 := congrArg (eval r) (legendre_ode' n)
  have o2 := congrArg (eval r) (legendre_ode_deriv n)
  simp only [eval_mul, eval_sub, eval_one, eval_pow, eval_X, eval_C, eval_ofNat] at o1 o2
  rw [hroot, h1] at o1
  rw [h2, h1] at o2
  generalize (derivative (P n)).eval r = p at *
  generalize rootSum (legRoots n) r = s at *
  generalize rootSqSum (legRoots n) r = q at *
  have e1 : (1 - r ^ 2) * s = r := by
    apply mul_right_cancel₀ h0
    linarith
  have e2 : 3 * (1 - r ^ 2) * (s ^ 2 - q) = 8 * r * s - (n * (n + 1) - 2) := by
    apply mul_right_cancel₀ h0
    linarith
  refine ⟨e1, ?_⟩
  have h3 : (1 - r ^ 2) * s ^ 2 = r * s := by rw [sq s, ← mul_assoc, e1]
  have h4 : 0 ≤ r * s := by rw [← h3]; positivity
  nlinarith

theorem pi_sq_le : π ^ 2 ≤ 10 := by
  have h1 := pi_lt_d2
  have h0 := pi_pos
  nlinarith

set_option maxHeartbeats 1000000 in
/-- Starting values of GaussLegendre lie in the contraction interval of "their" root. -/
theorem gl_newton_data {n k : ℕ} (hk : k < (n + 1) / 2) :
    let r := cos (glAng n k)
    let d := cos ((k + 3 / 4) * angStep n) - r
    0 ≤ r ∧ 0 ≤ d ∧ r + d < 1 ∧
    ∀ z, r - 3 / 5 * d ≤ z → z ≤ r + d →
      (derivative (P n)).eval z ≠ 0 ∧
      |z - (P n).eval z / (derivative (P n)).eval z - r| ≤ 3 / 5 * |z - r| := by
  intro r d
  have hkn : k < n := by omega
  have hπ := pi_pos
  obtain ⟨hθ0, hθ1, hroot⟩ := glAng_mem hkn
  have hhalf := glAng_le_half hk
  have hup := glAng_upper hkn
  have hst := glAng_start hk
  have hh := angStep_pos n
  have hmul := angStep_mul n
  have hrS : r ∈ legRoots n := (mem_legRoots _ _).2 hroot
  set h := angStep n with hhdef
  set θ := glAng n k with hθ
  set θ0 := ((k : ℝ) + 3 / 4) * h with hθ0def
  have hk0 : (0 : ℝ) ≤ k := Nat.cast_nonneg k
  have hθ0pos : 0 < θ0 := by positivity
  obtain ⟨η, hη⟩ : ∃ η, η = θ - θ0 := ⟨_, rfl⟩
  have hη0 : 0 ≤ η := by linarith
  have hη1 : η ≤ h / 4 := by rw [hη, hθ0def]; linarith
  have hsin : 0 < sin θ := sin_pos_of_pos_of_lt_pi hθ0 hθ1
  have hr0 : 0 ≤ r := cos_nonneg_of_neg_pi_div_two_le_of_le (by linarith) hhalf
  have hd0 : 0 ≤ d := sub_nonneg.2 (cos_le_cos_of_nonneg_of_le_pi hθ0pos.le hθ1.le hst)
  have hdD : d ≤ η * sin θ := by
    rw [hη]; exact cos_sub_cos_le hθ0pos.le hst hhalf
  have hr2 : 1 - r ^ 2 = sin θ ^ 2 := by rw [sin_sq]
  obtain ⟨hs1, hs2⟩ := legRoots_sums n r hrS
  rw [hr2] at hs1 hs2
  have hQ0 := rootSqSum_nonneg (legRoots n) r
  have hR : ∀ x ∈ legRoots n, r < x → d ≤ 1 / 3 * (x - r) := by
    intro x hx hrx
    obtain ⟨j, hj, rfl⟩ := glAng_surj ((mem_legRoots _ _).1 hx)
    have hjk : j < k := by
      by_contra hcon
      have h1 := glAng_le (not_lt.1 hcon) hj
      have := cos_le_cos_of_nonneg_of_le_pi hθ0.le (glAng_mem hj).2.1.le h1
      linarith
    have hb := glAng_upper hj
    have hb0 := (glAng_mem hj).1
    have hbk : glAng n j ≤ k * h := by
      have : (j : ℝ) + 1 ≤ k := by exact_mod_cast hjk
      nlinarith
    have hk1 : (1 : ℝ) ≤ k := by exact_mod_cast (by omega : 1 ≤ k)
    have hlt := glAng_lt hjk hkn
    have hc := cos_sub_cos_ge_sq hb0.le hlt.le hθ0 hθ1.le
    set b := glAng n j with hbdef
    have hbsq : b ^ 2 ≤ (k * h) ^ 2 := pow_le_pow_left₀ hb0.le hbk 2
    have hθe : θ = (k + 3 / 4) * h + η := by rw [hη]; ring
    have hpoly : 6 * η * θ ≤ θ ^ 2 - b ^ 2 := by
      have : 6 * η * θ ≤ θ ^ 2 - (k * h) ^ 2 := by
        rw [hθe]
        have h1 : 0 ≤ (h / 4 - η) * h * (4 * k + 3) := by
          have : 0 ≤ h / 4 - η := by linarith
          positivity
        have h2 : 0 ≤ (h / 4 - η) * (h / 4 + η) := mul_nonneg (by linarith) (by linarith)
        have h3 : 0 ≤ (k - 1) * h ^ 2 := mul_nonneg (by linarith) (by positivity)
        nlinarith
      linarith
    have h5 : sin θ * (6 * η * θ) ≤ 2 * θ * (cos b - r) :=
      (mul_le_mul_of_nonneg_left hpoly hsin.le).trans hc
    have h6 : 3 * (η * sin θ) ≤ cos b - r := by
      have : 2 * θ * (3 * (η * sin θ)) ≤ 2 * θ * (cos b - r) := by linarith
      exact le_of_mul_le_mul_left this (by linarith)
    linarith
  have hL : ∀ x ∈ legRoots n, x < r → 3 / 5 * d ≤ 3 / 10 * (r - x) := by
    intro x hx hrx
    obtain ⟨j, hj, rfl⟩ := glAng_surj ((mem_legRoots _ _).1 hx)
    have hjk : k < j := by
      by_contra hcon
      have h1 := glAng_le (not_lt.1 hcon) hkn
      have := cos_le_cos_of_nonneg_of_le_pi (glAng_mem hj).1.le hθ1.le h1
      linarith
    by_cases hc : k + 1 ≤ n - 1 - k
    · have h1 := glAng_le (Nat.succ_le_of_lt hjk) hj
      have h2 := glAng_lower (n := n) (k := k + 1) (by omega)
      have h3 := glAng_le hc (by omega : n - 1 - k < n)
      rw [glAng_symm hkn] at h3
      have h4 := cos_sub_cos_ge hθ0.le (glAng_lt (Nat.lt_succ_self k) (by omega)).le h3
      have h5 := cos_le_cos_of_nonneg_of_le_pi (glAng_mem (n := n) (k := k + 1) (by omega)).1.le
        (glAng_mem hj).2.1.le h1
      have h6 : h / 2 ≤ glAng n (k + 1) - θ := by
        push_cast at h2
        linarith
      have h7 := mul_le_mul_of_nonneg_right h6 hsin.le
      have h8 := mul_le_mul_of_nonneg_right hη1 hsin.le
      linarith
    · -- centre of an odd rule: the starting value is the root
      have hn : n = 2 * k + 1 := by omega
      have h1 := glAng_symm hkn
      rw [show n - 1 - k = k by omega] at h1
      have hη' : η = 0 := by
        have h2 : θ = π / 2 := by linarith
        rw [hη, h2, hθ0def, ← hmul, hn]
        push_cast
        ring
      have : d ≤ 0 := by rw [hη', zero_mul] at hdD; exact hdD
      linarith
  -- sums
  have hS0 : 0 ≤ rootSum (legRoots n) r := by
    have : 0 ≤ sin θ ^ 2 * rootSum (legRoots n) r := by rw [hs1]; exact hr0
    exact nonneg_of_mul_nonneg_right this (by positivity)
  have hdS : d * rootSum (legRoots n) r ≤ 1 / 3 := by
    refine (mul_le_mul_of_nonneg_right hdD hS0).trans ?_
    have h1 : θ * (η * sin θ * rootSum (legRoots n) r) * sin θ ≤ η * sin θ := by
      have := mul_cos_le_sin hθ0.le hhalf
      calc θ * (η * sin θ * rootSum (legRoots n) r) * sin θ
          = η * (θ * (sin θ ^ 2 * rootSum (legRoots n) r)) := by ring
        _ = η * (θ * cos θ) := by rw [hs1]
        _ ≤ η * sin θ := mul_le_mul_of_nonneg_left this hη0
    have h2 := le_of_mul_le_mul_right h1 hsin
    have h3 : 3 * η ≤ θ := by
      have : 3 / 4 * h ≤ θ0 := by rw [hθ0def]; nlinarith
      linarith
    have h4 : θ * (η * sin θ * rootSum (legRoots n) r) ≤ θ * (1 / 3) := by linarith
    exact le_of_mul_le_mul_left h4 hθ0
  have hdQ : d ^ 2 * rootSqSum (legRoots n) r ≤ 1 / 4 := by
    have h1 : d ^ 2 ≤ (η * sin θ) ^ 2 := pow_le_pow_left₀ hd0 hdD 2
    have h2 := mul_le_mul_of_nonneg_right h1 hQ0
    have h3 : η ^ 2 ≤ (h / 4) ^ 2 := pow_le_pow_left₀ hη0 hη1 2
    have h4 : 0 ≤ sin θ ^ 2 * rootSqSum (legRoots n) r := by positivity
    have h5 := mul_le_mul_of_nonneg_right h3 h4
    have h6 : h ^ 2 * (n * (n + 1)) ≤ π ^ 2 := by
      have e : (((n : ℝ) + 1 / 2) * h) ^ 2 = h ^ 2 * (n * (n + 1)) + h ^ 2 / 4 := by ring
      rw [← hmul, e]
      have := sq_nonneg h
      linarith
    have h7 : h ^ 2 * (3 * sin θ ^ 2 * rootSqSum (legRoots n) r) ≤ h ^ 2 * (n * (n + 1)) :=
      mul_le_mul_of_nonneg_left hs2 (by positivity)
    have h8 := pi_sq_le
    have e1 : (η * sin θ) ^ 2 * rootSqSum (legRoots n) r =
      η ^ 2 * (sin θ ^ 2 * rootSqSum (legRoots n) r) := by ring
    have e2 : h ^ 2 * (3 * sin θ ^ 2 * rootSqSum (legRoots n) r) =
      48 * ((h / 4) ^ 2 * (sin θ ^ 2 * rootSqSum (legRoots n) r)) := by ring
    linarith
  have hd1 : r + d < 1 := by
    show r + (cos θ0 - r) < 1
    have : cos θ0 < cos 0 := cos_lt_cos_of_nonneg_of_le_pi le_rfl (by linarith) hθ0pos
    rw [cos_zero] at this
    linarith
  refine ⟨hr0, hd0, hd1, ?_⟩
  intro z hz0 hz1
  have := newton_contract (P n).leadingCoeff (leadingCoeff_ne_zero.2 (legendre_ne_zero n))
    (legRoots n) r d (3 / 5 * d) (1 / 3) (3 / 10) hrS (by norm_num) (by norm_num) (by norm_num)
    (by norm_num) hR hL hS0 (by linarith) (by
      rw [mul_div_assoc']
      rw [div_le_iff₀ (by norm_num)]
      linarith) (by
      rw [mul_div_assoc', mul_pow, mul_assoc, mul_assoc]
      have : (3 / 5 : ℝ) ^ 2 * (d ^ 2 * rootSqSum (legRoots n) r) / (1 - 3 / 10) ≤ 0.15 := by
        rw [div_le_iff₀ (by norm_num)]
        linarith
      linarith) z hz0 hz1
  rwa [← legRoots_nodal n] at this

/-! ## The iterations of the model -/

theorem xreal_accept (x : ℝ) :
    Arith.le (Arith.abs (XReal.fin x)) (Arith.eps : XReal) = true ↔ |x| ≤ (2 : ℝ)⁻¹ ^ 52 := by
  rw [XReal.le_iff, le_iff_lt_or_eq]
  rfl

theorem glNewton_fin (n k : ℕ) (z : ℝ) (hz : z ^ 2 ≠ 1)
    (hd : (derivative (P n)).eval z ≠ 0) :
    glNewton n (k + 1) (XReal.fin z) =
      if |z - (P n).eval z / (derivative (P n)).eval z - z| ≤ (2 : ℝ)⁻¹ ^ 52 then
        some (.fin (z - (P n).eval z / (derivative (P n)).eval z),
          .fin ((derivative (P n)).eval z))
      else glNewton n k (.fin (z - (P n).eval z / (derivative (P n)).eval z)) := by
  rw [glNewton, evalPn_xreal z n hz]
  dsimp only
  rw [XReal.fin_div_ne _ hd, XReal.fin_sub, XReal.fin_sub]
  simp only [xreal_accept]

theorem glStart_xreal (n k : ℕ) :
    glStart XReal n k = .fin (cos ((k + 3 / 4) * angStep n)) := by
  unfold glStart
  show Arith.cos (XReal.fin π * (XReal.fin ((k + 1 : ℕ) : ℝ) - XReal.fin ((1 / 4 : ℚ) : ℝ)) /
    (XReal.fin (n : ℝ) + XReal.fin ((1 / 2 : ℚ) : ℝ))) = _
  rw [XReal.fin_sub, XReal.fin_mul, XReal.fin_add,
    XReal.fin_div_ne _ (by push_cast; positivity)]
  show XReal.fin (cos _) = _
  congr 2
  unfold angStep
  push_cast
  field_simp
  ring

/-- Every Newton iteration of GaussLegendre is accepted, at the root it was meant for. -/
theorem glNewton_converges {n k : ℕ} (hk : k < (n + 1) / 2) :
    ∃ a z : ℝ, glNewton n 100 (glStart XReal n k) =
      some (.fin z, .fin ((derivative (P n)).eval a)) ∧
      |a - cos (glAng n k)| ≤ 5 / 2 * (2 : ℝ)⁻¹ ^ 52 ∧
      |z - cos (glAng n k)| ≤ 3 / 2 * (2 : ℝ)⁻¹ ^ 52 ∧
      z = a - (P n).eval a / (derivative (P n)).eval a ∧
      (derivative (P n)).eval a ≠ 0 ∧ |a| < 1 ∧ |z| < 1 ∧ |z - a| ≤ (2 : ℝ)⁻¹ ^ 52 := by
  obtain ⟨hr0, hd0, hd1, hcon⟩ := gl_newton_data hk
  rw [glStart_xreal]
  set r := cos (glAng n k)
  obtain ⟨d, hd⟩ : ∃ d, d = cos ((k + 3 / 4) * angStep n) - r := ⟨_, rfl⟩
  rw [← hd] at hd0 hd1 hcon
  have hz0 : cos ((k + 3 / 4) * angStep n) = r + d := by rw [hd]; ring
  rw [hz0]
  have hlt : ∀ z, r - 3 / 5 * d ≤ z → z ≤ r + d → |z| < 1 := fun z h1 h2 =>
    abs_lt.2 ⟨by linarith, by linarith⟩
  obtain ⟨a, ha1, ha2, hrun, ha, -, -, hst⟩ := newton_iterate
    (fun z => z - (P n).eval z / (derivative (P n)).eval z)
    (fun z => (derivative (P n)).eval z) (glNewton n) r d (3 / 5 * d)
    (fun m z h1 h2 => glNewton_fin n m z (fun h => by
        have := hlt z h1 h2
        rw [← sq_lt_one_iff_abs_lt_one] at this
        linarith) (hcon z h1 h2).1)
    (fun z h1 h2 => (hcon z h1 h2).2) 99 (r + d) (by linarith) le_rfl
    (by rw [add_sub_cancel_left, abs_of_nonneg hd0]; linarith)
    (by rw [add_sub_cancel_left, abs_of_nonneg hd0])
    (by
      rw [add_sub_cancel_left, abs_of_nonneg hd0]
      have : (1 : ℝ) ≤ (5 / 3) ^ 99 * (2 : ℝ)⁻¹ ^ 53 := by norm_num
      linarith)
  have hna := (hcon a ha1 ha2).2
  refine ⟨a, _, hrun, ha, ?_, rfl, (hcon a ha1 ha2).1, hlt a ha1 ha2, ?_, hst⟩
  · linarith
  · have hab : |a - r| ≤ d := abs_le.2 ⟨by linarith, by linarith⟩
    have := abs_le.1 (hna.trans (mul_le_mul_of_nonneg_left hab (by norm_num)))
    exact hlt _ (by linarith) (by linarith)

end IntegratorXX
