import Verif.Prop.SecondOrder
import Verif.Spec.RadialDecay
import Mathlib.Analysis.Calculus.FDeriv.Extend
import Mathlib.Topology.MetricSpace.Lipschitz
import Mathlib.Analysis.Complex.ExponentialBounds

/-!
# C101: the error of the radial rules on integrands that decay
-/

namespace IntegratorXX

open Spec RadialTraits Set Real MeasureTheory Filter Topology

/-- A function on an open interval with a bounded second derivative and the limit 0 at both ends extends to the closed
interval with a Lipschitz derivative. -/
private theorem extend_second {T L : ℝ} (hT : 0 < T) (hL0 : 0 ≤ L) {F F1 F2 : ℝ → ℝ}
    (h1 : ∀ θ ∈ Ioo 0 T, HasDerivAt F (F1 θ) θ) (h2 : ∀ θ ∈ Ioo 0 T, HasDerivAt F1 (F2 θ) θ)
    (hL : ∀ θ ∈ Ioo 0 T, |F2 θ| ≤ L) (l0 : Tendsto F (𝓝[>] 0) (𝓝 0)) (lT : Tendsto F (𝓝[<] T) (𝓝 0)) :
    ∃ G G' : ℝ → ℝ, (∀ θ ∈ Ioo 0 T, F θ = G θ) ∧ (∀ θ ∈ Icc 0 T, HasDerivWithinAt G (G' θ) (Icc 0 T) θ) ∧
      (∀ x ∈ Icc 0 T, ∀ y ∈ Icc 0 T, |G' x - G' y| ≤ L * |x - y|) ∧ G 0 = 0 ∧ G T = 0 := by
  have hlip : LipschitzOnWith L.toNNReal F1 (Ioo 0 T) := by
    refine (convex_Ioo 0 T).lipschitzOnWith_of_nnnorm_hasDerivWithin_le
      (fun x hx => (h2 x hx).hasDerivWithinAt) fun x hx => ?_
    rw [← NNReal.coe_le_coe, coe_nnnorm, Real.norm_eq_abs, Real.coe_toNNReal _ hL0]
    exact hL x hx
  obtain ⟨g, hg, hge⟩ := hlip.extend_real
  obtain ⟨G, hG⟩ : ∃ G : ℝ → ℝ, G = fun θ => if θ ∈ Ioo 0 T then F θ else 0 := ⟨_, rfl⟩
  have hin : ∀ θ ∈ Ioo 0 T, G =ᶠ[𝓝 θ] F := by
    intro θ hθ
    filter_upwards [isOpen_Ioo.mem_nhds hθ] with x hx
    rw [hG]
    exact if_pos hx
  have hd : ∀ θ ∈ Ioo 0 T, HasDerivAt G (g θ) θ := fun θ hθ => by
    rw [← hge hθ]
    exact (h1 θ hθ).congr_of_eventuallyEq (hin θ hθ)
  have n0 : Ioo 0 T ∈ 𝓝[>] (0 : ℝ) := Ioo_mem_nhdsGT hT
  have nT : Ioo 0 T ∈ 𝓝[<] T := Ioo_mem_nhdsLT hT
  have hG0 : G 0 = 0 := by rw [hG]; simp
  have hGT : G T = 0 := by rw [hG]; simp
  have hdiff : DifferentiableOn ℝ G (Ioo 0 T) := fun θ hθ => (hd θ hθ).differentiableAt.differentiableWithinAt
  refine ⟨G, g, fun θ hθ => (hin θ hθ).eq_of_nhds.symm, ?_, fun x _ y _ => ?_, hG0, hGT⟩
  · intro θ hθ
    rcases hθ.1.eq_or_lt with rfl | ha
    · refine HasDerivWithinAt.mono ?_ (t := Ici 0) Icc_subset_Ici_self
      refine hasDerivWithinAt_Ici_of_tendsto_deriv hdiff ?_ n0 ?_
      · rw [ContinuousWithinAt, hG0]
        refine (tendsto_congr' ?_).2 (l0.mono_left (nhdsWithin_mono _ Ioo_subset_Ioi_self))
        filter_upwards [self_mem_nhdsWithin] with x hx using (hin x hx).eq_of_nhds
      · refine (tendsto_congr' ?_).2 ((hg.continuous.tendsto 0).mono_left nhdsWithin_le_nhds)
        filter_upwards [n0] with x hx using (hd x hx).deriv
    rcases hθ.2.eq_or_lt with rfl | hb
    · refine HasDerivWithinAt.mono ?_ (t := Iic θ) Icc_subset_Iic_self
      refine hasDerivWithinAt_Iic_of_tendsto_deriv hdiff ?_ nT ?_
      · rw [ContinuousWithinAt, hGT]
        refine (tendsto_congr' ?_).2 (lT.mono_left (nhdsWithin_mono _ Ioo_subset_Iio_self))
        filter_upwards [self_mem_nhdsWithin] with x hx using (hin x hx).eq_of_nhds
      · refine (tendsto_congr' ?_).2 ((hg.continuous.tendsto θ).mono_left nhdsWithin_le_nhds)
        filter_upwards [nT] with x hx using (hd x hx).deriv
    · exact (hd θ ⟨ha, hb⟩).hasDerivWithinAt
  · have := hg.dist_le_mul x y
    rwa [Real.dist_eq, Real.dist_eq, Real.coe_toNNReal _ hL0] at this

/-- The error in terms of a variable `u` that solves `u' = v(u)`. -/
private theorem radial_decay (b : Build) {t : RadialTraits ℝ} (h : radialValid t)
    (hn : t.inclusive = true → t.npts + 2 < sizeMod) {f u v Φ Φ1 Φ2 dΦ dΦ1 : ℝ → ℝ} {S : ℝ → Prop} {L : ℝ} (hL0 : 0 ≤ L)
    (hu0 : ∀ θ ∈ Ioo 0 (radialLength t), S (u θ))
    (hu : ∀ θ ∈ Ioo 0 (radialLength t), HasDerivAt u (v (u θ)) θ)
    (hF : ∀ θ ∈ Ioo 0 (radialLength t), radialPullback t f θ = Φ (u θ))
    (h1 : ∀ y, S y → HasDerivAt Φ (dΦ y) y) (e1 : ∀ y, S y → Φ1 y = dΦ y * v y)
    (h2 : ∀ y, S y → HasDerivAt Φ1 (dΦ1 y) y) (e2 : ∀ y, S y → Φ2 y = dΦ1 y * v y)
    (hL : ∀ θ ∈ Ioo 0 (radialLength t), |Φ2 (u θ)| ≤ L)
    (l0 : Tendsto (fun θ => Φ (u θ)) (𝓝[>] 0) (𝓝 0)) (lT : Tendsto (fun θ => Φ (u θ)) (𝓝[<] radialLength t) (𝓝 0)) :
    IntegrableOn f (Ioi 0) ∧
    Returns (construct b t.generate) (fun q =>
      |ruleSum q.points q.weights f - ∫ r in Ioi 0, f r| ≤ radialLength t ^ 3 * L / (12 * (t.npts + 1) ^ 2)) := by
  obtain ⟨G, G', a1, a2, a3, a4, a5⟩ := extend_second (radialLength_pos t) hL0 (F := fun θ => Φ (u θ))
    (F1 := fun θ => Φ1 (u θ)) (F2 := fun θ => Φ2 (u θ))
    (fun θ hθ => by
      rw [e1 _ (hu0 θ hθ)]
      exact (h1 _ (hu0 θ hθ)).comp θ (hu θ hθ))
    (fun θ hθ => by
      rw [e2 _ (hu0 θ hθ)]
      exact (h2 _ (hu0 θ hθ)).comp θ (hu θ hθ)) hL l0 lT
  exact C98_radial_second_order b h hn (fun θ hθ => (hF θ hθ).trans (a1 θ hθ)) a2 a3 a4 a5

private theorem Spec.AlgebraicDecay.nonneg {R : ℝ} (hR : 0 < R) {f f1 f2 : ℝ → ℝ} {A0 A1 A2 : ℝ}
    (h : AlgebraicDecay R f f1 f2 A0 A1 A2) : 0 ≤ A0 ∧ 0 ≤ A1 ∧ 0 ≤ A2 := by
  refine ⟨le_trans ?_ (h.bound0 1 one_pos), le_trans ?_ (h.bound1 1 one_pos), le_trans ?_ (h.bound2 1 one_pos)⟩ <;>
  positivity

/-- Bounds of the three terms of a second derivative. -/
private theorem three_terms {R q c A0 A1 A2 k0 k1 k2 y0 y1 y2 : ℝ} (hR : 0 < R) (hq : 0 ≤ q)
    (h0 : (1 + q) ^ 3 * |y0| ≤ A0) (h1 : (1 + q) ^ 4 * (R * |y1|) ≤ A1) (h2 : (1 + q) ^ 5 * (R ^ 2 * |y2|) ≤ A2)
    {p0 p1 p2 : ℝ} (hk0 : 0 ≤ k0) (hk1 : 0 ≤ k1) (hk2 : 0 ≤ k2) (hp0 : |p0| ≤ k0 * (1 + q))
    (hp1 : |p1| ≤ k1 * (1 + q) ^ 2)
    (hp2 : |p2| ≤ k2 * (1 + q) ^ 3) {w : ℝ} (hc : 0 ≤ c) (hw : |w| ≤ c * (1 + q) ^ 2) :
    |w * (p2 * (R ^ 2 * y2) + p1 * (R * y1) + p0 * y0)| ≤ c * (k2 * A2 + k1 * A1 + k0 * A0) := by
  have hq1 : 0 < 1 + q := by linarith
  rw [abs_mul]
  have e2 : |p2 * (R ^ 2 * y2)| ≤ k2 * (1 + q) ^ 3 * (R ^ 2 * |y2|) := by
    rw [abs_mul, abs_mul, abs_of_pos (by positivity : 0 < R ^ 2)]
    exact mul_le_mul_of_nonneg_right hp2 (by positivity)
  have e1 : |p1 * (R * y1)| ≤ k1 * (1 + q) ^ 2 * (R * |y1|) := by
    rw [abs_mul, abs_mul, abs_of_pos hR]
    exact mul_le_mul_of_nonneg_right hp1 (by positivity)
  have e0 : |p0 * y0| ≤ k0 * (1 + q) * |y0| := by
    rw [abs_mul]
    exact mul_le_mul_of_nonneg_right hp0 (by positivity)
  have hs : |p2 * (R ^ 2 * y2) + p1 * (R * y1) + p0 * y0| ≤
      k2 * (1 + q) ^ 3 * (R ^ 2 * |y2|) + k1 * (1 + q) ^ 2 * (R * |y1|) + k0 * (1 + q) * |y0| :=
    (abs_add_le _ _).trans (add_le_add ((abs_add_le _ _).trans (add_le_add e2 e1)) e0)
  refine (mul_le_mul hw hs (abs_nonneg _) (by positivity)).trans ?_
  rw [show c * (1 + q) ^ 2 *
      (k2 * (1 + q) ^ 3 * (R ^ 2 * |y2|) + k1 * (1 + q) ^ 2 * (R * |y1|) + k0 * (1 + q) * |y0|) =
    c * (k2 * ((1 + q) ^ 5 * (R ^ 2 * |y2|)) + k1 * ((1 + q) ^ 4 * (R * |y1|)) + k0 * ((1 + q) ^ 3 * |y0|)) by ring]
  refine mul_le_mul_of_nonneg_left ?_ hc
  exact add_le_add (add_le_add (mul_le_mul_of_nonneg_left h2 hk2) (mul_le_mul_of_nonneg_left h1 hk1))
    (mul_le_mul_of_nonneg_left h0 hk0)

/-- **C101.**  Becke's rule on integrands that decay like `r⁻³`. -/
theorem C101_becke (b : Build) (n : ℕ) {R : ℝ} (hR : 0 < R) {f f1 f2 : ℝ → ℝ} {A0 A1 A2 : ℝ}
    (h : AlgebraicDecay R f f1 f2 A0 A1 A2) :
    IntegrableOn f (Ioi 0) ∧
    Returns (construct b (becke n R).generate) (fun q =>
      |ruleSum q.points q.weights f - ∫ r in Ioi 0, f r| ≤
        π ^ 3 * R * (6 * A0 + 9 * A1 + 2 * A2) / (48 * (n + 1) ^ 2)) := by
  have hv : radialValid (becke n R) := hR
  obtain ⟨hA0, hA1, hA2⟩ := h.nonneg hR
  have hlen : radialLength (becke n R) = π := rfl
  have hpos : ∀ y : ℝ, 0 < y → 0 < R * y ^ 2 := fun y hy => by positivity
  have hin : ∀ y : ℝ, HasDerivAt (fun y => R * y ^ 2) (R * (2 * y)) y := fun y => by
    simpa using (hasDerivAt_pow 2 y).const_mul R
  have hf : ∀ y : ℝ, 0 < y → HasDerivAt (fun y => f (R * y ^ 2)) (f1 (R * y ^ 2) * (R * (2 * y))) y :=
    fun y hy => (h.deriv _ (hpos y hy)).comp y (hin y)
  have hf1 : ∀ y : ℝ, 0 < y → HasDerivAt (fun y => f1 (R * y ^ 2)) (f2 (R * y ^ 2) * (R * (2 * y))) y :=
    fun y hy => (h.deriv2 _ (hpos y hy)).comp y (hin y)
  have hhalf : ∀ θ ∈ Ioo 0 (radialLength (becke n R)), 0 < sin (θ / 2) ∧ 0 < cos (θ / 2) := fun θ hθ => by
    rw [hlen] at hθ
    exact ⟨sin_pos_of_pos_of_lt_pi (by linarith [hθ.1]) (by linarith [hθ.1, hθ.2]),
      cos_pos_of_mem_Ioo ⟨by linarith [hθ.1, pi_pos], by linarith [hθ.2]⟩⟩
  have hbnd : ∀ y : ℝ, 0 < y → |R * (f (R * y ^ 2) * (y * (1 + y ^ 2)))| ≤ R * A0 * (y / (1 + y ^ 2) ^ 2) := by
    intro y hy
    have := h.bound0 _ (hpos y hy)
    rw [show R * y ^ 2 / R = y ^ 2 by field_simp] at this
    have h1 : 0 < 1 + y ^ 2 := by positivity
    rw [abs_mul, abs_mul, abs_of_pos hR, abs_of_pos (by positivity : 0 < y * (1 + y ^ 2)), mul_assoc R A0]
    refine mul_le_mul_of_nonneg_left ?_ hR.le
    rw [mul_div_assoc', le_div_iff₀ (by positivity)]
    calc |f (R * y ^ 2)| * (y * (1 + y ^ 2)) * (1 + y ^ 2) ^ 2 = (1 + y ^ 2) ^ 3 * |f (R * y ^ 2)| * y := by ring
      _ ≤ A0 * y := mul_le_mul_of_nonneg_right this hy.le
  have key := radial_decay b hv (fun hi => by cases hi) (f := f) (S := fun y => 0 < y) (u := fun θ => cos (θ / 2) / sin (θ / 2))
    (v := fun y => -((1 + y ^ 2) / 2)) (Φ := fun y => R * (f (R * y ^ 2) * (y * (1 + y ^ 2))))
    (dΦ := fun y => R * (f1 (R * y ^ 2) * (R * (2 * y)) * (y * (1 + y ^ 2)) + f (R * y ^ 2) * (1 + 3 * y ^ 2)))
    (Φ1 := fun y => -(R / 2) * (2 * R * (y ^ 2 * (1 + y ^ 2) ^ 2) * f1 (R * y ^ 2) +
      (1 + 3 * y ^ 2) * (1 + y ^ 2) * f (R * y ^ 2)))
    (dΦ1 := fun y => -(R / 2) * (2 * R * (y ^ 2 * (1 + y ^ 2) ^ 2) * (f2 (R * y ^ 2) * (R * (2 * y))) +
      2 * R * (2 * y * (1 + y ^ 2) ^ 2 + y ^ 2 * (2 * (1 + y ^ 2) * (2 * y))) * f1 (R * y ^ 2) +
      ((1 + 3 * y ^ 2) * (1 + y ^ 2) * (f1 (R * y ^ 2) * (R * (2 * y))) + (8 * y + 12 * y ^ 3) * f (R * y ^ 2))))
    (Φ2 := fun y => R / 2 * (y * (1 + y ^ 2)) * (2 * y ^ 2 * (1 + y ^ 2) ^ 2 * (R ^ 2 * f2 (R * y ^ 2)) +
      3 * (1 + y ^ 2) * (1 + 3 * y ^ 2) * (R * f1 (R * y ^ 2)) + (4 + 6 * y ^ 2) * f (R * y ^ 2)))
    (L := R / 4 * (2 * A2 + 9 * A1 + 6 * A0)) (by positivity)
    (fun θ hθ => div_pos (hhalf θ hθ).2 (hhalf θ hθ).1)
    (fun θ hθ => by
      have hs := (hhalf θ hθ).1
      have d := ((hasDerivAt_id θ).div_const 2).cos.div ((hasDerivAt_id θ).div_const 2).sin hs.ne'
      refine d.congr_deriv ?_
      simp only [id]
      field_simp
      ring)
    (fun θ hθ => by
      obtain ⟨hs, hc⟩ := hhalf θ hθ
      rw [hlen] at hθ
      have hcm := cos_mem_Ioo hθ
      rw [radialPullback, (radialMap_hasDerivAt _ (radialWellFormed_of_valid hv) hcm).deriv]
      have e1 : 1 - cos θ = 2 * sin (θ / 2) ^ 2 := by
        rw [show θ = 2 * (θ / 2) by ring, cos_two_mul, show 2 * (θ / 2) / 2 = θ / 2 by ring, cos_sq']
        ring
      have e2 : 1 + cos θ = 2 * cos (θ / 2) ^ 2 := by
        rw [show θ = 2 * (θ / 2) by ring, cos_two_mul, show 2 * (θ / 2) / 2 = θ / 2 by ring]
        ring
      have e3 : sin θ = 2 * sin (θ / 2) * cos (θ / 2) := by
        rw [← sin_two_mul]
        congr 1
        ring
      simp only [radialMap, jacobian, Arith.real_lit, Arith.real_pow, Arith.real_ofNat, Real.rpow_natCast]
      push_cast
      rw [e1, e2, e3, show R * (2 * cos (θ / 2) ^ 2 / (2 * sin (θ / 2) ^ 2)) = R * (cos (θ / 2) / sin (θ / 2)) ^ 2 by
        rw [div_pow]
        field_simp]
      have e4 : 1 + (cos (θ / 2) / sin (θ / 2)) ^ 2 = 1 / sin (θ / 2) ^ 2 := by
        field_simp
        linarith [sin_sq_add_cos_sq (θ / 2)]
      rw [e4]
      field_simp)
    (fun y hy => by
      refine (((hf y hy).mul ((hasDerivAt_id y).mul ((hasDerivAt_pow 2 y).const_add 1))).const_mul R).congr_deriv ?_
      simp only [id, Pi.mul_apply]
      push_cast
      ring)
    (fun y _ => by ring)
    (fun y hy => by
      have d1 := ((hasDerivAt_pow 2 y).mul (((hasDerivAt_pow 2 y).const_add 1).pow 2)).const_mul (2 * R)
      have d2 := ((((hasDerivAt_pow 2 y).const_mul 3).const_add 1).mul ((hasDerivAt_pow 2 y).const_add 1))
      refine (((d1.mul (hf1 y hy)).add (d2.mul (hf y hy))).const_mul (-(R / 2))).congr_deriv ?_
      simp only [Pi.mul_apply, Pi.pow_apply]
      push_cast
      ring)
    (fun y _ => by ring)
    (fun θ hθ => by
      have hy : 0 < cos (θ / 2) / sin (θ / 2) := div_pos (hhalf θ hθ).2 (hhalf θ hθ).1
      generalize cos (θ / 2) / sin (θ / 2) = y at hy
      have b0 := h.bound0 _ (hpos y hy)
      have b1 := h.bound1 _ (hpos y hy)
      have b2 := h.bound2 _ (hpos y hy)
      rw [show R * y ^ 2 / R = y ^ 2 by field_simp] at b0 b1 b2
      refine three_terms (k0 := 6) (k1 := 9) (k2 := 2) hR (sq_nonneg y) b0 b1 b2 (by norm_num) (by norm_num)
        (by norm_num) ?_ ?_ ?_ (by positivity) ?_
      · rw [abs_of_pos (by positivity)]
        nlinarith
      · rw [abs_of_pos (by positivity)]
        nlinarith [sq_nonneg y]
      · rw [abs_of_pos (by positivity)]
        nlinarith [sq_nonneg y, sq_nonneg (1 + y ^ 2)]
      · rw [abs_of_pos (by positivity)]
        have : y ≤ (1 + y ^ 2) / 2 := by nlinarith [sq_nonneg (y - 1)]
        nlinarith [mul_le_mul_of_nonneg_right this (by positivity : 0 ≤ R / 2 * (1 + y ^ 2))])
    ?_ ?_
  · rw [hlen] at key
    refine ⟨key.1, ?_⟩
    obtain ⟨q, hq, hk⟩ := key.2
    refine ⟨q, hq, hk.trans (le_of_eq ?_)⟩
    show π ^ 3 * _ / (12 * ((n : ℝ) + 1) ^ 2) = _
    field_simp
    ring
  · have hlim : Tendsto (fun θ => R * A0 * (sin (θ / 2) / cos (θ / 2))) (𝓝[>] 0) (𝓝 0) := by
      have : ContinuousAt (fun θ => R * A0 * (sin (θ / 2) / cos (θ / 2))) 0 :=
        ContinuousAt.mul continuousAt_const (ContinuousAt.div (by fun_prop) (by fun_prop) (by simp))
      have h2 := this.tendsto
      simp only [zero_div, sin_zero, mul_zero] at h2
      exact h2.mono_left nhdsWithin_le_nhds
    refine squeeze_zero_norm' ?_ hlim
    filter_upwards [Ioo_mem_nhdsGT pi_pos] with θ hθ
    obtain ⟨hs, hc⟩ := hhalf θ hθ
    have hy : 0 < cos (θ / 2) / sin (θ / 2) := div_pos hc hs
    refine (hbnd _ hy).trans ?_
    rw [← inv_div (cos (θ / 2))]
    generalize cos (θ / 2) / sin (θ / 2) = y at hy
    refine mul_le_mul_of_nonneg_left ?_ (by positivity)
    rw [div_le_iff₀ (by positivity), inv_mul_eq_div, le_div_iff₀ hy]
    nlinarith [sq_nonneg (y ^ 2)]
  · have hlim : Tendsto (fun θ => R * A0 * (cos (θ / 2) / sin (θ / 2))) (𝓝[<] π) (𝓝 0) := by
      have : ContinuousAt (fun θ => R * A0 * (cos (θ / 2) / sin (θ / 2))) π :=
        ContinuousAt.mul continuousAt_const (ContinuousAt.div (by fun_prop) (by fun_prop) (by simp))
      have h2 := this.tendsto
      simp only [cos_pi_div_two, zero_div, mul_zero] at h2
      exact h2.mono_left nhdsWithin_le_nhds
    refine squeeze_zero_norm' ?_ hlim
    filter_upwards [Ioo_mem_nhdsLT pi_pos] with θ hθ
    obtain ⟨hs, hc⟩ := hhalf θ hθ
    have hy : 0 < cos (θ / 2) / sin (θ / 2) := div_pos hc hs
    refine (hbnd _ hy).trans ?_
    generalize cos (θ / 2) / sin (θ / 2) = y at hy
    refine mul_le_mul_of_nonneg_left ?_ (by positivity)
    refine div_le_self hy.le ?_
    nlinarith [sq_nonneg (y ^ 2), sq_nonneg y]

/-- **C101.**  The rule of Murray, Handy and Laming (with the exponent 2 of the library). -/
theorem C101_murray_handy_laming (b : Build) (n : ℕ) (hn : n + 2 < sizeMod) {R : ℝ} (hR : 0 < R) {f f1 f2 : ℝ → ℝ}
    {A0 A1 A2 : ℝ} (h : AlgebraicDecay R f f1 f2 A0 A1 A2) :
    IntegrableOn f (Ioi 0) ∧
    Returns (construct b (mhl 2 n R).generate) (fun q =>
      |ruleSum q.points q.weights f - ∫ r in Ioi 0, f r| ≤ 4 * R * (6 * A0 + 9 * A1 + 2 * A2) / (3 * (n + 1) ^ 2)) := by
  have hv : radialValid (mhl 2 n R) := ⟨hR, by norm_num⟩
  obtain ⟨hA0, hA1, hA2⟩ := h.nonneg hR
  have hlen : radialLength (mhl 2 n R) = 1 := rfl
  have hpos : ∀ y : ℝ, 0 < y → 0 < R * y ^ 2 := fun y hy => by positivity
  have hin : ∀ y : ℝ, HasDerivAt (fun y => R * y ^ 2) (R * (2 * y)) y := fun y => by
    simpa using (hasDerivAt_pow 2 y).const_mul R
  have hf : ∀ y : ℝ, 0 < y → HasDerivAt (fun y => f (R * y ^ 2)) (f1 (R * y ^ 2) * (R * (2 * y))) y :=
    fun y hy => (h.deriv _ (hpos y hy)).comp y (hin y)
  have hf1 : ∀ y : ℝ, 0 < y → HasDerivAt (fun y => f1 (R * y ^ 2)) (f2 (R * y ^ 2) * (R * (2 * y))) y :=
    fun y hy => (h.deriv2 _ (hpos y hy)).comp y (hin y)
  have hu0 : ∀ x ∈ Ioo (0 : ℝ) 1, 0 < x / (1 - x) := fun x hx => div_pos hx.1 (by linarith [hx.2])
  have hbnd : ∀ y : ℝ, 0 < y →
      |2 * R * (f (R * y ^ 2) * (y * (1 + y) ^ 2))| ≤ 4 * R * A0 * (y / (1 + y ^ 2) ^ 2) := by
    intro y hy
    have := h.bound0 _ (hpos y hy)
    rw [show R * y ^ 2 / R = y ^ 2 by field_simp] at this
    have h1 : 0 < 1 + y ^ 2 := by positivity
    have h2 : (1 + y) ^ 2 ≤ 2 * (1 + y ^ 2) := by nlinarith [sq_nonneg (1 - y)]
    rw [abs_mul (2 * R), abs_mul (f _), abs_of_pos (by positivity : 0 < 2 * R), abs_of_pos (by positivity : 0 < y * (1 + y) ^ 2),
      show 4 * R * A0 * (y / (1 + y ^ 2) ^ 2) = 2 * R * (2 * A0 * (y / (1 + y ^ 2) ^ 2)) by ring]
    refine mul_le_mul_of_nonneg_left ?_ (by positivity)
    rw [mul_div_assoc', le_div_iff₀ (by positivity)]
    calc |f (R * y ^ 2)| * (y * (1 + y) ^ 2) * (1 + y ^ 2) ^ 2
        = (1 + y) ^ 2 * (|f (R * y ^ 2)| * y * (1 + y ^ 2) ^ 2) := by ring
      _ ≤ 2 * (1 + y ^ 2) * (|f (R * y ^ 2)| * y * (1 + y ^ 2) ^ 2) := mul_le_mul_of_nonneg_right h2 (by positivity)
      _ = 2 * ((1 + y ^ 2) ^ 3 * |f (R * y ^ 2)|) * y := by ring
      _ ≤ 2 * A0 * y := mul_le_mul_of_nonneg_right (by linarith) hy.le
  have key := radial_decay b hv (fun _ => hn) (f := f) (S := fun y => 0 < y) (u := fun x => x / (1 - x))
    (v := fun y => (1 + y) ^ 2) (Φ := fun y => 2 * R * (f (R * y ^ 2) * (y * (1 + y) ^ 2)))
    (dΦ := fun y => 2 * R * (f1 (R * y ^ 2) * (R * (2 * y)) * (y * (1 + y) ^ 2) +
      f (R * y ^ 2) * ((1 + y) ^ 2 + y * (2 * (1 + y)))))
    (Φ1 := fun y => 2 * R * (2 * R * (y ^ 2 * (1 + y) ^ 4) * f1 (R * y ^ 2) + (1 + 3 * y) * (1 + y) ^ 3 * f (R * y ^ 2)))
    (dΦ1 := fun y => 2 * R * (2 * R * (y ^ 2 * (1 + y) ^ 4) * (f2 (R * y ^ 2) * (R * (2 * y))) +
      2 * R * (2 * y * (1 + y) ^ 4 + y ^ 2 * (4 * (1 + y) ^ 3)) * f1 (R * y ^ 2) +
      ((1 + 3 * y) * (1 + y) ^ 3 * (f1 (R * y ^ 2) * (R * (2 * y))) +
        (3 * (1 + y) ^ 3 + (1 + 3 * y) * (3 * (1 + y) ^ 2)) * f (R * y ^ 2))))
    (Φ2 := fun y => 2 * R * (1 + y) ^ 4 * (4 * y ^ 3 * (1 + y) ^ 2 * (R ^ 2 * f2 (R * y ^ 2)) +
      (1 + y) * (6 * y + 18 * y ^ 2) * (R * f1 (R * y ^ 2)) + (6 + 12 * y) * f (R * y ^ 2)))
    (L := 8 * R * (4 * A2 + 18 * A1 + 12 * A0)) (by positivity) hu0
    (fun x hx => by
      have hx1 : 1 - x ≠ 0 := by linarith [hx.2]
      have d := (hasDerivAt_id x).div ((hasDerivAt_id x).const_sub 1) hx1
      refine d.congr_deriv ?_
      simp only [id]
      field_simp
      ring)
    (fun x hx => by
      have hx1 : 0 < 1 - x := by linarith [hx.2]
      rw [radialPullback, (radialMap_hasDerivAt _ (radialWellFormed_of_valid hv) hx).deriv]
      simp only [radialMap, jacobian, Arith.real_lit, Arith.real_pow, Arith.real_ofNat, Real.rpow_natCast]
      have e4 : 1 + x / (1 - x) = 1 / (1 - x) := by
        field_simp
        ring
      rw [e4]
      push_cast
      field_simp)
    (fun y hy => by
      refine (((hf y hy).mul ((hasDerivAt_id y).mul (((hasDerivAt_id y).const_add 1).pow 2))).const_mul
        (2 * R)).congr_deriv ?_
      simp only [id, Pi.mul_apply, Pi.pow_apply]
      push_cast
      ring)
    (fun y _ => by ring)
    (fun y hy => by
      have d1 := ((hasDerivAt_pow 2 y).mul (((hasDerivAt_id y).const_add 1).pow 4)).const_mul (2 * R)
      have d2 := ((((hasDerivAt_id y).const_mul 3).const_add 1).mul (((hasDerivAt_id y).const_add 1).pow 3))
      refine (((d1.mul (hf1 y hy)).add (d2.mul (hf y hy))).const_mul (2 * R)).congr_deriv ?_
      simp only [id, Pi.mul_apply, Pi.pow_apply]
      push_cast
      ring)
    (fun y _ => by ring)
    (fun x hx => by
      have hy : 0 < x / (1 - x) := hu0 x hx
      generalize x / (1 - x) = y at hy
      have b0 := h.bound0 _ (hpos y hy)
      have b1 := h.bound1 _ (hpos y hy)
      have b2 := h.bound2 _ (hpos y hy)
      rw [show R * y ^ 2 / R = y ^ 2 by field_simp] at b0 b1 b2
      have h2 : (1 + y) ^ 2 ≤ 2 * (1 + y ^ 2) := by nlinarith [sq_nonneg (1 - y)]
      have h3 : y ≤ (1 + y ^ 2) / 2 := by nlinarith [sq_nonneg (y - 1)]
      refine three_terms (k0 := 12) (k1 := 18) (k2 := 4) hR (sq_nonneg y) b0 b1 b2 (by norm_num) (by norm_num)
        (by norm_num) ?_ ?_ ?_ (by positivity) ?_
      · rw [abs_of_pos (by positivity)]
        nlinarith
      · rw [abs_of_pos (by positivity)]
        nlinarith [mul_le_mul_of_nonneg_left h3 (sq_nonneg y), sq_nonneg (y ^ 2)]
      · rw [abs_of_pos (by positivity)]
        have h4 : y ^ 3 ≤ (1 + y ^ 2) ^ 2 / 2 := by
          nlinarith [mul_le_mul_of_nonneg_left h3 (sq_nonneg y)]
        calc 4 * y ^ 3 * (1 + y) ^ 2 ≤ 4 * ((1 + y ^ 2) ^ 2 / 2) * (2 * (1 + y ^ 2)) :=
              mul_le_mul (by linarith) h2 (by positivity) (by positivity)
          _ = 4 * (1 + y ^ 2) ^ 3 := by ring
      · rw [abs_of_pos (by positivity)]
        have : (1 + y) ^ 4 ≤ (2 * (1 + y ^ 2)) ^ 2 := by
          rw [show (1 + y) ^ 4 = ((1 + y) ^ 2) ^ 2 by ring]
          exact pow_le_pow_left₀ (by positivity) h2 2
        nlinarith)
    ?_ ?_
  · rw [hlen] at key
    refine ⟨key.1, ?_⟩
    obtain ⟨q, hq, hk⟩ := key.2
    refine ⟨q, hq, hk.trans (le_of_eq ?_)⟩
    show (1 : ℝ) ^ 3 * _ / (12 * ((n : ℝ) + 1) ^ 2) = _
    field_simp
    ring
  · have hlim : Tendsto (fun x => 4 * R * A0 * (x / (1 - x))) (𝓝[>] 0) (𝓝 0) := by
      have : ContinuousAt (fun x : ℝ => 4 * R * A0 * (x / (1 - x))) 0 :=
        ContinuousAt.mul continuousAt_const (ContinuousAt.div (by fun_prop) (by fun_prop) (by simp))
      have h2 := this.tendsto
      simp only [zero_div, mul_zero] at h2
      exact h2.mono_left nhdsWithin_le_nhds
    refine squeeze_zero_norm' ?_ hlim
    filter_upwards [Ioo_mem_nhdsGT one_pos] with x hx
    have hy : 0 < x / (1 - x) := hu0 x hx
    refine (hbnd _ hy).trans ?_
    generalize x / (1 - x) = y at hy
    refine mul_le_mul_of_nonneg_left ?_ (by positivity)
    refine div_le_self hy.le ?_
    nlinarith [sq_nonneg (y ^ 2), sq_nonneg y]
  · have hlim : Tendsto (fun x => 4 * R * A0 * ((1 - x) / x)) (𝓝[<] 1) (𝓝 0) := by
      have : ContinuousAt (fun x : ℝ => 4 * R * A0 * ((1 - x) / x)) 1 :=
        ContinuousAt.mul continuousAt_const (ContinuousAt.div (by fun_prop) (by fun_prop) (by simp))
      have h2 := this.tendsto
      simp only [sub_self, zero_div, mul_zero] at h2
      exact h2.mono_left nhdsWithin_le_nhds
    refine squeeze_zero_norm' ?_ hlim
    filter_upwards [Ioo_mem_nhdsLT one_pos] with x hx
    have hy : 0 < x / (1 - x) := hu0 x hx
    refine (hbnd _ hy).trans ?_
    rw [← inv_div x]
    generalize x / (1 - x) = y at hy
    refine mul_le_mul_of_nonneg_left ?_ (by positivity)
    rw [div_le_iff₀ (by positivity), inv_mul_eq_div, le_div_iff₀ hy]
    nlinarith [sq_nonneg (y ^ 2)]

private theorem Spec.ExponentialDecay.nonneg {μ R : ℝ} (hR : 0 < R) {f f1 f2 : ℝ → ℝ} {A0 A1 A2 : ℝ}
    (h : ExponentialDecay μ R f f1 f2 A0 A1 A2) : 0 ≤ A0 ∧ 0 ≤ A1 ∧ 0 ≤ A2 := by
  refine ⟨le_trans ?_ (h.bound0 1 one_pos), le_trans ?_ (h.bound1 1 one_pos), le_trans ?_ (h.bound2 1 one_pos)⟩ <;>
  positivity

/-- Three terms with one growing factor. -/
private theorem three_terms' {R E A0 A1 A2 k0 k1 k2 y0 y1 y2 p0 p1 p2 : ℝ} (hR : 0 < R)
    (h0 : E * |y0| ≤ A0) (h1 : E * (R * |y1|) ≤ A1) (h2 : E * (R ^ 2 * |y2|) ≤ A2)
    (hk0 : 0 ≤ k0) (hk1 : 0 ≤ k1) (hk2 : 0 ≤ k2) (hp0 : |p0| ≤ k0 * E) (hp1 : |p1| ≤ k1 * E) (hp2 : |p2| ≤ k2 * E) :
    |p2 * (R ^ 2 * y2) + p1 * (R * y1) + p0 * y0| ≤ k2 * A2 + k1 * A1 + k0 * A0 := by
  refine (abs_add_le _ _).trans (add_le_add ((abs_add_le _ _).trans (add_le_add ?_ ?_)) ?_)
  · rw [abs_mul, abs_mul, abs_of_pos (by positivity : 0 < R ^ 2)]
    refine (mul_le_mul_of_nonneg_right hp2 (by positivity)).trans ?_
    rw [mul_assoc]
    exact mul_le_mul_of_nonneg_left h2 hk2
  · rw [abs_mul, abs_mul, abs_of_pos hR]
    refine (mul_le_mul_of_nonneg_right hp1 (by positivity)).trans ?_
    rw [mul_assoc]
    exact mul_le_mul_of_nonneg_left h1 hk1
  · rw [abs_mul]
    refine (mul_le_mul_of_nonneg_right hp0 (by positivity)).trans ?_
    rw [mul_assoc]
    exact mul_le_mul_of_nonneg_left h0 hk0

/-- **C101.**  The rule of Mura and Knowles on integrands that decay like `exp(-3r/R)`. -/
theorem C101_muraknowles (b : Build) (n : ℕ) (hn : n + 2 < sizeMod) {R : ℝ} (hR : 0 < R) {f f1 f2 : ℝ → ℝ}
    {A0 A1 A2 : ℝ} (h : ExponentialDecay 3 R f f1 f2 A0 A1 A2) :
    IntegrableOn f (Ioi 0) ∧
    Returns (construct b (RadialTraits.mk n R).generate) (fun q =>
      |ruleSum q.points q.weights f - ∫ r in Ioi 0, f r| ≤ 9 * R * (2 * A0 + 3 * A1 + A2) / (4 * (n + 1) ^ 2)) := by
  have hv : radialValid (RadialTraits.mk n R) := hR
  obtain ⟨hA0, hA1, hA2⟩ := h.nonneg hR
  have hlen : radialLength (RadialTraits.mk n R) = 1 := rfl
  have hc : ∀ y ∈ Ioo (0 : ℝ) 1, 0 < 1 - y ^ 3 := fun y hy => by
    have := pow_lt_one₀ hy.1.le hy.2 (by norm_num : 3 ≠ 0)
    linarith
  have hpos : ∀ y ∈ Ioo (0 : ℝ) 1, 0 < -R * log (1 - y ^ 3) := fun y hy => by
    have := log_neg (hc y hy) (by linarith [pow_pos hy.1 3])
    nlinarith
  have hin : ∀ y ∈ Ioo (0 : ℝ) 1, HasDerivAt (fun y => -R * log (1 - y ^ 3)) (3 * R * y ^ 2 / (1 - y ^ 3)) y :=
    fun y hy => by
      have hp : HasDerivAt (fun x : ℝ => 1 - x ^ 3) (-(3 * y ^ 2)) y := by
        simpa using ((hasDerivAt_pow 3 y).const_sub 1)
      refine ((hp.log (hc y hy).ne').const_mul (-R)).congr_deriv ?_
      field_simp
  have hE : ∀ y ∈ Ioo (0 : ℝ) 1, HasDerivAt (fun y : ℝ => (1 - y ^ 3)⁻¹) (3 * y ^ 2 / (1 - y ^ 3) ^ 2) y :=
    fun y hy => by
      have hp : HasDerivAt (fun x : ℝ => 1 - x ^ 3) (-(3 * y ^ 2)) y := by
        simpa using ((hasDerivAt_pow 3 y).const_sub 1)
      refine (hp.inv (hc y hy).ne').congr_deriv ?_
      ring
  have hexp : ∀ y ∈ Ioo (0 : ℝ) 1, exp (3 * (-R * log (1 - y ^ 3) / R)) = ((1 - y ^ 3)⁻¹) ^ 3 := fun y hy => by
    rw [show 3 * (-R * log (1 - y ^ 3) / R) = ((3 : ℕ) : ℝ) * -log (1 - y ^ 3) by
      push_cast
      field_simp, exp_nat_mul, exp_neg,
      exp_log (hc y hy)]
  have hf : ∀ y ∈ Ioo (0 : ℝ) 1, HasDerivAt (fun y => f (-R * log (1 - y ^ 3)))
      (f1 (-R * log (1 - y ^ 3)) * (3 * R * y ^ 2 / (1 - y ^ 3))) y :=
    fun y hy => (h.deriv _ (hpos y hy)).comp y (hin y hy)
  have hf1 : ∀ y ∈ Ioo (0 : ℝ) 1, HasDerivAt (fun y => f1 (-R * log (1 - y ^ 3)))
      (f2 (-R * log (1 - y ^ 3)) * (3 * R * y ^ 2 / (1 - y ^ 3))) y :=
    fun y hy => (h.deriv2 _ (hpos y hy)).comp y (hin y hy)
  have hE1 : ∀ y ∈ Ioo (0 : ℝ) 1, 1 ≤ (1 - y ^ 3)⁻¹ := fun y hy =>
    (one_le_inv₀ (hc y hy)).2 (by linarith [pow_pos hy.1 3])
  have hbnd : ∀ y ∈ Ioo (0 : ℝ) 1, |3 * R * (y ^ 2 * (1 - y ^ 3)⁻¹ * f (-R * log (1 - y ^ 3)))| ≤
      3 * R * A0 * (y ^ 2 * (1 - y ^ 3)) := fun y hy => by
    have b0 := h.bound0 _ (hpos y hy)
    rw [hexp y hy] at b0
    have hE0 := hE1 y hy
    have hcy := hc y hy
    have hy0 := hy.1
    rw [abs_mul (3 * R), abs_mul (y ^ 2 * _), abs_of_pos (by positivity : 0 < 3 * R),
      abs_of_pos (by positivity : 0 < y ^ 2 * (1 - y ^ 3)⁻¹), mul_assoc (3 * R)]
    refine mul_le_mul_of_nonneg_left ?_ (by positivity)
    rw [mul_assoc, mul_left_comm A0]
    refine mul_le_mul_of_nonneg_left ?_ (by positivity)
    rw [inv_pow, ← div_eq_inv_mul, div_le_iff₀ (by positivity)] at b0
    rw [← div_eq_inv_mul, div_le_iff₀ hcy]
    refine b0.trans ?_
    have : 1 - y ^ 3 ≤ 1 := by linarith [pow_pos hy.1 3]
    rw [mul_assoc A0]
    refine mul_le_mul_of_nonneg_left ?_ hA0
    nlinarith [mul_le_mul_of_nonneg_left this (sq_nonneg (1 - y ^ 3))]
  have key := radial_decay b hv (fun _ => hn) (f := f) (S := fun y => y ∈ Ioo (0 : ℝ) 1) (u := fun x => x)
    (v := fun _ => 1) (Φ := fun y => 3 * R * (y ^ 2 * (1 - y ^ 3)⁻¹ * f (-R * log (1 - y ^ 3))))
    (dΦ := fun y => 3 * R * ((2 * y * (1 - y ^ 3)⁻¹ + y ^ 2 * (3 * y ^ 2 / (1 - y ^ 3) ^ 2)) * f (-R * log (1 - y ^ 3)) +
      y ^ 2 * (1 - y ^ 3)⁻¹ * (f1 (-R * log (1 - y ^ 3)) * (3 * R * y ^ 2 / (1 - y ^ 3)))))
    (Φ1 := fun y => 3 * R * (2 * y * (1 - y ^ 3)⁻¹ * f (-R * log (1 - y ^ 3)) +
      3 * y ^ 4 * ((1 - y ^ 3)⁻¹ * (1 - y ^ 3)⁻¹) * (f (-R * log (1 - y ^ 3)) + R * f1 (-R * log (1 - y ^ 3)))))
    (dΦ1 := fun y => 27 * R * y ^ 6 * (1 - y ^ 3)⁻¹ ^ 3 * (R ^ 2 * f2 (-R * log (1 - y ^ 3))) +
      3 * R * (18 * y ^ 3 * (1 - y ^ 3)⁻¹ ^ 2 + 27 * y ^ 6 * (1 - y ^ 3)⁻¹ ^ 3) * (R * f1 (-R * log (1 - y ^ 3))) +
      3 * R * (2 * (1 - y ^ 3)⁻¹ + 18 * y ^ 3 * (1 - y ^ 3)⁻¹ ^ 2 + 18 * y ^ 6 * (1 - y ^ 3)⁻¹ ^ 3) *
        f (-R * log (1 - y ^ 3)))
    (Φ2 := fun y => 27 * R * y ^ 6 * (1 - y ^ 3)⁻¹ ^ 3 * (R ^ 2 * f2 (-R * log (1 - y ^ 3))) +
      3 * R * (18 * y ^ 3 * (1 - y ^ 3)⁻¹ ^ 2 + 27 * y ^ 6 * (1 - y ^ 3)⁻¹ ^ 3) * (R * f1 (-R * log (1 - y ^ 3))) +
      3 * R * (2 * (1 - y ^ 3)⁻¹ + 18 * y ^ 3 * (1 - y ^ 3)⁻¹ ^ 2 + 18 * y ^ 6 * (1 - y ^ 3)⁻¹ ^ 3) *
        f (-R * log (1 - y ^ 3)))
    (L := 27 * R * A2 + 81 * R * A1 + 54 * R * A0) (by positivity) (fun _ hx => hx)
    (fun x _ => hasDerivAt_id x)
    (fun x hx => by
      have hx1 := hc x hx
      rw [radialPullback, (radialMap_hasDerivAt _ (radialWellFormed_of_valid hv) hx).deriv]
      simp only [radialMap, jacobian, Arith.real_lit]
      push_cast
      rw [show 1 - x * x * x = 1 - x ^ 3 by ring]
      field_simp)
    (fun y hy => by
      refine ((((hasDerivAt_pow 2 y).mul (hE y hy)).mul (hf y hy)).const_mul (3 * R)).congr_deriv ?_
      simp only [Pi.mul_apply]
      push_cast
      ring)
    (fun y hy => by
      have := hc y hy
      field_simp
      ring)
    (fun y hy => by
      have d1 := (((hasDerivAt_id y).const_mul 2).mul (hE y hy)).mul (hf y hy)
      have d2 := (((hasDerivAt_pow 4 y).const_mul 3).mul ((hE y hy).mul (hE y hy))).mul
        ((hf y hy).add ((hf1 y hy).const_mul R))
      refine ((d1.add d2).const_mul (3 * R)).congr_deriv ?_
      have := hc y hy
      simp only [id, Pi.mul_apply, Pi.add_apply]
      push_cast
      field_simp
      ring)
    (fun y _ => (mul_one _).symm)
    (fun y hy => by
      have b0 := h.bound0 _ (hpos y hy)
      have b1 := h.bound1 _ (hpos y hy)
      have b2 := h.bound2 _ (hpos y hy)
      rw [hexp y hy] at b0 b1 b2
      have hE0 := hE1 y hy
      have hy3 : y ^ 3 * (1 - y ^ 3)⁻¹ = (1 - y ^ 3)⁻¹ - 1 := by
        have := hc y hy
        field_simp
        ring
      have hy0 := hy.1
      have hEp : 0 < (1 - y ^ 3)⁻¹ := lt_of_lt_of_le one_pos hE0
      refine three_terms' hR b0 b1 b2 (by positivity) (by positivity) (by positivity) ?_ ?_ ?_
      all_goals
        rw [abs_of_pos (by positivity)]
        obtain ⟨E, hEE⟩ : ∃ E, E = (1 - y ^ 3)⁻¹ := ⟨_, rfl⟩
        rw [← hEE] at hy3 hE0 hEp ⊢
        have e3 : y ^ 3 * E ^ 2 = (E - 1) * E := by rw [← hy3]; ring
        have e6 : y ^ 6 * E ^ 3 = (E - 1) ^ 2 * E := by rw [← hy3]; ring
      · rw [show 3 * R * (2 * E + 18 * y ^ 3 * E ^ 2 + 18 * y ^ 6 * E ^ 3) =
          R * (3 * (2 * E + 18 * (y ^ 3 * E ^ 2) + 18 * (y ^ 6 * E ^ 3))) by ring, e3, e6,
          show 54 * R * E ^ 3 = R * (54 * E ^ 3) by ring]
        refine mul_le_mul_of_nonneg_left ?_ hR.le
        nlinarith [mul_nonneg hEp.le (by linarith : 0 ≤ E - 1)]
      · rw [show 3 * R * (18 * y ^ 3 * E ^ 2 + 27 * y ^ 6 * E ^ 3) =
          R * (3 * (18 * (y ^ 3 * E ^ 2) + 27 * (y ^ 6 * E ^ 3))) by ring, e3, e6,
          show 81 * R * E ^ 3 = R * (81 * E ^ 3) by ring]
        refine mul_le_mul_of_nonneg_left ?_ hR.le
        nlinarith [mul_nonneg hEp.le (by linarith : 0 ≤ E - 1)]
      · rw [show 27 * R * y ^ 6 * E ^ 3 = R * (27 * (y ^ 6 * E ^ 3)) by ring, e6,
          show 27 * R * E ^ 3 = R * (27 * E ^ 3) by ring]
        refine mul_le_mul_of_nonneg_left ?_ hR.le
        nlinarith [mul_nonneg hEp.le (by linarith : 0 ≤ E - 1)])
    ?_ ?_
  · rw [hlen] at key
    refine ⟨key.1, ?_⟩
    obtain ⟨q, hq, hk⟩ := key.2
    refine ⟨q, hq, hk.trans (le_of_eq ?_)⟩
    show (1 : ℝ) ^ 3 * _ / (12 * ((n : ℝ) + 1) ^ 2) = _
    field_simp
    ring
  · have hlim : Tendsto (fun y => 3 * R * A0 * (y ^ 2 * (1 - y ^ 3))) (𝓝[>] 0) (𝓝 0) := by
      have h2 := (by fun_prop : Continuous fun y : ℝ => 3 * R * A0 * (y ^ 2 * (1 - y ^ 3))).tendsto 0
      simp only [ne_eq, OfNat.ofNat_ne_zero, not_false_eq_true, zero_pow, zero_mul, mul_zero] at h2
      exact h2.mono_left nhdsWithin_le_nhds
    refine squeeze_zero_norm' ?_ hlim
    filter_upwards [Ioo_mem_nhdsGT one_pos] with x hx using hbnd x hx
  · have hlim : Tendsto (fun y => 3 * R * A0 * (y ^ 2 * (1 - y ^ 3))) (𝓝[<] 1) (𝓝 0) := by
      have h2 := (by fun_prop : Continuous fun y : ℝ => 3 * R * A0 * (y ^ 2 * (1 - y ^ 3))).tendsto 1
      simp only [one_pow, sub_self, mul_zero] at h2
      exact h2.mono_left nhdsWithin_le_nhds
    refine squeeze_zero_norm' ?_ hlim
    filter_upwards [Ioo_mem_nhdsLT one_pos] with x hx using hbnd x hx

/-! ### Treutler and Ahlrichs

In the variable `y = cot(θ/2)` the radius is `R κ W(y) log(1+y²)` with `W = (y²/(1+y²))^α`. -/

private noncomputable def taW (α y : ℝ) : ℝ := (y ^ 2 / (1 + y ^ 2)) ^ α

private noncomputable def taG1 (α y : ℝ) : ℝ := α * log (1 + y ^ 2) / y + y

private noncomputable def taG2 (α y : ℝ) : ℝ :=
  (α ^ 2 - α / 2) * (log (1 + y ^ 2) / y ^ 2) - α / 2 * log (1 + y ^ 2) + (2 * α + 1 / 2 + y ^ 2 / 2)

private noncomputable def taG3 (α y : ℝ) : ℝ :=
  α * taG2 α y / y + ((α ^ 2 - α / 2) * (1 / y - log (1 + y ^ 2) / y ^ 3 - log (1 + y ^ 2) / y) - α / 2 * y +
    y * (1 + y ^ 2) / 2)

private theorem taW_deriv (α : ℝ) {y : ℝ} (hy : 0 < y) :
    HasDerivAt (taW α) (α * taW α y / y * (2 / (1 + y ^ 2))) y := by
  have h1 : HasDerivAt (fun y : ℝ => y ^ 2 / (1 + y ^ 2)) (2 * y / (1 + y ^ 2) ^ 2) y := by
    refine ((hasDerivAt_pow 2 y).div ((hasDerivAt_pow 2 y).const_add 1) (by positivity)).congr_deriv ?_
    push_cast
    field_simp
    ring
  have hw : 0 < y ^ 2 / (1 + y ^ 2) := by positivity
  refine (h1.rpow_const (p := α) (.inl hw.ne')).congr_deriv ?_
  rw [Real.rpow_sub_one hw.ne', taW]
  field_simp

private theorem log_deriv {y : ℝ} : HasDerivAt (fun y : ℝ => log (1 + y ^ 2)) (y * (2 / (1 + y ^ 2))) y := by
  refine (((hasDerivAt_pow 2 y).const_add 1).log (by positivity)).congr_deriv ?_
  push_cast
  ring

private theorem taG1_deriv (α : ℝ) {y : ℝ} (hy : 0 < y) :
    HasDerivAt (taG1 α) ((α * (1 - log (1 + y ^ 2) * (1 + y ^ 2) / (2 * y ^ 2)) + (1 + y ^ 2) / 2) *
      (2 / (1 + y ^ 2))) y := by
  refine (((log_deriv.const_mul α).div (hasDerivAt_id y) hy.ne').add (hasDerivAt_id y)).congr_deriv ?_
  simp only [id]
  field_simp

private theorem taG2_deriv (α : ℝ) {y : ℝ} (hy : 0 < y) :
    HasDerivAt (taG2 α) (((α ^ 2 - α / 2) * (1 / y - log (1 + y ^ 2) / y ^ 3 - log (1 + y ^ 2) / y) - α / 2 * y +
      y * (1 + y ^ 2) / 2) * (2 / (1 + y ^ 2))) y := by
  have d := (((log_deriv (y := y)).div (hasDerivAt_pow 2 y) (by positivity)).const_mul (α ^ 2 - α / 2)).sub
    (log_deriv.const_mul (α / 2))
  refine (d.add (((hasDerivAt_pow 2 y).div_const 2).const_add (2 * α + 1 / 2))).congr_deriv ?_
  push_cast
  field_simp
  ring

private theorem taP_deriv (α c : ℝ) {y : ℝ} (hy : 0 < y) :
    HasDerivAt (fun y => c * (taW α y * log (1 + y ^ 2))) (c * (taW α y * taG1 α y) * (2 / (1 + y ^ 2))) y ∧
    HasDerivAt (fun y => c * (taW α y * taG1 α y)) (c * (taW α y * taG2 α y) * (2 / (1 + y ^ 2))) y ∧
    HasDerivAt (fun y => c * (taW α y * taG2 α y)) (c * (taW α y * taG3 α y) * (2 / (1 + y ^ 2))) y := by
  refine ⟨?_, ?_, ?_⟩
  · refine (((taW_deriv α hy).mul log_deriv).const_mul c).congr_deriv ?_
    rw [taG1]
    field_simp
  · refine (((taW_deriv α hy).mul (taG1_deriv α hy)).const_mul c).congr_deriv ?_
    rw [taG1, taG2]
    field_simp
    ring
  · refine (((taW_deriv α hy).mul (taG2_deriv α hy)).const_mul c).congr_deriv ?_
    rw [taG3]
    ring

private theorem ta_third {α a g t s : ℝ} (h0 : 0 ≤ α) (h1 : α ≤ 1) (ha0 : 0 ≤ a) (ha1 : a ≤ 1 / 2) (hs : 0 ≤ s)
    (hg0 : 0 ≤ g) (hg1 : g ≤ 3 * (1 + s)) (ht0 : -s ≤ t) (ht1 : t ≤ 1) :
    |α * g + a * t - α / 2 * s + s * (1 + s) / 2| ≤ 4 * (1 + s) ^ 2 := by
  have q0 : 0 ≤ α * g := by positivity
  have q1 : α * g ≤ 1 * g := mul_le_mul_of_nonneg_right h1 hg0
  have q2 : a * t ≤ a * 1 := mul_le_mul_of_nonneg_left ht1 ha0
  have q3 : a * -s ≤ a * t := mul_le_mul_of_nonneg_left ht0 ha0
  have q4 : a * s ≤ 1 / 2 * s := mul_le_mul_of_nonneg_right ha1 hs
  have q5 : α * s ≤ 1 * s := mul_le_mul_of_nonneg_right h1 hs
  have q6 : 0 ≤ α * s := by positivity
  have q7 : 0 ≤ s * s := by positivity
  rw [abs_le]
  constructor <;> nlinarith

/-- Growth of the derivatives. -/
private theorem ta_bounds {α y : ℝ} (h1 : 1 / 2 ≤ α) (h2 : α ≤ 1) (hy : 0 < y) :
    0 < taW α y ∧ 0 < taG1 α y ∧ taW α y * taG1 α y ≤ 2 * y ∧ 0 ≤ taG2 α y ∧ taW α y * taG2 α y ≤ 3 * (1 + y ^ 2) ∧
      |taW α y * taG3 α y| ≤ 4 * ((1 + y ^ 2) * √(1 + y ^ 2)) ∧ log (1 + y ^ 2) ≤ taW α y * log (1 + y ^ 2) + 1 := by
  have hs : 0 < y ^ 2 := by positivity
  have hE : 0 < 1 + y ^ 2 := by positivity
  have hl0 : 0 < log (1 + y ^ 2) := log_pos (by linarith)
  have hl1 : log (1 + y ^ 2) ≤ y ^ 2 := by linarith [log_le_sub_one_of_pos hE]
  have hw0 : 0 < y ^ 2 / (1 + y ^ 2) := by positivity
  have hw1 : y ^ 2 / (1 + y ^ 2) ≤ 1 := (div_le_one hE).2 (by linarith)
  have hW0 : 0 < taW α y := rpow_pos_of_pos hw0 _
  have hW1 : taW α y ≤ 1 := rpow_le_one hw0.le hw1 (by linarith)
  have hWs : taW α y ≤ y / √(1 + y ^ 2) := by
    refine (rpow_le_rpow_of_exponent_ge hw0 hw1 h1).trans (le_of_eq ?_)
    rw [← sqrt_eq_rpow, sqrt_div' _ hE.le, sqrt_sq hy.le]
  have hWw : y ^ 2 / (1 + y ^ 2) ≤ taW α y := by
    conv_lhs => rw [← rpow_one (y ^ 2 / (1 + y ^ 2))]
    exact rpow_le_rpow_of_exponent_ge hw0 hw1 h2
  obtain ⟨l, hl⟩ : ∃ l, l = log (1 + y ^ 2) / y ^ 2 := ⟨_, rfl⟩
  have ly : log (1 + y ^ 2) = l * y ^ 2 := by rw [hl]; field_simp
  have hl0' : 0 < l := by rw [hl]; positivity
  have hl1' : l ≤ 1 := by rw [hl]; exact (div_le_one hs).2 hl1
  have g1 : taG1 α y = (α * l + 1) * y := by
    rw [taG1, ly]
    field_simp
  have g2 : taG2 α y = (α ^ 2 - α / 2) * l - α / 2 * (l * y ^ 2) + (2 * α + 1 / 2 + y ^ 2 / 2) := by
    rw [taG2, ← hl, ly]
  have hα0 : 0 ≤ α ^ 2 - α / 2 := by nlinarith
  have hα1 : α ^ 2 - α / 2 ≤ 1 / 2 := by nlinarith
  have p1 : (α ^ 2 - α / 2) * l ≤ 1 / 2 := by nlinarith
  have p2 : 0 ≤ (α ^ 2 - α / 2) * l := by positivity
  have p3 : α * l ≤ 1 := by nlinarith
  have p4 : 0 < α * l := by positivity
  have p5 : α * (l * y ^ 2) ≤ y ^ 2 := by nlinarith
  have p6 : 0 < α * (l * y ^ 2) := by positivity
  have hg20 : 0 ≤ taG2 α y := by
    rw [g2]
    nlinarith
  have hg21 : taG2 α y ≤ 3 * (1 + y ^ 2) := by
    rw [g2]
    nlinarith
  refine ⟨hW0, ?_, ?_, hg20, ?_, ?_, ?_⟩
  · rw [g1]
    positivity
  · rw [g1]
    have : (α * l + 1) * y ≤ 2 * y := mul_le_mul_of_nonneg_right (by linarith) hy.le
    calc taW α y * ((α * l + 1) * y) ≤ 1 * (2 * y) := mul_le_mul hW1 this (by positivity) one_pos.le
      _ = 2 * y := one_mul _
  · calc taW α y * taG2 α y ≤ 1 * (3 * (1 + y ^ 2)) := mul_le_mul hW1 hg21 hg20 one_pos.le
      _ = 3 * (1 + y ^ 2) := one_mul _
  · have g3 : taG3 α y = (α * taG2 α y + (α ^ 2 - α / 2) * (1 - l - l * y ^ 2) - α / 2 * y ^ 2 +
        y ^ 2 * (1 + y ^ 2) / 2) / y := by
      rw [taG3, ly]
      field_simp
      ring
    obtain ⟨B, hB⟩ : ∃ B, B = α * taG2 α y + (α ^ 2 - α / 2) * (1 - l - l * y ^ 2) - α / 2 * y ^ 2 +
        y ^ 2 * (1 + y ^ 2) / 2 := ⟨_, rfl⟩
    have hB1 : |B| ≤ 4 * (1 + y ^ 2) ^ 2 := by
      rw [hB]
      exact ta_third (by linarith) h2 hα0 hα1 hs.le hg20 hg21 (by nlinarith) (by nlinarith)
    rw [g3, ← hB, ← mul_div_assoc, mul_comm, mul_div_assoc, abs_mul, abs_of_pos (by positivity : 0 < taW α y / y)]
    have hr : 0 < √(1 + y ^ 2) := sqrt_pos.2 hE
    have hWy : taW α y / y ≤ 1 / √(1 + y ^ 2) := by
      rw [div_le_iff₀ hy]
      refine hWs.trans (le_of_eq ?_)
      ring
    calc |B| * (taW α y / y) ≤ 4 * (1 + y ^ 2) ^ 2 * (1 / √(1 + y ^ 2)) :=
          mul_le_mul hB1 hWy (by positivity) (by positivity)
      _ = 4 * ((1 + y ^ 2) * √(1 + y ^ 2)) := by
          rw [mul_one_div, div_eq_iff hr.ne', mul_assoc 4, mul_assoc, mul_self_sqrt hE.le]
          ring
  · have : log (1 + y ^ 2) - 1 ≤ y ^ 2 / (1 + y ^ 2) * log (1 + y ^ 2) := by
      rw [div_mul_eq_mul_div, le_div_iff₀ hE]
      nlinarith
    nlinarith [mul_le_mul_of_nonneg_right hWw hl0.le]

private theorem ta_kappa {α : ℝ} (h1 : 1 / 2 ≤ α) (h2 : α ≤ 1) :
    2 ≤ (2 : ℝ) ^ α / ln2Literal ∧ (2 : ℝ) ^ α / ln2Literal ≤ 3 := by
  have hl : 0 < ln2Literal := ln2Literal_pos
  have a1 : (2 : ℝ) ^ α ≤ 2 := by
    conv_rhs => rw [← rpow_one (2 : ℝ)]
    exact rpow_le_rpow_of_exponent_le (by norm_num) h2
  have a0 : 1.4 ≤ (2 : ℝ) ^ α := by
    refine le_trans ?_ (rpow_le_rpow_of_exponent_le (by norm_num) h1)
    rw [← sqrt_eq_rpow]
    exact le_sqrt_of_sq_le (by norm_num)
  rw [le_div_iff₀ hl, div_le_iff₀ hl]
  unfold ln2Literal
  constructor <;> norm_num at * <;> linarith

private theorem ta_exp {κ W y : ℝ} (hκ : 2 ≤ κ) (hW : 0 ≤ W) (h : log (1 + y ^ 2) ≤ W * log (1 + y ^ 2) + 1) :
    (1 + y ^ 2) * √(1 + y ^ 2) ≤ 5 * exp (κ * (W * log (1 + y ^ 2))) := by
  have hE : 0 < 1 + y ^ 2 := by positivity
  have hl : 0 ≤ log (1 + y ^ 2) := log_nonneg (by nlinarith [sq_nonneg y])
  have e : (1 + y ^ 2) * √(1 + y ^ 2) = exp (log (1 + y ^ 2) + log (1 + y ^ 2) / 2) := by
    rw [exp_add, exp_log hE, ← log_sqrt hE.le, exp_log (sqrt_pos.2 hE)]
  have e5 : exp (3 / 2) ≤ 5 := by
    have h3 : exp (3 / 2) ^ 2 = exp 1 ^ 3 := by
      rw [← exp_nat_mul, ← exp_nat_mul]
      norm_num
    have h4 : exp 1 ^ 3 ≤ 2.72 ^ 3 := pow_le_pow_left₀ (exp_pos _).le (by linarith [exp_one_lt_d9]) 3
    refine le_of_sq_le_sq ?_ (by norm_num)
    rw [h3]
    exact h4.trans (by norm_num)
  rw [e]
  calc exp (log (1 + y ^ 2) + log (1 + y ^ 2) / 2) ≤ exp (3 / 2 + κ * (W * log (1 + y ^ 2))) := by
        refine exp_le_exp.2 ?_
        have : 0 ≤ W * log (1 + y ^ 2) := by positivity
        nlinarith
    _ = exp (3 / 2) * exp (κ * (W * log (1 + y ^ 2))) := exp_add _ _
    _ ≤ 5 * exp (κ * (W * log (1 + y ^ 2))) := mul_le_mul_of_nonneg_right e5 (exp_pos _).le

/-- **C101.**  The rule of Treutler and Ahlrichs, `1/2 ≤ α ≤ 1` (the library uses 0.6), on integrands that decay like
`exp(-r/R)`. -/
theorem C101_treutler_ahlrichs (b : Build) (n : ℕ) {R α : ℝ} (hR : 0 < R) (hα : 1 / 2 ≤ α) (hα' : α ≤ 1)
    {f f1 f2 : ℝ → ℝ} {A0 A1 A2 : ℝ} (h : ExponentialDecay 1 R f f1 f2 A0 A1 A2) :
    IntegrableOn f (Ioi 0) ∧
    Returns (construct b (ta n R α).generate) (fun q =>
      |ruleSum q.points q.weights f - ∫ r in Ioi 0, f r| ≤
        5 * π ^ 3 * R * (2 * A0 + 27 * A1 + 36 * A2) / (2 * (n + 1) ^ 2)) := by
  have hv : radialValid (ta n R α) := ⟨hR, by linarith⟩
  obtain ⟨hA0, hA1, hA2⟩ := h.nonneg hR
  have hlen : radialLength (ta n R α) = π := rfl
  obtain ⟨hκ2, hκ3⟩ := ta_kappa hα hα'
  obtain ⟨κ, hκ⟩ : ∃ κ, κ = (2 : ℝ) ^ α / ln2Literal := ⟨_, rfl⟩
  rw [← hκ] at hκ2 hκ3
  have hκ0 : 0 < κ := by linarith
  have hl2 : 0 < ln2Literal := ln2Literal_pos
  obtain ⟨ρ, hρ⟩ : ∃ ρ : ℝ → ℝ, ρ = fun y => R * κ * (taW α y * log (1 + y ^ 2)) := ⟨_, rfl⟩
  have hpos : ∀ y : ℝ, 0 < y → 0 < ρ y := fun y hy => by
    have := (ta_bounds hα hα' hy).1
    have : 0 < log (1 + y ^ 2) := log_pos (by nlinarith)
    rw [hρ]
    positivity
  have hder : ∀ y : ℝ, 0 < y → HasDerivAt ρ (R * κ * (taW α y * taG1 α y) * (2 / (1 + y ^ 2))) y := fun y hy => by
    rw [hρ]
    exact (taP_deriv α _ hy).1
  have hf : ∀ y : ℝ, 0 < y → HasDerivAt (fun y => f (ρ y))
      (f1 (ρ y) * (R * κ * (taW α y * taG1 α y) * (2 / (1 + y ^ 2)))) y :=
    fun y hy => (h.deriv _ (hpos y hy)).comp y (hder y hy)
  have hf1 : ∀ y : ℝ, 0 < y → HasDerivAt (fun y => f1 (ρ y))
      (f2 (ρ y) * (R * κ * (taW α y * taG1 α y) * (2 / (1 + y ^ 2)))) y :=
    fun y hy => (h.deriv2 _ (hpos y hy)).comp y (hder y hy)
  have hexp : ∀ y : ℝ, 0 < y → (1 + y ^ 2) * √(1 + y ^ 2) ≤ 5 * exp (1 * (ρ y / R)) := fun y hy => by
    have hb := ta_bounds hα hα' hy
    have := ta_exp hκ2 hb.1.le hb.2.2.2.2.2.2
    rwa [one_mul, show ρ y / R = κ * (taW α y * log (1 + y ^ 2)) by rw [hρ]; field_simp]
  have hhalf : ∀ θ ∈ Ioo 0 (radialLength (ta n R α)), 0 < sin (θ / 2) ∧ 0 < cos (θ / 2) := fun θ hθ => by
    rw [hlen] at hθ
    exact ⟨sin_pos_of_pos_of_lt_pi (by linarith [hθ.1]) (by linarith [hθ.1, hθ.2]),
      cos_pos_of_mem_Ioo ⟨by linarith [hθ.1, pi_pos], by linarith [hθ.2]⟩⟩
  have hsq : ∀ y : ℝ, 0 < y → y ≤ √(1 + y ^ 2) := fun y hy => le_sqrt_of_sq_le (by linarith)
  have hbnd : ∀ y : ℝ, 0 < y → |R * κ * (taW α y * taG1 α y) * f (ρ y)| ≤ 30 * R * A0 * (y / (1 + y ^ 2)) := by
    intro y hy
    have hb := ta_bounds hα hα' hy
    have b0 := h.bound0 _ (hpos y hy)
    have hx := hexp y hy
    have hE : 0 < 1 + y ^ 2 := by positivity
    have hr : 1 ≤ √(1 + y ^ 2) := one_le_sqrt.2 (by nlinarith)
    have hW := hb.1
    have hG := hb.2.1
    have h2 : (1 + y ^ 2) * |f (ρ y)| ≤ 5 * A0 := by
      have : 1 + y ^ 2 ≤ 5 * exp (1 * (ρ y / R)) := by nlinarith
      nlinarith [mul_le_mul_of_nonneg_right this (abs_nonneg (f (ρ y)))]
    rw [abs_mul, abs_of_pos (by positivity), mul_div_assoc', le_div_iff₀ hE]
    have h3 : κ * (taW α y * taG1 α y) ≤ 3 * (2 * y) := mul_le_mul hκ3 hb.2.2.1 (by positivity) (by norm_num)
    calc R * κ * (taW α y * taG1 α y) * |f (ρ y)| * (1 + y ^ 2)
        = R * (κ * (taW α y * taG1 α y)) * ((1 + y ^ 2) * |f (ρ y)|) := by ring
      _ ≤ R * (3 * (2 * y)) * (5 * A0) :=
          mul_le_mul (mul_le_mul_of_nonneg_left h3 hR.le) h2 (by positivity) (by positivity)
      _ = 30 * R * A0 * y := by ring
  have key := radial_decay b hv (fun hi => by cases hi) (f := f) (S := fun y => 0 < y)
    (u := fun θ => cos (θ / 2) / sin (θ / 2))
    (v := fun y => -((1 + y ^ 2) / 2)) (Φ := fun y => R * κ * (taW α y * taG1 α y) * f (ρ y))
    (dΦ := fun y => (R * κ * (taW α y * taG2 α y) * f (ρ y) + (R * κ * (taW α y * taG1 α y)) ^ 2 * f1 (ρ y)) *
      (2 / (1 + y ^ 2)))
    (Φ1 := fun y => -(R * κ * (taW α y * taG2 α y) * f (ρ y) + (R * κ * (taW α y * taG1 α y)) ^ 2 * f1 (ρ y)))
    (dΦ1 := fun y => -(((R * κ * (taW α y * taG1 α y)) ^ 3 * f2 (ρ y) +
      3 * (R * κ * (taW α y * taG1 α y)) * (R * κ * (taW α y * taG2 α y)) * f1 (ρ y) +
      R * κ * (taW α y * taG3 α y) * f (ρ y)) * (2 / (1 + y ^ 2))))
    (Φ2 := fun y => R * κ ^ 3 * (taW α y * taG1 α y) ^ 3 * (R ^ 2 * f2 (ρ y)) +
      R * κ ^ 2 * (3 * (taW α y * taG1 α y) * (taW α y * taG2 α y)) * (R * f1 (ρ y)) +
      R * κ * (taW α y * taG3 α y) * f (ρ y))
    (L := 1080 * R * A2 + 810 * R * A1 + 60 * R * A0) (by positivity)
    (fun θ hθ => div_pos (hhalf θ hθ).2 (hhalf θ hθ).1)
    (fun θ hθ => by
      have hs := (hhalf θ hθ).1
      have d := ((hasDerivAt_id θ).div_const 2).cos.div ((hasDerivAt_id θ).div_const 2).sin hs.ne'
      refine d.congr_deriv ?_
      simp only [id]
      field_simp
      ring)
    (fun θ hθ => by
      obtain ⟨hs, hc⟩ := hhalf θ hθ
      rw [hlen] at hθ
      have hcm := cos_mem_Ioo hθ
      have e1 : 1 - cos θ = 2 * sin (θ / 2) ^ 2 := by
        rw [show θ = 2 * (θ / 2) by ring, cos_two_mul, show 2 * (θ / 2) / 2 = θ / 2 by ring, cos_sq']
        ring
      have e2 : 1 + cos θ = 2 * cos (θ / 2) ^ 2 := by
        rw [show θ = 2 * (θ / 2) by ring, cos_two_mul, show 2 * (θ / 2) / 2 = θ / 2 by ring]
        ring
      have e3 : sin θ = 2 * sin (θ / 2) * cos (θ / 2) := by
        rw [← sin_two_mul]
        congr 1
        ring
      have e4 : 1 + (cos (θ / 2) / sin (θ / 2)) ^ 2 = 1 / sin (θ / 2) ^ 2 := by
        field_simp
        linarith [sin_sq_add_cos_sq (θ / 2)]
      have e5 : 2 / (1 - cos θ) = 1 + (cos (θ / 2) / sin (θ / 2)) ^ 2 := by
        rw [e4, e1]
        field_simp
      have e6 : (1 + cos θ) ^ α = 2 ^ α * taW α (cos (θ / 2) / sin (θ / 2)) := by
        rw [taW, ← mul_rpow (by norm_num) (by positivity), e2, e4]
        congr 1
        field_simp
      have em : radialMap (ta n R α) (cos θ) = ρ (cos (θ / 2) / sin (θ / 2)) := by
        simp only [radialMap, hρ]
        rw [e5, e6, hκ]
        ring
      rw [radialPullback, (radialMap_hasDerivAt _ (radialWellFormed_of_valid hv) hcm).deriv, em]
      simp only [jacobian, Arith.real_lit, Arith.real_pow, Arith.real_log, taA, taLn2_real]
      push_cast
      rw [show (1 : ℝ) + 1 = 2 by norm_num, e5, e6, e3, e1, e2, hκ, taG1]
      field_simp)
    (fun y hy => by
      refine ((taP_deriv α (R * κ) hy).2.1.mul (hf y hy)).congr_deriv ?_
      ring)
    (fun y _ => by
      field_simp)
    (fun y hy => by
      have d := ((taP_deriv α (R * κ) hy).2.2.mul (hf y hy)).add (((taP_deriv α (R * κ) hy).2.1.pow 2).mul (hf1 y hy))
      refine d.neg.congr_deriv ?_
      simp only [Pi.pow_apply]
      push_cast
      ring)
    (fun y _ => by
      field_simp)
    (fun θ hθ => by
      have hy : 0 < cos (θ / 2) / sin (θ / 2) := div_pos (hhalf θ hθ).2 (hhalf θ hθ).1
      generalize cos (θ / 2) / sin (θ / 2) = y at hy
      have b0 := h.bound0 _ (hpos y hy)
      have b1 := h.bound1 _ (hpos y hy)
      have b2 := h.bound2 _ (hpos y hy)
      have hx := hexp y hy
      have hE : 0 < 1 + y ^ 2 := by positivity
      have hr := hsq y hy
      obtain ⟨w0, w1, w2, w3, w4, w5, -⟩ := ta_bounds hα hα' hy
      have hk2 : κ ^ 2 ≤ 9 := by nlinarith
      have hk3 : κ ^ 3 ≤ 27 := by nlinarith
      refine three_terms' hR b0 b1 b2 (by positivity) (by positivity) (by positivity) ?_ ?_ ?_
      · rw [abs_mul, abs_of_pos (by positivity : 0 < R * κ)]
        calc R * κ * |taW α y * taG3 α y| ≤ R * 3 * (4 * (5 * exp (1 * (ρ y / R)))) :=
              mul_le_mul (mul_le_mul_of_nonneg_left hκ3 hR.le) (by linarith) (abs_nonneg _) (by positivity)
          _ = 60 * R * exp (1 * (ρ y / R)) := by ring
      · have q : 3 * (taW α y * taG1 α y) * (taW α y * taG2 α y) ≤ 18 * ((1 + y ^ 2) * √(1 + y ^ 2)) := by
          calc 3 * (taW α y * taG1 α y) * (taW α y * taG2 α y) ≤ 3 * (2 * √(1 + y ^ 2)) * (3 * (1 + y ^ 2)) :=
                mul_le_mul (by linarith) w4 (by positivity) (by positivity)
            _ = 18 * ((1 + y ^ 2) * √(1 + y ^ 2)) := by ring
        rw [abs_of_nonneg (by positivity)]
        calc R * κ ^ 2 * (3 * (taW α y * taG1 α y) * (taW α y * taG2 α y)) ≤
              R * 9 * (18 * (5 * exp (1 * (ρ y / R)))) :=
              mul_le_mul (mul_le_mul_of_nonneg_left hk2 hR.le) (by linarith) (by positivity) (by positivity)
          _ = 810 * R * exp (1 * (ρ y / R)) := by ring
      · have q : (taW α y * taG1 α y) ^ 3 ≤ 8 * ((1 + y ^ 2) * √(1 + y ^ 2)) := by
          calc (taW α y * taG1 α y) ^ 3 ≤ (2 * √(1 + y ^ 2)) ^ 3 :=
                pow_le_pow_left₀ (by positivity) (by linarith) 3
            _ = 8 * (√(1 + y ^ 2) ^ 2 * √(1 + y ^ 2)) := by ring
            _ = 8 * ((1 + y ^ 2) * √(1 + y ^ 2)) := by rw [sq_sqrt hE.le]
        rw [abs_of_nonneg (by positivity)]
        calc R * κ ^ 3 * (taW α y * taG1 α y) ^ 3 ≤ R * 27 * (8 * (5 * exp (1 * (ρ y / R)))) :=
              mul_le_mul (mul_le_mul_of_nonneg_left hk3 hR.le) (by linarith) (by positivity) (by positivity)
          _ = 1080 * R * exp (1 * (ρ y / R)) := by ring)
    ?_ ?_
  · rw [hlen] at key
    refine ⟨key.1, ?_⟩
    obtain ⟨q, hq, hk⟩ := key.2
    refine ⟨q, hq, hk.trans (le_of_eq ?_)⟩
    show π ^ 3 * _ / (12 * ((n : ℝ) + 1) ^ 2) = _
    field_simp
    ring
  · have hlim : Tendsto (fun θ => 30 * R * A0 * (sin (θ / 2) / cos (θ / 2))) (𝓝[>] 0) (𝓝 0) := by
      have : ContinuousAt (fun θ => 30 * R * A0 * (sin (θ / 2) / cos (θ / 2))) 0 :=
        ContinuousAt.mul continuousAt_const (ContinuousAt.div (by fun_prop) (by fun_prop) (by simp))
      have h2 := this.tendsto
      simp only [zero_div, sin_zero, mul_zero] at h2
      exact h2.mono_left nhdsWithin_le_nhds
    refine squeeze_zero_norm' ?_ hlim
    filter_upwards [Ioo_mem_nhdsGT pi_pos] with θ hθ
    obtain ⟨hs, hc⟩ := hhalf θ hθ
    have hy : 0 < cos (θ / 2) / sin (θ / 2) := div_pos hc hs
    refine (hbnd _ hy).trans ?_
    rw [← inv_div (cos (θ / 2))]
    generalize cos (θ / 2) / sin (θ / 2) = y at hy
    refine mul_le_mul_of_nonneg_left ?_ (by positivity)
    rw [div_le_iff₀ (by positivity), inv_mul_eq_div, le_div_iff₀ hy]
    nlinarith
  · have hlim : Tendsto (fun θ => 30 * R * A0 * (cos (θ / 2) / sin (θ / 2))) (𝓝[<] π) (𝓝 0) := by
      have : ContinuousAt (fun θ => 30 * R * A0 * (cos (θ / 2) / sin (θ / 2))) π :=
        ContinuousAt.mul continuousAt_const (ContinuousAt.div (by fun_prop) (by fun_prop) (by simp))
      have h2 := this.tendsto
      simp only [cos_pi_div_two, zero_div, mul_zero] at h2
      exact h2.mono_left nhdsWithin_le_nhds
    refine squeeze_zero_norm' ?_ hlim
    filter_upwards [Ioo_mem_nhdsLT pi_pos] with θ hθ
    obtain ⟨hs, hc⟩ := hhalf θ hθ
    have hy : 0 < cos (θ / 2) / sin (θ / 2) := div_pos hc hs
    refine (hbnd _ hy).trans ?_
    generalize cos (θ / 2) / sin (θ / 2) = y at hy
    refine mul_le_mul_of_nonneg_left ?_ (by positivity)
    refine div_le_self hy.le ?_
    nlinarith [sq_nonneg y]

/-- `(1+r)⁻³` decays algebraically. -/
example : AlgebraicDecay 1 (fun r => 1 / (1 + r) ^ 3) (fun r => -3 / (1 + r) ^ 4) (fun r => 12 / (1 + r) ^ 5) 1 3 12 := by
  have h0 : ∀ r : ℝ, 0 < r → 1 + r ≠ 0 := fun r hr => by positivity
  refine ⟨fun r hr => ?_, fun r hr => ?_, fun r hr => ?_, fun r hr => ?_, fun r hr => ?_⟩
  · have := h0 r hr
    refine ((hasDerivAt_const r (1 : ℝ)).div (((hasDerivAt_id r).const_add 1).pow 3) (pow_ne_zero _ this)).congr_deriv ?_
    simp only [id, Pi.pow_apply]
    field_simp
    norm_num
    ring
  · have := h0 r hr
    refine ((hasDerivAt_const r (-3 : ℝ)).div (((hasDerivAt_id r).const_add 1).pow 4) (pow_ne_zero _ this)).congr_deriv ?_
    simp only [id, Pi.pow_apply]
    field_simp
    norm_num
    ring
  · have := h0 r hr
    rw [abs_of_pos (by positivity), div_one]
    field_simp
    exact le_rfl
  · have := h0 r hr
    rw [abs_div, abs_of_pos (by positivity : 0 < (1 + r) ^ 4), div_one]
    norm_num
    field_simp
    exact le_rfl
  · have := h0 r hr
    rw [abs_of_pos (by positivity), div_one]
    field_simp
    norm_num

/-- `exp(-3r)` decays exponentially. -/
example : ExponentialDecay 3 1 (fun r => exp (-3 * r)) (fun r => exp (-3 * r) * -3) (fun r => exp (-3 * r) * -3 * -3) 1 3 9 := by
  have hd : ∀ r : ℝ, HasDerivAt (fun r => exp (-3 * r)) (exp (-3 * r) * -3) r := fun r => by
    simpa using ((hasDerivAt_id r).const_mul (-3)).exp
  have e : ∀ r : ℝ, exp (3 * r) * exp (-3 * r) = 1 := fun r => by rw [← exp_add]; simp
  refine ⟨fun r _ => hd r, fun r _ => (hd r).mul_const _, fun r _ => ?_, fun r _ => ?_, fun r _ => ?_⟩
  · rw [div_one, abs_of_pos (exp_pos _), e]
  · rw [div_one, abs_mul, abs_of_pos (exp_pos _), one_mul, ← mul_assoc, e]
    norm_num
  · rw [div_one, abs_mul, abs_mul, abs_of_pos (exp_pos _), one_pow, one_mul, ← mul_assoc, ← mul_assoc, e]
    norm_num

end IntegratorXX
