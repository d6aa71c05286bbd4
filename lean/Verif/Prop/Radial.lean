import Verif.Lemmas.RadialReal
import Verif.Lemmas.RuleSum
import Verif.Spec.Rule
import Verif.Prop.Chebyshev
import Verif.XReal
import Mathlib.MeasureTheory.Function.Jacobian
import Mathlib.MeasureTheory.Function.JacobianOneDim
import Mathlib.Analysis.SpecialFunctions.Log.Deriv
import Mathlib.Analysis.Complex.ExponentialBounds

/-!
# C19-C24: radial quadratures
-/

namespace IntegratorXX

open Spec RadialTraits Polynomial

private theorem construct_real (b : Build) (t : RadialTraits ℝ) (hn : t.npts + 2 < sizeMod) :
    construct b t.generate = .ok
      ⟨(List.range t.npts).map (fun i => t.transform (t.nodeXR i)),
       (List.range t.npts).map (fun i => t.nodeWR i * t.jacobian (t.nodeXR i))⟩ := by
  rw [generate_real t hn]; exact construct_ok b (by simp)

/-! ## C19 -/

/-- `radial_jacobian` is the derivative of `radial_transform`, and `radial_transform` is the
documented substitution. -/
theorem C19_radial_jacobian (t : RadialTraits ℝ) (hw : radialWellFormed t) (x : ℝ)
    (hx : x ∈ radialDomain t) :
    t.transform x = radialMap t x ∧ HasDerivAt t.transform (t.jacobian x) x := by
  have e : t.transform = radialMap t := funext (transform_eq_radialMap t)
  exact ⟨transform_eq_radialMap t x, e ▸ radialMap_hasDerivAt t hw hx⟩

/-- The decimal the Treutler-Ahlrichs code uses for `ln 2` is correct to all its 24 digits. -/
theorem C19_ln2_literal : |taLn2 ℝ - Real.log 2| ≤ 1 / 10 ^ 24 := by
  have h := Real.abs_log_sub_add_sum_range_le (x := 1 / 2) (by rw [abs_of_pos] <;> norm_num) 84
  have e : Real.log (1 - 1 / 2) = -Real.log 2 := by
    rw [show (1 : ℝ) - 1 / 2 = 2⁻¹ by norm_num, Real.log_inv]
  rw [e, abs_of_pos (by norm_num : (0 : ℝ) < 1 / 2)] at h
  norm_num [Finset.sum_range_succ] at h
  rw [abs_le] at h ⊢
  rw [taLn2_real, ln2Literal]
  constructor <;> linarith [h.1, h.2]

example : radialWellFormed (mhl 2 75 1.0) ∧ (1 / 4 : ℝ) ∈ radialDomain (mhl 2 75 1.0) :=
  ⟨by simp [radialWellFormed], by simp only [radialDomain, Set.mem_Ioo]; norm_num⟩

/-! ## C20 -/

theorem C20_radial_bijection (t : RadialTraits ℝ) (h : radialValid t) :
    StrictMonoOn t.transform (radialDomain t) ∧ t.transform '' radialDomain t = Set.Ioi 0 := by
  have e : t.transform = radialMap t := funext (transform_eq_radialMap t)
  rw [e]
  exact ⟨radialMap_strictMono t h, radialMap_image t h⟩

example : radialValid (ta 99 1.5 0.6) := by simp only [radialValid]; norm_num

/-! ## C21 -/

theorem C21_radial_quadrature (b : Build) (t : RadialTraits ℝ) (h : radialValid t)
    (hn : t.npts + 2 < sizeMod) :
    Returns (construct b t.generate) (fun q =>
      q.points.length = t.npts ∧ q.weights.length = t.npts ∧
      (∀ r ∈ q.points, 0 < r) ∧ (∀ w ∈ q.weights, 0 < w) ∧ Increasing q.points) := by
  rw [generate_real t hn]
  refine ⟨_, construct_ok b (by simp), by simp, by simp, ?_, ?_, ?_⟩
  · simp only [List.mem_map, List.mem_range, forall_exists_index, and_imp]
    rintro r i hi rfl
    rw [transform_eq_radialMap]
    exact radialMap_pos t h (nodeXR_mem t hi)
  · simp only [List.mem_map, List.mem_range, forall_exists_index, and_imp]
    rintro w i hi rfl
    exact mul_pos (nodeWR_pos t hi) (jacobian_pos t h (nodeXR_mem t hi))
  · apply increasing_map_range
    intro i j hij hj
    rw [transform_eq_radialMap, transform_eq_radialMap]
    exact radialMap_strictMono t h (nodeXR_mem t (by omega)) (nodeXR_mem t hj)
      (nodeXR_mono t hij hj)

/-- Sizes and memory safety in every arithmetic. -/
theorem C21_radial_sizes {F : Type} [Add F] [Sub F] [Mul F] [Div F] [Neg F] [Arith F]
    (b : Build) (t : RadialTraits F) (hn : t.npts + 2 < sizeMod) :
    Returns (construct b t.generate) (fun q =>
      q.points.length = t.npts ∧ q.weights.length = t.npts) := by
  rw [generate_eq t hn]
  exact ⟨_, construct_ok b (by simp), by simp, by simp⟩

example : radialValid (becke 99 1.5) ∧ (becke 99 (1.5 : ℝ)).npts + 2 < sizeMod := by
  simp only [radialValid, npts, sizeMod]; norm_num

/-! ## C22 -/

/-- The interior node `(i+1)/(n+1)` of the `(n+2)`-point trapezoid on `[0,1]`. -/
noncomputable def interiorNode (n i : ℕ) : ℝ := ((i : ℝ) + 1) / (n + 1)

/-- Exact arithmetic extended with IEEE special values: the Murray-Handy-Laming rule consists
of finite numbers, the documented map and its derivative at the interior nodes.  In particular
`x = 1` (division by zero) is never evaluated. -/
theorem C22_mhl_interior (b : Build) (M n : ℕ) (R : ℝ) (_hM : 1 ≤ M) (hn : n + 2 < sizeMod) :
    Returns (construct b (mhl M n (XReal.fin R)).generate) (fun q =>
      q.points = (List.range n).map (fun i =>
        XReal.fin (R * (interiorNode n i / (1 - interiorNode n i)) ^ M)) ∧
      q.weights = (List.range n).map (fun i =>
        XReal.fin (1 / (n + 1) * (R * M * interiorNode n i ^ (M - 1) /
          (1 - interiorNode n i) ^ (M + 1))))) := by
  rw [generate_eq (mhl M n (XReal.fin R)) hn]
  refine ⟨_, construct_ok b (by simp), ?_, ?_⟩
  all_goals
    dsimp only [npts]
    apply List.map_congr_left
    intro i hi
    have hi : i < n := by simpa using hi
    have hi' : (i : ℝ) + 1 ≤ n := by exact_mod_cast hi
    have hn1 : (n : ℝ) + 1 ≠ 0 := by positivity
    have hx0 : 0 < interiorNode n i := by unfold interiorNode; positivity
    have hx1 : 0 < 1 - interiorNode n i := by
      unfold interiorNode; rw [sub_pos, div_lt_one (by positivity)]; linarith
    have hx : (mhl M n (XReal.fin R)).nodeX i = XReal.fin (interiorNode n i) := by
      simp only [nodeX, inclusive, if_true, XReal.lit_eq, XReal.ofNat_eq, XReal.fin_sub, npts]
      rw [XReal.fin_div_ne _ (by push_cast; exact hn1), XReal.fin_mul, XReal.fin_add]
      unfold interiorNode
      push_cast; congr 1; ring
    rw [hx]
  · simp only [transform, XReal.lit_eq, XReal.fin_sub, XReal.ofNat_eq]
    rw [XReal.fin_div_ne _ (by push_cast; exact hx1.ne')]
    have hp : (Arith.pow (XReal.fin (interiorNode n i / (((1 : ℚ) : ℝ) - interiorNode n i)))
        (XReal.fin M)) = XReal.fin ((interiorNode n i / (1 - interiorNode n i)) ^ M) := by
      show XReal.pow _ _ = _
      simp only [XReal.pow]
      push_cast
      rw [if_pos (by positivity), Real.rpow_natCast]
    rw [hp, XReal.fin_mul]
  · have hW : (mhl M n (XReal.fin R)).nodeW i = XReal.fin (1 / (n + 1)) := by
      simp only [nodeW, inclusive, if_true, XReal.lit_eq, XReal.ofNat_eq, XReal.fin_sub, npts]
      rw [XReal.fin_div_ne _ (by push_cast; exact hn1)]
      push_cast; congr 1; ring
    rw [hW]
    simp only [jacobian, XReal.lit_eq, XReal.fin_sub, XReal.ofNat_eq, XReal.fin_mul]
    have hp : ∀ (y : ℝ) (k : ℕ), 0 < y → Arith.pow (XReal.fin y) (XReal.fin k) =
        XReal.fin (y ^ k) := by
      intro y k hy
      show XReal.pow _ _ = _
      simp only [XReal.pow]
      rw [if_pos hy, Real.rpow_natCast]
    rw [hp _ _ hx0, hp _ _ (by push_cast; exact hx1), XReal.fin_mul,
      XReal.fin_div_ne _ (by push_cast; positivity), XReal.fin_mul]
    push_cast; rfl

/-- The same for Mura-Knowles (`log 0` is never evaluated). -/
theorem C22_mk_interior (b : Build) (n : ℕ) (R : ℝ) (hn : n + 2 < sizeMod) :
    Returns (construct b (mk n (XReal.fin R)).generate) (fun q =>
      q.points = (List.range n).map (fun i =>
        XReal.fin (-R * Real.log (1 - interiorNode n i ^ 3))) ∧
      q.weights = (List.range n).map (fun i =>
        XReal.fin (1 / (n + 1) * (3 * R * interiorNode n i ^ 2 /
          (1 - interiorNode n i ^ 3))))) := by
  rw [generate_eq (mk n (XReal.fin R)) hn]
  refine ⟨_, construct_ok b (by simp), ?_, ?_⟩
  all_goals
    dsimp only [npts]
    apply List.map_congr_left
    intro i hi
    have hi : i < n := by simpa using hi
    have hi' : (i : ℝ) + 1 ≤ n := by exact_mod_cast hi
    have hn1 : (n : ℝ) + 1 ≠ 0 := by positivity
    have hx0 : 0 < interiorNode n i := by unfold interiorNode; positivity
    have hx1 : 0 < 1 - interiorNode n i ^ 3 := by
      have : interiorNode n i < 1 := by
        unfold interiorNode; rw [div_lt_one (by positivity)]; linarith
      have := pow_lt_one₀ hx0.le this (n := 3) (by norm_num)
      linarith
    have hx : (mk n (XReal.fin R)).nodeX i = XReal.fin (interiorNode n i) := by
      simp only [nodeX, inclusive, if_true, XReal.lit_eq, XReal.ofNat_eq, XReal.fin_sub, npts]
      rw [XReal.fin_div_ne _ (by push_cast; exact hn1), XReal.fin_mul, XReal.fin_add]
      unfold interiorNode
      push_cast; congr 1; ring
    rw [hx]
  · simp only [transform, XReal.lit_eq, XReal.fin_sub, XReal.fin_mul, XReal.fin_neg]
    have hp : ∀ y : ℝ, 0 < y → Arith.log (XReal.fin y) = XReal.fin (Real.log y) := by
      intro y hy
      show (if 0 < y then _ else _) = _
      rw [if_pos hy]
    have e : ((1 : ℚ) : ℝ) - interiorNode n i * interiorNode n i * interiorNode n i =
        1 - interiorNode n i ^ 3 := by push_cast; ring
    rw [e, hp _ hx1, XReal.fin_mul]
  · have hW : (mk n (XReal.fin R)).nodeW i = XReal.fin (1 / (n + 1)) := by
      simp only [nodeW, inclusive, if_true, XReal.lit_eq, XReal.ofNat_eq, XReal.fin_sub, npts]
      rw [XReal.fin_div_ne _ (by push_cast; exact hn1)]
      push_cast; congr 1; ring
    rw [hW]
    simp only [jacobian, XReal.lit_eq, XReal.fin_sub, XReal.fin_mul]
    have e : ((1 : ℚ) : ℝ) - interiorNode n i * interiorNode n i * interiorNode n i =
        1 - interiorNode n i ^ 3 := by push_cast; ring
    rw [e, XReal.fin_div_ne _ hx1.ne', XReal.fin_mul]
    push_cast; congr 1; ring

example : (1 : ℕ) ≤ 2 ∧ 75 + 2 < sizeMod := by simp only [sizeMod]; norm_num

/-! ## C23 -/

/-- Whatever the arithmetic, the radial rule consists of the images of `npts` base nodes and of
the base weights times the Jacobian.  For Becke and Treutler-Ahlrichs the base rule is the whole
Gauss-Chebyshev rule of the second kind, for the others the interior of the trapezoid on
`[0,1]`. -/
theorem C23_radial_sum (b : Build) (t : RadialTraits ℝ) (hn : t.npts + 2 < sizeMod)
    (f : ℝ → ℝ) :
    ∃ base q, construct b
        (if t.inclusive then uniformTrapezoid01 (t.npts + 2) else gaussChebyshev2 t.npts)
          = .ok base ∧
      construct b t.generate = .ok q ∧
      ruleSum q.points q.weights f =
        if t.inclusive then
          ruleSum base.points.tail.dropLast base.weights.tail.dropLast
            (fun x => f (t.transform x) * t.jacobian x)
        else ruleSum base.points base.weights (fun x => f (t.transform x) * t.jacobian x) := by
  cases hi : t.inclusive
  · refine ⟨_, _, gc2_real t.npts b, construct_real b t hn, ?_⟩
    · dsimp only
      simp only [Bool.false_eq_true, if_false]
      rw [ruleSum_map_range, ruleSum_map_range]
      refine Finset.sum_congr rfl fun i _ => ?_
      simp only [nodeXR, nodeWR, hi, Bool.false_eq_true, if_false]
      ring
  · have hb : uniformTrapezoid01 (F := ℝ) (t.npts + 2) = .ok
        ((List.range (t.npts + 2)).map (fun i : ℕ => (i : ℝ) / (t.npts + 1)),
         (List.range (t.npts + 2)).map (utW (t.npts + 2) (0 : ℝ) 1)) := by
      unfold uniformTrapezoid01
      rw [uniformTrapezoid_eq _ (by omega) hn]
      congr 2
      · apply List.map_congr_left
        intro i _
        simp only [Arith.real_lit, Arith.real_ofNat]
        rw [show t.npts + 2 - 1 = t.npts + 1 from rfl]
        push_cast; ring
      · simp only [Arith.real_lit]; push_cast; rfl
    refine ⟨_, _, by simp only [if_true]; rw [hb]; exact construct_ok b (by simp),
      construct_real b t hn, ?_⟩
    · have hmid : ∀ g : ℕ → ℝ, ((List.range (t.npts + 2)).map g).tail.dropLast =
          (List.range t.npts).map (fun i => g (i + 1)) := by
        intro g
        rw [List.range_succ_eq_map, List.map_cons, List.tail_cons, List.map_map,
          List.range_succ, List.map_append, List.map_cons, List.map_nil,
          List.dropLast_concat]
        rfl
      dsimp only
      rw [if_pos rfl, hmid, hmid, ruleSum_map_range, ruleSum_map_range]
      refine Finset.sum_congr rfl fun i hi' => ?_
      have hi' : i < t.npts := by simpa using hi'
      have : utW (t.npts + 2) (0 : ℝ) 1 (i + 1) = 1 / (t.npts + 1) := by
        unfold utW
        dsimp only
        rw [if_neg (by omega), show t.npts + 2 - 1 = t.npts + 1 from rfl]
        simp
      rw [this]
      simp only [nodeXR, nodeWR, hi, if_true]
      push_cast; ring

/-- The change of variables the rules discretise: for every `f`, integrating over `(0,∞)` is
integrating `f(r(x)) r'(x)` over the base interval. -/
theorem C23_change_of_variables (t : RadialTraits ℝ) (h : radialValid t) (f : ℝ → ℝ) :
    ∫ r in Set.Ioi 0, f r = ∫ x in radialDomain t, f (t.transform x) * t.jacobian x := by
  have e : t.transform = radialMap t := funext (transform_eq_radialMap t)
  rw [← radialMap_image t h, e]
  rw [MeasureTheory.integral_image_eq_integral_abs_deriv_smul
    (radialDomain_open t).measurableSet
    (fun x hx => (radialMap_hasDerivAt t (radialWellFormed_of_valid h) hx).hasDerivWithinAt)
    (radialMap_strictMono t h).injOn]
  refine MeasureTheory.setIntegral_congr_fun (radialDomain_open t).measurableSet fun x hx => ?_
  simp only [smul_eq_mul, abs_of_pos (jacobian_pos t h hx)]
  ring

/-- Becke and Treutler-Ahlrichs integrate `f` over `(0,∞)` exactly when
`f(r(x)) r'(x) = p(x) √(1-x²)` with `deg p < 2 npts`. -/
theorem C23_becke_exact (b : Build) (t : RadialTraits ℝ) (h : radialValid t)
    (ht : t.inclusive = false) (hn : t.npts + 2 < sizeMod) (f : ℝ → ℝ) (p : ℝ[X])
    (hp : p.degree < 2 * t.npts)
    (hf : ∀ x ∈ Set.Ioo (-1 : ℝ) 1, f (t.transform x) * t.jacobian x = p.eval x * √(1 - x ^ 2)) :
    Returns (construct b t.generate) (fun q =>
      ruleSum q.points q.weights f = ∫ r in Set.Ioi 0, f r) := by
  obtain ⟨base, q, hb, hq, hs⟩ := C23_radial_sum b t hn f
  refine ⟨q, hq, ?_⟩
  have hdom : radialDomain t = Set.Ioo (-1) 1 := by
    cases t <;> first | rfl | simp [inclusive] at ht
  dsimp only
  rw [hs, ht, if_neg (by simp), C23_change_of_variables t h f, hdom]
  rw [ht, if_neg (by simp)] at hb
  obtain ⟨base', hb', hex⟩ := C06_gc2_exact b t.npts p hp
  obtain rfl : base' = base := by
    have := hb'.symm.trans hb; simpa using this
  rw [MeasureTheory.setIntegral_congr_fun measurableSet_Ioo hf,
    ← MeasureTheory.integral_Ioc_eq_integral_Ioo,
    ← intervalIntegral.integral_of_le (by norm_num), ← hex]
  rw [gc2_real t.npts b] at hb
  simp only [Outcome.ok.injEq] at hb
  subst hb
  dsimp only
  rw [ruleSum_map_range, ruleSum_map_range]
  refine Finset.sum_congr rfl fun i hi => ?_
  have hi : i < t.npts := by simpa using hi
  congr 1
  have := nodeXR_mem t hi
  rw [hdom] at this
  simp only [nodeXR, ht] at this
  exact hf _ this

/-- Such functions exist: for Becke with `R = 1`, every polynomial `p` gives one. -/
example : ∃ f : ℝ → ℝ, ∀ x ∈ Set.Ioo (-1 : ℝ) 1,
    f ((becke 5 (1 : ℝ)).transform x) * (becke 5 (1 : ℝ)).jacobian x =
      (X ^ 4 + 1 : ℝ[X]).eval x * √(1 - x ^ 2) := by
  refine ⟨fun r => (X ^ 4 + 1 : ℝ[X]).eval ((r - 1) / (r + 1)) *
    √(1 - ((r - 1) / (r + 1)) ^ 2) / (becke 5 (1 : ℝ)).jacobian ((r - 1) / (r + 1)), ?_⟩
  intro x hx
  have hx' : (1 : ℝ) - x ≠ 0 := by linarith [hx.2]
  have e : ((becke 5 (1 : ℝ)).transform x - 1) / ((becke 5 (1 : ℝ)).transform x + 1) = x := by
    simp only [transform, Arith.real_lit]
    push_cast
    have : 1 * (1 + x) / (1 - x) + 1 ≠ 0 := by
      rw [div_add_one hx']; apply div_ne_zero _ hx'; norm_num
    field_simp
    ring
  simp only [e]
  have := jacobian_pos (becke 5 (1 : ℝ)) (by simp [radialValid]) (x := x) hx
  field_simp

/-! ## C24 -/

theorem C24_radial_scale (b : Build) (t : RadialTraits ℝ) (c : ℝ) (hn : t.npts + 2 < sizeMod) :
    ∃ q q', construct b t.generate = .ok q ∧ construct b (rescale c t).generate = .ok q' ∧
      q'.points = q.points.map (c * ·) ∧ q'.weights = q.weights.map (c * ·) := by
  have hn' : (rescale c t).npts = t.npts := by cases t <;> rfl
  have hi : (rescale c t).inclusive = t.inclusive := by cases t <;> rfl
  refine ⟨_, _, construct_real b t hn, construct_real b (rescale c t) (by omega), ?_, ?_⟩
  · dsimp only
    rw [hn', List.map_map]
    apply List.map_congr_left
    intro i _
    have : (rescale c t).nodeXR i = t.nodeXR i := by simp [nodeXR, hi, hn']
    rw [this]
    cases t <;> simp only [rescale, transform, Function.comp] <;> ring
  · dsimp only
    rw [hn', List.map_map]
    apply List.map_congr_left
    intro i _
    have : (rescale c t).nodeXR i = t.nodeXR i := by simp [nodeXR, hi, hn']
    rw [this]
    have : (rescale c t).nodeWR i = t.nodeWR i := by simp [nodeWR, hi, hn']
    rw [this]
    cases t <;> simp only [rescale, jacobian, Function.comp] <;> ring

example : (ta 99 (1.5 : ℝ) 0.6).npts + 2 < sizeMod := by simp only [npts, sizeMod]; norm_num

end IntegratorXX
