import Verif.Spec.Radial
import Verif.Lemmas.RadialForms
import Mathlib.Analysis.SpecialFunctions.Pow.Deriv
import Mathlib.Analysis.SpecialFunctions.Log.Deriv
import Mathlib.Analysis.Calculus.Deriv.Inv
import Mathlib.Analysis.Calculus.Deriv.MeanValue

/-!
# Calculus of the radial transformations
-/

namespace IntegratorXX

open Spec RadialTraits

theorem taLn2_real : taLn2 ℝ = ln2Literal := by
  simp only [taLn2, ln2Literal, Arith.real_lit]; norm_num

theorem ln2Literal_pos : 0 < ln2Literal := by unfold ln2Literal; norm_num

theorem transform_eq_radialMap (t : RadialTraits ℝ) (x : ℝ) : t.transform x = radialMap t x := by
  cases t with
  | becke n R =>
    simp only [transform, radialMap, Arith.real_lit]; push_cast; ring
  | mhl M n R =>
    simp only [transform, radialMap, Arith.real_lit, Arith.real_pow, Arith.real_ofNat,
      Real.rpow_natCast]
    push_cast; ring
  | mk n R =>
    simp only [transform, radialMap, Arith.real_lit, Arith.real_log]
    push_cast; rw [show x * x * x = x ^ 3 by ring]
  | ta n R alpha =>
    simp only [transform, radialMap, Arith.real_lit, Arith.real_log, Arith.real_pow, taA,
      taLn2_real]
    push_cast; rw [show (1 : ℝ) + 1 = 2 by norm_num]; ring

theorem ta_logTerm {x : ℝ} (hx : x < 1) : HasDerivAt (fun x : ℝ => Real.log (2 / (1 - x)))
    (1 / (1 - x)) x := by
  have hne : 1 - x ≠ 0 := by linarith
  have h1 : HasDerivAt (fun x : ℝ => 2 / (1 - x)) (2 / (1 - x) ^ 2) x := by
    have := ((hasDerivAt_const x (2 : ℝ)).div ((hasDerivAt_id x).const_sub 1) hne)
    refine this.congr_deriv ?_
    simp
  refine (h1.log (by positivity)).congr_deriv ?_
  field_simp

theorem radialMap_hasDerivAt (t : RadialTraits ℝ) (hw : radialWellFormed t) {x : ℝ}
    (hx : x ∈ radialDomain t) : HasDerivAt (radialMap t) (t.jacobian x) x := by
  cases t with
  | becke n R =>
    obtain ⟨h1, h2⟩ := hx
    have hne : 1 - x ≠ 0 := by linarith
    have := (((hasDerivAt_id x).const_add 1).div ((hasDerivAt_id x).const_sub 1) hne).const_mul R
    refine this.congr_deriv ?_
    simp only [id, jacobian, Arith.real_lit, Arith.real_pow, Arith.real_ofNat, Real.rpow_natCast]
    push_cast; field_simp; ring
  | mhl M n R =>
    obtain ⟨h1, h2⟩ := hx
    have hne : 1 - x ≠ 0 := by linarith
    have hM : 1 ≤ M := hw
    obtain ⟨m, rfl⟩ : ∃ m, M = m + 1 := ⟨M - 1, by omega⟩
    have hq : HasDerivAt (fun x : ℝ => x / (1 - x)) (1 / (1 - x) ^ 2) x := by
      refine ((hasDerivAt_id x).div ((hasDerivAt_id x).const_sub 1) hne).congr_deriv ?_
      simp
    have := ((hq.pow (m + 1)).const_mul R)
    refine this.congr_deriv ?_
    simp only [jacobian, Arith.real_lit, Arith.real_pow, Arith.real_ofNat, Real.rpow_natCast,
      Nat.add_sub_cancel]
    push_cast
    rw [div_pow, show (1 - x) ^ (m + 1 + 1) = (1 - x) ^ m * (1 - x) ^ 2 by ring]
    field_simp
  | mk n R =>
    obtain ⟨h1, h2⟩ := hx
    have hx3 : x ^ 3 < 1 := pow_lt_one₀ h1.le h2 (by norm_num)
    have hne : 1 - x ^ 3 ≠ 0 := by linarith
    have hp : HasDerivAt (fun x : ℝ => 1 - x ^ 3) (-(3 * x ^ 2)) x := by
      simpa using ((hasDerivAt_pow 3 x).const_sub 1)
    refine ((hp.log hne).const_mul (-R)).congr_deriv ?_
    simp only [jacobian, Arith.real_lit]
    push_cast
    rw [show 1 - x * x * x = 1 - x ^ 3 by ring]
    field_simp
  | ta n R alpha =>
    obtain ⟨h1, h2⟩ := hx
    have hp : HasDerivAt (fun x : ℝ => (1 + x) ^ alpha) (alpha * (1 + x) ^ (alpha - 1)) x := by
      have := ((hasDerivAt_id x).const_add 1).rpow_const (p := alpha) (.inl (by simp; linarith))
      refine this.congr_deriv ?_
      simp
    have hx0 : 0 < 1 + x := by linarith
    have hne : 1 - x ≠ 0 := by linarith
    have hL := ln2Literal_pos
    refine ((hp.const_mul (R / ln2Literal)).mul (ta_logTerm h2)).congr_deriv ?_
    simp only [jacobian, Arith.real_lit, Arith.real_pow, Arith.real_log, taA, taLn2_real]
    push_cast
    rw [show (1 : ℝ) + 1 = 2 by norm_num, Real.rpow_sub_one hx0.ne']
    field_simp

theorem ta_log_pos {x : ℝ} (h1 : -1 < x) (h2 : x < 1) : 0 < Real.log (2 / (1 - x)) := by
  apply Real.log_pos
  rw [lt_div_iff₀ (by linarith)]; linarith

theorem radialWellFormed_of_valid {t : RadialTraits ℝ} (h : radialValid t) :
    radialWellFormed t := by
  cases t <;> simp_all [radialValid, radialWellFormed]

theorem radialMap_pos (t : RadialTraits ℝ) (h : radialValid t) {x : ℝ}
    (hx : x ∈ radialDomain t) : 0 < radialMap t x := by
  cases t with
  | becke n R =>
    obtain ⟨h1, h2⟩ := hx
    have : 0 < 1 - x := by linarith
    have : 0 < 1 + x := by linarith
    have hR : 0 < R := h
    simp only [radialMap]; positivity
  | mhl M n R =>
    obtain ⟨h1, h2⟩ := hx
    have : 0 < 1 - x := by linarith
    obtain ⟨hR, -⟩ : 0 < R ∧ _ := h
    simp only [radialMap]; positivity
  | mk n R =>
    obtain ⟨h1, h2⟩ := hx
    have hx3 : x ^ 3 < 1 := pow_lt_one₀ h1.le h2 (by norm_num)
    have hx3' : 0 < x ^ 3 := by positivity
    have hR : 0 < R := h
    simp only [radialMap]
    have := Real.log_neg (show 0 < 1 - x ^ 3 by linarith) (by linarith)
    nlinarith
  | ta n R alpha =>
    obtain ⟨h1, h2⟩ := hx
    have h3 := ta_log_pos h1 h2
    have : 0 < 1 + x := by linarith
    obtain ⟨hR, -⟩ : 0 < R ∧ _ := h
    have := ln2Literal_pos
    simp only [radialMap]; positivity

theorem jacobian_pos (t : RadialTraits ℝ) (h : radialValid t) {x : ℝ}
    (hx : x ∈ radialDomain t) : 0 < t.jacobian x := by
  cases t with
  | becke n R =>
    obtain ⟨h1, h2⟩ := hx
    have : 0 < 1 - x := by linarith
    have hR : 0 < R := h
    simp only [jacobian, Arith.real_lit, Arith.real_pow, Arith.real_ofNat, Real.rpow_natCast]
    push_cast; positivity
  | mhl M n R =>
    obtain ⟨h1, h2⟩ := hx
    have : 0 < 1 - x := by linarith
    obtain ⟨hR, hM⟩ : 0 < R ∧ 1 ≤ M := h
    have : (0 : ℝ) < M := by exact_mod_cast hM
    simp only [jacobian, Arith.real_lit, Arith.real_pow, Arith.real_ofNat, Real.rpow_natCast]
    push_cast; positivity
  | mk n R =>
    obtain ⟨h1, h2⟩ := hx
    have hx3 : x ^ 3 < 1 := pow_lt_one₀ h1.le h2 (by norm_num)
    have : 0 < 1 - x * x * x := by
      rw [show 1 - x * x * x = 1 - x ^ 3 by ring]; linarith
    have hR : 0 < R := h
    simp only [jacobian, Arith.real_lit]
    push_cast; positivity
  | ta n R alpha =>
    obtain ⟨h1, h2⟩ := hx
    have h3 := ta_log_pos h1 h2
    have : 0 < 1 + x := by linarith
    have : 0 < 1 - x := by linarith
    obtain ⟨hR, ha⟩ : 0 < R ∧ 0 ≤ alpha := h
    have := ln2Literal_pos
    simp only [jacobian, Arith.real_lit, Arith.real_pow, Arith.real_log, taA, taLn2_real]
    push_cast
    rw [show (1 : ℝ) + 1 = 2 by norm_num]
    positivity

theorem radialDomain_convex (t : RadialTraits ℝ) : Convex ℝ (radialDomain t) := by
  cases t <;> exact convex_Ioo _ _

theorem radialDomain_open (t : RadialTraits ℝ) : IsOpen (radialDomain t) := by
  cases t <;> exact isOpen_Ioo

theorem radialMap_strictMono (t : RadialTraits ℝ) (h : radialValid t) :
    StrictMonoOn (radialMap t) (radialDomain t) := by
  have hd := fun x hx => radialMap_hasDerivAt t (radialWellFormed_of_valid h) (x := x) hx
  apply strictMonoOn_of_deriv_pos (radialDomain_convex t)
  · exact fun x hx => (hd x hx).continuousAt.continuousWithinAt
  · intro x hx
    rw [(radialDomain_open t).interior_eq] at hx
    rw [(hd x hx).deriv]
    exact jacobian_pos t h hx

theorem radialMap_surj (t : RadialTraits ℝ) (h : radialValid t) {y : ℝ} (hy : 0 < y) :
    ∃ x ∈ radialDomain t, radialMap t x = y := by
  cases t with
  | becke n R =>
    have hR : 0 < R := h
    refine ⟨(y - R) / (y + R), ⟨?_, ?_⟩, ?_⟩
    · rw [lt_div_iff₀ (by positivity)]; linarith
    · rw [div_lt_iff₀ (by positivity)]; linarith
    · simp only [radialMap]
      have e : 1 - (y - R) / (y + R) = 2 * R / (y + R) := by field_simp; ring
      rw [e]; field_simp; ring
  | mhl M n R =>
    obtain ⟨hR, hM⟩ : 0 < R ∧ 1 ≤ M := h
    set s : ℝ := (y / R) ^ ((1 : ℝ) / M) with hs
    have hs0 : 0 < s := by positivity
    have hsM : s ^ M = y / R := by
      have hM' : (M : ℝ) ≠ 0 := by exact_mod_cast (by omega : M ≠ 0)
      rw [hs, ← Real.rpow_natCast, ← Real.rpow_mul (by positivity), one_div_mul_cancel hM',
        Real.rpow_one]
    refine ⟨s / (1 + s), ⟨by positivity, ?_⟩, ?_⟩
    · rw [div_lt_one (by positivity)]; linarith
    · simp only [radialMap]
      have e : s / (1 + s) / (1 - s / (1 + s)) = s := by
        have : 1 - s / (1 + s) = 1 / (1 + s) := by field_simp; ring
        rw [this]; field_simp
      rw [e, hsM]; field_simp
  | mk n R =>
    have hR : 0 < R := h
    set e := Real.exp (-(y / R)) with he
    have he0 : 0 < e := Real.exp_pos _
    have he1 : e < 1 := by
      rw [he, Real.exp_lt_one_iff]
      have : 0 < y / R := by positivity
      linarith
    set s : ℝ := (1 - e) ^ ((1 : ℝ) / 3) with hs
    have hb : 0 < 1 - e := by linarith
    have hs0 : 0 < s := by positivity
    have hs3 : s ^ 3 = 1 - e := by
      rw [hs, ← Real.rpow_natCast, ← Real.rpow_mul hb.le]; norm_num
    refine ⟨s, ⟨hs0, ?_⟩, ?_⟩
    · by_contra hcon
      have : 1 ≤ s ^ 3 := one_le_pow₀ (by linarith)
      linarith
    · simp only [radialMap]
      rw [hs3, show 1 - (1 - e) = e by ring, he, Real.log_exp]; field_simp
  | ta n R alpha =>
    obtain ⟨hR, ha⟩ : 0 < R ∧ 0 ≤ alpha := h
    have hL := ln2Literal_pos
    have hlog2 : 0 < Real.log 2 := Real.log_pos (by norm_num)
    -- value at `1 - 2 exp(-k)`
    have hval : ∀ k : ℝ, radialMap (ta n R alpha) (1 - 2 * Real.exp (-k)) =
        R / ln2Literal * (1 + (1 - 2 * Real.exp (-k))) ^ alpha * k := by
      intro k
      simp only [radialMap]
      congr 1
      rw [show 2 / (1 - (1 - 2 * Real.exp (-k))) = Real.exp k by
        rw [Real.exp_neg]; field_simp; ring, Real.log_exp]
    have hd := fun x hx => radialMap_hasDerivAt (ta n R alpha) trivial (x := x) hx
    -- left end
    set k0 := min (Real.log 2) (y * ln2Literal / (2 * R)) with hk0
    have hk0p : 0 < k0 := lt_min hlog2 (by positivity)
    have hk0l : k0 ≤ Real.log 2 := min_le_left _ _
    have hk0r : k0 ≤ y * ln2Literal / (2 * R) := min_le_right _ _
    set k1 := max (Real.log 2) (2 * y * ln2Literal / R) with hk1
    have hk1l : Real.log 2 ≤ k1 := le_max_left _ _
    have hk1r : 2 * y * ln2Literal / R ≤ k1 := le_max_right _ _
    have hk1p : 0 < k1 := lt_of_lt_of_le hlog2 hk1l
    have hdom : ∀ k, 0 < k → (1 - 2 * Real.exp (-k)) ∈ Set.Ioo (-1 : ℝ) 1 := by
      intro k hk
      have h1 : Real.exp (-k) < 1 := by rw [Real.exp_lt_one_iff]; linarith
      have h2 := Real.exp_pos (-k)
      exact ⟨by linarith, by linarith⟩
    have hexp0 : (1 : ℝ) / 2 ≤ Real.exp (-k0) := by
      rw [show (1 : ℝ) / 2 = Real.exp (-Real.log 2) by
        rw [Real.exp_neg, Real.exp_log (by norm_num)]; norm_num]
      exact Real.exp_le_exp.mpr (by linarith)
    have hexp1 : Real.exp (-k1) ≤ (1 : ℝ) / 2 := by
      rw [show (1 : ℝ) / 2 = Real.exp (-Real.log 2) by
        rw [Real.exp_neg, Real.exp_log (by norm_num)]; norm_num]
      exact Real.exp_le_exp.mpr (by linarith)
    set x0 := 1 - 2 * Real.exp (-k0) with hx0
    set x1 := 1 - 2 * Real.exp (-k1) with hx1
    have hx0d : x0 ∈ Set.Ioo (-1 : ℝ) 1 := hdom k0 hk0p
    have hx1d : x1 ∈ Set.Ioo (-1 : ℝ) 1 := hdom k1 hk1p
    have hx01 : x0 ≤ x1 := by rw [hx0, hx1]; linarith
    have hv0 : radialMap (ta n R alpha) x0 ≤ y := by
      rw [hx0, hval]
      have h1 : (1 + x0) ^ alpha ≤ 1 :=
        Real.rpow_le_one (by linarith [hx0d.1]) (by rw [hx0]; linarith) ha
      have h2 : 0 ≤ (1 + x0) ^ alpha := Real.rpow_nonneg (by linarith [hx0d.1]) _
      calc R / ln2Literal * (1 + x0) ^ alpha * k0 ≤ R / ln2Literal * 1 * k0 := by gcongr
        _ ≤ R / ln2Literal * 1 * (y * ln2Literal / (2 * R)) := by gcongr
        _ = y / 2 := by field_simp
        _ ≤ y := by linarith
    have hv1 : y ≤ radialMap (ta n R alpha) x1 := by
      rw [hx1, hval]
      have h1 : 1 ≤ (1 + x1) ^ alpha :=
        Real.one_le_rpow (by rw [hx1]; linarith) ha
      calc y ≤ 2 * y := by linarith
        _ = R / ln2Literal * 1 * (2 * y * ln2Literal / R) := by field_simp
        _ ≤ R / ln2Literal * (1 + x1) ^ alpha * k1 := by gcongr
    have hcont : ContinuousOn (radialMap (ta n R alpha)) (Set.Icc x0 x1) := fun x hx =>
      (hd x ⟨by linarith [hx.1, hx0d.1], by linarith [hx.2, hx1d.2]⟩).continuousAt.continuousWithinAt
    obtain ⟨x, hx, hxy⟩ := intermediate_value_Icc hx01 hcont ⟨hv0, hv1⟩
    exact ⟨x, ⟨by linarith [hx.1, hx0d.1], by linarith [hx.2, hx1d.2]⟩, hxy⟩

theorem radialMap_image (t : RadialTraits ℝ) (h : radialValid t) :
    radialMap t '' radialDomain t = Set.Ioi 0 := by
  ext y
  constructor
  · rintro ⟨x, hx, rfl⟩; exact radialMap_pos t h hx
  · intro hy; exact radialMap_surj t h hy

theorem nodeXR_mem (t : RadialTraits ℝ) {i : ℕ} (hi : i < t.npts) :
    t.nodeXR i ∈ radialDomain t := by
  have h1 : t.inclusive = false → t.nodeXR i ∈ Set.Ioo (-1 : ℝ) 1 := by
    intro h
    simp only [nodeXR, h]
    have h0 := gc2A_pos hi
    have h1 := gc2A_lt (n := t.npts) (j := i)
    constructor
    · rw [← Real.cos_pi]; exact Real.cos_lt_cos_of_nonneg_of_le_pi h0.le le_rfl h1
    · rw [← Real.cos_zero]; exact Real.cos_lt_cos_of_nonneg_of_le_pi le_rfl h1.le h0
  have h2 : t.inclusive = true → t.nodeXR i ∈ Set.Ioo (0 : ℝ) 1 := by
    intro h
    simp only [nodeXR, h, if_true]
    have hi' : (i : ℝ) + 1 ≤ t.npts := by exact_mod_cast hi
    refine ⟨by positivity, ?_⟩
    rw [div_lt_one (by positivity)]; linarith
  cases t with
  | becke => exact h1 rfl
  | mhl => exact h2 rfl
  | mk => exact h2 rfl
  | ta => exact h1 rfl

theorem nodeXR_mono (t : RadialTraits ℝ) {i j : ℕ} (hij : i < j) (hj : j < t.npts) :
    t.nodeXR i < t.nodeXR j := by
  unfold nodeXR
  split_ifs
  · have : (i : ℝ) < j := by exact_mod_cast hij
    gcongr
  · exact Real.cos_lt_cos_of_nonneg_of_le_pi (gc2A_pos hj).le gc2A_lt.le (gc2A_anti hij hj)

theorem nodeWR_pos (t : RadialTraits ℝ) {i : ℕ} (hi : i < t.npts) : 0 < t.nodeWR i := by
  unfold nodeWR
  split_ifs
  · positivity
  · have := Real.sin_pos_of_pos_of_lt_pi (gc2A_pos hi) gc2A_lt
    have := Real.pi_pos
    positivity

end IntegratorXX
