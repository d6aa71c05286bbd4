import Verif.F64

/-!
# Rounding to `double`
-/

namespace IntegratorXX

/-! ## To the nearest integer -/

theorem rne_cases (x : ℝ) :
    (rne x = ⌊x⌋ ∧ Int.fract x ≤ 1 / 2) ∨ (rne x = ⌊x⌋ + 1 ∧ 1 / 2 ≤ Int.fract x) := by
  unfold rne
  split_ifs with h1 h2 h3
  · exact Or.inl ⟨rfl, h1.le⟩
  · exact Or.inr ⟨rfl, h2.le⟩
  · exact Or.inl ⟨rfl, not_lt.1 h2⟩
  · exact Or.inr ⟨rfl, not_lt.1 h1⟩

theorem abs_rne_sub (x : ℝ) : |(rne x : ℝ) - x| ≤ 1 / 2 := by
  have h := Int.floor_add_fract x
  have h0 := Int.fract_nonneg x
  have h1 := Int.fract_lt_one x
  rw [abs_le]
  rcases rne_cases x with ⟨e, h2⟩ | ⟨e, h2⟩ <;> rw [e] <;> push_cast <;>
    constructor <;> linarith

theorem rne_mono {x y : ℝ} (h : x ≤ y) : rne x ≤ rne y := by
  rcases lt_or_eq_of_le (Int.floor_mono h) with hf | hf
  · have h1 : rne x ≤ ⌊x⌋ + 1 := by rcases rne_cases x with ⟨e, _⟩ | ⟨e, _⟩ <;> omega
    have h2 : ⌊y⌋ ≤ rne y := by rcases rne_cases y with ⟨e, _⟩ | ⟨e, _⟩ <;> omega
    omega
  · have hx := Int.floor_add_fract x
    have hy := Int.floor_add_fract y
    rw [hf] at hx
    have hfr : Int.fract x ≤ Int.fract y := by linarith
    unfold rne
    rw [hf]
    split_ifs with a1 a2 a3 a4 a5 a6 a7 <;> first | omega | (exfalso; linarith)

theorem rne_int (n : ℤ) : rne (n : ℝ) = n := by
  unfold rne
  rw [Int.fract_intCast, Int.floor_intCast, if_pos (by norm_num)]

theorem rne_neg (x : ℝ) : rne (-x) = -rne x := by
  by_cases h0 : Int.fract x = 0
  · have : x = (⌊x⌋ : ℤ) := by have := Int.floor_add_fract x; linarith
    rw [this, ← Int.cast_neg, rne_int, rne_int]
  · have hf : Int.fract (-x) = 1 - Int.fract x := Int.fract_neg h0
    have hfl : ⌊-x⌋ = -⌊x⌋ - 1 := by
      have h1 := Int.floor_add_fract x
      have h2 := Int.floor_add_fract (-x)
      have : ((⌊-x⌋ : ℤ) : ℝ) = ((-⌊x⌋ - 1 : ℤ) : ℝ) := by push_cast; linarith
      exact_mod_cast this
    unfold rne
    rw [hf, hfl]
    have hev : Even (-⌊x⌋ - 1) ↔ ¬ Even ⌊x⌋ := by
      rw [Int.even_sub_one, even_neg]
    simp only [hev]
    split_ifs <;> first | omega | (exfalso; linarith)

/-! ## Units in the last place -/

theorem ulp_pos (x : ℝ) : 0 < ulp x := by unfold ulp; positivity

theorem ulp_neg (x : ℝ) : ulp (-x) = ulp x := by unfold ulp ulpExp; rw [abs_neg]

theorem rnd_neg (x : ℝ) : rnd (-x) = -rnd x := by
  unfold rnd
  rw [ulp_neg, neg_div, rne_neg]
  push_cast
  ring

theorem rnd_zero : rnd 0 = 0 := by
  unfold rnd
  rw [zero_div, show (0 : ℝ) = ((0 : ℤ) : ℝ) by norm_num, rne_int]
  simp

theorem abs_rnd_sub (x : ℝ) : |rnd x - x| ≤ ulp x / 2 := by
  have h := abs_rne_sub (x / ulp x)
  have hu := ulp_pos x
  have e : rnd x - x = (rne (x / ulp x) - x / ulp x) * ulp x := by
    unfold rnd
    field_simp
  rw [e, abs_mul, abs_of_pos hu]
  nlinarith

theorem two_zpow_mono {a b : ℤ} (h : a ≤ b) : (2 : ℝ) ^ a ≤ 2 ^ b :=
  zpow_le_zpow_right₀ (by norm_num) h

theorem zpow_log_le {x : ℝ} (hx : x ≠ 0) : (2 : ℝ) ^ Int.log 2 |x| ≤ |x| := by
  have := Int.zpow_log_le_self (b := 2) (by norm_num) (abs_pos.2 hx)
  exact_mod_cast this

theorem lt_zpow_log (x : ℝ) : |x| < (2 : ℝ) ^ (Int.log 2 |x| + 1) := by
  have := Int.lt_zpow_succ_log_self (b := 2) (by norm_num) |x|
  exact_mod_cast this

theorem f64Min_pos : 0 < f64Min := by unfold f64Min; positivity
theorem f64Tiny_pos : 0 < f64Tiny := by unfold f64Tiny; positivity
theorem f64Big_pos : 0 < f64Big := by unfold f64Big; positivity

/-- Normal numbers. -/
theorem ulp_le_of_normal {x : ℝ} (h : f64Min ≤ |x|) : ulp x ≤ 2⁻¹ ^ 52 * |x| := by
  have hx : x ≠ 0 := by
    rintro rfl
    rw [abs_zero] at h
    linarith [f64Min_pos]
  have h1 : (-1022 : ℤ) ≤ Int.log 2 |x| := by
    rw [← Int.zpow_le_iff_le_log (by norm_num) (abs_pos.2 hx)]
    exact_mod_cast h
  have e : ulpExp x = Int.log 2 |x| - 52 := by unfold ulpExp; omega
  unfold ulp
  rw [e, zpow_sub₀ (by norm_num)]
  have := zpow_log_le hx
  have e2 : (2 : ℝ) ^ (52 : ℤ) = 2 ^ 52 := by norm_cast
  rw [e2, inv_pow, div_eq_mul_inv, mul_comm]
  gcongr

theorem ulp_of_subnormal {x : ℝ} (h : |x| < f64Min) (hx : x ≠ 0) :
    ulp x = f64Tiny := by
  unfold f64Min at h
  have h1 : Int.log 2 |x| < (-1022 : ℤ) := by
    rw [← Int.lt_zpow_iff_log_lt (by norm_num) (abs_pos.2 hx)]
    exact_mod_cast h
  unfold ulp ulpExp f64Tiny
  congr 1
  omega

/-- The error of a normal result. -/
theorem rnd_err_normal {x : ℝ} (h : f64Min ≤ |x|) : |rnd x - x| ≤ 2⁻¹ ^ 53 * |x| := by
  have h1 := abs_rnd_sub x
  have h2 := ulp_le_of_normal h
  calc |rnd x - x| ≤ ulp x / 2 := h1
    _ ≤ 2⁻¹ ^ 52 * |x| / 2 := by linarith
    _ = _ := by ring

/-- The error in general. -/
theorem rnd_err (x : ℝ) : |rnd x - x| ≤ 2⁻¹ ^ 53 * |x| + f64Tiny / 2 := by
  by_cases hx : x = 0
  · subst hx
    rw [rnd_zero]
    simp only [sub_self, abs_zero, mul_zero, zero_add]
    linarith [f64Tiny_pos]
  · rcases le_or_gt (f64Min) |x| with h | h
    · have := rnd_err_normal h
      linarith [f64Tiny_pos]
    · have h1 := abs_rnd_sub x
      rw [ulp_of_subnormal h hx] at h1
      have : (0 : ℝ) ≤ 2⁻¹ ^ 53 * |x| := by positivity
      linarith

/-! ## Numbers that are not changed -/

/-- A multiple of the unit in the last place is not changed. -/
theorem rnd_of_mul {x : ℝ} (m : ℤ) (h : x = m * ulp x) : rnd x = x := by
  have hu := ulp_pos x
  have : x / ulp x = m := by
    rw [div_eq_iff hu.ne']
    exact h
  unfold rnd
  rw [this, rne_int]
  exact h.symm

/-- Every number with 53 digits is not changed. -/
theorem rnd_rep {x : ℝ} (m e : ℤ) (hm : |m| ≤ 2 ^ 53) (he : -1074 ≤ e) (h : x = m * (2 : ℝ) ^ e) :
    rnd x = x := by
  by_cases hx : x = 0
  · rw [hx, rnd_zero]
  have hle : |x| ≤ (2 : ℝ) ^ (53 + e) := by
    rw [h, abs_mul, abs_of_pos (show (0 : ℝ) < 2 ^ e by positivity), zpow_add₀ (by norm_num)]
    gcongr
    have : ((|m| : ℤ) : ℝ) ≤ ((2 ^ 53 : ℤ) : ℝ) := Int.cast_le.2 hm
    rw [Int.cast_abs] at this
    refine this.trans (le_of_eq ?_)
    norm_num
  rcases eq_or_lt_of_le hle with heq | hlt
  · -- a power of two
    have hl : Int.log 2 |x| = 53 + e := by
      rw [heq]
      exact_mod_cast Int.log_zpow (R := ℝ) (b := 2) (by norm_num) (53 + e)
    have hu : ulpExp x = 1 + e := by unfold ulpExp; rw [hl]; omega
    have hs : x = 2 ^ (53 + e) ∨ x = -(2 : ℝ) ^ (53 + e) := by
      rcases abs_choice x with c | c <;> rw [c] at heq
      · exact Or.inl heq
      · exact Or.inr (by linarith)
    have e3 : (2 : ℝ) ^ (53 + e) = ((2 ^ 52 : ℤ) : ℝ) * 2 ^ (1 + e) := by
      rw [show (53 + e : ℤ) = 52 + (1 + e) by ring, zpow_add₀ (by norm_num)]
      push_cast
      norm_cast
    rcases hs with hs | hs
    · refine rnd_of_mul (2 ^ 52) ?_
      unfold ulp
      rw [hu, ← e3]
      exact hs
    · refine rnd_of_mul (-(2 ^ 52)) ?_
      unfold ulp
      rw [hu, Int.cast_neg, neg_mul, ← e3]
      exact hs
  · have hl : Int.log 2 |x| < 53 + e := by
      rw [← Int.lt_zpow_iff_log_lt (by norm_num) (abs_pos.2 hx)]
      exact_mod_cast hlt
    have hu : ulpExp x ≤ e := by unfold ulpExp; omega
    obtain ⟨k, hk⟩ : ∃ k : ℕ, e = ulpExp x + k := ⟨(e - ulpExp x).toNat, by omega⟩
    refine rnd_of_mul (m * 2 ^ k) ?_
    have : x = m * (2 : ℝ) ^ (ulpExp x + k) := by rw [← hk]; exact h
    unfold ulp
    rw [zpow_add₀ (by norm_num)] at this
    push_cast
    rw [zpow_natCast] at this
    linear_combination this

theorem rnd_int {n : ℤ} (h : |n| ≤ 2 ^ 53) : rnd (n : ℝ) = n :=
  rnd_rep n 0 h (by norm_num) (by simp)

theorem rnd_nat {n : ℕ} (h : n ≤ 2 ^ 53) : rnd (n : ℝ) = n := by
  have := rnd_int (n := n) (by rw [Nat.abs_cast]; exact_mod_cast h)
  exact_mod_cast this

theorem rnd_one : rnd 1 = 1 := by
  have := rnd_nat (n := 1) (by norm_num)
  exact_mod_cast this

theorem rnd_two_zpow {e : ℤ} (he : -1074 ≤ e) : rnd ((2 : ℝ) ^ e) = 2 ^ e :=
  rnd_rep 1 e (by norm_num) he (by simp)

/-! ## Monotonicity -/

theorem rnd_mono_pos {x y : ℝ} (hx : 0 < x) (h : x ≤ y) : rnd x ≤ rnd y := by
  have hy : 0 < y := hx.trans_le h
  have hl : Int.log 2 |x| ≤ Int.log 2 |y| := by
    rw [abs_of_pos hx, abs_of_pos hy]
    exact Int.log_mono_right hx h
  have hu : ulpExp x ≤ ulpExp y := by unfold ulpExp; omega
  rcases eq_or_lt_of_le hu with e | hlt
  · have eu : ulp x = ulp y := by unfold ulp; rw [e]
    unfold rnd
    rw [eu]
    have : x / ulp y ≤ y / ulp y := by
      have := ulp_pos y
      gcongr
    have h2 : ((rne (x / ulp y) : ℤ) : ℝ) ≤ (rne (y / ulp y) : ℤ) := by exact_mod_cast rne_mono this
    have := ulp_pos y
    gcongr
  · -- a power of two lies between
    have hk : ulpExp y = Int.log 2 |y| - 52 := by unfold ulpExp at hlt ⊢; omega
    set k := Int.log 2 |y| with hkdef
    have h1 : (2 : ℝ) ^ k ≤ y := by
      have := zpow_log_le hy.ne'
      rw [← hkdef] at this
      rwa [abs_of_pos hy] at this
    have h2 : x < (2 : ℝ) ^ (ulpExp x + 53) := by
      have := lt_zpow_log x
      rw [abs_of_pos hx] at this
      refine this.trans_le (two_zpow_mono ?_)
      rw [abs_of_pos hx] at *
      unfold ulpExp
      rw [abs_of_pos hx]
      omega
    have hx2 : rnd x ≤ (2 : ℝ) ^ (ulpExp x + 53) := by
      unfold rnd
      have hd : x / ulp x ≤ ((2 ^ 53 : ℤ) : ℝ) := by
        rw [div_le_iff₀ (ulp_pos x)]
        refine h2.le.trans (le_of_eq ?_)
        unfold ulp
        rw [zpow_add₀ (by norm_num)]
        push_cast
        norm_cast
        ring
      have := rne_mono hd
      rw [rne_int] at this
      have h3 : ((rne (x / ulp x) : ℤ) : ℝ) ≤ ((2 ^ 53 : ℤ) : ℝ) := by exact_mod_cast this
      calc ((rne (x / ulp x) : ℤ) : ℝ) * ulp x ≤ ((2 ^ 53 : ℤ) : ℝ) * ulp x := by
            have := ulp_pos x
            gcongr
        _ = _ := by
            unfold ulp
            rw [zpow_add₀ (by norm_num)]
            push_cast
            norm_cast
            ring
    have hy2 : (2 : ℝ) ^ k ≤ rnd y := by
      unfold rnd
      have hd : ((2 ^ 52 : ℤ) : ℝ) ≤ y / ulp y := by
        rw [le_div_iff₀ (ulp_pos y)]
        refine (le_of_eq ?_).trans h1
        unfold ulp
        rw [hk, zpow_sub₀ (by norm_num)]
        norm_num
        field_simp
      have := rne_mono hd
      rw [rne_int] at this
      have h3 : ((2 ^ 52 : ℤ) : ℝ) ≤ ((rne (y / ulp y) : ℤ) : ℝ) := by exact_mod_cast this
      calc (2 : ℝ) ^ k = ((2 ^ 52 : ℤ) : ℝ) * ulp y := by
            unfold ulp
            rw [hk, zpow_sub₀ (by norm_num)]
            norm_num
            field_simp
        _ ≤ _ := by
            have := ulp_pos y
            gcongr
    refine hx2.trans ((two_zpow_mono ?_).trans hy2)
    omega

theorem rnd_nonneg {x : ℝ} (h : 0 ≤ x) : 0 ≤ rnd x := by
  unfold rnd
  have hu := ulp_pos x
  have := rne_mono (show ((0 : ℤ) : ℝ) ≤ x / ulp x by push_cast; positivity)
  rw [rne_int] at this
  have h3 : (0 : ℝ) ≤ ((rne (x / ulp x) : ℤ) : ℝ) := by exact_mod_cast this
  positivity

/-- Rounding is monotone. -/
theorem rnd_mono {x y : ℝ} (h : x ≤ y) : rnd x ≤ rnd y := by
  rcases lt_or_ge 0 x with hx | hx
  · exact rnd_mono_pos hx h
  · rcases lt_or_ge y 0 with hy | hy
    · have := rnd_mono_pos (x := -y) (y := -x) (by linarith) (by linarith)
      rw [rnd_neg, rnd_neg] at this
      linarith
    · have h1 := rnd_nonneg hy
      have h2 := rnd_nonneg (x := -x) (by linarith)
      rw [rnd_neg] at h2
      linarith

/-- A bound that is a `double` also bounds the rounded number. -/
theorem rnd_le {x y : ℝ} (hy : rnd y = y) (h : x ≤ y) : rnd x ≤ y := by
  have := rnd_mono h
  rwa [hy] at this

theorem le_rnd {x y : ℝ} (hx : rnd x = x) (h : x ≤ y) : x ≤ rnd y := by
  have := rnd_mono h
  rwa [hx] at this

/-- The result of rounding has 53 digits. -/
theorem rnd_is_rep (x : ℝ) : ∃ m e : ℤ, |m| ≤ 2 ^ 53 ∧ -1074 ≤ e ∧ rnd x = m * (2 : ℝ) ^ e := by
  refine ⟨rne (x / ulp x), ulpExp x, ?_, by unfold ulpExp; omega, rfl⟩
  have h1 : |x| ≤ (2 : ℝ) ^ 53 * ulp x := by
    have := (lt_zpow_log x).le
    refine this.trans ?_
    unfold ulp
    rw [show (2 : ℝ) ^ 53 = 2 ^ (53 : ℤ) by norm_cast, ← zpow_add₀ (by norm_num)]
    refine two_zpow_mono ?_
    unfold ulpExp
    omega
  have hu := ulp_pos x
  have h2 := abs_le.1 h1
  rw [abs_le]
  constructor
  · have := rne_mono (show ((-2 ^ 53 : ℤ) : ℝ) ≤ x / ulp x by
      rw [le_div_iff₀ hu]; push_cast; linarith)
    rwa [rne_int] at this
  · have := rne_mono (show x / ulp x ≤ ((2 ^ 53 : ℤ) : ℝ) by
      rw [div_le_iff₀ hu]; push_cast; linarith)
    rwa [rne_int] at this

theorem rnd_rnd (x : ℝ) : rnd (rnd x) = rnd x := by
  obtain ⟨m, e, hm, he, h⟩ := rnd_is_rep x
  exact rnd_rep m e hm he h

theorem abs_rnd (x : ℝ) : |rnd x| = rnd |x| := by
  rcases le_total 0 x with h | h
  · rw [abs_of_nonneg h, abs_of_nonneg (rnd_nonneg h)]
  · rw [abs_of_nonpos h, rnd_neg, abs_of_nonpos]
    have := rnd_nonneg (x := -x) (by linarith)
    rw [rnd_neg] at this
    linarith

theorem isF64_neg {x : ℝ} (h : IsF64 x) : IsF64 (-x) := by
  refine ⟨by rw [rnd_neg, h.1], by rw [abs_neg]; exact h.2⟩

theorem isF64_abs {x : ℝ} (h : IsF64 x) : IsF64 |x| := by
  refine ⟨by rw [← abs_rnd, h.1], by rw [abs_abs]; exact h.2⟩

theorem rnd_big : rnd f64Big = f64Big := rnd_two_zpow (by norm_num)

theorem isF64_rnd {x : ℝ} (h : |x| ≤ f64Big) : IsF64 (rnd x) := by
  refine ⟨rnd_rnd x, ?_⟩
  rw [abs_rnd]
  have h1 := rnd_le rnd_big h
  linarith [f64Big_pos]

/-- The result of an operation without overflow. -/
theorem round_fin {x : ℝ} (h : |x| ≤ f64Big) : XReal.round x = XReal.fin (rnd x) := by
  have h1 := (isF64_rnd h).2
  rw [abs_lt] at h1
  unfold XReal.round
  rw [if_neg (by linarith), if_neg (by linarith)]

theorem F64.of_fin {L : Libm} {x : ℝ} (h : |x| ≤ f64Big) : (F64.of x : F64 L) = F64.fin (rnd x) :=
  round_fin h

end IntegratorXX
