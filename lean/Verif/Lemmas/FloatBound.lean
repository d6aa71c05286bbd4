import Verif.Lemmas.FloatSphere
import Verif.Lemmas.FloatCheb2M
import Verif.Model.BoundTransform

/-!
# The bound transformation in `double` arithmetic
-/

namespace IntegratorXX

variable {L : Libm}

theorem close_self {v : ℝ} (h : IsF64 v) : Close 0 (F64.fin v : F64 L) v := ⟨v, rfl, h, by simp⟩

theorem Close.near {a : F64 L} {x p : ℝ} (h : Close p a x) : Near a x (p * |x|) := h

theorem Close.div {a b : F64 L} {x y p q r : ℝ} (ha : Close p a x) (hb : Close q b y) (hp : 0 ≤ p) (hq0 : 0 ≤ q)
    (hp' : p ≤ 1 / 100) (hq : q ≤ 1 / 100) (hy : y ≠ 0) (hz : ZRng 900 (x / y))
    (hr : 1.02 * (p + q) + 1.1 * uro ≤ r) : Close r (a / b) (x / y) := by
  obtain ⟨v, rfl, hv, hvx⟩ := ha
  obtain ⟨w, rfl, hw, hwy⟩ := hb
  have hy0 := abs_pos.2 hy
  have hwlo : (99 / 100) * |y| ≤ |w| := by
    have h1 := abs_sub_abs_le_abs_sub y w
    rw [abs_sub_comm] at h1
    nlinarith
  have hw0 : w ≠ 0 := abs_pos.1 (by linarith)
  have hu := uro_pos
  have hu2 := uro_lt
  rw [F64.fin_div _ hw0]
  refine of_close (p := 1.02 * (p + q)) ?_ (by linarith) hz (by nlinarith)
  have e : v / w - x / y = ((v - x) * y + x * (y - w)) / (w * y) := by field_simp; ring
  rw [e, abs_div, abs_mul w y, div_le_iff₀ (by positivity), abs_div]
  have h1 : |(v - x) * y + x * (y - w)| ≤ (p + q) * (|x| * |y|) := by
    refine (abs_add_le _ _).trans ?_
    rw [abs_mul, abs_mul, abs_sub_comm y w]
    have a1 : |v - x| * |y| ≤ p * |x| * |y| := by gcongr
    have a2 : |x| * |w - y| ≤ |x| * (q * |y|) := by gcongr
    linarith
  refine h1.trans ?_
  have h2 : 1.02 * (p + q) * (|x| / |y|) * (|w| * |y|) = (p + q) * |x| * (1.02 * |w|) := by
    field_simp
  rw [h2]
  have h3 : |y| ≤ 1.02 * |w| := by linarith
  calc (p + q) * (|x| * |y|) = (p + q) * |x| * |y| := by ring
    _ ≤ (p + q) * |x| * (1.02 * |w|) := by gcongr

/-- Rounding the sum of two exact numbers. -/
theorem close_of {z : ℝ} (hz : ZRng 900 z) : Close (1.1 * uro) (F64.of z : F64 L) z :=
  of_close (p := 0) (by simp) (by norm_num) hz (by have := uro_pos; linarith)

theorem ZRng.mono {e f : ℕ} {x : ℝ} (h : ZRng e x) (hf : e ≤ f) : ZRng f x := by
  rcases h with h | ⟨h1, h2⟩
  · exact .inl h
  · exact .inr ⟨(pow_le_pow_of_le_one (by norm_num) (by norm_num) hf).trans h1,
      h2.trans (pow_le_pow_right₀ (by norm_num) hf)⟩

theorem ZRng.inv {e : ℕ} {x : ℝ} (h : ZRng e x) : ZRng e x⁻¹ := by
  rcases h with rfl | ⟨h1, h2⟩
  · left; simp
  · right
    have h0 : 0 < |x| := lt_of_lt_of_le (by positivity) h1
    rw [abs_inv]
    constructor
    · rw [inv_pow]; exact inv_anti₀ h0 h2
    · have := inv_anti₀ (by positivity) h1
      rwa [inv_pow, inv_inv] at this

theorem ZRng.div {e f g : ℕ} {x y : ℝ} (hx : ZRng e x) (hy : ZRng f y) (hg : e + f ≤ g) : ZRng g (x / y) := by
  rw [div_eq_mul_inv]
  exact hx.mul hy.inv hg

/-- A `double` below 1 is at most `1 - 2^-53`. -/
theorem f64_lt_one {x : ℝ} (h : IsF64 x) (hx : x < 1) : x ≤ 1 - uro := by
  have hu := uro_lt
  by_cases h2 : 1 / 2 ≤ x
  · obtain ⟨m, hm⟩ := isF64_grid h (by rw [abs_of_pos (by linarith)]; exact h2)
    have hu0 := uro_pos
    have h3 : (m : ℝ) < 9007199254740992 := by
      rw [uro_eq] at hm
      rw [hm] at hx
      linarith
    have h4 : m ≤ 9007199254740991 := by
      have : m < 9007199254740992 := by exact_mod_cast h3
      omega
    have h5 : (m : ℝ) ≤ 9007199254740991 := by exact_mod_cast h4
    rw [hm, uro_eq]
    linarith
  · linarith

theorem zrng_unit {t : ℝ} (h : uro ≤ t) (h2 : t ≤ 2) : ZRng 53 t := by
  have hu := uro_pos
  right
  rw [abs_of_pos (by linarith)]
  rw [← uro_def] at h
  exact ⟨h, h2.trans (by norm_num)⟩

/-- `1 - x` -/
theorem close_one_sub {x : ℝ} (h : IsF64 x) (h0 : -1 ≤ x) (h1 : x < 1) :
    Close (1.1 * uro) (Arith.lit 1 - F64.fin x : F64 L) (1 - x) ∧ ZRng 53 (1 - x) := by
  have h2 := f64_lt_one h h1
  have hz := zrng_unit (t := 1 - x) (by linarith) (by linarith)
  refine ⟨?_, hz⟩
  rw [lit_one_eq, F64.fin_sub]
  exact close_of (hz.mono (by norm_num))

/-- `1 + x` -/
theorem close_one_add {x : ℝ} (h : IsF64 x) (h0 : -1 < x) (h1 : x ≤ 1) :
    Close (1.1 * uro) (Arith.lit 1 + F64.fin x : F64 L) (1 + x) ∧ ZRng 53 (1 + x) := by
  have h2 := f64_lt_one (isF64_neg h) (by linarith)
  have hz := zrng_unit (t := 1 + x) (by linarith) (by linarith)
  refine ⟨?_, hz⟩
  rw [lit_one_eq, F64.fin_add]
  exact close_of (hz.mono (by norm_num))

/-- The rounding error of `x * x` in relation to the distance of `x²` to 1. -/
theorem sq_cancel {x : ℝ} (h : IsF64 x) (h0 : -1 < x) (h1 : x < 1) :
    |rnd (x * x) - x * x| ≤ 1.01 * 2⁻¹ ^ 28 * (1 - x * x) := by
  wlog hx : 0 ≤ x generalizing x
  · have := this (isF64_neg h) (by linarith) (by linarith) (by linarith)
    rwa [neg_mul_neg] at this
  have hu := uro_pos
  have hu2 : uro = 1 / 9007199254740992 := uro_eq
  have hxx : 0 ≤ x * x := mul_nonneg hx hx
  have hxx1 : x * x < 1 := by nlinarith
  by_cases hd : 1 - x ≤ 2⁻¹ ^ 27
  · -- near 1: compare with `1 - 2 (1 - x)`
    obtain ⟨m, hm⟩ := isF64_grid h (by
      rw [abs_of_nonneg hx]
      norm_num at hd
      linarith)
    have hm1 : (9007199254740992 - 67108864 : ℝ) ≤ m := by
      rw [hm, hu2] at hd
      norm_num at hd
      linarith
    have hm2 : (m : ℝ) < 9007199254740992 := by
      rw [hm, hu2] at h1
      linarith
    have hr : rnd (2 * x - 1) = 2 * x - 1 := by
      refine rnd_rep (2 * m - 9007199254740992) (-53) ?_ (by norm_num) ?_
      · have a1 : (9007199254740992 - 67108864 : ℤ) ≤ m := by exact_mod_cast hm1
        have a2 : m < 9007199254740992 := by exact_mod_cast hm2
        rw [abs_le]
        constructor <;> norm_num <;> omega
      · push_cast
        rw [hm, hu2]
        norm_num
        ring
    have e : x * x = (2 * x - 1) + (1 - x) * (1 - x) := by ring
    have hge : 2 * x - 1 ≤ x * x := by nlinarith
    -- the rounded square is between `2x - 1` and `x² + (1-x)²`
    have hlow : 2 * x - 1 ≤ rnd (x * x) := le_rnd hr hge
    have hbest : |rnd (x * x) - x * x| ≤ (1 - x) * (1 - x) := by
      by_cases h3 : x * x ≤ rnd (x * x)
      · -- rounding up: at most half a unit, and the unit divides the distance
        by_contra hcon
        push Not at hcon
        rw [abs_of_nonneg (by linarith)] at hcon
        have hulp := abs_rnd_sub (x * x)
        rw [abs_of_nonneg (by linarith)] at hulp
        obtain ⟨n, hn⟩ : ∃ n : ℤ, rnd (x * x) = n * ulp (x * x) := ⟨_, rfl⟩
        have hlogx : Int.log 2 |x * x| = -1 := by
          rw [abs_of_nonneg hxx]
          have hx34 : (1 : ℝ) / 2 ≤ x * x := by
            norm_num at hd
            nlinarith
          have b1 : (-1 : ℤ) ≤ Int.log 2 (x * x) := by
            rw [← Int.zpow_le_iff_le_log (by norm_num) (by linarith)]
            norm_num
            linarith
          have b2 : Int.log 2 (x * x) < 0 := by
            rw [← Int.lt_zpow_iff_log_lt (by norm_num) (by linarith)]
            norm_num
            linarith
          omega
        have hulpv : ulp (x * x) = uro := by
          unfold ulp ulpExp
          rw [hlogx, hu2]
          norm_num
        rw [hulpv] at hn hulp
        have h4 : (2 * m - 9007199254740992 : ℝ) * uro = 2 * x - 1 := by rw [hm, hu2]; ring
        -- n > 2m - 2^53
        have h5 : ((2 * m - 9007199254740992 : ℤ) : ℝ) < n := by
          have : (2 * x - 1) < rnd (x * x) := by
            have : 0 ≤ (1 - x) * (1 - x) := mul_self_nonneg _
            linarith
          rw [hn, ← h4] at this
          push_cast
          exact lt_of_mul_lt_mul_right this hu.le
        have h6 : 2 * m - 9007199254740992 + 1 ≤ n := by
          have : 2 * m - 9007199254740992 < n := by exact_mod_cast h5
          omega
        have h7 : ((2 * m - 9007199254740992 : ℤ) : ℝ) + 1 ≤ n := by exact_mod_cast h6
        have h8 : (2 * x - 1) + uro ≤ rnd (x * x) := by
          rw [hn, ← h4]
          push_cast at h7
          nlinarith
        have hsq : (1 - x) * (1 - x) ≤ uro / 2 := by
          have : (1 - x) * (1 - x) ≤ 2⁻¹ ^ 27 * 2⁻¹ ^ 27 := by
            have : 0 ≤ 1 - x := by linarith
            gcongr
          rw [hu2]
          norm_num at this
          linarith
        linarith
      · push Not at h3
        rw [abs_of_neg (by linarith)]
        linarith
    have hpos : 0 < 1 - x := by linarith
    refine hbest.trans ?_
    have e2 : 1 - x * x = (1 - x) * (1 + x) := by ring
    rw [e2]
    have h9 : (1 - x) ≤ 1.01 * 2⁻¹ ^ 28 * (1 + x) := by
      norm_num at hd ⊢
      linarith
    calc (1 - x) * (1 - x) ≤ (1 - x) * (1.01 * 2⁻¹ ^ 28 * (1 + x)) := by gcongr
      _ = _ := by ring
  · push Not at hd
    have h2 := abs_rnd_sub (x * x)
    by_cases hx0 : x * x = 0
    · rw [hx0, rnd_zero]
      norm_num
    have hul : ulp (x * x) ≤ uro := by
      have hlogx : Int.log 2 |x * x| ≤ -1 := by
        rw [abs_of_nonneg hxx]
        have b2 : Int.log 2 (x * x) < 0 := by
          rw [← Int.lt_zpow_iff_log_lt (by norm_num) (lt_of_le_of_ne hxx (Ne.symm hx0))]
          norm_num
          linarith
        omega
      have : ulp (x * x) ≤ (2 : ℝ) ^ (-53 : ℤ) := by
        unfold ulp ulpExp
        exact two_zpow_mono (by omega)
      rw [hu2]
      norm_num at this ⊢
      linarith
    refine h2.trans ?_
    have h3 : (1.999 : ℝ) * 2⁻¹ ^ 27 ≤ 1 - x * x := by
      by_cases hx9 : x ≤ 1 / 2
      · norm_num
        nlinarith
      · push Not at hx9
        have hy : x ≤ 1 - 2⁻¹ ^ 27 := by linarith
        have : x * x ≤ (1 - 2⁻¹ ^ 27) * (1 - 2⁻¹ ^ 27) := by gcongr
        norm_num at this ⊢
        linarith
    have h4 : ulp (x * x) / 2 ≤ 1.01 * 2⁻¹ ^ 28 * (1.999 * 2⁻¹ ^ 27) := by
      rw [hu2] at hul
      norm_num
      linarith
    exact h4.trans (by gcongr)

end IntegratorXX
