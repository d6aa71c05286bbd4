import Verif.Lemmas.FloatRadial

/-!
# Mura-Knowles with many points: the first radii are exactly zero
-/

namespace IntegratorXX

open Real

variable {L : Libm}

theorem rnd_half_ulp : rnd (1 - uro / 2) = 1 := by
  have hu := uro_pos
  have hu' := uro_lt
  have hlog : Int.log 2 |1 - uro / 2| = -1 := by
    rw [abs_of_pos (by linarith)]
    have h1 : (-1 : ℤ) ≤ Int.log 2 (1 - uro / 2) := by
      rw [← Int.zpow_le_iff_le_log (by norm_num) (by linarith)]
      norm_num
      linarith
    have h2 : Int.log 2 (1 - uro / 2) < 0 := by
      rw [← Int.lt_zpow_iff_log_lt (by norm_num) (by linarith)]
      norm_num
      linarith
    omega
  have he : ulpExp (1 - uro / 2) = -53 := by unfold ulpExp; rw [hlog]; norm_num
  have hu2 : ulp (1 - uro / 2) = uro := by
    unfold ulp
    rw [he, uro_eq, zpow_neg]
    norm_num
  unfold rnd
  rw [hu2]
  have e : (1 - uro / 2) / uro = ((2 ^ 53 - 1 : ℤ) : ℝ) + 1 / 2 := by
    rw [uro_eq]
    norm_num
  have hfl : ⌊((2 ^ 53 - 1 : ℤ) : ℝ) + 1 / 2⌋ = 2 ^ 53 - 1 := by
    rw [Int.floor_intCast_add]
    norm_num
  have hr : rne (((2 ^ 53 - 1 : ℤ) : ℝ) + 1 / 2) = 2 ^ 53 := by
    unfold rne
    have hf : Int.fract (((2 ^ 53 - 1 : ℤ) : ℝ) + 1 / 2) = 1 / 2 := by
      rw [Int.fract_intCast_add]
      norm_num
    rw [hf, hfl, if_neg (by norm_num), if_neg (by norm_num), if_neg]
    · norm_num
    · rw [Int.not_even_iff_odd]
      exact ⟨2 ^ 52 - 1, by norm_num⟩
  rw [e, hr, uro_eq]
  norm_num

theorem rnd_dyadic (k : ℕ) (hk : k ≤ 1000) : rnd ((2⁻¹ : ℝ) ^ k) = 2⁻¹ ^ k := by
  have := rnd_two_zpow (e := -(k : ℤ)) (by omega)
  rwa [zpow_neg, zpow_natCast, ← inv_pow] at this

/-- A small base node leads to a zero radius. -/
theorem mk_zero (hL : L.Accurate) {x R : ℝ} (h0 : 0 ≤ x) (h1 : x ≤ 2⁻¹ ^ 18) (n : ℕ) :
    (RadialTraits.mk n (F64.fin R : F64 L)).transform (F64.fin x) = F64.fin 0 := by
  show -F64.fin R * Arith.log (Arith.lit 1 - F64.fin x * F64.fin x * F64.fin x) = _
  have hx1 : x ≤ 1 := h1.trans (by norm_num)
  have hxx : x * x ≤ 2⁻¹ ^ 36 := by
    calc x * x ≤ 2⁻¹ ^ 18 * 2⁻¹ ^ 18 := mul_le_mul h1 h1 h0 (by norm_num)
      _ = _ := by norm_num
  have r1 : 0 ≤ rnd (x * x) := rnd_nonneg (by positivity)
  have r2 : rnd (x * x) ≤ 2⁻¹ ^ 36 := rnd_le (rnd_dyadic 36 (by norm_num)) hxx
  have hxxx : rnd (x * x) * x ≤ 2⁻¹ ^ 54 := by
    calc rnd (x * x) * x ≤ 2⁻¹ ^ 36 * 2⁻¹ ^ 18 := mul_le_mul r2 h1 h0 (by norm_num)
      _ = _ := by norm_num
  have r3 : 0 ≤ rnd (rnd (x * x) * x) := rnd_nonneg (by positivity)
  have r4 : rnd (rnd (x * x) * x) ≤ 2⁻¹ ^ 54 := rnd_le (rnd_dyadic 54 (by norm_num)) hxxx
  have e54 : (2⁻¹ : ℝ) ^ 54 = uro / 2 := by rw [uro_eq]; norm_num
  rw [e54] at r4
  have hu := uro_pos
  have hu' := uro_lt
  have r5 : rnd (1 - rnd (rnd (x * x) * x)) = 1 := by
    refine le_antisymm (rnd_le rnd_one (by linarith)) ?_
    have := rnd_mono (x := 1 - uro / 2) (y := 1 - rnd (rnd (x * x) * x)) (by linarith)
    rwa [rnd_half_ulp] at this
  have f36 : (2⁻¹ : ℝ) ^ 36 ≤ 2 := by norm_num
  have f54 : (2⁻¹ : ℝ) ^ 54 ≤ 2 := by norm_num
  rw [lit_one_eq, F64.fin_mul, of_small (by positivity) (hxx.trans f36), F64.fin_mul,
    of_small (by positivity) (hxxx.trans f54), F64.fin_sub, of_small (by linarith) (by linarith), r5,
    F64.fin_log one_pos]
  have h2 := hL.log_err 1 isF64_one one_pos
  rw [log_one, abs_zero, mul_zero, sub_zero] at h2
  have h3 : L.log 1 = 0 := abs_eq_zero.1 (le_antisymm h2 (abs_nonneg _))
  have z : (F64.of 0 : F64 L) = F64.fin 0 := (of_exact rnd_zero (by norm_num)).1
  rw [h3, z, F64.fin_neg, F64.fin_mul, mul_zero, z]

/-- The base nodes in question are small. -/
theorem mk_small {m i : ℕ} (h1 : 2 ^ 19 ≤ m) (hi : i ≤ 2) :
    rnd (i * rnd (1 / m)) ≤ 2⁻¹ ^ 18 := by
  have hm : (2 : ℝ) ^ 19 ≤ m := by exact_mod_cast h1
  have hi' : (i : ℝ) ≤ 2 := by exact_mod_cast hi
  have a : 1 / (m : ℝ) ≤ 2⁻¹ ^ 19 := by
    rw [one_div, inv_pow]
    exact inv_anti₀ (by positivity) hm
  have b : rnd (1 / m) ≤ 2⁻¹ ^ 19 := rnd_le (rnd_dyadic 19 (by norm_num)) a
  refine rnd_le (rnd_dyadic 18 (by norm_num)) ?_
  calc (i : ℝ) * rnd (1 / m) ≤ 2 * 2⁻¹ ^ 19 :=
        mul_le_mul hi' b (rnd_nonneg (by positivity)) (by norm_num)
    _ = _ := by norm_num

end IntegratorXX
