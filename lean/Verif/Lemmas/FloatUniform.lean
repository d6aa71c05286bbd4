import Verif.Lemmas.FloatCheb

/-!
# UniformTrapezoid on [0,1] in `double` arithmetic
-/

namespace IntegratorXX

variable {L : Libm}

theorem le_big_of {x : ℝ} (h : |x| ≤ 2 ^ 200) : |x| ≤ f64Big := by
  have := le_f64Big
  have : (2 : ℝ) ^ 200 ≤ 2 ^ 201 := by norm_num
  linarith

theorem lit_zero_eq : (Arith.lit 0 : F64 L) = F64.fin 0 := by
  have := (of_exact (L := L) rnd_zero (by norm_num)).1
  rw [← this]
  show F64.of _ = F64.of _
  norm_num

theorem lit_one_eq : (Arith.lit 1 : F64 L) = F64.fin 1 := by
  have := (of_exact (L := L) rnd_one (by norm_num)).1
  rw [← this]
  show F64.of _ = F64.of _
  norm_num

theorem ofNat_fin {n : ℕ} (h : n ≤ 2 ^ 53) : (Arith.ofNat n : F64 L) = F64.fin n := by
  refine (of_exact (rnd_nat h) ?_).1
  rw [Nat.abs_cast]
  calc (n : ℝ) ≤ ((2 ^ 53 : ℕ) : ℝ) := by exact_mod_cast h
    _ ≤ 2 ^ 200 := by norm_num

theorem of_small {x : ℝ} (h0 : 0 ≤ x) (h : x ≤ 2) : (F64.of x : F64 L) = F64.fin (rnd x) := by
  refine F64.of_fin (le_big_of ?_)
  rw [abs_of_nonneg h0]
  exact h.trans (by norm_num)

/-- The step width. -/
theorem uni_step {m : ℕ} (hm : 1 ≤ m) (hm' : m ≤ 2 ^ 53) :
    ((Arith.lit 1 - Arith.lit 0) / Arith.ofNat m : F64 L) = F64.fin (rnd (1 / m)) := by
  have h1 : (1 : ℝ) ≤ m := by exact_mod_cast hm
  rw [lit_one_eq, lit_zero_eq, ofNat_fin hm', F64.fin_sub, sub_zero, (of_exact rnd_one (by norm_num)).1,
    F64.fin_div _ (by positivity)]
  refine of_small (by positivity) ?_
  rw [div_le_iff₀ (by positivity)]
  linarith

/-- The relative error of the step width. -/
theorem uni_step_err {m : ℕ} (hm : 1 ≤ m) (hm' : m ≤ 2 ^ 53) :
    |rnd (1 / m) - 1 / m| ≤ uro * (1 / m) := by
  have h1 : (1 : ℝ) ≤ m := by exact_mod_cast hm
  have h2 : (m : ℝ) ≤ 2 ^ 53 := by exact_mod_cast hm'
  have hp : |(1 : ℝ) / m| = 1 / m := abs_of_pos (by positivity)
  have := rnd_err_normal (x := 1 / m) (by
    rw [hp]
    refine f64Min_le.trans ?_
    rw [le_div_iff₀ (by positivity)]
    calc (2⁻¹ : ℝ) ^ 201 * m ≤ 2⁻¹ ^ 201 * 2 ^ 53 := by gcongr
      _ ≤ 1 := by norm_num)
  rwa [hp, uro_def] at this

theorem uro_lt : uro < 1 / 1000 := by rw [uro_eq]; norm_num

theorem uni_node {m i : ℕ} (hm : 1 ≤ m) (hm' : m ≤ 2 ^ 53) (hi : i ≤ m) :
    (Arith.lit 0 + Arith.ofNat i * ((Arith.lit 1 - Arith.lit 0) / Arith.ofNat m) : F64 L) =
      F64.fin (rnd (i * rnd (1 / m))) := by
  have h1 : (1 : ℝ) ≤ m := by exact_mod_cast hm
  have h2 : (i : ℝ) ≤ m := by exact_mod_cast hi
  have hd : 0 ≤ rnd (1 / m) := rnd_nonneg (by positivity)
  have herr := (abs_le.1 (uni_step_err hm hm')).2
  have hb : (i : ℝ) * rnd (1 / m) ≤ 2 := by
    have h3 : rnd (1 / m) ≤ 2 * (1 / m) := by
      have h4 := uro_lt
      have h5 : (0 : ℝ) < 1 / m := by positivity
      have : uro * (1 / m) ≤ 1 * (1 / m) := by
        gcongr
        linarith
      linarith
    calc (i : ℝ) * rnd (1 / m) ≤ m * (2 * (1 / m)) := by gcongr
      _ = 2 := by field_simp
  rw [uni_step hm hm', lit_zero_eq, ofNat_fin (hi.trans hm'), F64.fin_mul, of_small (by positivity) hb,
    F64.fin_add, zero_add, of_small (rnd_nonneg (by positivity)), rnd_rnd]
  refine rnd_le ?_ hb
  have := rnd_nat (n := 2) (by norm_num)
  exact_mod_cast this

/-- `1 + 2^-53` is rounded to 1. -/
theorem rnd_one_add : rnd (1 + uro) = 1 := by
  have hu := uro_pos
  have hlog : Int.log 2 |1 + uro| = 0 := by
    rw [abs_of_pos (by linarith)]
    have h1 : (0 : ℤ) ≤ Int.log 2 (1 + uro) := by
      rw [← Int.zpow_le_iff_le_log (by norm_num) (by linarith)]
      norm_num
      exact hu.le
    have h2 : Int.log 2 (1 + uro) < 1 := by
      rw [← Int.lt_zpow_iff_log_lt (by norm_num) (by linarith)]
      have := uro_lt
      norm_num
      linarith
    omega
  have he : ulpExp (1 + uro) = -52 := by unfold ulpExp; rw [hlog]; norm_num
  have hu2 : ulp (1 + uro) = 2 * uro := by
    unfold ulp
    rw [he, uro_eq, zpow_neg]
    norm_num
  unfold rnd
  rw [hu2]
  have e : (1 + uro) / (2 * uro) = ((2 ^ 52 : ℤ) : ℝ) + 1 / 2 := by
    rw [uro_eq]
    norm_num
  have hfl : ⌊((2 ^ 52 : ℤ) : ℝ) + 1 / 2⌋ = 2 ^ 52 := by
    rw [Int.floor_intCast_add]
    norm_num
  have hr : rne (((2 ^ 52 : ℤ) : ℝ) + 1 / 2) = 2 ^ 52 := by
    unfold rne
    have hf : Int.fract (((2 ^ 52 : ℤ) : ℝ) + 1 / 2) = 1 / 2 := by
      rw [Int.fract_intCast_add]
      norm_num
    rw [hf, hfl, if_neg (by norm_num), if_neg (by norm_num), if_pos]
    exact ⟨2 ^ 51, by norm_num⟩
  rw [e, hr, uro_eq]
  norm_num

theorem rnd_one_sub : rnd (1 - uro) = 1 - uro := by
  refine rnd_rep (2 ^ 53 - 1) (-53) (by norm_num) (by norm_num) ?_
  rw [uro_eq, zpow_neg]
  norm_num

/-- Facts about the nodes. -/
theorem uni_facts {m : ℕ} (hm : 1 ≤ m) (hm' : m ≤ 2 ^ 53) :
    (∀ i : ℕ, i ≤ m → |rnd (i * rnd (1 / m)) - i / m| ≤ 3 * uro * (i / m)) ∧
    (∀ i j : ℕ, i ≤ j → rnd (i * rnd (1 / m)) ≤ rnd (j * rnd (1 / m))) ∧
    (∀ i : ℕ, i ≤ m → 0 ≤ rnd (i * rnd (1 / m)) ∧ rnd (i * rnd (1 / m)) ≤ 1) ∧
    1 - uro ≤ rnd (m * rnd (1 / m)) := by
  have h1 : (1 : ℝ) ≤ m := by exact_mod_cast hm
  have h2 : (m : ℝ) ≤ 2 ^ 53 := by exact_mod_cast hm'
  have hd : 0 ≤ rnd (1 / m) := rnd_nonneg (by positivity)
  have herr := uni_step_err hm hm'
  have herr' := abs_le.1 herr
  have hu := uro_pos
  have hu2 := uro_lt
  have hmm : (m : ℝ) * (1 / m) = 1 := by field_simp
  have hmono : ∀ i j : ℕ, i ≤ j → rnd (i * rnd (1 / m)) ≤ rnd (j * rnd (1 / m)) := by
    intro i j hij
    have : (i : ℝ) ≤ j := by exact_mod_cast hij
    refine rnd_mono ?_
    gcongr
  have hlast : (m : ℝ) * rnd (1 / m) ≤ 1 + uro ∧ 1 - uro ≤ (m : ℝ) * rnd (1 / m) := by
    constructor <;> nlinarith
  refine ⟨?_, hmono, ?_, ?_⟩
  · intro i hi
    rcases Nat.eq_zero_or_pos i with rfl | hi0
    · simp [rnd_zero]
    have hi1 : (1 : ℝ) ≤ i := by exact_mod_cast hi0
    have e1 : |(i : ℝ) * rnd (1 / m) - i / m| ≤ uro * (i / m) := by
      have : (i : ℝ) * rnd (1 / m) - i / m = i * (rnd (1 / m) - 1 / m) := by ring
      rw [this, abs_mul, abs_of_pos (by positivity)]
      calc (i : ℝ) * |rnd (1 / m) - 1 / m| ≤ i * (uro * (1 / m)) := by gcongr
        _ = _ := by ring
    have e1' := abs_le.1 e1
    have hx0 : (0 : ℝ) < i / m := by positivity
    have hx : |(i : ℝ) * rnd (1 / m)| = i * rnd (1 / m) := abs_of_nonneg (by positivity)
    have hlo : (1 / 2 : ℝ) * (i / m) ≤ i * rnd (1 / m) := by
      have : uro * ((i : ℝ) / m) ≤ 1 / 2 * (i / m) := by
        gcongr
        linarith
      linarith
    have e2 := rnd_err_normal (x := i * rnd (1 / m)) (by
      rw [hx]
      refine f64Min_le.trans (le_trans ?_ hlo)
      have : (1 : ℝ) / m ≤ i / m := by gcongr
      refine le_trans ?_ (mul_le_mul_of_nonneg_left this (by norm_num))
      rw [← mul_div_assoc, le_div_iff₀ (by positivity)]
      calc (2⁻¹ : ℝ) ^ 201 * m ≤ 2⁻¹ ^ 201 * 2 ^ 53 := by gcongr
        _ ≤ 1 / 2 * 1 := by norm_num)
    rw [hx, uro_def] at e2
    have hup : (i : ℝ) * rnd (1 / m) ≤ 2 * (i / m) := by
      have : uro * ((i : ℝ) / m) ≤ 1 * (i / m) := by
        gcongr
        linarith
      linarith
    have e3 : uro * (i * rnd (1 / m)) ≤ uro * (2 * (i / m)) := by gcongr
    calc |rnd (i * rnd (1 / m)) - i / m| =
          |(rnd (i * rnd (1 / m)) - i * rnd (1 / m)) + (i * rnd (1 / m) - i / m)| := by ring_nf
      _ ≤ _ := abs_add_le _ _
      _ ≤ uro * (2 * (i / m)) + uro * (i / m) := by linarith
      _ = _ := by ring
  · intro i hi
    refine ⟨rnd_nonneg (by positivity), (hmono i m hi).trans ?_⟩
    have := rnd_mono hlast.1
    rwa [rnd_one_add] at this
  · have := rnd_mono hlast.2
    rwa [rnd_one_sub] at this

/-- Nodes are distinct while the step is larger than the spacing of `double` numbers below 1. -/
theorem uni_strict {m i j : ℕ} (hm : 1 ≤ m) (hm' : m ≤ 2 ^ 50) (hij : i < j) (hj : j ≤ m) :
    rnd (i * rnd (1 / m)) < rnd (j * rnd (1 / m)) := by
  have hm2 : m ≤ 2 ^ 53 := hm'.trans (by norm_num)
  have h1 : (1 : ℝ) ≤ m := by exact_mod_cast hm
  have h2 : (m : ℝ) ≤ 2 ^ 50 := by exact_mod_cast hm'
  obtain ⟨f1, -, -, -⟩ := uni_facts hm hm2
  have a1 := (abs_le.1 (f1 i (by omega))).2
  have a2 := (abs_le.1 (f1 j hj)).1
  have hi' : ((i : ℝ) + 1) ≤ j := by exact_mod_cast hij
  have hj' : (j : ℝ) ≤ m := by exact_mod_cast hj
  have b1 : (i : ℝ) / m ≤ 1 := by rw [div_le_one (by positivity)]; linarith
  have b2 : (j : ℝ) / m ≤ 1 := by rw [div_le_one (by positivity)]; linarith
  have b3 : (i : ℝ) / m + 1 / m ≤ j / m := by rw [← add_div]; gcongr
  have b4 : 6 * uro < 1 / m := by
    rw [lt_div_iff₀ (by positivity), uro_eq]
    have : (6 : ℝ) * (1 / 2 ^ 53) * m ≤ 6 * (1 / 2 ^ 53) * 2 ^ 50 := by gcongr
    refine lt_of_le_of_lt (le_trans (le_of_eq ?_) this) (by norm_num)
    norm_num
  have hu := uro_pos
  have c1 : 3 * uro * ((i : ℝ) / m) ≤ 3 * uro * 1 := by gcongr
  have c2 : 3 * uro * ((j : ℝ) / m) ≤ 3 * uro * 1 := by gcongr
  linarith

/-- Halving the step is exact. -/
theorem uni_half {m : ℕ} (hm : 1 ≤ m) (hm' : m ≤ 2 ^ 53) :
    (F64.fin (rnd (1 / m)) * Arith.lit (1 / 2) : F64 L) = F64.fin (rnd (1 / m) / 2) ∧
      IsF64 (rnd (1 / m) / 2) := by
  have h1 : (1 : ℝ) ≤ m := by exact_mod_cast hm
  have h2 : (m : ℝ) ≤ 2 ^ 53 := by exact_mod_cast hm'
  have herr := abs_le.1 (uni_step_err hm hm')
  have hu2 := uro_lt
  have hpos : (0 : ℝ) < 1 / m := by positivity
  have hle1 : (1 : ℝ) / m ≤ 1 := by rw [div_le_one (by positivity)]; exact h1
  have h3 : uro * (1 / m) ≤ 1 / 2 * (1 / m) := by
    gcongr
    linarith
  have hlo : 1 / 2 * (1 / (m : ℝ)) ≤ rnd (1 / m) := by linarith
  have hhi : rnd (1 / (m : ℝ)) ≤ 2 := by linarith
  have hge : (2⁻¹ : ℝ) ^ 54 ≤ rnd (1 / m) := by
    refine le_trans ?_ hlo
    rw [← mul_div_assoc, le_div_iff₀ (by positivity)]
    calc (2⁻¹ : ℝ) ^ 54 * m ≤ 2⁻¹ ^ 54 * 2 ^ 53 := by gcongr
      _ = 1 / 2 * 1 := by norm_num
  have hhalf : (Arith.lit (1 / 2) : F64 L) = F64.fin (1 / 2) := by
    have := (of_exact (L := L) (z := 1 / 2) (rnd_rep 1 (-1) (by norm_num) (by norm_num) (by norm_num))
      (by rw [abs_of_pos (by norm_num)]; norm_num)).1
    rw [← this]
    show F64.of _ = F64.of _
    norm_num
  have hex : rnd (rnd (1 / m) / 2) = rnd (1 / m) / 2 := by
    obtain ⟨a, e, ha, he, hr⟩ := rnd_is_rep (1 / m)
    have he' : -1073 ≤ e := by
      by_contra hc
      have : e = -1074 := by omega
      rw [this] at hr
      have ha' : (a : ℝ) ≤ 2 ^ 53 := by
        have := (abs_le.1 ha).2
        exact_mod_cast this
      have hz : ((2 : ℝ) ^ (-1074 : ℤ)) ≤ (2 : ℝ) ^ (-108 : ℤ) := zpow_le_zpow_right₀ (by norm_num) (by norm_num)
      have : rnd (1 / (m : ℝ)) ≤ 2 ^ 53 * (2 : ℝ) ^ (-108 : ℤ) := by
        rw [hr]
        gcongr
      have : (2 : ℝ) ^ 53 * (2 : ℝ) ^ (-108 : ℤ) < 2⁻¹ ^ 54 := by
        rw [zpow_neg]
        norm_num
      linarith
    refine rnd_rep a (e - 1) ha (by omega) ?_
    rw [hr, zpow_sub₀ (by norm_num), zpow_one]
    ring
  have hb : |rnd (1 / (m : ℝ)) / 2| ≤ 2 ^ 200 := by
    rw [abs_of_nonneg (by linarith)]
    have : (2 : ℝ) ≤ 2 ^ 200 := by norm_num
    linarith
  have := of_exact (L := L) hex hb
  rw [hhalf, F64.fin_mul]
  refine ⟨?_, this.2⟩
  rw [← this.1]
  congr 1
  ring

/-- Weights. -/
theorem uni_weight {n j : ℕ} (hn : 2 ≤ n) (hn' : n ≤ 2 ^ 53) :
    (utW n (Arith.lit 0) (Arith.lit 1) j : F64 L) =
      F64.fin (if j = 0 ∨ j = n - 1 then rnd (1 / (n - 1 : ℕ)) / 2 else rnd (1 / (n - 1 : ℕ))) := by
  have h1 : 1 ≤ n - 1 := by omega
  have h2 : n - 1 ≤ 2 ^ 53 := by omega
  unfold utW
  dsimp only
  rw [uni_step h1 h2]
  split_ifs
  · exact (uni_half h1 h2).1
  · rfl

/-- Rounding of a number just above a multiple of the unit in the last place. -/
theorem rnd_down {x : ℝ} (k e : ℤ) (he : -1074 ≤ e) (h0 : 0 < x) (h1 : (2 : ℝ) ^ (e + 52) ≤ x)
    (h2 : x < (2 : ℝ) ^ (e + 53)) (h3 : (k : ℝ) ≤ x / 2 ^ e) (h4 : x / 2 ^ e < k + 1 / 2) :
    rnd x = k * 2 ^ e := by
  have hlog : Int.log 2 |x| = e + 52 := by
    rw [abs_of_pos h0]
    have h1 : e + 52 ≤ Int.log 2 x := by
      rw [← Int.zpow_le_iff_le_log (by norm_num) h0]
      exact_mod_cast h1
    have h2 : Int.log 2 x < e + 53 := by
      rw [← Int.lt_zpow_iff_log_lt (by norm_num) h0]
      exact_mod_cast h2
    omega
  have hu : ulp x = 2 ^ e := by
    unfold ulp ulpExp
    rw [hlog]
    congr 1
    omega
  have hfl : ⌊x / 2 ^ e⌋ = k := by
    rw [Int.floor_eq_iff]
    exact ⟨h3, by linarith⟩
  have hr : rne (x / 2 ^ e) = k := by
    unfold rne
    have hf : Int.fract (x / 2 ^ e) < 1 / 2 := by
      unfold Int.fract
      rw [hfl]
      linarith
    rw [if_pos hf, hfl]
  unfold rnd
  rw [hu, hr]

/-- The step width of the rule with 50 points is rounded down. -/
theorem rnd_49 : rnd (1 / 49) = 5882252574524729 / 2 ^ 58 := by
  rw [rnd_down (x := 1 / 49) 5882252574524729 (-58) (by norm_num) (by norm_num)]
  all_goals norm_num [zpow_neg]

/-- The last node of the rule with 50 points. -/
theorem rnd_last_49 : rnd (49 * rnd (1 / 49)) = 1 - uro := by
  rw [rnd_49, uro_eq, rnd_down (x := 49 * (5882252574524729 / 2 ^ 58)) (2 ^ 53 - 1) (-53) (by norm_num)
    (by norm_num)]
  all_goals norm_num [zpow_neg]

end IntegratorXX
