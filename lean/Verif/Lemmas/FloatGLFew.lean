import Verif.Lemmas.FloatGLOne

/-!
# GaussLegendre with two and three points in `double` arithmetic

Here the rounding errors of a step are bounded binade by binade, which is sharp enough for the acceptance
test of the iteration.
-/

namespace IntegratorXX

open Polynomial Spec Set Real

variable {L : Libm}

local notation "P" => legendre

/-! ## Rounding in a binade -/

theorem rnd_err_lt {x : ℝ} {e : ℤ} (h : |x| < 2 ^ e) (he : -1000 ≤ e) : |rnd x - x| ≤ 2 ^ (e - 54) := by
  by_cases h0 : x = 0
  · rw [h0, rnd_zero, sub_zero, abs_zero]
    positivity
  refine (abs_rnd_sub x).trans ?_
  have h1 : Int.log 2 |x| < e := by
    have := (zpow_log_le h0).trans_lt h
    exact (zpow_lt_zpow_iff_right₀ (by norm_num : (1 : ℝ) < 2)).1 this
  have h2 : ulp x ≤ 2 ^ (e - 53) := by
    unfold ulp ulpExp
    exact two_zpow_mono (by omega)
  have h3 : (2 : ℝ) ^ (e - 53) = 2 ^ (e - 54) * 2 := by
    rw [show e - 53 = e - 54 + 1 by ring, zpow_add_one₀ (by norm_num)]
  linarith

theorem rnd_err4 {x : ℝ} (h : |x| < 4) : |rnd x - x| ≤ 2 * uro := by
  have := rnd_err_lt (x := x) (e := 2) (by norm_num; exact h) (by norm_num)
  rw [uro_eq]
  norm_num at this ⊢
  exact this

theorem rnd_err2 {x : ℝ} (h : |x| < 2) : |rnd x - x| ≤ uro := by
  have := rnd_err_lt (x := x) (e := 1) (by norm_num; exact h) (by norm_num)
  rw [uro_eq]
  norm_num at this ⊢
  exact this

theorem rnd_err1 {x : ℝ} (h : |x| < 1) : |rnd x - x| ≤ uro / 2 := by
  have := rnd_err_lt (x := x) (e := 0) (by norm_num; exact h) (by norm_num)
  rw [uro_eq]
  norm_num at this ⊢
  exact this

theorem rnd_err_eighth {x : ℝ} (h : |x| < 1 / 8) : |rnd x - x| ≤ uro / 16 := by
  have := rnd_err_lt (x := x) (e := -3) (by norm_num; exact h) (by norm_num)
  rw [uro_eq]
  norm_num at this ⊢
  exact this

/-- Numbers of size at least `2^e` are multiples of `2^(e-52)`. -/
theorem grid_of {x : ℝ} {e : ℤ} (hx : rnd x = x) (lo : (2 : ℝ) ^ e ≤ |x|) : ∃ m : ℤ, x = m * (2 : ℝ) ^ (e - 52) := by
  have hx0 : x ≠ 0 := by
    intro h
    rw [h, abs_zero] at lo
    have : (0 : ℝ) < 2 ^ e := by positivity
    linarith
  have h1 : e ≤ Int.log 2 |x| := by
    have := lo.trans_lt (lt_zpow_log x)
    have := (zpow_lt_zpow_iff_right₀ (by norm_num : (1 : ℝ) < 2)).1 this
    omega
  have h2 : e - 52 ≤ ulpExp x := by unfold ulpExp; omega
  refine ⟨rne (x / ulp x) * 2 ^ (ulpExp x - (e - 52)).toNat, ?_⟩
  conv_lhs => rw [← hx]
  unfold rnd
  push_cast
  rw [mul_assoc]
  congr 1
  rw [← zpow_natCast, Int.toNat_of_nonneg (by omega), ← zpow_add₀ (by norm_num)]
  unfold ulp
  congr 1
  ring

theorem of_fin_small {t : ℝ} (h : |t| < 4) : (F64.of t : F64 L) = F64.fin (rnd t) ∧ IsF64 (rnd t) := by
  have hb : |t| ≤ f64Big := by
    have := le_f64Big
    have : (4 : ℝ) ≤ 2 ^ 201 := by norm_num
    linarith
  exact ⟨F64.of_fin hb, isF64_rnd hb⟩

open Classical in
/-- Different numbers between 1/2 and 1 that differ by less than three units pass the acceptance test. -/
theorem accept_grid {x y : ℝ} (hx : IsF64 x) (hy : IsF64 y) (hx1 : 1 / 2 ≤ x) (hy1 : 1 / 2 ≤ y)
    (h : |x - y| < 3 * uro) :
    Arith.le (Arith.abs ((F64.fin x : F64 L) - F64.fin y)) Arith.eps = true := by
  obtain ⟨m, hm⟩ := grid_of (e := -1) hx.1 (by rw [abs_of_pos (by linarith)]; norm_num; linarith)
  obtain ⟨k, hk⟩ := grid_of (e := -1) hy.1 (by rw [abs_of_pos (by linarith)]; norm_num; linarith)
  have hz : (2 : ℝ) ^ (-1 - 52 : ℤ) = uro := by rw [uro_eq]; norm_num
  rw [hz] at hm hk
  have hu := uro_pos
  have hd : x - y = ((m - k : ℤ) : ℝ) * uro := by rw [hm, hk]; push_cast; ring
  have hmk : |m - k| ≤ 2 := by
    rw [hd, abs_mul, abs_of_pos hu] at h
    have h2 : |((m - k : ℤ) : ℝ)| < 3 := lt_of_mul_lt_mul_right h hu.le
    have h3 : ((|m - k| : ℤ) : ℝ) < ((3 : ℤ) : ℝ) := by rw [Int.cast_abs]; exact_mod_cast h2
    have := Int.cast_lt.1 h3
    omega
  have hle : |x - y| ≤ 2⁻¹ ^ 52 := by
    rw [hd, abs_mul, abs_of_pos hu, ← Int.cast_abs]
    have : ((|m - k| : ℤ) : ℝ) ≤ ((2 : ℤ) : ℝ) := Int.cast_le.2 hmk
    have e : (2⁻¹ : ℝ) ^ 52 = 2 * uro := by rw [uro_eq]; norm_num
    rw [e]
    push_cast at this ⊢
    gcongr
  have h7 : |rnd (x - y)| ≤ 2⁻¹ ^ 52 := by
    rw [abs_rnd]
    refine rnd_le ?_ hle
    have := rnd_two_zpow (e := -52) (by norm_num)
    rw [inv_pow, ← zpow_natCast, ← zpow_neg]
    exact_mod_cast this
  have hlt4 : |x - y| < 4 := by
    have : (2⁻¹ : ℝ) ^ 52 < 4 := by norm_num
    linarith
  rw [F64.fin_sub, (of_fin_small (L := L) hlt4).1]
  have h8 : XReal.Lt (XReal.fin |rnd (x - y)|) (XReal.fin ((2 : ℝ)⁻¹ ^ 52)) ∨
      XReal.Eq' (XReal.fin |rnd (x - y)|) (XReal.fin ((2 : ℝ)⁻¹ ^ 52)) := by
    rcases h7.lt_or_eq with h9 | h9
    · exact .inl h9
    · exact .inr h9
  show decide (XReal.Lt (XReal.fin |rnd (x - y)|) (XReal.fin ((2 : ℝ)⁻¹ ^ 52)) ∨
    XReal.Eq' (XReal.fin |rnd (x - y)|) (XReal.fin ((2 : ℝ)⁻¹ ^ 52))) = true
  exact decide_eq_true h8

/-! ## A Newton step from a bound of the error of the value -/

/-- One step, when the value of the polynomial has the error `e`. -/
theorem step_from {n : ℕ} (hn : 1 ≤ n) (hn2 : n ≤ 2 ^ 20) {z σ Λ κ v e : ℝ} (hz : IsF64 z) (hσ0 : 0 < σ)
    (hσ : σ ^ 2 = 1 - z ^ 2) (hΛ1 : 1 ≤ Λ) (hΛ2 : Λ ≤ 2 ^ 30)
    (hd : n ≤ |(derivative (P n)).eval z| * σ * Λ)
    (hκ : κ = (8 * n + 4) * uro * Λ / σ + 5 * uro / σ ^ 2) (hκ1 : κ ≤ 1 / 400)
    (hs1 : |(P n).eval z / (derivative (P n)).eval z| ≤ 1 / 10) (hz9 : |z| ≤ 4 / 5)
    (hv : (evalPn (F64.fin z : F64 L) n).1 = F64.fin v) (hve : |v - (P n).eval z| ≤ e)
    (he : e / |(derivative (P n)).eval z| ≤ 2 * uro) :
    ∃ z' : ℝ, F64.fin z - (evalPn (F64.fin z : F64 L) n).1 / (evalPn (F64.fin z : F64 L) n).2.1 = F64.fin z' ∧
      IsF64 z' ∧ |z' - (z - (P n).eval z / (derivative (P n)).eval z)| ≤
        100 / 99 * (e / |(derivative (P n)).eval z|) + (uro / 2 + uro / 100) +
          (3 * κ + 2 * uro) * |(P n).eval z / (derivative (P n)).eval z| := by
  have hu := uro_pos
  have hu' := uro_lt
  have ht : (2⁻¹ : ℝ) ^ 200 ≤ uro / 1000 := by rw [uro_eq]; norm_num
  obtain ⟨g, -, hg, hgf, hg1, -⟩ := gl_step_double (L := L) hn hn2 hz hσ0 hσ hΛ1 hΛ2 hd hκ hκ1 (by linarith)
  have hn0 : (1 : ℝ) ≤ n := by exact_mod_cast hn
  set p := (P n).eval z with hp
  set p' := (derivative (P n)).eval z with hp'
  have hp'0 : p' ≠ 0 := by
    intro h
    rw [h, abs_zero, zero_mul, zero_mul] at hd
    linarith
  have hκ0 : 0 ≤ κ := by rw [hκ]; positivity
  obtain ⟨hg0, hq⟩ := near_div_abs (v := v) (x := p) (g := g) (y := p') hve hg1 hp'0 (by linarith) (by linarith)
  have hpp := abs_nonneg (p / p')
  have hq2 : |v / g - p / p'| ≤ 1 / 200 := by
    refine hq.trans ?_
    have h1 : 100 / 99 * (2 * κ) * |p / p'| ≤ 100 / 99 * (2 * (1 / 400)) * (1 / 10) := by gcongr
    linarith
  have hvg : |v / g| ≤ |p / p'| + |v / g - p / p'| := by
    have := abs_add_le (v / g - p / p') (p / p')
    rw [sub_add_cancel] at this
    linarith
  have hs := of_near (L := L) (t := v / g) (z := p / p') (B := |p / p'| + |v / g - p / p'|) le_rfl le_rfl
    (by have : (1 : ℝ) ≤ 2 ^ 200 := by norm_num
        linarith)
  obtain ⟨s, hs1', hsf, hs2⟩ := hs
  rw [hv, hg, F64.fin_div _ hg0, hs1', F64.fin_sub]
  have hE0 := abs_nonneg (v / g - p / p')
  have hsa : |s| ≤ 1 / 8 := by
    have h1 := abs_add_le (s - p / p') (p / p')
    rw [sub_add_cancel] at h1
    have h2 : uro * (|p / p'| + |v / g - p / p'|) ≤ 1 / 1000 * (1 / 10 + 1 / 200) := by gcongr
    linarith
  have hzs : |z - s| < 1 := by
    have := abs_sub z s
    linarith
  have hr := rnd_err1 hzs
  obtain ⟨ho, hof⟩ := of_fin_small (L := L) (t := z - s) (by linarith)
  refine ⟨_, ho, hof, ?_⟩
  have e1 : rnd (z - s) - (z - p / p') = (rnd (z - s) - (z - s)) - (s - p / p') := by ring
  rw [e1]
  refine (abs_sub _ _).trans ?_
  have h3 : uro * |v / g - p / p'| ≤ uro * (1 / 200) := by gcongr
  have h4 : 0 ≤ κ * |p / p'| := by positivity
  have h5 : 0 ≤ uro * |p / p'| := by positivity
  linarith

/-- Chaining the steps of the iteration. -/
theorem glNewton_step {n it : ℕ} {r C d b β β' : ℝ} {z : ℝ}
    (hstep : ∀ z : ℝ, IsF64 z → |z - r| ≤ b → ∃ z' : ℝ,
      F64.fin z - (evalPn (F64.fin z : F64 L) n).1 / (evalPn (F64.fin z : F64 L) n).2.1 = F64.fin z' ∧ IsF64 z' ∧
        |z' - r| ≤ C * |z - r| ^ 2 + (d + 400 * |z - r|) * uro)
    (hC : 0 ≤ C) (hz : IsF64 z) (hz1 : |z - r| ≤ β) (hβ : β ≤ b) (hβ' : C * β ^ 2 + (d + 400 * β) * uro ≤ β')
    (ih : ∀ z' : ℝ, IsF64 z' → |z' - r| ≤ β' → glNewton n it (F64.fin z' : F64 L) ≠ none) :
    glNewton n (it + 1) (F64.fin z : F64 L) ≠ none := by
  have hu := uro_pos
  obtain ⟨z', e1, f1, b1⟩ := hstep z hz (hz1.trans hβ)
  have b2 : |z' - r| ≤ β' := by
    refine b1.trans (le_trans ?_ hβ')
    gcongr
  unfold glNewton
  dsimp only
  rw [e1]
  split_ifs
  · simp
  · exact ih z' f1 b2

/-- The last step is accepted. -/
theorem glNewton_last {n it : ℕ} {r C d b β : ℝ} {z : ℝ}
    (hstep : ∀ z : ℝ, IsF64 z → |z - r| ≤ b → ∃ z' : ℝ,
      F64.fin z - (evalPn (F64.fin z : F64 L) n).1 / (evalPn (F64.fin z : F64 L) n).2.1 = F64.fin z' ∧ IsF64 z' ∧
        |z' - r| ≤ C * |z - r| ^ 2 + (d + 400 * |z - r|) * uro)
    (hC : 0 ≤ C) (hz : IsF64 z) (hz1 : |z - r| ≤ β) (hβ : β ≤ b)
    (hβ' : C * β ^ 2 + (d + 400 * β) * uro + β < 3 * uro) (hr : 51 / 100 ≤ r) :
    glNewton n (it + 1) (F64.fin z : F64 L) ≠ none := by
  have hu := uro_pos
  have hu' := uro_lt
  obtain ⟨z', e1, f1, b1⟩ := hstep z hz (hz1.trans hβ)
  have hβ0 : 0 ≤ β := (abs_nonneg _).trans hz1
  have b2 : |z' - r| ≤ C * β ^ 2 + (d + 400 * β) * uro := by
    refine b1.trans ?_
    gcongr
  unfold glNewton
  dsimp only
  rw [e1, if_pos]
  · simp
  · have h1 := abs_le.1 hz1
    have h2 := abs_le.1 b2
    have h0 : 0 ≤ C * β ^ 2 + (d + 400 * β) * uro := (abs_nonneg _).trans b2
    refine accept_grid f1 hz (by linarith) (by linarith) ?_
    have e : z' - z = (z' - r) - (z - r) := by ring
    rw [e]
    refine (abs_sub _ _).trans_lt ?_
    linarith

end IntegratorXX
