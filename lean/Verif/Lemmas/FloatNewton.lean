import Verif.Lemmas.FloatLegendre
import Verif.Lemmas.NewtonWide

/-!
# Newton steps of GaussLegendre in `double` arithmetic
-/

namespace IntegratorXX

open Polynomial Spec Set Real

local notation "P" => legendre

variable {L : Libm}

/-! ## Relative errors of quantities of any sign -/

theorem near_mul {a b : F64 L} {x y p q : ℝ} (ha : Near a x (p * |x|)) (hb : Near b y (q * |y|))
    (hp : 0 ≤ p) (hq : 0 ≤ q) (hp1 : p ≤ 1 / 100) (hq1 : q ≤ 1 / 100) (hm : Mid (x * y)) :
    Near (a * b) (x * y) ((101 / 100 * (p + q) + 2 * uro) * |x * y|) := by
  have hu := uro_pos
  obtain ⟨v, rfl, hv, hvx⟩ := ha
  obtain ⟨w, rfl, hw, hwy⟩ := hb
  rw [F64.fin_mul]
  have h := abs_mul_sub hvx hwy hp
  have hpq : p * q ≤ p * (1 / 100) := by gcongr
  have hpq' : p * q ≤ 1 / 100 * q := by gcongr
  refine (of_relA (p := p + q + p * q) h (by positivity) (by linarith) hm).mono ?_
  refine mul_le_mul_of_nonneg_right ?_ (abs_nonneg _)
  linarith

theorem near_div {a b : F64 L} {x y p q : ℝ} (ha : Near a x (p * |x|)) (hb : Near b y (q * |y|))
    (hp : 0 ≤ p) (hq : 0 ≤ q) (hp1 : p ≤ 1 / 200) (hq1 : q ≤ 1 / 200) (hy : y ≠ 0) (hm : Mid (x / y)) :
    Near (a / b) (x / y) ((101 / 100 * (p + q) + 2 * uro) * |x / y|) := by
  have hu := uro_pos
  obtain ⟨v, rfl, hv, hvx⟩ := ha
  obtain ⟨w, rfl, hw, hwy⟩ := hb
  have hy0 := abs_pos.2 hy
  have hqy : q * |y| ≤ 1 / 200 * |y| := by gcongr
  have hwl : 199 / 200 * |y| ≤ |w| := by
    have := abs_sub_abs_le_abs_sub y w
    rw [abs_sub_comm] at this
    linarith
  have hw0 : w ≠ 0 := by
    intro h
    rw [h, abs_zero] at hwl
    linarith
  rw [F64.fin_div _ hw0]
  refine (of_relA (p := 101 / 100 * (p + q)) ?_ (by positivity) (by linarith) hm).mono ?_
  · have ee : v / w - x / y = ((v - x) * y - x * (w - y)) / (w * y) := by
      field_simp
      ring
    have hwy0 : 0 < |w * y| := abs_pos.2 (mul_ne_zero hw0 hy)
    rw [ee, abs_div, div_le_iff₀ hwy0]
    have e2 : 101 / 100 * (p + q) * |x / y| * |w * y| = 101 / 100 * (p + q) * |x| * |w| := by
      rw [abs_div, abs_mul]
      field_simp
    rw [e2]
    calc |(v - x) * y - x * (w - y)| ≤ |v - x| * |y| + |x| * |w - y| := by
          refine (abs_sub _ _).trans ?_
          rw [abs_mul, abs_mul]
      _ ≤ p * |x| * |y| + |x| * (q * |y|) := by gcongr
      _ = (p + q) * |x| * |y| := by ring
      _ ≤ 101 / 100 * (p + q) * |x| * (199 / 200 * |y|) := by
          have : 0 ≤ (p + q) * |x| * |y| := by positivity
          linarith
      _ ≤ _ := by gcongr
  · refine mul_le_mul_of_nonneg_right ?_ (abs_nonneg _)
    linarith

/-- Division by a quantity with a small relative error, the numerator having an absolute error. -/
theorem near_div_abs {v x g y e q : ℝ} (hv : |v - x| ≤ e) (hg : |g - y| ≤ q * |y|) (hy : y ≠ 0)
    (hq : 0 ≤ q) (hq1 : q ≤ 1 / 100) :
    g ≠ 0 ∧ |v / g - x / y| ≤ 100 / 99 * (e / |y|) + 100 / 99 * q * |x / y| := by
  have hy0 := abs_pos.2 hy
  have hqy : q * |y| ≤ 1 / 100 * |y| := by gcongr
  have hgl : 99 / 100 * |y| ≤ |g| := by
    have := abs_sub_abs_le_abs_sub y g
    rw [abs_sub_comm] at this
    linarith
  have hg0 : g ≠ 0 := by
    intro h
    rw [h, abs_zero] at hgl
    linarith
  refine ⟨hg0, ?_⟩
  have he : 0 ≤ e := (abs_nonneg _).trans hv
  have hgp := abs_pos.2 hg0
  have ee : v / g - x / y = (v - x) / g - x / y * ((g - y) / g) := by
    field_simp
    ring
  rw [ee]
  refine (abs_sub _ _).trans ?_
  rw [abs_mul, abs_div, abs_div (g - y)]
  have h1 : |v - x| / |g| ≤ 100 / 99 * (e / |y|) := by
    rw [div_le_iff₀ hgp]
    have e1 : e = e / |y| * |y| := by field_simp
    have := mul_le_mul_of_nonneg_left hgl (by positivity : 0 ≤ 100 / 99 * (e / |y|))
    linarith
  have h2 : |g - y| / |g| ≤ 100 / 99 * q := by
    rw [div_le_iff₀ hgp]
    have := mul_le_mul_of_nonneg_left hgl (by positivity : 0 ≤ 100 / 99 * q)
    linarith
  have := mul_le_mul_of_nonneg_left h2 (abs_nonneg (x / y))
  linarith

/-! ## The values at an iterate -/

/-- Errors of the three values at a point inside (-1, 1). -/
theorem evalPn_double {n : ℕ} (hn2 : n ≤ 2 ^ 20) {z σ : ℝ} (hz : IsF64 z) (hσ0 : 0 < σ)
    (hσ : σ ^ 2 = 1 - z ^ 2) :
    ∃ v w : ℝ, (evalPn (F64.fin z : F64 L) n).1 = F64.fin v ∧
      (evalPn (F64.fin z : F64 L) n).2.2 = F64.fin w ∧ IsF64 v ∧ IsF64 w ∧
      |v - (P n).eval z| ≤ 8 * n * uro / σ ∧ |v - (P n).eval z| ≤ 8 * n ^ 2 * uro ∧ |v| ≤ 65 / 64 ∧
      |w| ≤ 65 / 64 ∧
      Near ((F64.fin z : F64 L) * F64.fin v - F64.fin w) (z * (P n).eval z - legPrev n z)
        ((8 * n + 4) * uro) := by
  have hu := uro_pos
  have hu' := uro_lt
  have ht : (2⁻¹ : ℝ) ^ 200 ≤ uro / 100 := by rw [uro_eq]; norm_num
  have hz1 : |z| ≤ 1 := by
    rw [← sq_le_one_iff_abs_le_one]
    have := sq_nonneg σ
    linarith
  obtain ⟨v, w, e1, e2, hv, hw, hN, hev, hew⟩ := pn_double (L := L) hz hz1 n hn2
  have hnr : (n : ℝ) ≤ 2 ^ 20 := by exact_mod_cast hn2
  have hn0 : (0 : ℝ) ≤ n := Nat.cast_nonneg n
  have hs : 8 * (n : ℝ) ^ 2 * uro ≤ 1 / 1000 := by
    have : (n : ℝ) ^ 2 ≤ (2 ^ 20) ^ 2 := pow_le_pow_left₀ hn0 hnr 2
    have := mul_le_mul_of_nonneg_right this hu.le
    rw [uro_eq] at this ⊢
    norm_num at this
    linarith
  have hPn := legendre_abs_le_one n hz1
  have hPm : |legPrev n z| ≤ 1 := by
    unfold legPrev
    split_ifs
    · simp
    · exact legendre_abs_le_one _ hz1
  have hv1 : |v| ≤ 65 / 64 := by
    have := abs_add_le (v - (P n).eval z) ((P n).eval z)
    rw [sub_add_cancel] at this
    linarith
  have hw1 : |w| ≤ 65 / 64 := by
    have := abs_add_le (w - legPrev n z) (legPrev n z)
    rw [sub_add_cancel] at this
    linarith
  refine ⟨v, w, ?_, ?_, hv, hw, ?_, hev, hv1, hw1, ?_⟩
  · rw [evalPn_eq]; exact e1
  · rw [evalPn_eq]; exact e2
  · have := sqrt_mul_abs_le_recNorm hz1 (v - (P n).eval z) (w - legPrev n z)
    rw [← hσ, sqrt_sq hσ0.le] at this
    rw [le_div_iff₀ hσ0]
    linarith
  · have hzv : |z * v| ≤ 65 / 64 := by
      rw [abs_mul]
      exact (mul_le_of_le_one_left (abs_nonneg _) hz1).trans hv1
    have A := Near.mul (L := L) (near_self hz) (near_self hv) (X := 1) (Y := 65 / 64) (B := 65 / 64) hz1 hv1
      (by linarith) (by norm_num)
    have hzw : |z * v - w| ≤ 65 / 32 := (abs_sub _ _).trans (by linarith)
    have B := Near.sub A (near_self hw) (B := 21 / 10) (by linarith) (by norm_num)
    obtain ⟨d, hd, hdf, hd1⟩ := B
    refine ⟨d, hd, hdf, ?_⟩
    have h1 := abs_le_recNorm' hz1 (v - (P n).eval z) (w - legPrev n z)
    have e : d - (z * (P n).eval z - legPrev n z) =
        (d - (z * v - w)) + (z * (v - (P n).eval z) - (w - legPrev n z)) := by ring
    rw [e]
    refine (abs_add_le _ _).trans ?_
    linarith

set_option maxHeartbeats 400000 in
/-- A Newton step. -/
theorem gl_step_double {n : ℕ} (hn : 1 ≤ n) (hn2 : n ≤ 2 ^ 20) {z σ Λ κ : ℝ} (hz : IsF64 z) (hσ0 : 0 < σ)
    (hσ : σ ^ 2 = 1 - z ^ 2) (hΛ1 : 1 ≤ Λ) (hΛ2 : Λ ≤ 2 ^ 30)
    (hd : n ≤ |(derivative (P n)).eval z| * σ * Λ)
    (hκ : κ = (8 * n + 4) * uro * Λ / σ + 5 * uro / σ ^ 2) (hκ1 : κ ≤ 1 / 400)
    (hs1 : |(P n).eval z / (derivative (P n)).eval z| ≤ 1) :
    ∃ g z' : ℝ, (evalPn (F64.fin z : F64 L) n).2.1 = F64.fin g ∧ IsF64 g ∧
      |g - (derivative (P n)).eval z| ≤ 2 * κ * |(derivative (P n)).eval z| ∧
      F64.fin z - (evalPn (F64.fin z : F64 L) n).1 / (evalPn (F64.fin z : F64 L) n).2.1 = F64.fin z' ∧
      IsF64 z' ∧
      |z' - (z - (P n).eval z / (derivative (P n)).eval z)| ≤
        9 * uro * Λ + 3 * κ * |(P n).eval z / (derivative (P n)).eval z| + 4 * uro := by
  have hu := uro_pos
  have hu' := uro_lt
  have ht : (2⁻¹ : ℝ) ^ 200 ≤ uro / 100 := by rw [uro_eq]; norm_num
  have hn0 : (1 : ℝ) ≤ n := by exact_mod_cast hn
  have hnr : (n : ℝ) ≤ 2 ^ 20 := by exact_mod_cast hn2
  have hσ2 : 0 < σ ^ 2 := by positivity
  have hσ1 : σ ≤ 1 := by
    have := sq_nonneg z
    nlinarith
  have hz1 : |z| ≤ 1 := by
    rw [← sq_le_one_iff_abs_le_one]
    linarith
  have hzsq : z ^ 2 ≠ 1 := by
    intro h
    rw [h, sub_self] at hσ
    linarith
  have hκa : 0 ≤ (8 * n + 4) * uro * Λ / σ := by positivity
  have hκb : 0 < 5 * uro / σ ^ 2 := by positivity
  have hκ0 : 0 < κ := by linarith
  -- σ is not too small
  have hσl : 2⁻¹ ^ 22 ≤ σ := by
    have h1 : 5 * uro / σ ^ 2 ≤ 1 / 400 := by linarith
    rw [div_le_iff₀ hσ2, uro_eq] at h1
    refine le_of_sq_le_sq ?_ hσ0.le
    have : ((2⁻¹ : ℝ) ^ 22) ^ 2 ≤ 400 * 5 * (1 / 9007199254740992) := by norm_num
    linarith
  obtain ⟨v, w, e1, e2, hv, hw, hev, -, hv1, hw1, hq⟩ := evalPn_double (L := L) hn2 hz hσ0 hσ
  have hder := legendre_deriv_eval n z hzsq
  set p := (P n).eval z with hp
  set p' := (derivative (P n)).eval z with hp'
  set q := z * p - legPrev n z with hqdef
  have hp'0 : p' ≠ 0 := by
    intro h
    rw [h, abs_zero, zero_mul, zero_mul] at hd
    linarith
  have hp'a := abs_pos.2 hp'0
  have hzz : z * z - 1 = -σ ^ 2 := by rw [hσ]; ring
  have habs : |p'| = |q| * (n / σ ^ 2) := by
    rw [hder, hzz, abs_mul, abs_div, abs_neg, abs_of_pos hσ2, Nat.abs_cast]
  have hqa : σ / Λ ≤ |q| := by
    rw [div_le_iff₀ (by linarith)]
    have h1 : (n : ℝ) * σ ≤ |q| * Λ * n := by
      have e : |p'| * σ * Λ * σ = |q| * Λ * n := by
        rw [habs]; field_simp
      have := mul_le_mul_of_nonneg_right hd hσ0.le
      linarith
    have h2 : (n : ℝ) * σ ≤ n * (|q| * Λ) := by linarith
    exact le_of_mul_le_mul_left h2 (by linarith)
  have hq0 : 0 < |q| := lt_of_lt_of_le (by positivity) hqa
  have hq2 : |q| ≤ 2 := by
    have h1 := legendre_abs_le_one n hz1
    have hPm : |legPrev n z| ≤ 1 := by
      unfold legPrev
      split_ifs
      · simp
      · exact legendre_abs_le_one _ hz1
    have h2 : |z * p| ≤ 1 := by
      rw [abs_mul]
      exact (mul_le_of_le_one_left (abs_nonneg _) hz1).trans h1
    exact (abs_sub _ _).trans (by linarith)
  -- the quotient n / (z² - 1)
  have hD : Near ((F64.fin z : F64 L) * F64.fin z - Arith.lit 1) (z * z - 1) (3 * uro) := by
    have A := Near.mul (L := L) (near_self hz) (near_self hz) (X := 1) (Y := 1) (B := 1) hz1 hz1
      (by
        rw [abs_mul]
        have := mul_le_one₀ hz1 (abs_nonneg z) hz1
        linarith) (by norm_num)
    have l1 := lit_one (L := L)
    rw [l1.1]
    have hab : |z * z - 1| ≤ 1 := by
      rw [hzz, abs_neg, abs_of_pos hσ2]
      exact pow_le_one₀ hσ0.le hσ1
    exact (Near.sub A (near_self l1.2) (B := 11 / 10) (by linarith) (by norm_num)).mono (by linarith)
  have hDr : Near ((F64.fin z : F64 L) * F64.fin z - Arith.lit 1) (z * z - 1)
      (3 * uro / σ ^ 2 * |z * z - 1|) := by
    rw [hzz, abs_neg, abs_of_pos hσ2, div_mul_cancel₀ _ hσ2.ne', ← hzz]
    exact hD
  have hN : Near (Arith.ofNat n : F64 L) n (0 * |(n : ℝ)|) := by
    rw [zero_mul]
    exact near_nat (by omega)
  have hbig : (n : ℝ) / σ ^ 2 ≤ 2 ^ 64 := by
    rw [div_le_iff₀ hσ2]
    have h1 := pow_le_pow_left₀ (by positivity) hσl 2
    have h2 : (2 : ℝ) ^ 20 ≤ 2 ^ 64 * ((2⁻¹ : ℝ) ^ 22) ^ 2 := by norm_num
    have h3 := mul_le_mul_of_nonneg_left h1 (by positivity : (0 : ℝ) ≤ 2 ^ 64)
    linarith
  have hlow : 1 ≤ (n : ℝ) / σ ^ 2 := by
    rw [le_div_iff₀ hσ2]
    have := pow_le_one₀ (n := 2) hσ0.le hσ1
    linarith
  have eabs : |(n : ℝ) / (z * z - 1)| = n / σ ^ 2 := by
    rw [hzz, abs_div, abs_neg, abs_of_pos hσ2, Nat.abs_cast]
  have hσκ : 5 * uro / σ ^ 2 ≤ 1 / 400 := by linarith
  have h35 : 3 * uro / σ ^ 2 = 3 / 5 * (5 * uro / σ ^ 2) := by ring
  have hG := near_div hN hDr le_rfl (by positivity) (by norm_num) (by rw [h35]; linarith)
    (by rw [hzz]; exact neg_ne_zero.2 hσ2.ne') (by
      refine ⟨?_, ?_⟩
      · rw [eabs]; exact le_trans (by norm_num) hlow
      · rw [eabs]; exact hbig.trans (by norm_num))
  -- the derivative
  have hqr : Near ((F64.fin z : F64 L) * F64.fin v - F64.fin w) q ((8 * n + 4) * uro * Λ / σ * |q|) := by
    refine hq.mono ?_
    have h1 := mul_le_mul_of_nonneg_left hqa (by positivity : 0 ≤ (8 * (n : ℝ) + 4) * uro * Λ / σ)
    have e : (8 * (n : ℝ) + 4) * uro * Λ / σ * (σ / Λ) = (8 * n + 4) * uro := by
      have : Λ ≠ 0 := by linarith
      field_simp
    linarith
  have hσκ' : uro ≤ uro / σ ^ 2 := by
    rw [le_div_iff₀ hσ2]
    exact mul_le_of_le_one_right hu.le (pow_le_one₀ hσ0.le hσ1)
  have h5 : 5 * uro / σ ^ 2 = 5 * (uro / σ ^ 2) := by ring
  have hG' := hG.mono (f := 51 / 50 * (5 * uro / σ ^ 2) * |(n : ℝ) / (z * z - 1)|)
    (mul_le_mul_of_nonneg_right (by rw [h35, h5]; linarith) (abs_nonneg _))
  have hprod : q * ((n : ℝ) / (z * z - 1)) = p' := hder.symm
  have hMid : Mid (q * ((n : ℝ) / (z * z - 1))) := by
    refine ⟨?_, ?_⟩
    · rw [abs_mul, eabs]
      have h1 : (2⁻¹ : ℝ) ^ 60 ≤ |q| := by
        refine le_trans ?_ hqa
        rw [le_div_iff₀ (by linarith)]
        have h2 : (2⁻¹ : ℝ) ^ 60 * Λ ≤ 2⁻¹ ^ 60 * 2 ^ 30 := mul_le_mul_of_nonneg_left hΛ2 (by positivity)
        have h3 : (2⁻¹ : ℝ) ^ 60 * 2 ^ 30 ≤ 2⁻¹ ^ 22 := by norm_num
        linarith
      have h4 := mul_le_mul h1 hlow zero_le_one (abs_nonneg _)
      refine le_trans ?_ h4
      norm_num
    · rw [abs_mul, eabs]
      have := mul_le_mul hq2 hbig (by linarith) (by norm_num)
      refine this.trans ?_
      norm_num
  have hdp := near_mul hqr hG' hκa (by positivity) (by linarith) (by linarith) hMid
  rw [hprod] at hdp
  obtain ⟨g, hg, hgf, hg1⟩ := hdp
  have hgκ : |g - p'| ≤ 2 * κ * |p'| := by
    refine hg1.trans (mul_le_mul_of_nonneg_right ?_ (abs_nonneg _))
    rw [hκ]
    rw [h5] at *
    linarith
  have hdpeq : (evalPn (F64.fin z : F64 L) n).2.1 = F64.fin g := by
    rw [← hg]
    rw [evalPn_eq] at e1 e2 ⊢
    dsimp only at e1 e2 ⊢
    rw [e1, e2]
  -- the correction
  obtain ⟨hg0, hdiv⟩ := near_div_abs (v := v) (x := p) (g := g) (y := p') hev hgκ hp'0 (by linarith) (by linarith)
  have hfirst : 8 * n * uro / σ / |p'| ≤ 8 * uro * Λ := by
    rw [div_div, div_le_iff₀ (by positivity)]
    have := mul_le_mul_of_nonneg_left hd (by positivity : 0 ≤ 8 * uro)
    linarith
  have hΛu : uro ≤ uro * Λ := by
    have := mul_le_mul_of_nonneg_left hΛ1 hu.le
    linarith
  have hΛs : uro * Λ ≤ 1 / 1000 := by
    have h1 := mul_le_mul_of_nonneg_left hΛ2 hu.le
    have h2 : uro * 2 ^ 30 ≤ 1 / 1000 := by rw [uro_eq]; norm_num
    linarith
  have hκs : κ * |p / p'| ≤ κ := mul_le_of_le_one_right hκ0.le hs1
  have hκs0 : 0 ≤ κ * |p / p'| := by positivity
  have hS : Near ((F64.fin v : F64 L) / F64.fin g) (p / p')
      (100 / 99 * (8 * uro * Λ) + 100 / 99 * (2 * κ) * |p / p'| + uro * (11 / 10) + 2⁻¹ ^ 200) := by
    rw [F64.fin_div _ hg0]
    refine of_near (le_trans hdiv ?_) ?_ (by norm_num)
    · have := mul_le_mul_of_nonneg_left hfirst (by norm_num : (0 : ℝ) ≤ 100 / 99)
      linarith
    · linarith
  have hzs : |z - p / p'| ≤ 2 := (abs_sub _ _).trans (by linarith)
  have hZ := Near.sub (L := L) (near_self hz) hS (B := 21 / 10) (by linarith) (by norm_num)
  obtain ⟨z', hz', hzf', hz1'⟩ := hZ
  refine ⟨g, z', hdpeq, hgf, hgκ, ?_, hzf', ?_⟩
  · rw [hdpeq, e1]
    exact hz'
  · refine hz1'.trans ?_
    linarith

end IntegratorXX
