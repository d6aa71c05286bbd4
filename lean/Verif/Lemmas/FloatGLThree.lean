import Verif.Lemmas.FloatGLTwo

/-!
# GaussLegendre with three points in `double` arithmetic
-/

namespace IntegratorXX

open Polynomial Spec Set Real

variable {L : Libm}

local notation "P" => legendre

theorem legendre3 (z : ℝ) : (P 3).eval z = (5 * z ^ 3 - 3 * z) / 2 := by
  have := legendre_bonnet_eval 2 z
  rw [show (2 + 1 : ℕ) = 3 from rfl] at this
  rw [this, legendre2]
  simp [legPrev, legendre_one]
  ring

theorem legendre3' {z : ℝ} (hz : z ^ 2 ≠ 1) : (derivative (P 3)).eval z = (15 * z ^ 2 - 3) / 2 := by
  have hz' : z * z - 1 ≠ 0 := by
    intro h; apply hz; linarith [h, sq z]
  rw [legendre_deriv_eval 3 z hz, legendre3]
  simp only [legPrev]
  norm_num [legendre2]
  field_simp
  ring

/-- The value of `P_3` as computed. -/
theorem evalPn_three {z : ℝ} (hz : IsF64 z) (h1 : |3 * z| < 4) (h2 : |rnd (3 * z) * z| < 4)
    (h3 : |rnd (rnd (3 * z) * z) - 1| < 4) (h4 : |rnd (rnd (rnd (3 * z) * z) - 1) / 2| < 4) (h5 : |5 * z| < 4)
    (h6 : |rnd (5 * z) * rnd (rnd (rnd (rnd (3 * z) * z) - 1) / 2)| < 4) (h7 : |2 * z| < 4)
    (h8 : |rnd (rnd (5 * z) * rnd (rnd (rnd (rnd (3 * z) * z) - 1) / 2)) - rnd (2 * z)| < 4)
    (h9 : |rnd (rnd (rnd (5 * z) * rnd (rnd (rnd (rnd (3 * z) * z) - 1) / 2)) - rnd (2 * z)) / 3| < 4) :
    (evalPn (F64.fin z : F64 L) 3).1 =
      F64.fin (rnd (rnd (rnd (rnd (5 * z) * rnd (rnd (rnd (rnd (3 * z) * z) - 1) / 2)) - rnd (2 * z)) / 3)) := by
  obtain ⟨e1, e2⟩ := pnLoop_one (L := L) hz
  have l1 := lit_one (L := L)
  have l2 := lit_nat' (L := L) 2 (by norm_num)
  have l3 := lit_nat' (L := L) 3 (by norm_num)
  have a1 := two_nat_sub_one (L := L) 1 (by norm_num)
  have a2 := nat_sub_one (L := L) 1 (by norm_num)
  have b1 := two_nat_sub_one (L := L) 2 (by norm_num)
  have b2 := nat_sub_one (L := L) 2 (by norm_num)
  have f1 : (pnLoop (F64.fin z : F64 L) 2).1 = F64.fin (rnd (rnd (rnd (rnd (3 * z) * z) - 1) / 2)) ∧
      (pnLoop (F64.fin z : F64 L) 2).2.1 = F64.fin z := by
    rw [pnLoop_succ]
    dsimp only
    refine ⟨?_, e1⟩
    rw [e1, e2, a1, a2, l2.1]
    push_cast
    rw [(mulF (L := L) (x := 3) (y := z) h1).1, (mulF (L := L) h2).1]
    rw [F64.fin_mul 1 1, mul_one, of_self l1.2, (subF (L := L) h3).1, F64.fin_div _ (by norm_num)]
    exact (of_fin_small h4).1
  rw [evalPn_eq]
  dsimp only
  rw [pnLoop_succ]
  dsimp only
  rw [f1.1, f1.2, b1, b2, l3.1]
  push_cast
  rw [(mulF (L := L) (x := 5) (y := z) h5).1, (mulF (L := L) h6).1, (mulF (L := L) (x := 2) (y := z) h7).1,
    (subF (L := L) h8).1, F64.fin_div _ (by norm_num)]
  exact (of_fin_small h9).1

/-! ## The outer root -/

/-- `P_2` at a point near the outer root: only two of the operations round. -/
theorem value_three_two {z : ℝ} (h1 : 761 / 1000 ≤ z) (h2 : z ≤ 788 / 1000) :
    |3 * z| < 4 ∧ |rnd (3 * z) * z| < 4 ∧ |rnd (rnd (3 * z) * z) - 1| < 4 ∧
      |rnd (rnd (rnd (3 * z) * z) - 1) / 2| < 4 ∧
      |rnd (rnd (rnd (rnd (3 * z) * z) - 1) / 2) - (3 * z ^ 2 - 1) / 2| ≤ 1288 / 1000 * uro := by
  have hu := uro_pos
  have hu' : uro < 1 / 1000000 := by rw [uro_eq]; norm_num
  have hz0 : 0 < z := by linarith
  have hz2 : 579 / 1000 ≤ z ^ 2 := by nlinarith
  have hz3 : z ^ 2 ≤ 621 / 1000 := by nlinarith
  have a3 : |3 * z| < 4 := by rw [abs_of_pos (by linarith)]; linarith
  have hA := rnd_err4 a3
  have hA' := abs_le.1 hA
  generalize rnd (3 * z) = A at *
  have aB : |A * z| < 2 := by
    rw [abs_of_pos (mul_pos (by linarith) hz0)]
    nlinarith
  have hB := abs_le.1 (rnd_err2 aB)
  have hAz : |A * z - 3 * z ^ 2| ≤ 1576 / 1000 * uro := by
    have e : A * z - 3 * z ^ 2 = (A - 3 * z) * z := by ring
    rw [e, abs_mul, abs_of_pos hz0]
    have := mul_le_mul hA h2 hz0.le (by linarith)
    linarith
  have hAz' := abs_le.1 hAz
  have hBrnd := rnd_rnd (A * z)
  generalize rnd (A * z) = B at *
  obtain ⟨m, hm⟩ := grid_of (x := B) (e := 0) hBrnd (by rw [abs_of_pos (by linarith)]; norm_num; linarith)
  have hm' : B = m * (2⁻¹ : ℝ) ^ 52 := by rw [hm]; norm_num
  have hDe : B - 1 = ((m - 2 ^ 52 : ℤ) : ℝ) * (2 : ℝ) ^ (-52 : ℤ) := by
    rw [hm]
    push_cast
    norm_num
    ring
  have hmb : |m - 2 ^ 52| ≤ 2 ^ 52 := by
    have h3 : |((m - 2 ^ 52 : ℤ) : ℝ)| ≤ ((2 ^ 52 : ℤ) : ℝ) := by
      have e : ((m - 2 ^ 52 : ℤ) : ℝ) = (B - 1) * 2 ^ 52 := by
        rw [hm']
        push_cast
        norm_num
        ring
      rw [e, abs_mul, abs_of_pos (by linarith : 0 < B - 1), abs_of_pos (by positivity : (0 : ℝ) < 2 ^ 52)]
      push_cast
      nlinarith
    rw [← Int.cast_abs] at h3
    exact Int.cast_le.1 h3
  have hD : rnd (B - 1) = B - 1 := rnd_rep _ (-52) (hmb.trans (by norm_num)) (by norm_num) hDe
  have hV2 : rnd ((B - 1) / 2) = (B - 1) / 2 := by
    refine rnd_rep (m - 2 ^ 52) (-53) (hmb.trans (by norm_num)) (by norm_num) ?_
    rw [hDe]
    norm_num
    ring
  rw [hD, hV2]
  refine ⟨a3, by linarith, ?_, ?_, ?_⟩
  · rw [abs_lt]
    constructor <;> linarith
  · rw [abs_lt]
    constructor <;> linarith
  · rw [abs_le]
    constructor <;> linarith

theorem rnd_double {z : ℝ} (hz : IsF64 z) (h1 : 1 / 2 ≤ z) (h2 : z ≤ 1) : rnd (2 * z) = 2 * z := by
  obtain ⟨k, hk⟩ := grid_of (x := z) (e := -1) hz.1 (by rw [abs_of_pos (by linarith)]; norm_num; linarith)
  have hk' : (k : ℝ) = z * 2 ^ 53 := by
    rw [hk]
    norm_num
    ring
  refine rnd_rep k (-52) ?_ (by norm_num) ?_
  · have h3 : |(k : ℝ)| ≤ ((2 ^ 53 : ℤ) : ℝ) := by
      rw [hk', abs_of_pos (by positivity)]
      push_cast
      nlinarith
    rw [← Int.cast_abs] at h3
    exact Int.cast_le.1 h3
  · rw [hk']
    norm_num
    ring

theorem value_three_end {z V : ℝ} (h1 : 761 / 1000 ≤ z) (h2 : z ≤ 788 / 1000)
    (hV : |V - (3 * z ^ 2 - 1) / 2| ≤ 1288 / 1000 * uro) :
    |5 * z| < 4 ∧ |rnd (5 * z) * V| < 4 ∧ |rnd (rnd (5 * z) * V) - 2 * z| < 4 ∧
      |rnd (rnd (rnd (5 * z) * V) - 2 * z) / 3| < 4 ∧
      |rnd (rnd (rnd (rnd (5 * z) * V) - 2 * z) / 3) - (5 * z ^ 3 - 3 * z) / 2| ≤ 24 / 10 * uro := by
  have hu := uro_pos
  have hu' : uro < 1 / 1000000 := by rw [uro_eq]; norm_num
  have hz0 : 0 < z := by linarith
  have hz2 : 579 / 1000 ≤ z ^ 2 := by nlinarith
  have hz3 : z ^ 2 ≤ 621 / 1000 := by nlinarith
  have hV2b := abs_le.1 hV
  have a5 : |5 * z| < 4 := by rw [abs_of_pos (by linarith)]; linarith
  have hA5 := rnd_err4 a5
  have hA5' := abs_le.1 hA5
  generalize rnd (5 * z) = A5 at *
  have hVl : 0 < V := by linarith
  have hVu : V ≤ 433 / 1000 := by linarith
  have hT : |A5 * V - 5 * z * ((3 * z ^ 2 - 1) / 2)| ≤ 595 / 100 * uro := by
    have e : A5 * V - 5 * z * ((3 * z ^ 2 - 1) / 2) = (A5 - 5 * z) * V + 5 * z * (V - (3 * z ^ 2 - 1) / 2) := by ring
    rw [e]
    refine (abs_add_le _ _).trans ?_
    rw [abs_mul, abs_mul, abs_of_pos hVl, abs_of_pos (by linarith : 0 < 5 * z)]
    have t1 := mul_le_mul hA5 hVu hVl.le (by linarith)
    have t2 := mul_le_mul (by linarith : 5 * z ≤ 394 / 100) hV (abs_nonneg _) (by norm_num)
    linarith
  have hT' := abs_le.1 hT
  have hTv : 5 * z * ((3 * z ^ 2 - 1) / 2) - 2 * z = 3 * ((5 * z ^ 3 - 3 * z) / 2) := by ring
  have hp3 : |3 * ((5 * z ^ 3 - 3 * z) / 2)| ≤ 1245 / 10000 := by
    have e : 3 * ((5 * z ^ 3 - 3 * z) / 2) = 3 / 2 * z * (5 * z ^ 2 - 3) := by ring
    rw [e, abs_mul, abs_of_pos (by linarith)]
    have h5 : |5 * z ^ 2 - 3| ≤ 105 / 1000 := by
      rw [abs_le]
      constructor <;> linarith
    have := mul_le_mul (by linarith : 3 / 2 * z ≤ 1182 / 1000) h5 (abs_nonneg _) (by norm_num)
    linarith
  have hp3' := abs_le.1 hp3
  have aT : |A5 * V| < 2 := by
    rw [abs_of_pos (mul_pos (by linarith) hVl)]
    nlinarith
  have hBb := abs_le.1 (rnd_err2 aT)
  generalize 5 * z * ((3 * z ^ 2 - 1) / 2) = q at *
  generalize (5 * z ^ 3 - 3 * z) / 2 = p at *
  generalize rnd (A5 * V) = Bb at *
  have aD : |Bb - 2 * z| < 1 / 8 := by
    rw [abs_lt]
    constructor <;> linarith
  have hDd := abs_le.1 (rnd_err_eighth aD)
  have aD' := abs_lt.1 aD
  generalize rnd (Bb - 2 * z) = Dd at *
  have aW : |Dd / 3| < 1 / 8 := by
    rw [abs_lt]
    constructor <;> linarith
  have hW := abs_le.1 (rnd_err_eighth aW)
  refine ⟨a5, by linarith, by linarith, by linarith, ?_⟩
  rw [abs_le]
  constructor <;> linarith

theorem value_three {z : ℝ} (hz : IsF64 z) (h1 : 761 / 1000 ≤ z) (h2 : z ≤ 788 / 1000) :
    ∃ v : ℝ, (evalPn (F64.fin z : F64 L) 3).1 = F64.fin v ∧ |v - (P 3).eval z| ≤ 24 / 10 * uro := by
  obtain ⟨b1, b2, b3, b4, b5⟩ := value_three_two h1 h2
  have hc := rnd_double hz (by linarith) (by linarith)
  obtain ⟨c1, c2, c3, c4, c5⟩ := value_three_end h1 h2 b5
  refine ⟨_, evalPn_three (L := L) hz b1 b2 b3 b4 c1 c2 ?_ ?_ ?_, ?_⟩
  · rw [abs_of_pos (by linarith)]
    linarith
  · rw [hc]
    exact c3
  · rw [hc]
    exact c4
  · rw [hc, legendre3]
    exact c5

/-- A step for the outer root. -/
theorem step_three {z r : ℝ} (hz : IsF64 z) (hr : r ^ 2 = 3 / 5) (hr0 : 0 < r) (hb : |z - r| ≤ 13 / 1000) :
    ∃ z' : ℝ, F64.fin z - (evalPn (F64.fin z : F64 L) 3).1 / (evalPn (F64.fin z : F64 L) 3).2.1 = F64.fin z' ∧
      IsF64 z' ∧ |z' - r| ≤ 21 / 10 * |z - r| ^ 2 + (137 / 100 + 400 * |z - r|) * uro := by
  have hu := uro_pos
  have hu' := uro_lt
  have hr1 : 7745 / 10000 < r := by nlinarith
  have hr2 : r < 7747 / 10000 := by nlinarith
  have hb2 := abs_le.1 hb
  have h1 : 7615 / 10000 ≤ z := by linarith
  have h2 : z ≤ 7877 / 10000 := by linarith
  have hz2 : z ^ 2 ≤ 621 / 1000 := by nlinarith
  have hz3 : 5798 / 10000 ≤ z ^ 2 := by nlinarith
  obtain ⟨v, hv, hve⟩ := value_three (L := L) hz (by linarith) (by linarith)
  have hne : z ^ 2 ≠ 1 := by linarith
  have hp' := legendre3' hne
  have hσ2 : (√(1 - z ^ 2)) ^ 2 = 1 - z ^ 2 := sq_sqrt (by linarith)
  have hσ0 : 0 < √(1 - z ^ 2) := sqrt_pos.2 (by linarith)
  have hσl : 615 / 1000 ≤ √(1 - z ^ 2) := by
    refine le_sqrt_of_sq_le ?_
    norm_num
    linarith
  set σ := √(1 - z ^ 2) with hσ
  have hpl : 2848 / 1000 ≤ (15 * z ^ 2 - 3) / 2 := by linarith
  have habs : |(derivative (P 3)).eval z| = (15 * z ^ 2 - 3) / 2 := by rw [hp', abs_of_pos (by linarith)]
  have hκ1 : (8 * ((3 : ℕ) : ℝ) + 4) * uro * 2 / σ + 5 * uro / σ ^ 2 ≤ 106 * uro := by
    have h3 : (8 * ((3 : ℕ) : ℝ) + 4) * uro * 2 / σ ≤ 92 * uro := by
      rw [div_le_iff₀ hσ0]
      push_cast
      have := mul_le_mul_of_nonneg_left hσl (by positivity : 0 ≤ 92 * uro)
      linarith
    have h4 : 5 * uro / σ ^ 2 ≤ 14 * uro := by
      rw [hσ2, div_le_iff₀ (by linarith)]
      have := mul_le_mul_of_nonneg_left (by linarith : 379 / 1000 ≤ 1 - z ^ 2) (by positivity : 0 ≤ 14 * uro)
      linarith
    linarith
  have huro : 106 * uro ≤ 1 / 400 := by rw [uro_eq]; norm_num
  have hden : (0 : ℝ) < 3 * (5 * z ^ 2 - 1) := by linarith
  have hz0 : 0 < z := by linarith
  have hpp : (P 3).eval z / (derivative (P 3)).eval z = (z - r) * (5 * z * (z + r) / (3 * (5 * z ^ 2 - 1))) := by
    rw [hp', legendre3, div_div_div_cancel_right₀ (by norm_num), mul_div_assoc',
      show 15 * z ^ 2 - 3 = 3 * (5 * z ^ 2 - 1) by ring]
    congr 1
    linear_combination (5 * z) * hr
  have hq : 5 * z * (z + r) / (3 * (5 * z ^ 2 - 1)) ≤ 11 / 10 := by
    rw [div_le_iff₀ hden]
    nlinarith
  have hq0 : 0 ≤ 5 * z * (z + r) / (3 * (5 * z ^ 2 - 1)) := by positivity
  have hX : |(P 3).eval z / (derivative (P 3)).eval z| ≤ 11 / 10 * |z - r| := by
    rw [hpp, abs_mul, abs_of_nonneg hq0, mul_comm]
    exact mul_le_mul_of_nonneg_right hq (abs_nonneg _)
  have hedp : 24 / 10 * uro / |(derivative (P 3)).eval z| ≤ 843 / 1000 * uro := by
    rw [habs, div_le_iff₀ (by linarith)]
    have := mul_le_mul_of_nonneg_left hpl (by positivity : 0 ≤ (843 / 1000 * uro))
    linarith
  obtain ⟨z', e', f', b'⟩ := step_from (L := L) (n := 3) (Λ := 2) (κ := _) (by norm_num) (by norm_num) hz hσ0 hσ2
    (by norm_num) (by norm_num) (by
      rw [habs]
      push_cast
      have := mul_le_mul hpl hσl (by norm_num) (by linarith)
      linarith) rfl (hκ1.trans huro) (by linarith) (by rw [abs_of_pos (by linarith)]; linarith) hv hve (by linarith)
  refine ⟨z', e', f', ?_⟩
  have hN : |z - (P 3).eval z / (derivative (P 3)).eval z - r| ≤ 21 / 10 * |z - r| ^ 2 := by
    have e : z - (P 3).eval z / (derivative (P 3)).eval z - r =
        (z - r) ^ 2 * ((10 * z + 5 * r) / (3 * (5 * z ^ 2 - 1))) := by
      rw [hpp]
      refine mul_right_cancel₀ hden.ne' ?_
      have k1 := div_mul_cancel₀ (5 * z * (z + r)) hden.ne'
      have k2 := div_mul_cancel₀ (10 * z + 5 * r) hden.ne'
      linear_combination (-(z - r)) * k1 - (z - r) ^ 2 * k2 + (5 * (z - r)) * hr
    rw [e, abs_mul, abs_of_nonneg (by positivity : (0 : ℝ) ≤ (z - r) ^ 2), sq_abs, mul_comm]
    refine mul_le_mul_of_nonneg_right ?_ (sq_nonneg _)
    rw [abs_of_pos (by positivity), div_le_iff₀ hden]
    linarith
  have e : z' - r = (z' - (z - (P 3).eval z / (derivative (P 3)).eval z)) +
      (z - (P 3).eval z / (derivative (P 3)).eval z - r) := by ring
  rw [e]
  refine (abs_add_le _ _).trans ?_
  have h5 : (3 * ((8 * ((3 : ℕ) : ℝ) + 4) * uro * 2 / σ + 5 * uro / σ ^ 2) + 2 * uro) *
      |(P 3).eval z / (derivative (P 3)).eval z| ≤ (3 * (106 * uro) + 2 * uro) * (11 / 10 * |z - r|) := by
    gcongr
  have h6 : 0 ≤ uro * |z - r| := by positivity
  linarith

theorem glNewton_three {z r : ℝ} (hz : IsF64 z) (hr : r ^ 2 = 3 / 5) (hr0 : 0 < r) (hb : |z - r| ≤ 13 / 1000)
    (it : ℕ) : glNewton 3 (it + 6) (F64.fin z : F64 L) ≠ none := by
  have hr1 : 77 / 100 < r := by nlinarith
  have c0 : (0 : ℝ) ≤ 21 / 10 := by norm_num
  have st : ∀ z : ℝ, IsF64 z → |z - r| ≤ 13 / 1000 → ∃ z' : ℝ,
      F64.fin z - (evalPn (F64.fin z : F64 L) 3).1 / (evalPn (F64.fin z : F64 L) 3).2.1 = F64.fin z' ∧ IsF64 z' ∧
        |z' - r| ≤ 21 / 10 * |z - r| ^ 2 + (137 / 100 + 400 * |z - r|) * uro :=
    fun z hz hb => step_three hz hr hr0 hb
  refine glNewton_step (β' := 4 / 10000) st c0 hz hb le_rfl (by rw [uro_eq]; norm_num) fun z hz hb => ?_
  refine glNewton_step (β' := 4 / 10 ^ 7) st c0 hz hb (by norm_num) (by rw [uro_eq]; norm_num) fun z hz hb => ?_
  refine glNewton_step (β' := 4 / 10 ^ 13) st c0 hz hb (by norm_num) (by rw [uro_eq]; norm_num) fun z hz hb => ?_
  refine glNewton_step (β' := 138 / 100 * uro) st c0 hz hb (by norm_num) (by rw [uro_eq]; norm_num) fun z hz hb => ?_
  refine glNewton_last st c0 hz hb (by rw [uro_eq]; norm_num) (by rw [uro_eq]; norm_num) (by linarith)

/-! ## The middle root -/

theorem rnd_err_tiny {x : ℝ} (h : |x| < 2⁻¹ ^ 40) : |rnd x - x| ≤ uro / 2 ^ 41 := by
  have := rnd_err_lt (x := x) (e := -40) (by
    rw [zpow_neg, ← inv_zpow]
    exact_mod_cast h) (by norm_num)
  rw [uro_eq]
  norm_num at this ⊢
  exact this

theorem value_three_mid_two {z : ℝ} (h1 : |z| ≤ 14 * uro) :
    |3 * z| < 4 ∧ |rnd (3 * z) * z| < 4 ∧ |rnd (rnd (3 * z) * z) - 1| < 4 ∧
      |rnd (rnd (rnd (3 * z) * z) - 1) / 2| < 4 ∧
      |rnd (rnd (rnd (rnd (3 * z) * z) - 1) / 2) + 1 / 2| ≤ 11 / 10 * uro := by
  have hu := uro_pos
  have hu40 : 200 * uro < (2⁻¹ : ℝ) ^ 40 := by rw [uro_eq]; norm_num
  have hu' : uro < 1 / 10 ^ 15 := by rw [uro_eq]; norm_num
  have h40 : (2⁻¹ : ℝ) ^ 40 < 1 / 1000 := by norm_num
  have t1 : uro / 2 ^ 41 ≤ uro / 1000 := by gcongr; norm_num
  have hz0 := abs_nonneg z
  have a3 : |3 * z| < 2⁻¹ ^ 40 := by rw [abs_mul, abs_of_pos (by norm_num : (0 : ℝ) < 3)]; linarith
  have hA := (rnd_err_tiny a3).trans t1
  generalize rnd (3 * z) = A at *
  have hAb : |A| ≤ 50 * uro := by
    have h3 := abs_add_le (A - 3 * z) (3 * z)
    rw [sub_add_cancel, abs_mul, abs_of_pos (by norm_num : (0 : ℝ) < 3)] at h3
    linarith
  have aB : |A * z| ≤ uro / 1000 := by
    rw [abs_mul]
    have := mul_le_mul hAb h1 hz0 (by linarith)
    have h4 : uro * uro ≤ uro * (1 / 10 ^ 15) := by gcongr
    linarith
  have hB := abs_le.1 ((rnd_err_tiny (x := A * z) (by linarith)).trans t1)
  have aB' := abs_le.1 aB
  generalize rnd (A * z) = B at *
  have aD : |B - 1| < 2 := by
    rw [abs_lt]
    constructor <;> linarith
  have hD := abs_le.1 (rnd_err2 aD)
  generalize rnd (B - 1) = D at *
  have aV : |D / 2| < 1 := by
    rw [abs_lt]
    constructor <;> linarith
  have hV := abs_le.1 (rnd_err1 aV)
  generalize rnd (D / 2) = V at *
  refine ⟨by linarith, by linarith, by linarith, by linarith, ?_⟩
  rw [abs_le]
  constructor <;> linarith

theorem value_three_mid_end {z V : ℝ} (h1 : |z| ≤ 14 * uro) (hVe : |V + 1 / 2| ≤ 11 / 10 * uro) :
    |5 * z| < 4 ∧ |rnd (5 * z) * V| < 4 ∧ |2 * z| < 4 ∧ |rnd (rnd (5 * z) * V) - rnd (2 * z)| < 4 ∧
      |rnd (rnd (rnd (5 * z) * V) - rnd (2 * z)) / 3| < 4 ∧
      |rnd (rnd (rnd (rnd (5 * z) * V) - rnd (2 * z)) / 3) - (5 * z ^ 3 - 3 * z) / 2| ≤ uro / 10 := by
  have hu := uro_pos
  have hu40 : 200 * uro < (2⁻¹ : ℝ) ^ 40 := by rw [uro_eq]; norm_num
  have hu' : uro < 1 / 10 ^ 15 := by rw [uro_eq]; norm_num
  have h40 : (2⁻¹ : ℝ) ^ 40 < 1 / 1000 := by norm_num
  have t1 : uro / 2 ^ 41 ≤ uro / 1000 := by gcongr; norm_num
  have hz0 := abs_nonneg z
  have hVa : |V| ≤ 1 := by
    have := abs_le.1 hVe
    rw [abs_le]
    constructor <;> linarith
  have a5 : |5 * z| < 2⁻¹ ^ 40 := by rw [abs_mul, abs_of_pos (by norm_num : (0 : ℝ) < 5)]; linarith
  have hA5 := (rnd_err_tiny a5).trans t1
  generalize rnd (5 * z) = A5 at *
  have hT : |A5 * V + 5 / 2 * z| ≤ uro / 500 := by
    have e : A5 * V + 5 / 2 * z = (A5 - 5 * z) * V + 5 * z * (V + 1 / 2) := by ring
    rw [e]
    refine (abs_add_le _ _).trans ?_
    rw [abs_mul, abs_mul, abs_mul 5 z, abs_of_pos (by norm_num : (0 : ℝ) < 5)]
    have t2 := mul_le_mul hA5 hVa (abs_nonneg _) (by positivity)
    have t3 := mul_le_mul (by linarith : 5 * |z| ≤ 70 * uro) hVe (abs_nonneg _) (by linarith)
    have h4 : uro * uro ≤ uro * (1 / 10 ^ 15) := by gcongr
    linarith
  have hcube : |5 / 2 * z ^ 3| ≤ uro / 1000 := by
    rw [abs_mul, abs_pow, abs_of_pos (by norm_num : (0 : ℝ) < 5 / 2)]
    have h3 : |z| ^ 3 ≤ (14 * uro) ^ 3 := by gcongr
    have h4 : uro ^ 3 ≤ uro * (1 / 10 ^ 15) := by
      have h5 : uro ^ 2 ≤ 1 / 10 ^ 15 := by nlinarith
      have := mul_le_mul_of_nonneg_left h5 hu.le
      calc uro ^ 3 = uro * uro ^ 2 := by ring
        _ ≤ _ := this
    rw [mul_pow] at h3
    norm_num at h3 h4 ⊢
    linarith
  have hT' := abs_le.1 hT
  have h1' := abs_le.1 h1
  have hcube' := abs_le.1 hcube
  have e3 : (5 * z ^ 3 - 3 * z) / 2 = 5 / 2 * z ^ 3 - 3 / 2 * z := by ring
  rw [e3]
  generalize 5 / 2 * z ^ 3 = c3 at *
  have aT : |A5 * V| < 2⁻¹ ^ 40 := by
    rw [abs_lt]
    constructor <;> linarith
  have hBb := abs_le.1 ((rnd_err_tiny aT).trans t1)
  generalize rnd (A5 * V) = Bb at *
  have a2 : |2 * z| < 2⁻¹ ^ 40 := by rw [abs_mul, abs_of_pos (by norm_num : (0 : ℝ) < 2)]; linarith
  have hc := abs_le.1 ((rnd_err_tiny a2).trans t1)
  generalize rnd (2 * z) = c at *
  have aD2 : |Bb - c| < 2⁻¹ ^ 40 := by
    rw [abs_lt]
    constructor <;> linarith
  have hDd := abs_le.1 ((rnd_err_tiny aD2).trans t1)
  have aD2' := abs_lt.1 aD2
  generalize rnd (Bb - c) = Dd at *
  have aW : |Dd / 3| < 2⁻¹ ^ 40 := by
    rw [abs_lt]
    constructor <;> linarith
  have hW := abs_le.1 ((rnd_err_tiny aW).trans t1)
  refine ⟨by linarith, by linarith, by linarith, by linarith, by linarith, ?_⟩
  rw [abs_le]
  constructor <;> linarith

theorem value_three_mid {z : ℝ} (hz : IsF64 z) (h1 : |z| ≤ 14 * uro) :
    ∃ v : ℝ, (evalPn (F64.fin z : F64 L) 3).1 = F64.fin v ∧ |v - (P 3).eval z| ≤ uro / 10 := by
  obtain ⟨b1, b2, b3, b4, b5⟩ := value_three_mid_two h1
  obtain ⟨c1, c2, c3, c4, c5, c6⟩ := value_three_mid_end h1 b5
  exact ⟨_, evalPn_three (L := L) hz b1 b2 b3 b4 c1 c2 c3 c4 c5, by rw [legendre3]; exact c6⟩

/-- A step for the middle root. -/
theorem step_three_mid {z : ℝ} (hz : IsF64 z) (h1 : |z| ≤ 14 * uro) :
    ∃ z' : ℝ, F64.fin z - (evalPn (F64.fin z : F64 L) 3).1 / (evalPn (F64.fin z : F64 L) 3).2.1 = F64.fin z' ∧
      IsF64 z' ∧ |z'| ≤ 7 / 10 * uro := by
  have hu := uro_pos
  have hu' : uro < 1 / 10 ^ 15 := by rw [uro_eq]; norm_num
  have hz0 := abs_nonneg z
  have hzs : z ^ 2 ≤ uro := by
    rw [← sq_abs]
    have := mul_le_mul h1 h1 hz0 (by linarith)
    have h4 : uro * uro ≤ uro * (1 / 10 ^ 15) := by gcongr
    nlinarith
  obtain ⟨v, hv, hve⟩ := value_three_mid (L := L) hz h1
  have hne : z ^ 2 ≠ 1 := by linarith
  have hp' := legendre3' hne
  have hσ2 : (√(1 - z ^ 2)) ^ 2 = 1 - z ^ 2 := sq_sqrt (by linarith)
  have hσ0 : 0 < √(1 - z ^ 2) := sqrt_pos.2 (by linarith)
  have hσl : 99 / 100 ≤ √(1 - z ^ 2) := by
    refine le_sqrt_of_sq_le ?_
    norm_num
    linarith
  set σ := √(1 - z ^ 2) with hσ
  have hz2 := sq_nonneg z
  have habs : |(derivative (P 3)).eval z| = (3 - 15 * z ^ 2) / 2 := by
    rw [hp', abs_of_neg (by linarith)]
    ring
  have hpl : 149 / 100 ≤ (3 - 15 * z ^ 2) / 2 := by linarith
  have hκ1 : (8 * ((3 : ℕ) : ℝ) + 4) * uro * 3 / σ + 5 * uro / σ ^ 2 ≤ 95 * uro := by
    have h3 : (8 * ((3 : ℕ) : ℝ) + 4) * uro * 3 / σ ≤ 85 * uro := by
      rw [div_le_iff₀ hσ0]
      push_cast
      have := mul_le_mul_of_nonneg_left hσl (by positivity : 0 ≤ 85 * uro)
      linarith
    have h4 : 5 * uro / σ ^ 2 ≤ 10 * uro := by
      rw [hσ2, div_le_iff₀ (by linarith)]
      have := mul_le_mul_of_nonneg_left (by linarith : 1 / 2 ≤ 1 - z ^ 2) (by positivity : 0 ≤ 10 * uro)
      linarith
    linarith
  have hp3 : |(P 3).eval z| ≤ 2 * |z| := by
    have e : (P 3).eval z = z * ((5 * z ^ 2 - 3) / 2) := by rw [legendre3]; ring
    rw [e, abs_mul, mul_comm]
    refine mul_le_mul_of_nonneg_right ?_ hz0
    rw [abs_le]
    constructor <;> linarith
  have hX : |(P 3).eval z / (derivative (P 3)).eval z| ≤ 28 * uro := by
    rw [abs_div, habs, div_le_iff₀ (by linarith)]
    have := mul_le_mul_of_nonneg_left hpl (by positivity : 0 ≤ 28 * uro)
    linarith
  have hedp : uro / 10 / |(derivative (P 3)).eval z| ≤ uro / 10 := by
    rw [habs, div_le_iff₀ (by linarith)]
    have := mul_le_mul_of_nonneg_left hpl (by positivity : 0 ≤ uro / 10)
    linarith
  obtain ⟨z', e', f', b'⟩ := step_from (L := L) (n := 3) (Λ := 3) (κ := _) (by norm_num) (by norm_num) hz hσ0 hσ2
    (by norm_num) (by norm_num) (by
      rw [habs]
      push_cast
      have := mul_le_mul hpl hσl (by norm_num) (by linarith)
      linarith) rfl (hκ1.trans (by linarith)) (by linarith) (by linarith) hv hve (by linarith)
  refine ⟨z', e', f', ?_⟩
  have hN : |z - (P 3).eval z / (derivative (P 3)).eval z| ≤ uro / 100 := by
    have hden : (15 * z ^ 2 - 3 : ℝ) ≠ 0 := by linarith
    have e : z - (P 3).eval z / (derivative (P 3)).eval z = z ^ 2 * (10 * z / (15 * z ^ 2 - 3)) := by
      rw [hp', legendre3, div_div_div_cancel_right₀ (by norm_num)]
      refine mul_right_cancel₀ hden ?_
      have k1 := div_mul_cancel₀ (5 * z ^ 3 - 3 * z) hden
      have k2 := div_mul_cancel₀ (10 * z) hden
      linear_combination (-1) * k1 - z ^ 2 * k2
    rw [e, abs_mul, abs_of_nonneg hz2]
    have h7 : |10 * z / (15 * z ^ 2 - 3)| ≤ 1 / 100 := by
      rw [abs_div, div_le_iff₀ (abs_pos.2 hden), abs_mul, abs_of_pos (by norm_num : (0 : ℝ) < 10),
        abs_of_neg (by linarith : 15 * z ^ 2 - 3 < 0)]
      linarith
    have := mul_le_mul hzs h7 (abs_nonneg _) hu.le
    linarith
  have e : z' = (z' - (z - (P 3).eval z / (derivative (P 3)).eval z)) +
      (z - (P 3).eval z / (derivative (P 3)).eval z) := by ring
  rw [e]
  refine (abs_add_le _ _).trans ?_
  have h5 : (3 * ((8 * ((3 : ℕ) : ℝ) + 4) * uro * 3 / σ + 5 * uro / σ ^ 2) + 2 * uro) *
      |(P 3).eval z / (derivative (P 3)).eval z| ≤ (3 * (95 * uro) + 2 * uro) * (28 * uro) := by
    gcongr
  have h6 : uro * uro ≤ uro * (1 / 10 ^ 15) := by gcongr
  linarith

theorem glNewton_three_mid {z : ℝ} (hz : IsF64 z) (h1 : |z| ≤ 14 * uro) (it : ℕ) :
    glNewton 3 (it + 2) (F64.fin z : F64 L) ≠ none := by
  have hu := uro_pos
  obtain ⟨z₁, e₁, f₁, b₁⟩ := step_three_mid (L := L) hz h1
  obtain ⟨z₂, e₂, f₂, b₂⟩ := step_three_mid (L := L) f₁ (by linarith)
  unfold glNewton
  dsimp only
  rw [e₁]
  split_ifs with h2
  · simp
  · unfold glNewton
    dsimp only
    rw [e₂, if_pos]
    · simp
    · refine accept_of ?_
      refine (abs_sub _ _).trans ?_
      linarith

/-- `GaussLegendre(3)` does not throw. -/
theorem gaussLegendre_three (hL : L.Accurate) :
    (gaussLegendre 3 : Outcome (List (F64 L) × List (F64 L))) ≠ .throws (.runtimeError glMsg) := by
  refine gaussLegendre_ok 3 (fun j hj => ?_)
  have hu := uro_pos
  have hu' : uro < 1 / 1000000 := by rw [uro_eq]; norm_num
  obtain ⟨s, hs, hsf, hs1⟩ := glStart_double hL (n := 3) (k := j) (by omega) (by norm_num)
  rw [hs]
  have key : glNewton 3 100 (F64.fin s : F64 L) ≠ none := by
    obtain rfl | rfl : j = 0 ∨ j = 1 := by omega
    · have e : ((0 : ℕ) + 3 / 4 : ℝ) * angStep 3 = 3 / 14 * π := by
        unfold angStep
        push_cast
        field_simp
        norm_num
      rw [e] at hs1
      have p1 := pi_gt_d4
      have p2 := pi_lt_d4
      have ha : |3 / 14 * π| = 3 / 14 * π := abs_of_pos (by linarith)
      have hc := cos_bound (x := 3 / 14 * π) (by rw [ha]; linarith)
      rw [ha] at hc
      have q1 : (3 / 14 * π) ^ 2 ≤ (3 / 14 * 3.1416) ^ 2 := by gcongr
      have q2 : (3 / 14 * 3.1415) ^ 2 ≤ (3 / 14 * π) ^ 2 := by gcongr
      have q4 : (3 / 14 * π) ^ 4 ≤ (3 / 14 * 3.1416) ^ 4 := by gcongr
      norm_num at q1 q2 q4
      have hr : (√(3 / 5 : ℝ)) ^ 2 = 3 / 5 := sq_sqrt (by norm_num)
      have hr0 : 0 < √(3 / 5 : ℝ) := sqrt_pos.2 (by norm_num)
      have hr1 : 7745 / 10000 < √(3 / 5 : ℝ) := by nlinarith
      have hr2 : √(3 / 5 : ℝ) < 7747 / 10000 := by nlinarith
      have hc' := abs_le.1 hc
      have hs' := abs_le.1 hs1
      exact glNewton_three (L := L) hsf hr hr0 (by
        rw [abs_le]
        constructor <;> linarith) 94
    · have e : ((1 : ℕ) + 3 / 4 : ℝ) * angStep 3 = π / 2 := by
        unfold angStep
        push_cast
        field_simp
        norm_num
      rw [e, cos_pi_div_two, sub_zero] at hs1
      exact glNewton_three_mid (L := L) hsf hs1 98
  cases h : glNewton 3 100 (F64.fin s : F64 L) with
  | none => exact absurd h key
  | some _ => rfl

end IntegratorXX
