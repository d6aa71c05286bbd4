import Verif.Lemmas.FloatLobFew

/-!
# GaussLobatto with four points in `double` arithmetic
-/

namespace IntegratorXX

open Polynomial Spec Set Real

variable {L : Libm}

local notation "P" => legendre

/-- The exact correction. -/
theorem lob4_newton {z r : ℝ} (h1 : -(51 / 100) ≤ z) (h2 : z ≤ -(39 / 100)) (hr : r ^ 2 = 1 / 5) (hr0 : 0 < r) :
    |z - (z * (P 3).eval z - legPrev 3 z) / (((3 : ℕ) + 1 : ℝ) * (P 3).eval z) + r| ≤ 1 / 2 * |z + r| ^ 2 ∧
    |(z * (P 3).eval z - legPrev 3 z) / (((3 : ℕ) + 1 : ℝ) * (P 3).eval z)| ≤ 3 / 2 * |z + r| := by
  have hr1 : 447 / 1000 < r := by nlinarith
  have hr2 : r < 448 / 1000 := by nlinarith
  have hz2 : z ^ 2 ≤ 2601 / 10000 := by nlinarith
  have hz3 : 1521 / 10000 ≤ z ^ 2 := by nlinarith
  have hP2 : legPrev 3 z = (3 * z ^ 2 - 1) / 2 := by
    unfold legPrev
    rw [if_neg (by norm_num)]
    exact legendre2 z
  have hD : 34 / 10 ≤ 4 * z * (5 * z ^ 2 - 3) := by nlinarith
  have hD0 : 4 * z * (5 * z ^ 2 - 3) ≠ 0 := by linarith
  have e : (z * (P 3).eval z - legPrev 3 z) / (((3 : ℕ) + 1 : ℝ) * (P 3).eval z) =
      (z + r) * (5 * (z - r) * (z ^ 2 - 1) / (4 * z * (5 * z ^ 2 - 3))) := by
    rw [hP2, legendre3, ← mul_div_assoc (z + r), div_eq_div_iff (by push_cast; intro h; apply hD0; linarith) hD0]
    push_cast
    linear_combination (10 * z * (5 * z ^ 2 - 3) * (z ^ 2 - 1)) * hr
  rw [e]
  constructor
  · have e2 : z - (z + r) * (5 * (z - r) * (z ^ 2 - 1) / (4 * z * (5 * z ^ 2 - 3))) + r =
        (z + r) ^ 2 * ((15 * z ^ 2 - 10 * r * z - 5) / (4 * z * (5 * z ^ 2 - 3))) := by
      refine mul_right_cancel₀ hD0 ?_
      have k1 := div_mul_cancel₀ (5 * (z - r) * (z ^ 2 - 1)) hD0
      have k2 := div_mul_cancel₀ (15 * z ^ 2 - 10 * r * z - 5) hD0
      linear_combination (-(z + r)) * k1 - (z + r) ^ 2 * k2 + (10 * z * (z + r)) * hr
    rw [e2, abs_mul, abs_of_nonneg (by positivity : (0 : ℝ) ≤ (z + r) ^ 2), sq_abs, mul_comm]
    refine mul_le_mul_of_nonneg_right ?_ (sq_nonneg _)
    rw [abs_div, abs_of_pos (by linarith : 0 < 4 * z * (5 * z ^ 2 - 3)), div_le_iff₀ (by linarith)]
    have hrz : r * z ≤ -(174 / 1000) := by nlinarith
    have hrz' : -(229 / 1000) ≤ r * z := by nlinarith
    have : |15 * z ^ 2 - 10 * r * z - 5| ≤ 17 / 10 := by
      rw [abs_le]
      constructor <;> linarith
    linarith
  · rw [abs_mul, mul_comm]
    refine mul_le_mul_of_nonneg_right ?_ (abs_nonneg _)
    rw [abs_div, abs_of_pos (by linarith : 0 < 4 * z * (5 * z ^ 2 - 3)), div_le_iff₀ (by linarith)]
    have : |5 * (z - r) * (z ^ 2 - 1)| ≤ 5 := by
      rw [abs_mul, abs_mul]
      have t1 : |z - r| ≤ 1 := by
        rw [abs_le]
        constructor <;> linarith
      have t2 : |z ^ 2 - 1| ≤ 1 := by
        rw [abs_le]
        constructor <;> linarith
      have := mul_le_mul t1 t2 (abs_nonneg _) (by norm_num)
      rw [abs_of_pos (by norm_num : (0 : ℝ) < 5)]
      linarith
    linarith

/-- A step, with the bound for all sizes. -/
theorem lob4_step_far {z r : ℝ} (hz : IsF64 z) (h1 : -(51 / 100) ≤ z) (h2 : z ≤ -(39 / 100)) (hr : r ^ 2 = 1 / 5)
    (hr0 : 0 < r) :
    ∃ z' : ℝ, F64.fin z - (F64.fin z * (evalPn (F64.fin z : F64 L) 3).1 - (evalPn (F64.fin z : F64 L) 3).2.2) /
        (Arith.ofNat (3 + 1) * (evalPn (F64.fin z : F64 L) 3).1) = F64.fin z' ∧ IsF64 z' ∧
      |z' + r| ≤ 1 / 2 * |z + r| ^ 2 + 100 * uro := by
  have hu := uro_pos
  have hu' : uro < 1 / 10 ^ 15 := by rw [uro_eq]; norm_num
  have hr1 : 447 / 1000 < r := by nlinarith
  have hr2 : r < 448 / 1000 := by nlinarith
  have hz2 : z ^ 2 ≤ 2601 / 10000 := by nlinarith
  have hz3 : 1521 / 10000 ≤ z ^ 2 := by nlinarith
  obtain ⟨N1, N2⟩ := lob4_newton h1 h2 hr hr0
  have hzr : |z + r| ≤ 1 / 10 := by
    rw [abs_le]
    constructor <;> linarith
  have hσ2 : (√(1 - z ^ 2)) ^ 2 = 1 - z ^ 2 := sq_sqrt (by linarith)
  have hσ0 : 0 < √(1 - z ^ 2) := sqrt_pos.2 (by linarith)
  have hσl : 86 / 100 ≤ √(1 - z ^ 2) := by
    refine le_sqrt_of_sq_le ?_
    norm_num
    linarith
  have hp : 34 / 80 ≤ (P 3).eval z := by
    rw [legendre3]
    nlinarith
  have hκ : 8 * ((3 : ℕ) : ℝ) * uro * 3 / √(1 - z ^ 2) ≤ 84 * uro := by
    rw [div_le_iff₀ hσ0]
    push_cast
    have := mul_le_mul_of_nonneg_left hσl (by positivity : 0 ≤ 84 * uro)
    linarith
  obtain ⟨v, z', -, -, -, e', f', b'⟩ := lob_step_double (L := L) (m := 3) (Λ := 3) (κ := _) (by norm_num) (by norm_num)
    hz hσ0 hσ2 (by norm_num) (by norm_num) (by rw [abs_of_pos (by linarith)]; linarith) rfl
    (hκ.trans (by linarith)) (N2.trans (by linarith))
  refine ⟨z', e', f', ?_⟩
  have e : z' + r = (z' - (z - (z * (P 3).eval z - legPrev 3 z) / (((3 : ℕ) + 1 : ℝ) * (P 3).eval z))) +
      (z - (z * (P 3).eval z - legPrev 3 z) / (((3 : ℕ) + 1 : ℝ) * (P 3).eval z) + r) := by ring
  rw [e]
  refine (abs_add_le _ _).trans ?_
  have h5 : 2 * (8 * ((3 : ℕ) : ℝ) * uro * 3 / √(1 - z ^ 2)) *
      |(z * (P 3).eval z - legPrev 3 z) / (((3 : ℕ) + 1 : ℝ) * (P 3).eval z)| ≤ 2 * (84 * uro) * (3 / 2 * (1 / 10)) := by
    have := N2.trans (mul_le_mul_of_nonneg_left hzr (by norm_num : (0 : ℝ) ≤ 3 / 2))
    gcongr
  linarith

/-! ## Near the root -/

/-- `P_2` near the root: only two of the operations round. -/
theorem lob4_two {z : ℝ} (h1 : -(4473 / 10000) ≤ z) (h2 : z ≤ -(4471 / 10000)) :
    |3 * z| < 4 ∧ |rnd (3 * z) * z| < 4 ∧ |rnd (rnd (3 * z) * z) - 1| < 4 ∧
      |rnd (rnd (rnd (3 * z) * z) - 1) / 2| < 4 ∧
      |rnd (rnd (rnd (rnd (3 * z) * z) - 1) / 2) - (3 * z ^ 2 - 1) / 2| ≤ 474 / 1000 * uro := by
  have hu := uro_pos
  have hu' : uro < 1 / 1000000 := by rw [uro_eq]; norm_num
  have hz0 : z < 0 := by linarith
  have hz2 : 1998 / 10000 ≤ z ^ 2 := by nlinarith
  have hz3 : z ^ 2 ≤ 2002 / 10000 := by nlinarith
  have a3 : |3 * z| < 2 := by rw [abs_of_neg (by linarith)]; linarith
  have hA := rnd_err2 a3
  have hA' := abs_le.1 hA
  generalize rnd (3 * z) = A at *
  have hAz : |A * z - 3 * z ^ 2| ≤ 4473 / 10000 * uro := by
    have e : A * z - 3 * z ^ 2 = (A - 3 * z) * z := by ring
    rw [e, abs_mul, abs_of_neg hz0]
    have := mul_le_mul hA (by linarith : -z ≤ 4473 / 10000) (by linarith) (by linarith)
    linarith
  have hAz' := abs_le.1 hAz
  have aB : |A * z| < 1 := by
    rw [abs_lt]
    constructor <;> linarith
  have hB := abs_le.1 (rnd_err1 aB)
  have hBrnd := rnd_rnd (A * z)
  generalize rnd (A * z) = B at *
  obtain ⟨m, hm⟩ := grid_of (x := B) (e := -1) hBrnd (by rw [abs_of_pos (by linarith)]; norm_num; linarith)
  have hm' : B = m * (2⁻¹ : ℝ) ^ 53 := by rw [hm]; norm_num
  have hDe : B - 1 = ((m - 2 ^ 53 : ℤ) : ℝ) * (2 : ℝ) ^ (-53 : ℤ) := by
    rw [hm]
    push_cast
    norm_num
    ring
  have hmb : |m - 2 ^ 53| ≤ 2 ^ 53 := by
    have h3 : |((m - 2 ^ 53 : ℤ) : ℝ)| ≤ ((2 ^ 53 : ℤ) : ℝ) := by
      have e : ((m - 2 ^ 53 : ℤ) : ℝ) = (B - 1) * 2 ^ 53 := by
        rw [hm']
        push_cast
        norm_num
        ring
      rw [e, abs_mul, abs_of_neg (by linarith : B - 1 < 0), abs_of_pos (by positivity : (0 : ℝ) < 2 ^ 53)]
      push_cast
      nlinarith
    rw [← Int.cast_abs] at h3
    exact Int.cast_le.1 h3
  have hD : rnd (B - 1) = B - 1 := rnd_rep _ (-53) hmb (by norm_num) hDe
  have hV2 : rnd ((B - 1) / 2) = (B - 1) / 2 := by
    refine rnd_rep (m - 2 ^ 53) (-54) hmb (by norm_num) ?_
    rw [hDe]
    norm_num
    ring
  rw [hD, hV2]
  refine ⟨by linarith, by linarith, ?_, ?_, ?_⟩
  · rw [abs_lt]
    constructor <;> linarith
  · rw [abs_lt]
    constructor <;> linarith
  · rw [abs_le]
    constructor <;> linarith

theorem lob4_three {z V : ℝ} (h1 : -(4473 / 10000) ≤ z) (h2 : z ≤ -(4471 / 10000))
    (hV : |V - (3 * z ^ 2 - 1) / 2| ≤ 474 / 1000 * uro) :
    |5 * z| < 4 ∧ |rnd (5 * z) * V| < 4 ∧ |2 * z| < 4 ∧ |rnd (rnd (5 * z) * V) - rnd (2 * z)| < 4 ∧
      |rnd (rnd (rnd (5 * z) * V) - rnd (2 * z)) / 3| < 4 ∧
      |rnd (rnd (rnd (rnd (5 * z) * V) - rnd (2 * z)) / 3) - (5 * z ^ 3 - 3 * z) / 2| ≤ 1323 / 1000 * uro := by
  have hu := uro_pos
  have hu' : uro < 1 / 1000000 := by rw [uro_eq]; norm_num
  have hz0 : z < 0 := by linarith
  have hz2 : 1998 / 10000 ≤ z ^ 2 := by nlinarith
  have hz3 : z ^ 2 ≤ 2002 / 10000 := by nlinarith
  have hV' := abs_le.1 hV
  have a5 : |5 * z| < 4 := by rw [abs_of_neg (by linarith)]; linarith
  have hA5 := rnd_err4 a5
  generalize rnd (5 * z) = A5 at *
  have hVa : |V| ≤ 201 / 1000 := by
    rw [abs_le]
    constructor <;> linarith
  have hT : |A5 * V - 5 * z * ((3 * z ^ 2 - 1) / 2)| ≤ 1463 / 1000 * uro := by
    have e : A5 * V - 5 * z * ((3 * z ^ 2 - 1) / 2) = (A5 - 5 * z) * V + 5 * z * (V - (3 * z ^ 2 - 1) / 2) := by ring
    rw [e]
    refine (abs_add_le _ _).trans ?_
    rw [abs_mul, abs_mul, abs_of_neg (by linarith : 5 * z < 0)]
    have t1 := mul_le_mul hA5 hVa (abs_nonneg _) (by linarith)
    have t2 := mul_le_mul (by linarith : -(5 * z) ≤ 22365 / 10000) hV (abs_nonneg _) (by norm_num)
    linarith
  have hT' := abs_le.1 hT
  have hTv : 5 * z * ((3 * z ^ 2 - 1) / 2) - 2 * z = 3 * ((5 * z ^ 3 - 3 * z) / 2) := by ring
  have hp : (5 * z ^ 3 - 3 * z) / 2 = -z * ((3 - 5 * z ^ 2) / 2) := by ring
  have hp1 : 446 / 1000 ≤ (5 * z ^ 3 - 3 * z) / 2 := by rw [hp]; nlinarith
  have hp2 : (5 * z ^ 3 - 3 * z) / 2 ≤ 448 / 1000 := by rw [hp]; nlinarith
  clear hp
  generalize 5 * z * ((3 * z ^ 2 - 1) / 2) = q at *
  generalize (5 * z ^ 3 - 3 * z) / 2 = p at *
  have aT : |A5 * V| < 1 / 2 := by
    rw [abs_lt]
    constructor <;> linarith
  have hBb := abs_le.1 (rnd_err_half aT)
  generalize rnd (A5 * V) = Bb at *
  have a2 : |2 * z| < 1 := by rw [abs_of_neg (by linarith)]; linarith
  have hc := abs_le.1 (rnd_err1 a2)
  generalize rnd (2 * z) = c at *
  have aD : |Bb - c| < 2 := by
    rw [abs_lt]
    constructor <;> linarith
  have hDd := abs_le.1 (rnd_err2 aD)
  have aD' := abs_lt.1 aD
  generalize rnd (Bb - c) = Dd at *
  have aW : |Dd / 3| < 1 / 2 := by
    rw [abs_lt]
    constructor <;> linarith
  have hW := abs_le.1 (rnd_err_half aW)
  refine ⟨a5, by linarith, by linarith, by linarith, by linarith, ?_⟩
  rw [abs_le]
  constructor <;> linarith

theorem evalPn_three_prev {z : ℝ} (hz : IsF64 z) (h1 : |3 * z| < 4) (h2 : |rnd (3 * z) * z| < 4)
    (h3 : |rnd (rnd (3 * z) * z) - 1| < 4) (h4 : |rnd (rnd (rnd (3 * z) * z) - 1) / 2| < 4) :
    (evalPn (F64.fin z : F64 L) 3).2.2 = F64.fin (rnd (rnd (rnd (rnd (3 * z) * z) - 1) / 2)) := by
  obtain ⟨e1, e2⟩ := pnLoop_one (L := L) hz
  have l1 := lit_one (L := L)
  have l2 := lit_nat' (L := L) 2 (by norm_num)
  have a1 := two_nat_sub_one (L := L) 1 (by norm_num)
  have a2 := nat_sub_one (L := L) 1 (by norm_num)
  rw [evalPn_eq]
  dsimp only
  rw [pnLoop_succ]
  dsimp only
  rw [pnLoop_succ]
  dsimp only
  rw [e1, e2, a1, a2, l2.1]
  push_cast
  rw [(mulF (L := L) (x := 3) (y := z) h1).1, (mulF (L := L) h2).1]
  rw [F64.fin_mul 1 1, mul_one, of_self l1.2, (subF (L := L) h3).1, F64.fin_div _ (by norm_num)]
  exact (of_fin_small h4).1

theorem rnd_err_small {x : ℝ} (h : |x| < 1 / 512) : |rnd x - x| ≤ uro / 1024 := by
  have := rnd_err_lt (x := x) (e := -9) (by norm_num; exact h) (by norm_num)
  rw [uro_eq]
  norm_num at this ⊢
  exact this

/-- The rest of the step. -/
theorem lob4_end {z V W p q : ℝ} (h1 : -(4473 / 10000) ≤ z) (h2 : z ≤ -(4471 / 10000))
    (hV : |V - q| ≤ 474 / 1000 * uro) (hW : |W - p| ≤ 1323 / 1000 * uro) (hp1 : 446 / 1000 ≤ p)
    (hp2 : p ≤ 448 / 1000) (hpq : |z * p - q| ≤ 1 / 1000) (hq : |q| ≤ 201 / 1000) :
    ∃ z' : ℝ, (F64.fin z : F64 L) - (F64.fin z * F64.fin W - F64.fin V) / (Arith.ofNat (3 + 1) * F64.fin W) =
      F64.fin z' ∧ IsF64 z' ∧
      |z' - (z - (z * p - q) / (((3 : ℕ) + 1 : ℝ) * p))| ≤ 935 / 1000 * uro := by
  have hu := uro_pos
  have hu' : uro < 1 / 10 ^ 15 := by rw [uro_eq]; norm_num
  have hz0 : z < 0 := by linarith
  have l4 := lit_nat' (L := L) 4 (by norm_num)
  have hV' := abs_le.1 hV
  have hW' := abs_le.1 hW
  have hpq' := abs_le.1 hpq
  have hq' := abs_le.1 hq
  have hE : |z * W - z * p| ≤ 592 / 1000 * uro := by
    have e : z * W - z * p = z * (W - p) := by ring
    rw [e, abs_mul, abs_of_neg hz0]
    have := mul_le_mul (by linarith : -z ≤ 4473 / 10000) hW (abs_nonneg _) (by norm_num)
    linarith
  have hE' := abs_le.1 hE
  have aE : |z * W| < 1 / 4 := by
    rw [abs_lt]
    constructor <;> linarith
  have hEr : |rnd (z * W) - z * W| ≤ uro / 8 := by
    have := rnd_err_lt (x := z * W) (e := -2) (by rw [show ((2 : ℝ) ^ (-2 : ℤ)) = 1 / 4 by norm_num]; exact aE) (by norm_num)
    rw [uro_eq]
    norm_num at this ⊢
    exact this
  have hEr' := abs_le.1 hEr
  have aQ : |rnd (z * W) - V| < 1 / 512 := by
    rw [abs_lt]
    constructor <;> linarith
  have hQ := abs_le.1 (rnd_err_small aQ)
  have aG : |4 * W| < 2 := by
    rw [abs_lt]
    constructor <;> linarith
  have hG := abs_le.1 (rnd_err2 aG)
  rw [show (3 + 1 : ℕ) = 4 from rfl, l4.1]
  push_cast
  rw [(mulF (L := L) (x := z) (y := W) (by linarith)).1, (subF (L := L) (by linarith)).1,
    (mulF (L := L) (x := 4) (y := W) (by linarith)).1]
  have hQe : |rnd (rnd (z * W) - V) - (z * p - q)| ≤ 1192 / 1000 * uro := by
    rw [abs_le]
    constructor <;> linarith
  have hy : |(3 + 1) * p| = 4 * p := by rw [abs_of_pos (by linarith)]; ring
  have hGe : |rnd (4 * W) - (3 + 1) * p| ≤ 4 * uro * |(3 + 1) * p| := by
    rw [hy]
    have : 4 * uro * (1784 / 1000) ≤ 4 * uro * (4 * p) := by
      refine mul_le_mul_of_nonneg_left ?_ (by linarith)
      linarith
    rw [abs_le]
    constructor <;> linarith
  have hy0 : (3 + 1) * p ≠ 0 := by
    have : 0 < p := by linarith
    positivity
  obtain ⟨hg0, hdiv⟩ := near_div_abs hQe hGe hy0 (by linarith) (by linarith)
  rw [hy] at hdiv
  have hed : 1192 / 1000 * uro / (4 * p) ≤ 669 / 1000 * uro := by
    rw [div_le_iff₀ (by linarith)]
    have := mul_le_mul_of_nonneg_left (by linarith : 1784 / 1000 ≤ 4 * p) (by linarith : 0 ≤ 669 / 1000 * uro)
    linarith
  have hT : |(z * p - q) / ((3 + 1) * p)| ≤ 1 / 1000 := by
    rw [abs_div, hy, div_le_iff₀ (by linarith)]
    linarith
  have hsm : 100 / 99 * (4 * uro) * |(z * p - q) / ((3 + 1) * p)| ≤ 100 / 99 * (4 * uro) * (1 / 1000) :=
    mul_le_mul_of_nonneg_left hT (by linarith)
  generalize (z * p - q) / ((3 + 1) * p) = T at *
  generalize rnd (rnd (z * W) - V) = Q at *
  generalize rnd (4 * W) = G at *
  have hdiv2 : |Q / G - T| ≤ 680 / 1000 * uro := hdiv.trans (by linarith)
  have hdiv' := abs_le.1 hdiv2
  have hT' := abs_le.1 hT
  rw [F64.fin_div _ hg0]
  have aS : |Q / G| < 1 / 512 := by
    rw [abs_lt]
    constructor <;> linarith
  have hS := abs_le.1 (rnd_err_small aS)
  rw [(of_fin_small (L := L) (t := Q / G) (by linarith)).1]
  have aZ : |z - rnd (Q / G)| < 1 / 2 := by
    rw [abs_lt]
    constructor <;> linarith
  have hZ := abs_le.1 (rnd_err_half aZ)
  obtain ⟨hz1, hz2⟩ := subF (L := L) (x := z) (y := rnd (Q / G)) (by linarith)
  refine ⟨_, hz1, hz2, ?_⟩
  rw [abs_le]
  constructor <;> linarith

/-- A step near the root. -/
theorem lob4_step_near {z r : ℝ} (hz : IsF64 z) (hr : r ^ 2 = 1 / 5) (hr0 : 0 < r) (hb : |z + r| ≤ 1 / 100000) :
    ∃ z' : ℝ, F64.fin z - (F64.fin z * (evalPn (F64.fin z : F64 L) 3).1 - (evalPn (F64.fin z : F64 L) 3).2.2) /
        (Arith.ofNat (3 + 1) * (evalPn (F64.fin z : F64 L) 3).1) = F64.fin z' ∧ IsF64 z' ∧
      |z' + r| ≤ 1 / 2 * |z + r| ^ 2 + 935 / 1000 * uro := by
  have hu := uro_pos
  have hr1 : 44720 / 100000 < r := by nlinarith
  have hr2 : r < 44722 / 100000 := by nlinarith
  have hb' := abs_le.1 hb
  have h1 : -(4473 / 10000) ≤ z := by linarith
  have h2 : z ≤ -(4471 / 10000) := by linarith
  have hz2 : 1998 / 10000 ≤ z ^ 2 := by nlinarith
  have hz3 : z ^ 2 ≤ 2002 / 10000 := by nlinarith
  obtain ⟨N1, N2⟩ := lob4_newton (z := z) (by linarith) (by linarith) hr hr0
  obtain ⟨b1, b2, b3, b4, b5⟩ := lob4_two h1 h2
  obtain ⟨c1, c2, c3, c4, c5, c6⟩ := lob4_three h1 h2 b5
  have hP2 : legPrev 3 z = (3 * z ^ 2 - 1) / 2 := by
    unfold legPrev
    rw [if_neg (by norm_num)]
    exact legendre2 z
  have hp : (P 3).eval z = -z * ((3 - 5 * z ^ 2) / 2) := by rw [legendre3]; ring
  have hp1 : 446 / 1000 ≤ (P 3).eval z := by rw [hp]; nlinarith
  have hp2 : (P 3).eval z ≤ 448 / 1000 := by rw [hp]; nlinarith
  rw [evalPn_three (L := L) hz b1 b2 b3 b4 c1 c2 c3 c4 c5, evalPn_three_prev (L := L) hz b1 b2 b3 b4]
  rw [← legendre3] at c6
  rw [← hP2] at b5
  obtain ⟨z', e', f', b'⟩ := lob4_end (L := L) h1 h2 b5 c6 hp1 hp2 (by
      rw [hP2, hp, abs_le]
      constructor <;> nlinarith) (by
      rw [hP2, abs_le]
      constructor <;> linarith)
  refine ⟨z', e', f', ?_⟩
  have e : z' + r = (z' - (z - (z * (P 3).eval z - legPrev 3 z) / (((3 : ℕ) + 1 : ℝ) * (P 3).eval z))) +
      (z - (z * (P 3).eval z - legPrev 3 z) / (((3 : ℕ) + 1 : ℝ) * (P 3).eval z) + r) := by ring
  rw [e]
  refine (abs_add_le _ _).trans ?_
  linarith

/-- `GaussLobatto(4)` does not throw. -/
theorem gaussLobatto_four (hL : L.Accurate) :
    (gaussLobatto 4 : Outcome (List (F64 L) × List (F64 L))) ≠ .throws (.runtimeError lobMsg) := by
  refine gaussLobatto_ok 4 (fun j h1 hj => ?_) (by norm_num) (by norm_num [sizeMod])
  obtain rfl : j = 1 := by omega
  have hu := uro_pos
  have hu' : uro < 1 / 10 ^ 15 := by rw [uro_eq]; norm_num
  have huu : uro ^ 2 ≤ uro * (1 / 10 ^ 15) := by
    rw [sq]
    gcongr
  obtain ⟨s, hs, hsf, hs1⟩ := lobStart_double hL (m := 3) (k := 0) (by norm_num) (by norm_num)
  have e : ((0 : ℕ) + 1 : ℝ) * π / (3 : ℕ) = π / 3 := by push_cast; ring
  rw [e, cos_pi_div_three] at hs1
  have hs' : lobStart (F64 L) 4 1 = F64.fin s := hs
  rw [hs']
  have hr : (√(1 / 5 : ℝ)) ^ 2 = 1 / 5 := sq_sqrt (by norm_num)
  have hr0 : 0 < √(1 / 5 : ℝ) := sqrt_pos.2 (by norm_num)
  have hr1 : 4472 / 10000 < √(1 / 5 : ℝ) := by nlinarith
  have hr2 : √(1 / 5 : ℝ) < 4473 / 10000 := by nlinarith
  set r := √(1 / 5 : ℝ)
  have hs2 := abs_le.1 hs1
  obtain ⟨z₁, e₁, f₁, b₁⟩ := lob4_step_far (L := L) hsf (by linarith) (by linarith) hr hr0
  have c₁ : |z₁ + r| ≤ 15 / 10000 := by
    have t : |s + r| ≤ 53 / 1000 := by
      rw [abs_le]
      constructor <;> linarith
    have : |s + r| ^ 2 ≤ (53 / 1000) ^ 2 := by gcongr
    norm_num at this b₁ ⊢
    linarith
  have d₁ := abs_le.1 c₁
  obtain ⟨z₂, e₂, f₂, b₂⟩ := lob4_step_far (L := L) f₁ (by linarith) (by linarith) hr hr0
  have c₂ : |z₂ + r| ≤ 2 / 10 ^ 6 := by
    have : |z₁ + r| ^ 2 ≤ (15 / 10000) ^ 2 := by gcongr
    norm_num at this b₂ hu' ⊢
    linarith
  obtain ⟨z₃, e₃, f₃, b₃⟩ := lob4_step_near (L := L) f₂ hr hr0 (c₂.trans (by norm_num))
  have c₃ : |z₃ + r| ≤ 3 / 10 ^ 12 := by
    have : |z₂ + r| ^ 2 ≤ (2 / 10 ^ 6) ^ 2 := by gcongr
    norm_num at this b₃ hu' ⊢
    linarith
  obtain ⟨z₄, e₄, f₄, b₄⟩ := lob4_step_near (L := L) f₃ hr hr0 (c₃.trans (by norm_num))
  have hsm : 1 / 2 * (3 / (10 : ℝ) ^ 12) ^ 2 ≤ uro / 1000 := by rw [uro_eq]; norm_num
  have c₄ : |z₄ + r| ≤ 94 / 100 * uro := by
    have : |z₃ + r| ^ 2 ≤ (3 / 10 ^ 12) ^ 2 := by gcongr
    linarith
  obtain ⟨z₅, e₅, f₅, b₅⟩ := lob4_step_near (L := L) f₄ hr hr0 (by linarith)
  have c₅ : |z₅ + r| ≤ 94 / 100 * uro := by
    have : |z₄ + r| ^ 2 ≤ (94 / 100 * uro) ^ 2 := by gcongr
    rw [mul_pow] at this
    norm_num at this huu b₅ ⊢
    linarith
  have key : lobNewton 4 100 (F64.fin s : F64 L) ≠ none :=
    lobNewton_step (it := 99) e₁ (lobNewton_step (it := 98) e₂ (lobNewton_step (it := 97) e₃
      (lobNewton_step (it := 96) e₄ (lobNewton_last (it := 95) e₅ (by
        have e : z₅ - z₄ = (z₅ + r) - (z₄ + r) := by ring
        rw [e]
        exact (abs_sub _ _).trans (by linarith))))))
  cases h : lobNewton 4 100 (F64.fin s : F64 L) with
  | none => exact absurd h key
  | some _ => rfl

end IntegratorXX
