import Verif.Lemmas.FloatGLFew
import Mathlib.Analysis.Real.Pi.Bounds

/-!
# GaussLegendre with two points in `double` arithmetic
-/

namespace IntegratorXX

open Polynomial Spec Set Real

variable {L : Libm}

local notation "P" => legendre

theorem pnLoop_one {z : ℝ} (hz : IsF64 z) :
    (pnLoop (F64.fin z : F64 L) 1).1 = F64.fin z ∧ (pnLoop (F64.fin z : F64 L) 1).2.1 = F64.fin 1 := by
  have l0 := lit_zero (L := L)
  have l1 := lit_one (L := L)
  have l2 := lit_two (L := L)
  have n1 := lit_nat' (L := L) (n := 1) (by norm_num)
  rw [pnLoop_succ]
  have h0 : pnLoop (F64.fin z : F64 L) 0 = (Arith.lit 1, Arith.lit 0, Arith.lit 0) := rfl
  rw [h0, l0.1, l1.1, l2.1]
  dsimp only
  rw [n1.1, Nat.cast_one, F64.fin_mul, mul_one, of_self l2.2, F64.fin_sub,
    show (2 : ℝ) - 1 = 1 by norm_num, of_self l1.2, F64.fin_mul, one_mul, of_self hz, F64.fin_mul, mul_one,
    of_self hz, F64.fin_sub, sub_self, of_self l0.2, F64.fin_mul, mul_zero, of_self l0.2, F64.fin_sub, sub_zero,
    of_self hz, F64.fin_div _ one_ne_zero, div_one, of_self hz]
  exact ⟨rfl, rfl⟩

theorem rnd_err_half {x : ℝ} (h : |x| < 1 / 2) : |rnd x - x| ≤ uro / 4 := by
  have := rnd_err_lt (x := x) (e := -1) (by norm_num; exact h) (by norm_num)
  rw [uro_eq]
  norm_num at this ⊢
  exact this

theorem legendre2 (z : ℝ) : (P 2).eval z = (3 * z ^ 2 - 1) / 2 := by
  have := legendre_bonnet_eval 1 z
  rw [show (1 + 1 : ℕ) = 2 from rfl] at this
  rw [this]
  simp [legPrev, legendre_one]
  ring

theorem legendre2' {z : ℝ} (hz : z ^ 2 ≠ 1) : (derivative (P 2)).eval z = 3 * z := by
  have hz' : z * z - 1 ≠ 0 := by
    intro h; apply hz; linarith [h, sq z]
  rw [legendre_deriv_eval 2 z hz, legendre2]
  simp only [legPrev]
  norm_num [legendre_one]
  field_simp
  ring

/-- The rounding of a small product or difference. -/
theorem mulF {x y : ℝ} (h : |x * y| < 4) : (F64.fin x : F64 L) * F64.fin y = F64.fin (rnd (x * y)) ∧ IsF64 (rnd (x * y)) := by
  rw [F64.fin_mul]
  exact of_fin_small h

theorem subF {x y : ℝ} (h : |x - y| < 4) : (F64.fin x : F64 L) - F64.fin y = F64.fin (rnd (x - y)) ∧ IsF64 (rnd (x - y)) := by
  rw [F64.fin_sub]
  exact of_fin_small h

/-- The value of `P_2`. -/
theorem value_two {z : ℝ} (hz : IsF64 z) (h1 : 1 / 2 ≤ z) (h2 : z ≤ 13 / 20) :
    ∃ v : ℝ, (evalPn (F64.fin z : F64 L) 2).1 = F64.fin v ∧ |v - (P 2).eval z| ≤ 108 / 100 * uro := by
  have hu := uro_pos
  have hu' := uro_lt
  obtain ⟨e1, e2⟩ := pnLoop_one (L := L) hz
  have l1 := lit_one (L := L)
  have l2 := lit_nat' (L := L) 2 (by norm_num)
  have a1 := two_nat_sub_one (L := L) 1 (by norm_num)
  have a2 := nat_sub_one (L := L) 1 (by norm_num)
  have h3z : |3 * z| < 2 := by rw [abs_of_pos (by linarith)]; linarith
  have hA := abs_le.1 (rnd_err2 h3z)
  have hAz : |rnd (3 * z) * z| < 2 := by
    rw [abs_of_pos (mul_pos (by linarith) (by linarith))]
    nlinarith
  have hB := abs_le.1 (rnd_err2 hAz)
  have hAz2 : |rnd (3 * z) * z - 3 * z ^ 2| ≤ 13 / 20 * uro := by
    have e : rnd (3 * z) * z - 3 * z ^ 2 = (rnd (3 * z) - 3 * z) * z := by ring
    rw [e, abs_mul, abs_of_pos (by linarith : 0 < z)]
    have := mul_le_mul (rnd_err2 h3z) h2 (by linarith) hu.le
    linarith
  have hAz3 := abs_le.1 hAz2
  have hz2 : 1 / 4 ≤ z ^ 2 := by nlinarith
  have hz3 : z ^ 2 ≤ 169 / 400 := by nlinarith
  have hD : |rnd (rnd (3 * z) * z) - 1| < 1 / 2 := by
    rw [abs_lt]
    constructor <;> linarith
  have hD2 := rnd_err_half hD
  have hD3 := abs_le.1 hD2
  have hV : |rnd (rnd (rnd (3 * z) * z) - 1) / 2| < 1 / 2 := by
    rw [abs_lt] at hD ⊢
    constructor <;> linarith
  have hV2 : |rnd (rnd (rnd (rnd (3 * z) * z) - 1) / 2) - rnd (rnd (rnd (3 * z) * z) - 1) / 2| ≤ uro / 8 := by
    have h4 : |rnd (rnd (rnd (3 * z) * z) - 1) / 2| < 1 / 4 := by
      have h5 : -(1 / 4) - 2 * uro ≤ rnd (rnd (3 * z) * z) - 1 := by linarith
      have h6 : rnd (rnd (3 * z) * z) - 1 ≤ 27 / 100 + 2 * uro := by linarith
      rw [abs_lt]
      constructor <;> linarith
    have := rnd_err_lt (e := -2) (by norm_num; exact h4) (by norm_num)
    rw [uro_eq]
    norm_num at this ⊢
    exact this
  have hV3 := abs_le.1 hV2
  refine ⟨rnd (rnd (rnd (rnd (3 * z) * z) - 1) / 2), ?_, ?_⟩
  · rw [evalPn_eq]
    dsimp only
    rw [pnLoop_succ]
    dsimp only
    rw [e1, e2, a1, a2, l2.1]
    push_cast
    rw [(mulF (L := L) (x := 3) (y := z) (by linarith)).1, (mulF (L := L) (by linarith)).1]
    rw [F64.fin_mul 1 1, mul_one, of_self l1.2, (subF (L := L) (by linarith)).1, F64.fin_div _ (by norm_num)]
    exact (of_fin_small (by linarith)).1
  · rw [legendre2, abs_le]
    constructor <;> linarith

/-- A step for two points. -/
theorem step_two {z r : ℝ} (hz : IsF64 z) (hr : r ^ 2 = 1 / 3) (hr0 : 0 < r) (hb : |z - r| ≤ 7 / 100) :
    ∃ z' : ℝ, F64.fin z - (evalPn (F64.fin z : F64 L) 2).1 / (evalPn (F64.fin z : F64 L) 2).2.1 = F64.fin z' ∧
      IsF64 z' ∧ |z' - r| ≤ 1 * |z - r| ^ 2 + (124 / 100 + 400 * |z - r|) * uro := by
  have hu := uro_pos
  have hu' := uro_lt
  have hr1 : 577 / 1000 < r := by nlinarith
  have hr2 : r < 578 / 1000 := by nlinarith
  have hb2 := abs_le.1 hb
  have h1 : 507 / 1000 ≤ z := by linarith
  have h2 : z ≤ 648 / 1000 := by linarith
  have hz2 : z ^ 2 ≤ 42 / 100 := by nlinarith
  obtain ⟨v, hv, hve⟩ := value_two (L := L) hz (by linarith) (by linarith)
  have hne : z ^ 2 ≠ 1 := by linarith
  have hp' := legendre2' hne
  have hσ2 : (√(1 - z ^ 2)) ^ 2 = 1 - z ^ 2 := sq_sqrt (by linarith)
  have hσ0 : 0 < √(1 - z ^ 2) := sqrt_pos.2 (by linarith)
  have hσl : 76 / 100 ≤ √(1 - z ^ 2) := by
    refine le_sqrt_of_sq_le ?_
    norm_num
    linarith
  set σ := √(1 - z ^ 2) with hσ
  have habs : |(derivative (P 2)).eval z| = 3 * z := by rw [hp', abs_of_pos (by linarith)]
  have hκ1 : (8 * ((2 : ℕ) : ℝ) + 4) * uro * 2 / σ + 5 * uro / σ ^ 2 ≤ 62 * uro := by
    have h3 : (8 * ((2 : ℕ) : ℝ) + 4) * uro * 2 / σ ≤ 53 * uro := by
      rw [div_le_iff₀ hσ0]
      push_cast
      have := mul_le_mul_of_nonneg_left hσl (by positivity : 0 ≤ 53 * uro)
      linarith
    have h4 : 5 * uro / σ ^ 2 ≤ 9 * uro := by
      rw [hσ2, div_le_iff₀ (by linarith)]
      have := mul_le_mul_of_nonneg_left (by linarith : 58 / 100 ≤ 1 - z ^ 2) (by positivity : 0 ≤ 9 * uro)
      linarith
    linarith
  have huro62 : 62 * uro ≤ 1 / 400 := by rw [uro_eq]; norm_num
  have hpp : (P 2).eval z / (derivative (P 2)).eval z = (z - r) * ((z + r) / (2 * z)) := by
    rw [hp', legendre2]
    have : (1 : ℝ) = 3 * r ^ 2 := by rw [hr]; norm_num
    field_simp
    linear_combination this * (-1)
  have hq : (z + r) / (2 * z) ≤ 122 / 100 := by
    rw [div_le_iff₀ (by linarith)]
    linarith
  have hq0 : 0 ≤ (z + r) / (2 * z) := by
    have : 0 < z := by linarith
    positivity
  have hX : |(P 2).eval z / (derivative (P 2)).eval z| ≤ 122 / 100 * |z - r| := by
    rw [hpp, abs_mul, abs_of_nonneg hq0, mul_comm]
    exact mul_le_mul_of_nonneg_right hq (abs_nonneg _)
  have hedp : 108 / 100 * uro / |(derivative (P 2)).eval z| ≤ 711 / 1000 * uro := by
    rw [habs, div_le_iff₀ (by linarith)]
    have := mul_le_mul_of_nonneg_left h1 (by positivity : 0 ≤ 3 * (711 / 1000 * uro))
    linarith
  obtain ⟨z', e', f', b'⟩ := step_from (L := L) (n := 2) (Λ := 2) (κ := _) (by norm_num) (by norm_num) hz hσ0 hσ2
    (by norm_num) (by norm_num) (by
      rw [habs]
      push_cast
      nlinarith) rfl (hκ1.trans huro62) (by linarith) (by rw [abs_of_pos (by linarith)]; linarith) hv hve (by linarith)
  refine ⟨z', e', f', ?_⟩
  have hN : |z - (P 2).eval z / (derivative (P 2)).eval z - r| ≤ 1 * |z - r| ^ 2 := by
    have e : z - (P 2).eval z / (derivative (P 2)).eval z - r = (z - r) ^ 2 * (1 / (2 * z)) := by
      rw [hpp]
      have : z ≠ 0 := by linarith
      field_simp
      ring
    rw [e, abs_mul, abs_of_nonneg (by positivity : (0 : ℝ) ≤ (z - r) ^ 2), sq_abs, mul_comm]
    have hp : 0 < 1 / (2 * z) := by
      have : 0 < z := by linarith
      positivity
    refine mul_le_mul_of_nonneg_right ?_ (sq_nonneg _)
    rw [abs_of_pos hp, div_le_iff₀ (by linarith)]
    linarith
  have e : z' - r = (z' - (z - (P 2).eval z / (derivative (P 2)).eval z)) +
      (z - (P 2).eval z / (derivative (P 2)).eval z - r) := by ring
  rw [e]
  refine (abs_add_le _ _).trans ?_
  have h5 : (3 * ((8 * ((2 : ℕ) : ℝ) + 4) * uro * 2 / σ + 5 * uro / σ ^ 2) + 2 * uro) *
      |(P 2).eval z / (derivative (P 2)).eval z| ≤ (3 * (62 * uro) + 2 * uro) * (122 / 100 * |z - r|) := by
    gcongr
  have h6 : 0 ≤ uro * |z - r| := by positivity
  linarith

/-- The iterations with two points end. -/
theorem glNewton_two {z r : ℝ} (hz : IsF64 z) (hr : r ^ 2 = 1 / 3) (hr0 : 0 < r) (hb : |z - r| ≤ 7 / 100) (it : ℕ) :
    glNewton 2 (it + 6) (F64.fin z : F64 L) ≠ none := by
  have hr1 : 577 / 1000 < r := by nlinarith
  have st : ∀ z : ℝ, IsF64 z → |z - r| ≤ 7 / 100 → ∃ z' : ℝ,
      F64.fin z - (evalPn (F64.fin z : F64 L) 2).1 / (evalPn (F64.fin z : F64 L) 2).2.1 = F64.fin z' ∧ IsF64 z' ∧
        |z' - r| ≤ 1 * |z - r| ^ 2 + (124 / 100 + 400 * |z - r|) * uro :=
    fun z hz hb => step_two hz hr hr0 hb
  refine glNewton_step (β' := 1 / 200) st zero_le_one hz hb le_rfl (by rw [uro_eq]; norm_num) fun z hz hb => ?_
  refine glNewton_step (β' := 1 / 30000) st zero_le_one hz hb (by norm_num) (by rw [uro_eq]; norm_num) fun z hz hb => ?_
  refine glNewton_step (β' := 1 / 800000000) st zero_le_one hz hb (by norm_num) (by rw [uro_eq]; norm_num) fun z hz hb => ?_
  refine glNewton_step (β' := 126 / 100 * uro) st zero_le_one hz hb (by norm_num) (by rw [uro_eq]; norm_num) fun z hz hb => ?_
  refine glNewton_last st zero_le_one hz hb (by rw [uro_eq]; norm_num) (by rw [uro_eq]; norm_num) (by linarith)

/-- `GaussLegendre(2)` does not throw. -/
theorem gaussLegendre_two (hL : L.Accurate) :
    (gaussLegendre 2 : Outcome (List (F64 L) × List (F64 L))) ≠ .throws (.runtimeError glMsg) := by
  refine gaussLegendre_ok 2 (fun j hj => ?_)
  obtain rfl : j = 0 := by omega
  have hu := uro_pos
  have hu' : uro < 1 / 1000000 := by rw [uro_eq]; norm_num
  obtain ⟨s, hs, hsf, hs1⟩ := glStart_double hL (n := 2) (k := 0) (by norm_num) (by norm_num)
  have e : ((0 : ℕ) + 3 / 4 : ℝ) * angStep 2 = 3 / 10 * π := by
    unfold angStep
    push_cast
    field_simp
    norm_num
  rw [e] at hs1
  have p1 := pi_gt_d4
  have p2 := pi_lt_d4
  have ha : |3 / 10 * π| = 3 / 10 * π := abs_of_pos (by linarith)
  have hc := cos_bound (x := 3 / 10 * π) (by rw [ha]; linarith)
  rw [ha] at hc
  have q1 : (3 / 10 * π) ^ 2 ≤ (3 / 10 * 3.1416) ^ 2 := by gcongr
  have q2 : (3 / 10 * 3.1415) ^ 2 ≤ (3 / 10 * π) ^ 2 := by gcongr
  have q4 : (3 / 10 * π) ^ 4 ≤ (3 / 10 * 3.1416) ^ 4 := by gcongr
  norm_num at q1 q2 q4
  rw [hs]
  have hr : (√(1 / 3 : ℝ)) ^ 2 = 1 / 3 := sq_sqrt (by norm_num)
  have hr0 : 0 < √(1 / 3 : ℝ) := sqrt_pos.2 (by norm_num)
  have hr1 : 577 / 1000 < √(1 / 3 : ℝ) := by nlinarith
  have hr2 : √(1 / 3 : ℝ) < 578 / 1000 := by nlinarith
  have hc' := abs_le.1 hc
  have hs' := abs_le.1 hs1
  have := glNewton_two (L := L) hsf hr hr0 (by
    rw [abs_le]
    constructor <;> linarith) 94
  cases h : glNewton 2 100 (F64.fin s : F64 L) with
  | none => exact absurd h this
  | some _ => rfl

end IntegratorXX
