import Verif.Lemmas.NewtonLobatto

/-!
# Accuracy of the weights of the Newton based rules

`F = (1 - x²) P_n'² + n(n+1) P_n²` varies slowly; at a node it determines the weight.
-/

namespace IntegratorXX

open Polynomial Spec Set Real

local notation "P" => legendre

/-- Sonin's function of `P_n`. -/
noncomputable def sonin (n : ℕ) (x : ℝ) : ℝ :=
  (1 - x ^ 2) * (derivative (P n)).eval x ^ 2 + n * (n + 1) * (P n).eval x ^ 2

theorem sonin_neg (n : ℕ) (x : ℝ) : sonin n (-x) = sonin n x := by
  unfold sonin
  rw [legendre_eval_neg, derivative_legendre_eval_neg, mul_pow, mul_pow, ← pow_mul, ← pow_mul,
    mul_comm n 2, mul_comm (n + 1) 2, pow_mul, pow_mul, neg_sq]
  norm_num

theorem sonin_abs (n : ℕ) (x : ℝ) : sonin n |x| = sonin n x := by
  rcases abs_choice x with h | h <;> rw [h]
  exact sonin_neg n x

theorem hasDerivAt_sonin (n : ℕ) (x : ℝ) :
    HasDerivAt (sonin n) (2 * x * (derivative (P n)).eval x ^ 2) x := by
  have h1 := (P n).hasDerivAt x
  have h2 := (derivative (P n)).hasDerivAt x
  have h3 : HasDerivAt (fun x : ℝ => 1 - x ^ 2) (-(2 * x)) x := by
    have := ((hasDerivAt_id x).fun_pow 2).const_sub 1
    refine this.congr_deriv ?_
    simp
  have := (h3.mul (h2.fun_pow 2)).add ((h1.fun_pow 2).const_mul ((n : ℝ) * (n + 1)))
  refine this.congr_deriv ?_
  have hode := congrArg (eval x) (legendre_ode' n)
  simp only [eval_mul, eval_sub, eval_one, eval_pow, eval_X, eval_C, eval_ofNat] at hode
  push_cast
  simp only [pow_one]
  linear_combination 2 * (derivative (P n)).eval x * hode

theorem sonin_mono (n : ℕ) : MonotoneOn (sonin n) (Ici 0) := by
  refine monotoneOn_of_deriv_nonneg (convex_Ici 0)
    (fun x _ => (hasDerivAt_sonin n x).continuousAt.continuousWithinAt)
    (fun x _ => (hasDerivAt_sonin n x).differentiableAt.differentiableWithinAt) ?_
  intro x hx
  rw [interior_Ici] at hx
  rw [(hasDerivAt_sonin n x).deriv]
  have : (0 : ℝ) < x := hx
  positivity

theorem sonin_anti (n : ℕ) : AntitoneOn (fun x => (1 - x ^ 2) * sonin n x) (Ici 0) := by
  have hd : ∀ x : ℝ, HasDerivAt (fun x => (1 - x ^ 2) * sonin n x)
      (-(2 * x * (n * (n + 1) * (P n).eval x ^ 2))) x := by
    intro x
    have h3 : HasDerivAt (fun x : ℝ => 1 - x ^ 2) (-(2 * x)) x := by
      have := ((hasDerivAt_id x).fun_pow 2).const_sub 1
      refine this.congr_deriv ?_
      simp
    refine (h3.mul (hasDerivAt_sonin n x)).congr_deriv ?_
    unfold sonin
    ring
  refine antitoneOn_of_deriv_nonpos (convex_Ici 0)
    (fun x _ => (hd x).continuousAt.continuousWithinAt)
    (fun x _ => (hd x).differentiableAt.differentiableWithinAt) ?_
  intro x hx
  rw [interior_Ici] at hx
  rw [(hd x).deriv]
  have : (0 : ℝ) < x := hx
  have : 0 ≤ 2 * x * (n * (n + 1) * (P n).eval x ^ 2) := by positivity
  linarith

theorem sonin_pos (n : ℕ) (hn : 1 ≤ n) (x : ℝ) (hx : |x| < 1) : 0 < sonin n x := by
  have h1 : 0 < 1 - x ^ 2 := by
    have := (sq_lt_one_iff_abs_lt_one x).2 hx
    linarith
  have hn0 : (0 : ℝ) < n := by exact_mod_cast hn
  unfold sonin
  by_cases h : (P n).eval x = 0
  · have h2 := legendre_simple_root n x h
    have : 0 < (derivative (P n)).eval x ^ 2 := by positivity
    rw [h]
    have : 0 < (1 - x ^ 2) * (derivative (P n)).eval x ^ 2 := by positivity
    linarith
  · have : 0 < (P n).eval x ^ 2 := by positivity
    positivity

/-- Relative variation of Sonin's function. -/
theorem sonin_ratio (n : ℕ) (hn : 1 ≤ n) (a r : ℝ) (ha : |a| < 1) (hr : |r| < 1) :
    |sonin n r / sonin n a - 1| ≤ |a ^ 2 - r ^ 2| / (1 - r ^ 2) := by
  have hFa := sonin_pos n hn a ha
  have hq : 0 < 1 - r ^ 2 := by
    have := (sq_lt_one_iff_abs_lt_one r).2 hr
    linarith
  have ha2 : |a| ^ 2 = a ^ 2 := sq_abs a
  have hr2 : |r| ^ 2 = r ^ 2 := sq_abs r
  have ha0 : |a| ∈ Ici (0 : ℝ) := abs_nonneg a
  have hr0 : |r| ∈ Ici (0 : ℝ) := abs_nonneg r
  rcases le_total |r| |a| with h | h
  · have h1 := sonin_mono n hr0 ha0 h
    have h2 := sonin_anti n hr0 ha0 h
    dsimp only at h2
    rw [sonin_abs, sonin_abs] at h1 h2
    rw [ha2, hr2] at h2
    have h3 : r ^ 2 ≤ a ^ 2 := by rw [← ha2, ← hr2]; exact pow_le_pow_left₀ (abs_nonneg _) h 2
    rw [abs_of_nonneg (by linarith : 0 ≤ a ^ 2 - r ^ 2), abs_le]
    constructor
    · rw [div_sub_one hFa.ne', ← neg_div, div_le_div_iff₀ hq hFa]
      linarith
    · have : sonin n r / sonin n a ≤ 1 := by rw [div_le_one hFa]; exact h1
      have : 0 ≤ (a ^ 2 - r ^ 2) / (1 - r ^ 2) := div_nonneg (by linarith) hq.le
      linarith
  · have h1 := sonin_mono n ha0 hr0 h
    have h2 := sonin_anti n ha0 hr0 h
    dsimp only at h2
    rw [sonin_abs, sonin_abs] at h1 h2
    rw [ha2, hr2] at h2
    have h3 : a ^ 2 ≤ r ^ 2 := by rw [← ha2, ← hr2]; exact pow_le_pow_left₀ (abs_nonneg _) h 2
    rw [abs_of_nonpos (by linarith : a ^ 2 - r ^ 2 ≤ 0), abs_le]
    constructor
    · have : 1 ≤ sonin n r / sonin n a := by rw [le_div_iff₀ hFa]; linarith
      have : 0 ≤ -(a ^ 2 - r ^ 2) / (1 - r ^ 2) := div_nonneg (by linarith) hq.le
      linarith
    · rw [div_sub_one hFa.ne', div_le_div_iff₀ hFa hq]
      linarith

/-- Differences of squares. -/
theorem sq_sub_le {x y e : ℝ} (hx : |x| < 1) (hy : |y| < 1) (h : |x - y| ≤ e) :
    |x ^ 2 - y ^ 2| ≤ 2 * e := by
  have h1 : |x + y| ≤ 2 := (abs_add_le x y).trans (by linarith)
  rw [sq_sub_sq, abs_mul]
  have := mul_le_mul h1 h (abs_nonneg _) (by norm_num)
  linarith

/-- Product of two factors near 1. -/
theorem near_one_mul {A B u : ℝ} (hu0 : 0 ≤ u) (hu : u ≤ 1 / 1000) (hA : |A - 1| ≤ 5 * u)
    (hB : |B - 1| ≤ 21 / 10 * u) : |A * B - 1| ≤ 8 * u := by
  have h : A * B - 1 = (A - 1) * (B - 1) + (A - 1) + (B - 1) := by ring
  rw [h]
  have h1 : |(A - 1) * (B - 1)| ≤ 5 * u * (21 / 10 * u) := by
    rw [abs_mul]
    exact mul_le_mul hA hB (abs_nonneg _) (by linarith)
  have h2 : 5 * u * (21 / 10 * u) ≤ 9 / 10 * u := by nlinarith
  have h3 := abs_add_le ((A - 1) * (B - 1) + (A - 1)) (B - 1)
  have h4 := abs_add_le ((A - 1) * (B - 1)) (A - 1)
  linarith

/-- Accuracy of a Gauss-Legendre weight. -/
theorem gl_weight_error (n : ℕ) (hn : 1 ≤ n) (r a z e : ℝ) (hr : (P n).eval r = 0)
    (ha : |a| < 1) (hz : |z| < 1)
    (hza : z = a - (P n).eval a / (derivative (P n)).eval a)
    (hd : (derivative (P n)).eval a ≠ 0)
    (h1 : |a - r| ≤ 5 / 2 * e) (h2 : |z - r| ≤ 3 / 2 * e) (h3 : |z - a| ≤ e)
    (hN : n * (n + 1) * e ≤ 1 / 100) (hu : e / (1 - r ^ 2) ≤ 1 / 1000) :
    |2 / ((1 - z * z) * (derivative (P n)).eval a * (derivative (P n)).eval a) -
      2 / ((1 - r ^ 2) * (derivative (P n)).eval r ^ 2)| ≤
      2 / ((1 - r ^ 2) * (derivative (P n)).eval r ^ 2) * (8 * (e / (1 - r ^ 2))) := by
  have he0 : 0 ≤ e := (abs_nonneg _).trans h3
  have hrm := legendre_root_mem n r hr
  have hr1 : |r| < 1 := abs_lt.2 hrm
  have hq : 0 < 1 - r ^ 2 := by
    have := (sq_lt_one_iff_abs_lt_one r).2 hr1
    linarith
  have hz2 : 0 < 1 - z ^ 2 := by
    have := (sq_lt_one_iff_abs_lt_one z).2 hz
    linarith
  have hr' := legendre_simple_root n r hr
  have hFa := sonin_pos n hn a ha
  have hFr := sonin_pos n hn r hr1
  have hA : |sonin n r / sonin n a - 1| ≤ 5 * (e / (1 - r ^ 2)) := by
    refine (sonin_ratio n hn a r ha hr1).trans ?_
    rw [mul_div_assoc', div_le_div_iff_of_pos_right hq]
    have := sq_sub_le ha hr1 h1
    linarith
  have hsq := sq_sub_le hz ha h3
  have hzr := sq_sub_le hz hr1 h2
  have hs2 : (z - a) ^ 2 ≤ e ^ 2 := by
    rw [← sq_abs]; exact pow_le_pow_left₀ (abs_nonneg _) h3 2
  have hNs : n * (n + 1) * (z - a) ^ 2 ≤ e / 100 := by
    have hn0 : (0 : ℝ) ≤ n * (n + 1) := by positivity
    calc n * (n + 1) * (z - a) ^ 2 ≤ n * (n + 1) * e ^ 2 := mul_le_mul_of_nonneg_left hs2 hn0
      _ = (n * (n + 1) * e) * e := by ring
      _ ≤ 1 / 100 * e := mul_le_mul_of_nonneg_right hN he0
      _ = e / 100 := by ring
  have hNs0 : 0 ≤ n * (n + 1) * (z - a) ^ 2 := by positivity
  have heq : e ≤ 1 / 1000 * (1 - r ^ 2) := by
    rw [div_le_iff₀ hq] at hu; exact hu
  have hB : |(1 - a ^ 2 + n * (n + 1) * (z - a) ^ 2) / (1 - z ^ 2) - 1| ≤
      21 / 10 * (e / (1 - r ^ 2)) := by
    rw [div_sub_one hz2.ne', abs_div, abs_of_pos hz2, mul_div_assoc', div_le_div_iff₀ hz2 hq]
    have g1 : |1 - a ^ 2 + n * (n + 1) * (z - a) ^ 2 - (1 - z ^ 2)| ≤ 2.01 * e := by
      have := abs_le.1 hsq
      rw [abs_le]
      constructor <;> linarith
    have g2 : (1 - r ^ 2) * (997 / 1000) ≤ 1 - z ^ 2 := by
      have := abs_le.1 hzr
      linarith
    have g3 := mul_le_mul_of_nonneg_right g1 hq.le
    have g4 := mul_le_mul_of_nonneg_left g2 (by linarith : 0 ≤ 21 / 10 * e)
    have g5 : 0 ≤ e * (1 - r ^ 2) := by positivity
    linarith
  have hAB := near_one_mul (by positivity) hu hA hB
  have hW : 0 < 2 / ((1 - r ^ 2) * (derivative (P n)).eval r ^ 2) := by positivity
  have hprod : 2 / ((1 - z * z) * (derivative (P n)).eval a * (derivative (P n)).eval a) =
      2 / ((1 - r ^ 2) * (derivative (P n)).eval r ^ 2) *
      (sonin n r / sonin n a * ((1 - a ^ 2 + n * (n + 1) * (z - a) ^ 2) / (1 - z ^ 2))) := by
    have e1 : sonin n r = (1 - r ^ 2) * (derivative (P n)).eval r ^ 2 := by
      unfold sonin; rw [hr]; ring
    have e2 : sonin n a = (derivative (P n)).eval a ^ 2 *
        (1 - a ^ 2 + n * (n + 1) * (z - a) ^ 2) := by
      unfold sonin
      have : (P n).eval a = (a - z) * (derivative (P n)).eval a := by
        rw [hza]; field_simp; ring
      rw [this]; ring
    have hpos : 0 < 1 - a ^ 2 + n * (n + 1) * (z - a) ^ 2 := by
      have := (sq_lt_one_iff_abs_lt_one a).2 ha
      linarith
    rw [e1, e2]
    have hz3 : 1 - z * z ≠ 0 := by rw [← sq]; exact hz2.ne'
    generalize 1 - a ^ 2 + n * (n + 1) * (z - a) ^ 2 = B at *
    rw [← sq z]
    field_simp
  rw [hprod, ← mul_sub_one, abs_mul, abs_of_pos hW]
  exact mul_le_mul_of_nonneg_left hAB hW.le

/-- Accuracy of a Gauss-Lobatto weight. -/
theorem lob_weight_error (m : ℕ) (hm : 1 ≤ m) (r a z e : ℝ)
    (hr : (derivative (P m)).eval r = 0) (hr1 : |r| < 1) (ha : |a| < 1)
    (hza : z = a - (a * (P m).eval a - (P (m - 1)).eval a) / ((m + 1) * (P m).eval a))
    (hd : (P m).eval a ≠ 0)
    (h1 : |a - r| ≤ 5 / 2 * e) (h3 : |z - a| ≤ e)
    (hN : m * (m + 1) * e ≤ 1 / 100) (hu : e / (1 - r ^ 2) ≤ 1 / 1000) (c : ℝ) (hc : 0 < c) :
    |c / ((P m).eval a * (P m).eval a) - c / (P m).eval r ^ 2| ≤
      c / (P m).eval r ^ 2 * (8 * (e / (1 - r ^ 2))) := by
  have he0 : 0 ≤ e := (abs_nonneg _).trans h3
  have hq : 0 < 1 - r ^ 2 := by
    have := (sq_lt_one_iff_abs_lt_one r).2 hr1
    linarith
  have ha2 : 0 < 1 - a ^ 2 := by
    have := (sq_lt_one_iff_abs_lt_one a).2 ha
    linarith
  have hr' := (legendre_deriv_simple_root m r hm hr).1
  have hFa := sonin_pos m hm a ha
  have hm0 : (0 : ℝ) < m := by exact_mod_cast hm
  have hA : |sonin m r / sonin m a - 1| ≤ 5 * (e / (1 - r ^ 2)) := by
    refine (sonin_ratio m hm a r ha hr1).trans ?_
    rw [mul_div_assoc', div_le_div_iff_of_pos_right hq]
    have := sq_sub_le ha hr1 h1
    linarith
  have har := sq_sub_le ha hr1 h1
  have hs2 : (z - a) ^ 2 ≤ e ^ 2 := by
    rw [← sq_abs]; exact pow_le_pow_left₀ (abs_nonneg _) h3 2
  have hNs : m * (m + 1) * (z - a) ^ 2 ≤ e / 100 := by
    have hn0 : (0 : ℝ) ≤ m * (m + 1) := by positivity
    calc m * (m + 1) * (z - a) ^ 2 ≤ m * (m + 1) * e ^ 2 := mul_le_mul_of_nonneg_left hs2 hn0
      _ = (m * (m + 1) * e) * e := by ring
      _ ≤ 1 / 100 * e := mul_le_mul_of_nonneg_right hN he0
      _ = e / 100 := by ring
  have hNs0 : 0 ≤ m * (m + 1) * (z - a) ^ 2 := by positivity
  have heq : e ≤ 1 / 1000 * (1 - r ^ 2) := by
    rw [div_le_iff₀ hq] at hu; exact hu
  have hB : |(1 + m * (m + 1) * (z - a) ^ 2 / (1 - a ^ 2)) - 1| ≤
      21 / 10 * (e / (1 - r ^ 2)) := by
    rw [add_sub_cancel_left, abs_of_nonneg (by positivity), mul_div_assoc',
      div_le_div_iff₀ ha2 hq]
    have g2 : (1 - r ^ 2) * (995 / 1000) ≤ 1 - a ^ 2 := by
      have := abs_le.1 har
      linarith
    have g3 := mul_le_mul_of_nonneg_right hNs hq.le
    have g4 := mul_le_mul_of_nonneg_left g2 (by linarith : 0 ≤ 21 / 10 * e)
    have g5 : 0 ≤ e * (1 - r ^ 2) := by positivity
    linarith
  have hAB := near_one_mul (by positivity) hu hA hB
  have hW : 0 < c / (P m).eval r ^ 2 := by positivity
  have hprod : c / ((P m).eval a * (P m).eval a) = c / (P m).eval r ^ 2 *
      (sonin m r / sonin m a * (1 + m * (m + 1) * (z - a) ^ 2 / (1 - a ^ 2))) := by
    have e1 : sonin m r = m * (m + 1) * (P m).eval r ^ 2 := by
      unfold sonin; rw [hr]; ring
    have e3 : (1 - a ^ 2) * (derivative (P m)).eval a = m * (m + 1) * (z - a) * (P m).eval a := by
      obtain ⟨l, rfl⟩ : ∃ l, m = l + 1 := ⟨m - 1, by omega⟩
      have h := congrArg (eval a) (legendre_deriv_formula l)
      simp only [eval_mul, eval_sub, eval_one, eval_pow, eval_X, eval_C] at h
      rw [h, hza, Nat.add_sub_cancel]
      have : ((l + 1 : ℕ) : ℝ) + 1 ≠ 0 := by positivity
      push_cast at this ⊢
      field_simp
      ring
    have e2 : sonin m a = m * (m + 1) * (P m).eval a ^ 2 *
        (1 + m * (m + 1) * (z - a) ^ 2 / (1 - a ^ 2)) := by
      unfold sonin
      have : (derivative (P m)).eval a = m * (m + 1) * (z - a) * (P m).eval a / (1 - a ^ 2) := by
        rw [eq_div_iff ha2.ne', mul_comm, e3]
      rw [this]
      field_simp
      ring
    have hpos : 0 < 1 + m * (m + 1) * (z - a) ^ 2 / (1 - a ^ 2) := by positivity
    rw [e1, e2]
    generalize 1 + m * (m + 1) * (z - a) ^ 2 / (1 - a ^ 2) = B at *
    field_simp
  rw [hprod, ← mul_sub_one, abs_mul, abs_of_pos hW]
  exact mul_le_mul_of_nonneg_left hAB hW.le

end IntegratorXX
