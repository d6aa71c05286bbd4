import Verif.Lemmas.FloatNewton
import Verif.Lemmas.FloatCheb
import Verif.Lemmas.NewtonRules

/-!
# GaussLegendre in `double` arithmetic
-/

namespace IntegratorXX

open Polynomial Spec Set Real

local notation "P" => legendre

variable {L : Libm}

/-- Sizes for which the errors are small. -/
theorem gl_small {n : ℕ} (hn1 : 1 ≤ n) (hn : n ≤ 2 ^ 15) :
    √(n : ℝ) ^ 2 = n ∧ 1 ≤ √(n : ℝ) ∧ √(n : ℝ) * ((n : ℝ) + 1 / 2) ^ 2 * uro ≤ 1 / 40000 := by
  have h1 : (1 : ℝ) ≤ n := by exact_mod_cast hn1
  have h2 : (n : ℝ) ≤ 32768 := by exact_mod_cast hn
  have h3 : √(n : ℝ) ≤ 182 := by
    rw [show (182 : ℝ) = √(182 ^ 2) by rw [sqrt_sq (by norm_num)]]
    refine sqrt_le_sqrt ?_
    norm_num
    linarith
  refine ⟨sq_sqrt (by linarith), by rw [one_le_sqrt]; exact h1, ?_⟩
  have h4 : ((n : ℝ) + 1 / 2) ^ 2 ≤ 32769 ^ 2 := by
    refine pow_le_pow_left₀ (by linarith) ?_ 2
    linarith
  have h5 : √(n : ℝ) * ((n : ℝ) + 1 / 2) ^ 2 ≤ 182 * 32769 ^ 2 := mul_le_mul h3 h4 (by positivity) (by norm_num)
  have h6 := mul_le_mul_of_nonneg_right h5 uro_pos.le
  refine h6.trans ?_
  rw [uro_eq]
  norm_num

/-- The relative error of the derivative. -/
theorem kappa_le {n : ℕ} {σ q Λ : ℝ} (hσ0 : 0 < σ) (hσ : 32 / 100 * q ^ 2 ≤ σ ^ 2)
    (hq : 3 / 2 / ((n : ℝ) + 1 / 2) ≤ q) (hΛ : 0 ≤ Λ) :
    (8 * n + 4) * uro * Λ / σ + 5 * uro / σ ^ 2 ≤ (10 * Λ + 8) * (n + 1 / 2) ^ 2 * uro := by
  have hu := uro_pos
  have hn0 : (0 : ℝ) ≤ n := Nat.cast_nonneg n
  obtain ⟨M, hM⟩ : ∃ M : ℝ, M = n + 1 / 2 := ⟨_, rfl⟩
  have hM0 : 0 < M := by linarith
  rw [← hM] at hq ⊢
  rw [show 8 * (n : ℝ) + 4 = 8 * M by rw [hM]; ring]
  rw [div_le_iff₀ hM0] at hq
  have h1 : (3 / 2) ^ 2 ≤ (q * M) ^ 2 := pow_le_pow_left₀ (by norm_num) hq 2
  have h2 : 18 / 25 ≤ (σ * M) ^ 2 := by
    have := mul_le_mul_of_nonneg_right hσ (sq_nonneg M)
    rw [mul_pow] at h1 ⊢
    linarith
  have h3 : 4 / 5 ≤ σ * M := by
    refine abs_le_of_sq_le_sq' ?_ (by positivity) |>.2
    linarith
  have h4 : 8 * M * uro * Λ / σ ≤ 10 * Λ * M ^ 2 * uro := by
    rw [div_le_iff₀ hσ0]
    have := mul_le_mul_of_nonneg_left h3 (by positivity : 0 ≤ 10 * Λ * M * uro)
    linarith
  have h5 : 5 * uro / σ ^ 2 ≤ 8 * M ^ 2 * uro := by
    rw [div_le_iff₀ (by positivity)]
    rw [mul_pow] at h2
    have := mul_le_mul_of_nonneg_left h2 (by positivity : 0 ≤ 8 * uro)
    linarith
  linarith

/-- A Newton step near a root. -/
theorem gl_wide_step {n k : ℕ} (hk : k < (n + 1) / 2) (hn : n ≤ 2 ^ 15) {z Λ : ℝ} (hz : IsF64 z)
    (hz1 : cos (glAng n k) - 31 / 50 * glD n k ≤ z) (hz2 : z ≤ cos (glAng n k) + glD n k)
    (hΛ1 : 1 ≤ Λ) (hΛ2 : Λ ≤ 4 * √(n : ℝ))
    (hd : n ≤ |(derivative (P n)).eval z| * √(1 - z ^ 2) * Λ) :
    ∃ g z' : ℝ, (evalPn (F64.fin z : F64 L) n).2.1 = F64.fin g ∧ IsF64 g ∧
      |g - (derivative (P n)).eval z| ≤
        2 * ((10 * Λ + 8) * (n + 1 / 2) ^ 2 * uro) * |(derivative (P n)).eval z| ∧
      F64.fin z - (evalPn (F64.fin z : F64 L) n).1 / (evalPn (F64.fin z : F64 L) n).2.1 = F64.fin z' ∧
      IsF64 z' ∧
      |z' - (z - (P n).eval z / (derivative (P n)).eval z)| ≤
        (9 * Λ + 4) * uro + 1 / 100 * |z - cos (glAng n k)| := by
  have hu := uro_pos
  have hn1 : 1 ≤ n := by omega
  obtain ⟨hR2, hR1, hy⟩ := gl_small hn1 hn
  obtain ⟨-, hD0, -, -, hDq, hw⟩ := gl_newton_wide hk
  obtain ⟨hza, hσ, hp', hN⟩ := hw z hz1 hz2
  have hq := sin_glAng_ge hk
  have hn0 : (1 : ℝ) ≤ n := by exact_mod_cast hn1
  have hs0 : 0 < sin (glAng n k) := lt_of_lt_of_le (by positivity) hq
  have h1z : 0 < 1 - z ^ 2 := lt_of_lt_of_le (by positivity) hσ
  have hsq : √(1 - z ^ 2) ^ 2 = 1 - z ^ 2 := sq_sqrt h1z.le
  have hκ := kappa_le (n := n) (σ := √(1 - z ^ 2)) (Λ := Λ) (sqrt_pos.2 h1z) (by rw [hsq]; exact hσ) hq
    (by linarith)
  set r := cos (glAng n k) with hr
  set D := glD n k with hD
  set R := √(n : ℝ) with hRdef
  have hzr : |z - r| ≤ D := by
    rw [abs_le]
    constructor <;> linarith
  have hs : |(P n).eval z / (derivative (P n)).eval z| ≤ 8 / 5 * |z - r| := by
    have e : (P n).eval z / (derivative (P n)).eval z =
        (z - r) - (z - (P n).eval z / (derivative (P n)).eval z - r) := by ring
    rw [e]
    refine (abs_sub _ _).trans ?_
    linarith
  have hD1 : D ≤ 5 / 8 := by
    have h1 : sin (glAng n k) ^ 2 ≤ 1 := sin_sq_le_one _
    have h2 : 2 * D ^ 2 ≤ n * (n + 1) * D ^ 2 := mul_le_mul_of_nonneg_right (by nlinarith) (sq_nonneg D)
    refine abs_le_of_sq_le_sq' ?_ (by norm_num) |>.2
    linarith
  have hκ2 : (10 * Λ + 8) * ((n : ℝ) + 1 / 2) ^ 2 * uro ≤ 1 / 500 := by
    have h1 : 10 * Λ + 8 ≤ 48 * R := by linarith
    have h2 := mul_le_mul_of_nonneg_right h1 (by positivity : 0 ≤ ((n : ℝ) + 1 / 2) ^ 2 * uro)
    linarith
  have hΛ3 : Λ ≤ 2 ^ 30 := by
    have : R ≤ n := by
      rw [← hR2, sq]
      exact le_mul_of_one_le_left (by linarith) hR1
    have hnr : (n : ℝ) ≤ 32768 := by exact_mod_cast hn
    norm_num
    linarith
  obtain ⟨κ, hκd⟩ : ∃ κ, κ = (8 * n + 4) * uro * Λ / √(1 - z ^ 2) + 5 * uro / √(1 - z ^ 2) ^ 2 := ⟨_, rfl⟩
  rw [← hκd] at hκ
  obtain ⟨g, z', e1, hg, hge, e2, hz', hze⟩ := gl_step_double (L := L) hn1 (by omega) hz (sqrt_pos.2 h1z) hsq hΛ1 hΛ3
    hd hκd (by linarith) (by linarith)
  refine ⟨g, z', e1, hg, hge.trans ?_, e2, hz', hze.trans ?_⟩
  · refine mul_le_mul_of_nonneg_right ?_ (abs_nonneg _)
    linarith
  · have h1 := mul_le_mul hκ hs (abs_nonneg _) (by positivity)
    have h2 := mul_le_mul_of_nonneg_right hκ2 (by positivity : 0 ≤ 8 / 5 * |z - r|)
    have h3 := abs_nonneg (z - r)
    linarith

/-- The derivative is not small in the neighbourhood. -/
theorem gl_wide_deriv {n k : ℕ} (hk : k < (n + 1) / 2) {z : ℝ}
    (hz1 : cos (glAng n k) - 31 / 50 * glD n k ≤ z) (hz2 : z ≤ cos (glAng n k) + glD n k) :
    n ≤ |(derivative (P n)).eval z| * √(1 - z ^ 2) * (4 * √(n : ℝ)) := by
  have hn1 : 1 ≤ n := by omega
  obtain ⟨-, hD0, -, -, hDq, hw⟩ := gl_newton_wide hk
  obtain ⟨hza, hσ, hp', hN⟩ := hw z hz1 hz2
  have hq := sin_glAng_ge hk
  have hs0 : 0 < sin (glAng n k) := lt_of_lt_of_le (by positivity) hq
  have h1z : 0 < 1 - z ^ 2 := lt_of_lt_of_le (by positivity) hσ
  have hsq : √(1 - z ^ 2) ^ 2 = 1 - z ^ 2 := sq_sqrt h1z.le
  have hn0 : (1 : ℝ) ≤ n := by exact_mod_cast hn1
  have hR2 : √(n : ℝ) ^ 2 = n := sq_sqrt (by linarith)
  set r := cos (glAng n k) with hr
  set D := glD n k with hD
  have hzr : |z - r| ≤ D := by
    rw [abs_le]
    constructor <;> linarith
  have hs : |(P n).eval z / (derivative (P n)).eval z| ≤ 8 / 5 * D := by
    have e : (P n).eval z / (derivative (P n)).eval z =
        (z - r) - (z - (P n).eval z / (derivative (P n)).eval z - r) := by ring
    rw [e]
    refine (abs_sub _ _).trans ?_
    linarith
  refine deriv_ge n hn1 z ((P n).eval z / (derivative (P n)).eval z) (26 / 5) _ _ ?_ (sqrt_pos.2 h1z) hsq ?_ ?_ ?_
  · field_simp
  · have h1 : ((P n).eval z / (derivative (P n)).eval z) ^ 2 ≤ (8 / 5 * D) ^ 2 := by
      rw [← sq_abs]
      exact pow_le_pow_left₀ (abs_nonneg _) hs 2
    have h2 := mul_le_mul_of_nonneg_left h1 (by positivity : 0 ≤ (n : ℝ) * (n + 1))
    rw [hsq]
    linarith
  · have : 0 < √(n : ℝ) := sqrt_pos.2 (by linarith)
    linarith
  · rw [mul_pow, hR2]
    linarith

/-- The acceptance test. -/
theorem accept_le {x y : ℝ} (hx : |x - y| ≤ 2 ^ 100)
    (h : Arith.le (Arith.abs ((F64.fin x : F64 L) - F64.fin y)) Arith.eps = true) :
    |x - y| ≤ 201 / 100 * uro := by
  have hu := uro_pos
  have hu' := uro_lt
  by_cases hs : |x - y| ≤ uro
  · linarith
  push Not at hs
  classical
  have hm : Mid (x - y) := by
    refine ⟨le_trans ?_ hs.le, hx.trans (by norm_num)⟩
    rw [uro_eq]
    norm_num
  obtain ⟨v, hv, -, hv1⟩ := of_rel' (L := L) hm
  rw [F64.fin_sub, hv] at h
  have h2 : |v| ≤ 2⁻¹ ^ 52 := by
    have h3 : XReal.Lt (XReal.fin |v|) (XReal.fin ((2 : ℝ)⁻¹ ^ 52)) ∨
        XReal.Eq' (XReal.fin |v|) (XReal.fin ((2 : ℝ)⁻¹ ^ 52)) := by
      simpa [Arith.le, Arith.abs, Arith.eps, F64.fin] using h
    rcases h3 with h3 | h3
    · exact le_of_lt h3
    · exact le_of_eq h3
  have u52 : (2⁻¹ : ℝ) ^ 52 = 2 * uro := by rw [uro_eq]; norm_num
  rw [u52] at h2
  have h3 := abs_sub_abs_le_abs_sub (x - y) v
  rw [abs_sub_comm (x - y) v] at h3
  have h4 : 5 / 4 * uro * |x - y| ≤ 5 / 4 * (1 / 1000) * |x - y| := by gcongr
  linarith

/-- Newton iterations end without a result or near the root. -/
theorem gl_run_double {n k : ℕ} (hk : k < (n + 1) / 2) (hn : n ≤ 2 ^ 15) :
    ∀ (it : ℕ) (z : ℝ), IsF64 z → cos (glAng n k) - 31 / 50 * glD n k ≤ z → z ≤ cos (glAng n k) + glD n k →
      glNewton n it (F64.fin z : F64 L) = none ∨
      ∃ a z' g : ℝ, glNewton n it (F64.fin z : F64 L) = some (F64.fin z', F64.fin g) ∧
        IsF64 a ∧ cos (glAng n k) - 31 / 50 * glD n k ≤ a ∧ a ≤ cos (glAng n k) + glD n k ∧
        (evalPn (F64.fin a : F64 L) n).2.1 = F64.fin g ∧
        F64.fin a - (evalPn (F64.fin a : F64 L) n).1 / (evalPn (F64.fin a : F64 L) n).2.1 = F64.fin z' ∧
        |z' - a| ≤ 201 / 100 * uro := by
  have hu := uro_pos
  have hn1 : 1 ≤ n := by omega
  obtain ⟨hR2, hR1, hy⟩ := gl_small hn1 hn
  have hq := sin_glAng_ge hk
  obtain ⟨hr0, hD0, -, -, hDq, hw⟩ := gl_newton_wide hk
  have hDlow : 1 / ((n : ℝ) + 1 / 2) ^ 2 ≤ glD n k := by
    unfold glD
    have h1 : (0 : ℝ) < n + 1 / 2 := by positivity
    have h2 := angStep_mul n
    have h3 : 3 / ((n : ℝ) + 1 / 2) ≤ angStep n := by
      rw [div_le_iff₀ h1]
      have := pi_gt_three
      linarith
    have h4 : 3 / ((n : ℝ) + 1 / 2) * (3 / 2 / (n + 1 / 2)) ≤ angStep n * sin (glAng n k) :=
      mul_le_mul h3 hq (by positivity) (angStep_pos n).le
    have e : 3 / ((n : ℝ) + 1 / 2) * (3 / 2 / (n + 1 / 2)) = 9 / 2 * (1 / ((n : ℝ) + 1 / 2) ^ 2) := by
      field_simp
      norm_num
    have h5 : 0 < 1 / ((n : ℝ) + 1 / 2) ^ 2 := by positivity
    rw [e] at h4
    linarith
  have hnoise : (9 * (4 * √(n : ℝ)) + 4) * uro ≤ 1 / 100 * glD n k := by
    refine le_trans ?_ (mul_le_mul_of_nonneg_left hDlow (by norm_num))
    have h1 : (0 : ℝ) < ((n : ℝ) + 1 / 2) ^ 2 := by positivity
    rw [mul_one_div, le_div_iff₀ h1]
    have h2 := mul_le_mul_of_nonneg_right hR1 (by positivity : 0 ≤ ((n : ℝ) + 1 / 2) ^ 2 * uro)
    linarith
  intro it
  induction it with
  | zero => intro z _ _ _; left; rfl
  | succ it ih =>
    intro z hz hz1 hz2
    obtain ⟨g, z', e1, hg, -, e2, hz', hze⟩ := gl_wide_step (L := L) hk hn hz hz1 hz2 (Λ := 4 * √(n : ℝ))
      (by linarith) le_rfl (gl_wide_deriv hk hz1 hz2)
    obtain ⟨-, -, -, hN⟩ := hw z hz1 hz2
    have hzr : |z - cos (glAng n k)| ≤ glD n k := by
      rw [abs_le]
      constructor <;> linarith
    have hz'r : |z' - cos (glAng n k)| ≤ 31 / 50 * glD n k := by
      have e : z' - cos (glAng n k) = (z' - (z - (P n).eval z / (derivative (P n)).eval z)) +
        (z - (P n).eval z / (derivative (P n)).eval z - cos (glAng n k)) := by ring
      rw [e]
      refine (abs_add_le _ _).trans ?_
      linarith
    have hz'r' := abs_le.1 hz'r
    unfold glNewton
    dsimp only
    rw [e2]
    split_ifs with hacc
    · right
      refine ⟨z, z', g, by rw [e1], hz, hz1, hz2, e1, e2, accept_le (L := L) ?_ hacc⟩
      have hD1 : glD n k ≤ 1 := by
        have h1 : sin (glAng n k) ^ 2 ≤ 1 := sin_sq_le_one _
        have hn0 : (1 : ℝ) ≤ n := by exact_mod_cast hn1
        have h2 : 2 * glD n k ^ 2 ≤ n * (n + 1) * glD n k ^ 2 :=
          mul_le_mul_of_nonneg_right (by nlinarith) (sq_nonneg _)
        refine abs_le_of_sq_le_sq' ?_ (by norm_num) |>.2
        linarith
      have e : z' - z = (z' - cos (glAng n k)) - (z - cos (glAng n k)) := by ring
      rw [e]
      refine (abs_sub _ _).trans ?_
      have : (2 : ℝ) ≤ 2 ^ 100 := by norm_num
      linarith
    · exact ih z' hz' (by linarith) (by linarith)

/-- The starting value. -/
theorem glStart_double (hL : L.Accurate) {n k : ℕ} (hk : k < (n + 1) / 2) (hn : n ≤ 2 ^ 15) :
    Near (glStart (F64 L) n k) (cos ((k + 3 / 4) * angStep n)) (14 * uro) := by
  have hu := uro_pos
  have hu' := uro_lt
  have hn' : (n : ℝ) ≤ 32768 := by exact_mod_cast hn
  have hkn : (k : ℝ) + 1 ≤ n := by exact_mod_cast (by omega : k + 1 ≤ n)
  have hk0 : (0 : ℝ) ≤ k := Nat.cast_nonneg k
  have lq : ∀ m : ℕ, m ≤ 2 ^ 20 → IsF64 ((m : ℝ) / 4) ∧ (F64.of ((m : ℝ) / 4) : F64 L) = F64.fin ((m : ℝ) / 4) := by
    intro m hm
    have hm' : (m : ℝ) ≤ 1048576 := by exact_mod_cast hm
    have h1 : rnd ((m : ℝ) / 4) = (m : ℝ) / 4 := by
      refine rnd_rep (m : ℤ) (-2) ?_ (by norm_num) ?_
      · rw [abs_of_nonneg (by positivity)]
        exact_mod_cast hm.trans (by norm_num)
      · push_cast
        norm_num
        ring
    have h2 : |(m : ℝ) / 4| ≤ 2 ^ 200 := by
      rw [abs_of_nonneg (by positivity)]
      norm_num
      linarith
    exact ⟨(of_exact (L := L) h1 h2).2, (of_exact h1 h2).1⟩
  have A : Rel (Arith.ofNat (k + 1) - Arith.lit (1 / 4) : F64 L) (k + 3 / 4) 0 := by
    obtain ⟨h1, -⟩ := lit_nat' (L := L) (n := k + 1) (by omega)
    have h3 : (Arith.lit (1 / 4) : F64 L) = F64.fin (1 / 4) := by
      rw [F64.lit_eq]
      have := (lq 1 (by norm_num)).2
      norm_num at this ⊢
      exact this
    rw [h1, h3, F64.fin_sub]
    have h4 := lq (4 * k + 3) (by omega)
    rw [show ((4 * k + 3 : ℕ) : ℝ) / 4 = k + 3 / 4 by push_cast; ring] at h4
    rw [show ((k + 1 : ℕ) : ℝ) - 1 / 4 = k + 3 / 4 by push_cast; ring, h4.2]
    exact ⟨_, rfl, h4.1, by simp⟩
  have B : Rel (Arith.ofNat n + Arith.lit (1 / 2) : F64 L) (n + 1 / 2) 0 := by
    obtain ⟨h1, -⟩ := lit_nat' (L := L) (n := n) (by omega)
    have h3 : (Arith.lit (1 / 2) : F64 L) = F64.fin (1 / 2) := by
      rw [F64.lit_eq]
      have := (lq 2 (by norm_num)).2
      norm_num at this ⊢
      exact this
    rw [h1, h3, F64.fin_add]
    have h4 := lq (4 * n + 2) (by omega)
    rw [show ((4 * n + 2 : ℕ) : ℝ) / 4 = n + 1 / 2 by push_cast; ring] at h4
    rw [h4.2]
    exact ⟨_, rfl, h4.1, by simp⟩
  have hpi := pi_gt_three
  have hpi' := pi_le_four
  have h1 : (3 / 4 : ℝ) ≤ k + 3 / 4 := by linarith
  have C := Rel.mul (rel_pi (L := L)) A (by norm_num) (by norm_num) le_rfl (by norm_num) (mid_of (by
      have : 3 * (3 / 4) ≤ π * ((k : ℝ) + 3 / 4) := mul_le_mul hpi.le h1 (by norm_num) (by linarith)
      refine le_trans ?_ this
      norm_num) (by
      have : π * ((k : ℝ) + 3 / 4) ≤ 4 * 40000 := mul_le_mul hpi' (by linarith) (by linarith) (by norm_num)
      refine this.trans (by norm_num)))
  have hθ : π * ((k : ℝ) + 3 / 4) / (n + 1 / 2) = (k + 3 / 4) * angStep n := by
    unfold angStep
    ring
  have hθ1 : (k + 3 / 4) * angStep n ≤ π / 2 := (glAng_start hk).trans (glAng_le_half hk)
  have hθ0 : 0 < (k + 3 / 4) * angStep n := by
    have := angStep_pos n
    positivity
  have E := Rel.div C B (by norm_num) (by norm_num) le_rfl (by norm_num) (by positivity) (mid_of (by
      rw [le_div_iff₀ (by positivity)]
      have h2 : 3 * (3 / 4) ≤ π * ((k : ℝ) + 3 / 4) := mul_le_mul hpi.le h1 (by norm_num) (by linarith)
      have h3 : (2⁻¹ : ℝ) ^ 200 * (n + 1 / 2) ≤ 2⁻¹ ^ 200 * 40000 := by gcongr; linarith
      have h4 : (2⁻¹ : ℝ) ^ 200 * 40000 ≤ 3 * (3 / 4) := by norm_num
      linarith) (by
      rw [hθ]
      have : (2 : ℝ) ≤ 2 ^ 200 := by norm_num
      linarith))
  rw [hθ] at E
  unfold glStart
  have F : Near (Arith.pi * (Arith.ofNat (k + 1) - Arith.lit (1 / 4)) / (Arith.ofNat n + Arith.lit (1 / 2)) : F64 L)
      ((k + 3 / 4) * angStep n) (10 * uro) := by
    refine Near.mono E ?_
    rw [abs_of_pos hθ0]
    have h2 : (k + 3 / 4) * angStep n ≤ 1.58 := by
      have := pi_lt_d2
      linarith
    have := mul_le_mul_of_nonneg_left h2 (by positivity : 0 ≤ (2 + 0 + 2 + 0 + 2) * uro)
    norm_num at this ⊢
    linarith
  exact (Near.cos hL F (by linarith)).mono (by linarith)

/-- An accepted iterate. -/
theorem gl_accept {n k : ℕ} (hk : k < (n + 1) / 2) (hn : n ≤ 2 ^ 15) {a z' g : ℝ} (ha : IsF64 a)
    (ha1 : cos (glAng n k) - 31 / 50 * glD n k ≤ a) (ha2 : a ≤ cos (glAng n k) + glD n k)
    (e1 : (evalPn (F64.fin a : F64 L) n).2.1 = F64.fin g)
    (e2 : F64.fin a - (evalPn (F64.fin a : F64 L) n).1 / (evalPn (F64.fin a : F64 L) n).2.1 = F64.fin z')
    (hacc : |z' - a| ≤ 201 / 100 * uro) :
    IsF64 z' ∧ IsF64 g ∧ |a - cos (glAng n k)| ≤ 251 / 5 * √(n : ℝ) * uro ∧
    |z' - cos (glAng n k)| ≤ 50 * √(n : ℝ) * uro ∧
    |z' - (a - (P n).eval a / (derivative (P n)).eval a)| ≤ 181 / 10 * √(n : ℝ) * uro ∧
    |g - (derivative (P n)).eval a| ≤ 46 * √(n : ℝ) * (n + 1 / 2) ^ 2 * uro * |(derivative (P n)).eval a| := by
  have hu := uro_pos
  have hn1 : 1 ≤ n := by omega
  have hn0 : (1 : ℝ) ≤ n := by exact_mod_cast hn1
  obtain ⟨hR2, hR1, hy⟩ := gl_small hn1 hn
  obtain ⟨hr0, hD0, -, -, hDq, hw⟩ := gl_newton_wide hk
  obtain ⟨hza, hσ, hp', hN⟩ := hw a ha1 ha2
  have hq := sin_glAng_ge hk
  have hRu : uro ≤ √(n : ℝ) * uro := by
    have := mul_le_mul_of_nonneg_right hR1 hu.le
    linarith
  have hfin : ∀ x y : ℝ, (F64.fin x : F64 L) = F64.fin y → x = y := fun x y h => XReal.fin.inj h
  -- a bound in terms of the constant of the derivative
  have key : ∀ Λ : ℝ, 1 ≤ Λ → Λ ≤ 4 * √(n : ℝ) → n ≤ |(derivative (P n)).eval a| * √(1 - a ^ 2) * Λ →
      IsF64 z' ∧ IsF64 g ∧ |a - cos (glAng n k)| ≤ (155 / 10 + 231 / 10 * Λ) * uro ∧
      |z' - (a - (P n).eval a / (derivative (P n)).eval a)| ≤
        (9 * Λ + 4) * uro + 1 / 100 * |a - cos (glAng n k)| ∧
      |g - (derivative (P n)).eval a| ≤ 2 * ((10 * Λ + 8) * (n + 1 / 2) ^ 2 * uro) * |(derivative (P n)).eval a| := by
    intro Λ h1 h2 h3
    obtain ⟨g', z'', f1, hg, hge, f2, hz', hze⟩ := gl_wide_step (L := L) hk hn ha ha1 ha2 h1 h2 h3
    have eg : g' = g := hfin _ _ (by rw [← f1, e1])
    have ez : z'' = z' := hfin _ _ (by rw [← f2, e2])
    subst eg
    subst ez
    refine ⟨hz', hg, ?_, hze, hge⟩
    have e : a - cos (glAng n k) = -(z'' - a) + (z'' - (a - (P n).eval a / (derivative (P n)).eval a)) +
      (a - (P n).eval a / (derivative (P n)).eval a - cos (glAng n k)) := by ring
    have h4 := abs_add_three (-(z'' - a)) (z'' - (a - (P n).eval a / (derivative (P n)).eval a))
      (a - (P n).eval a / (derivative (P n)).eval a - cos (glAng n k))
    rw [← e, abs_neg] at h4
    have h5 : 0 ≤ Λ * uro := by positivity
    linarith
  obtain ⟨hz', hg, k1, -, -⟩ := key (4 * √(n : ℝ)) (by linarith) le_rfl (gl_wide_deriv hk ha1 ha2)
  have k2 : |a - cos (glAng n k)| ≤ 108 * √(n : ℝ) * uro := by linarith
  have hd2 : n ≤ |(derivative (P n)).eval a| * √(1 - a ^ 2) * (3 / 2 * √(n : ℝ)) := by
    have hs0 : 0 < sin (glAng n k) := lt_of_lt_of_le (by positivity) hq
    have h1z : 0 < 1 - a ^ 2 := lt_of_lt_of_le (by positivity) hσ
    have hsq : √(1 - a ^ 2) ^ 2 = 1 - a ^ 2 := sq_sqrt h1z.le
    have hs : |(P n).eval a / (derivative (P n)).eval a| ≤ 200 * √(n : ℝ) * uro := by
      have e : (P n).eval a / (derivative (P n)).eval a =
          (a - cos (glAng n k)) - (a - (P n).eval a / (derivative (P n)).eval a - cos (glAng n k)) := by ring
      rw [e]
      refine (abs_sub _ _).trans ?_
      linarith
    refine deriv_ge n hn1 a ((P n).eval a / (derivative (P n)).eval a) (1 / 8) _ _ ?_ (sqrt_pos.2 h1z) hsq ?_ ?_ ?_
    · field_simp
    · rw [hsq]
      refine le_trans ?_ (mul_le_mul_of_nonneg_left hσ (by norm_num))
      have h1 : ((P n).eval a / (derivative (P n)).eval a) ^ 2 ≤ (200 * √(n : ℝ) * uro) ^ 2 := by
        rw [← sq_abs]
        exact pow_le_pow_left₀ (abs_nonneg _) hs 2
      have hM : (0 : ℝ) < (n : ℝ) + 1 / 2 := by positivity
      have h2 : n * (n + 1) * ((P n).eval a / (derivative (P n)).eval a) ^ 2 ≤
          ((n : ℝ) + 1 / 2) ^ 2 * (200 * √(n : ℝ) * uro) ^ 2 :=
        mul_le_mul (by linarith) h1 (sq_nonneg _) (sq_nonneg _)
      have h3 : ((n : ℝ) + 1 / 2) * (200 * √(n : ℝ) * uro) ≤ 1 / 200 / (n + 1 / 2) := by
        rw [le_div_iff₀ hM]
        linarith
      have h4 : ((n : ℝ) + 1 / 2) * (200 * √(n : ℝ) * uro) ≤ 1 / 200 * sin (glAng n k) := by
        refine h3.trans ?_
        rw [div_le_iff₀ hM] at hq
        rw [div_le_iff₀ hM]
        linarith
      have h5 := pow_le_pow_left₀ (by positivity) h4 2
      rw [mul_pow, mul_pow (1 / 200)] at h5
      have := sq_nonneg (sin (glAng n k))
      linarith
    · linarith
    · rw [mul_pow, hR2]
      linarith
  obtain ⟨-, -, k3, k4, k5⟩ := key (3 / 2 * √(n : ℝ)) (by linarith) (by linarith) hd2
  have k6 : |a - cos (glAng n k)| ≤ 251 / 5 * √(n : ℝ) * uro := by linarith
  have k7 : |z' - (a - (P n).eval a / (derivative (P n)).eval a)| ≤ 181 / 10 * √(n : ℝ) * uro := by linarith
  refine ⟨hz', hg, k6, ?_, k7, k5.trans ?_⟩
  · have e : z' - cos (glAng n k) = (z' - (a - (P n).eval a / (derivative (P n)).eval a)) +
      (a - (P n).eval a / (derivative (P n)).eval a - cos (glAng n k)) := by ring
    rw [e]
    refine (abs_add_le _ _).trans ?_
    have : 0 ≤ √(n : ℝ) * uro := by positivity
    linarith
  · refine mul_le_mul_of_nonneg_right ?_ (abs_nonneg _)
    have h1 := mul_le_mul_of_nonneg_right hR1 (by positivity : 0 ≤ ((n : ℝ) + 1 / 2) ^ 2 * uro)
    linarith

end IntegratorXX
