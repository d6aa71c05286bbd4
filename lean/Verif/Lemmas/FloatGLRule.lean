import Verif.Lemmas.FloatGL

/-!
# The rule computed by GaussLegendre in `double` arithmetic
-/

namespace IntegratorXX

open Polynomial Spec Set Real

local notation "P" => legendre

variable {L : Libm}

/-- Product of relative errors. -/
theorem rel_trans {a b c p q s : ℝ} (h1 : |a - b| ≤ p * |b|) (h2 : |b - c| ≤ q * |c|) (hp : 0 ≤ p)
    (hs : p + q + p * q ≤ s) : |a - c| ≤ s * |c| := by
  have e : a - c = (a - b) + (b - c) := by ring
  have h3 : |b| ≤ (1 + q) * |c| := by
    have := abs_add_le (b - c) c
    rw [sub_add_cancel] at this
    linarith
  have h4 := mul_le_mul_of_nonneg_left h3 hp
  have h5 := mul_le_mul_of_nonneg_right hs (abs_nonneg c)
  rw [e]
  refine (abs_add_le _ _).trans ?_
  linarith

set_option maxHeartbeats 400000 in
/-- The rounding errors of the weight formula. -/
theorem gl_weight_rounding {z g p' ρ : ℝ} (hz : IsF64 z) (hg : IsF64 g) (hz1 : z ^ 2 < 1)
    (hρ0 : 0 ≤ ρ) (hρ : ρ ≤ 1 / 40000) (hu1 : uro ≤ ρ) (hQ : 2 * uro ≤ ρ * (1 - z ^ 2))
    (hge : |g - p'| ≤ 46 * ρ * |p'|) (hp1 : 1 / 4 ≤ |p'|) (hp2 : |p'| ≤ 2 ^ 60) :
    Near ((Arith.lit 2 : F64 L) / ((Arith.lit 1 - F64.fin z * F64.fin z) * F64.fin g * F64.fin g))
      (2 / ((1 - z ^ 2) * p' * p')) (103 * ρ * |2 / ((1 - z ^ 2) * p' * p')|) := by
  have hu := uro_pos
  have hu' := uro_lt
  have ht : (2⁻¹ : ℝ) ^ 200 ≤ uro / 100 := by rw [uro_eq]; norm_num
  obtain ⟨Q, hQd⟩ : ∃ Q, Q = 1 - z ^ 2 := ⟨_, rfl⟩
  have hQ0 : 0 < Q := by linarith
  have hQ1 : Q ≤ 1 := by
    have := sq_nonneg z
    linarith
  rw [← hQd] at hQ ⊢
  have hQl : 2⁻¹ ^ 53 ≤ Q := by
    rw [uro_def]
    have : ρ * Q ≤ 1 * Q := mul_le_mul_of_nonneg_right (by linarith) hQ0.le
    linarith
  have hz1' : |z| ≤ 1 := by
    rw [← sq_le_one_iff_abs_le_one]
    exact hz1.le
  have hD : Near ((Arith.lit 1 : F64 L) - F64.fin z * F64.fin z) Q (3 * uro) := by
    have A := Near.mul (L := L) (near_self hz) (near_self hz) (X := 1) (Y := 1) (B := 1) hz1' hz1'
      (by
        rw [abs_mul]
        have := mul_le_one₀ hz1' (abs_nonneg z) hz1'
        linarith) (by norm_num)
    have l1 := lit_one (L := L)
    rw [l1.1, hQd, sq]
    have hab : |1 - z * z| ≤ 1 := by
      rw [← sq, ← hQd, abs_of_pos hQ0]
      exact hQ1
    exact (Near.sub (near_self l1.2) A (B := 11 / 10) (by linarith) (by norm_num)).mono (by linarith)
  have hA : Near ((Arith.lit 1 : F64 L) - F64.fin z * F64.fin z) Q (2 * ρ * |Q|) := by
    refine hD.mono ?_
    rw [abs_of_pos hQ0]
    linarith
  have hG : Near (F64.fin g : F64 L) p' (46 * ρ * |p'|) := ⟨g, rfl, hg, hge⟩
  have m1 : Mid (Q * p') := by
    constructor
    · rw [abs_mul, abs_of_pos hQ0]
      have := mul_le_mul hQl hp1 (by norm_num) hQ0.le
      refine le_trans ?_ this
      norm_num
    · rw [abs_mul, abs_of_pos hQ0]
      have := mul_le_mul hQ1 hp2 (abs_nonneg _) zero_le_one
      refine this.trans ?_
      norm_num
  have m2 : Mid (Q * p' * p') := by
    constructor
    · rw [abs_mul, abs_mul, abs_of_pos hQ0]
      have := mul_le_mul (mul_le_mul hQl hp1 (by norm_num) hQ0.le) hp1 (by norm_num) (by positivity)
      refine le_trans ?_ this
      norm_num
    · rw [abs_mul, abs_mul, abs_of_pos hQ0]
      have := mul_le_mul (mul_le_mul hQ1 hp2 (abs_nonneg _) zero_le_one) hp2 (abs_nonneg _) (by norm_num)
      refine this.trans ?_
      norm_num
  have m3 : Mid (2 / (Q * p' * p')) := by
    have h0 := abs_pos.2 m2.ne
    constructor
    · rw [abs_div, abs_of_pos (by norm_num : (0 : ℝ) < 2), le_div_iff₀ h0]
      rw [abs_mul, abs_mul, abs_of_pos hQ0]
      have := mul_le_mul (mul_le_mul hQ1 hp2 (abs_nonneg _) zero_le_one) hp2 (abs_nonneg _) (by norm_num)
      have h3 := mul_le_mul_of_nonneg_left this (by positivity : (0 : ℝ) ≤ 2⁻¹ ^ 200)
      refine h3.trans ?_
      norm_num
    · rw [abs_div, abs_of_pos (by norm_num : (0 : ℝ) < 2), div_le_iff₀ h0]
      rw [abs_mul, abs_mul, abs_of_pos hQ0]
      have := mul_le_mul (mul_le_mul hQl hp1 (by norm_num) hQ0.le) hp1 (by norm_num) (by positivity)
      have h3 := mul_le_mul_of_nonneg_left this (by positivity : (0 : ℝ) ≤ 2 ^ 200)
      refine le_trans ?_ h3
      norm_num
  have s1 := (near_mul hA hG (by linarith) (by linarith) (by linarith) (by linarith) m1).mono
    (f := 51 * ρ * |Q * p'|) (mul_le_mul_of_nonneg_right (by linarith) (abs_nonneg _))
  have s2 := (near_mul s1 hG (by linarith) (by linarith) (by linarith) (by linarith) m2).mono
    (f := 100 * ρ * |Q * p' * p'|) (mul_le_mul_of_nonneg_right (by linarith) (abs_nonneg _))
  have hT : Near (Arith.lit 2 : F64 L) 2 (0 * |(2 : ℝ)|) := by
    have l2 := lit_two (L := L)
    rw [l2.1, zero_mul]
    exact near_self l2.2
  exact (near_div hT s2 le_rfl (by linarith) (by norm_num) (by linarith) m2.ne m3).mono
    (mul_le_mul_of_nonneg_right (by linarith) (abs_nonneg _))

set_option maxHeartbeats 800000 in
/-- A weight computed by GaussLegendre. -/
theorem gl_weight_double {n k : ℕ} (hk : k < (n + 1) / 2) (hn : n ≤ 2 ^ 15) {a z' g : ℝ} (ha : IsF64 a)
    (ha1 : cos (glAng n k) - 31 / 50 * glD n k ≤ a) (ha2 : a ≤ cos (glAng n k) + glD n k)
    (e1 : (evalPn (F64.fin a : F64 L) n).2.1 = F64.fin g)
    (e2 : F64.fin a - (evalPn (F64.fin a : F64 L) n).1 / (evalPn (F64.fin a : F64 L) n).2.1 = F64.fin z')
    (hacc : |z' - a| ≤ 201 / 100 * uro) :
    IsF64 z' ∧ |z' - cos (glAng n k)| ≤ 50 * √(n : ℝ) * uro ∧ |z'| < 1 ∧
    Near ((Arith.lit 2 : F64 L) / ((Arith.lit 1 - F64.fin z' * F64.fin z') * F64.fin g * F64.fin g))
      (glOm n (cos (glAng n k)))
      (200 * √(n : ℝ) * (n + 1 / 2) ^ 2 * uro * glOm n (cos (glAng n k))) := by
  have hu := uro_pos
  have hn1 : 1 ≤ n := by omega
  have hn0 : (1 : ℝ) ≤ n := by exact_mod_cast hn1
  have hnr : (n : ℝ) ≤ 32768 := by exact_mod_cast hn
  obtain ⟨hR2, hR1, hy⟩ := gl_small hn1 hn
  obtain ⟨hr0, hD0, -, -, hDq, hw⟩ := gl_newton_wide hk
  obtain ⟨hza, hσ, hp', hN⟩ := hw a ha1 ha2
  have hq := sin_glAng_ge hk
  have hd := gl_wide_deriv hk ha1 ha2
  obtain ⟨hz', hg, k1, k2, k3, k4⟩ := gl_accept (L := L) hk hn ha ha1 ha2 e1 e2 hacc
  have hroot := (glAng_mem (n := n) (k := k) (by omega)).2.2
  have hom : 0 < glOm n (cos (glAng n k)) := by
    have := glOm_pos (n := n) (j := n - 1 - k) (by omega)
    unfold glXi at this
    rwa [show n - 1 - (n - 1 - k) = k by omega] at this
  have hrm := abs_lt.2 (legendre_root_mem n _ hroot)
  obtain ⟨ρ, hρd⟩ : ∃ ρ, ρ = √(n : ℝ) * ((n : ℝ) + 1 / 2) ^ 2 * uro := ⟨_, rfl⟩
  obtain ⟨q, hqd⟩ : ∃ q, q = sin (glAng n k) := ⟨_, rfl⟩
  have hrq : 1 - cos (glAng n k) ^ 2 = q ^ 2 := by rw [← sin_sq, hqd]
  rw [← hqd] at hσ hDq hq
  generalize hrd : cos (glAng n k) = r at *
  generalize hRd : √(n : ℝ) = R at *
  rw [← hρd] at hy
  have hM : (0 : ℝ) < (n : ℝ) + 1 / 2 := by positivity
  have hM1 : 1 ≤ ((n : ℝ) + 1 / 2) ^ 2 := one_le_pow₀ (by linarith)
  have hρ0 : 0 ≤ ρ := by rw [hρd]; positivity
  have hq2 : 9 / 4 ≤ ((n : ℝ) + 1 / 2) ^ 2 * q ^ 2 := by
    rw [div_le_iff₀ hM] at hq
    have := pow_le_pow_left₀ (by norm_num) hq 2
    rw [mul_pow] at this
    linarith
  -- errors of the size R u are small compared with q²
  have hRq : R * uro ≤ 4 / 9 * (ρ * q ^ 2) := by
    have := mul_le_mul_of_nonneg_left hq2 (by positivity : 0 ≤ R * uro)
    rw [hρd]
    linarith
  have hRu : uro ≤ R * uro := by
    have := mul_le_mul_of_nonneg_right hR1 hu.le
    linarith
  have huρ : R * uro ≤ ρ := by
    have := mul_le_mul_of_nonneg_left hM1 (by positivity : 0 ≤ R * uro)
    rw [hρd]
    linarith
  have hq0 : 0 < q := lt_of_lt_of_le (by positivity) hq
  have hqp : 0 < q ^ 2 := by positivity
  have hρq : ρ * q ^ 2 ≤ 1 / 40000 * q ^ 2 := mul_le_mul_of_nonneg_right hy hqp.le
  have hq1 : q ^ 2 ≤ 1 := by
    rw [← hrq]
    have := sq_nonneg r
    linarith
  -- the computed node
  have hr1 : r < 1 := (abs_lt.1 hrm).2
  have hrl : r ≤ 1 - q ^ 2 / 2 := by
    have h1 : q ^ 2 = (1 - r) * (1 + r) := by rw [← hrq]; ring
    have h2 : (1 - r) * (1 + r) ≤ (1 - r) * 2 := mul_le_mul_of_nonneg_left (by linarith) (by linarith)
    linarith
  have hz'1 : |z'| < 1 := by
    have := abs_le.1 k2
    rw [abs_lt]
    constructor <;> linarith
  have hz'q : |z' ^ 2 - r ^ 2| ≤ 100 * R * uro := (sq_sub_le hz'1 hrm k2).trans (by linarith)
  have hQ : 99 / 100 * q ^ 2 ≤ 1 - z' ^ 2 := by
    have := abs_le.1 hz'q
    linarith
  have hQ0 : 0 < 1 - z' ^ 2 := lt_of_lt_of_le (by positivity) hQ
  obtain ⟨z, hzd⟩ : ∃ z, z = a - (P n).eval a / (derivative (P n)).eval a := ⟨_, rfl⟩
  rw [← hzd] at k3 hN
  have k5 : |z - r| ≤ 151 / 5 * R * uro := by
    have : 0 ≤ R * uro := by positivity
    linarith
  have hz1 : |z| < 1 := by
    have := abs_le.1 k5
    rw [abs_lt]
    constructor <;> linarith
  have k6 : |z - a| ≤ 21 * R * uro := by
    have e : z - a = (z' - a) - (z' - z) := by ring
    rw [e]
    refine (abs_sub _ _).trans ?_
    linarith
  have hw1 := gl_weight_error n hn1 r a z (21 * R * uro) hroot hza hz1 hzd hp' (by
      have : 0 ≤ R * uro := by positivity
      linarith) (by
      have : 0 ≤ R * uro := by positivity
      linarith) k6 (by
      have h1 : (n : ℝ) * (n + 1) ≤ ((n : ℝ) + 1 / 2) ^ 2 := by linarith
      have := mul_le_mul_of_nonneg_right h1 (by positivity : 0 ≤ R * uro)
      linarith) (by
      rw [hrq, div_le_iff₀ hqp]
      linarith)
  have hω : 2 / ((1 - r ^ 2) * (derivative (P n)).eval r ^ 2) = glOm n r := rfl
  rw [hω, hrq] at hw1
  have w1 : |2 / ((1 - z * z) * (derivative (P n)).eval a * (derivative (P n)).eval a) - glOm n r| ≤
      75 * ρ * |glOm n r| := by
    refine hw1.trans ?_
    rw [abs_of_pos hom, mul_comm]
    refine mul_le_mul_of_nonneg_right ?_ hom.le
    rw [mul_div_assoc', div_le_iff₀ hqp]
    have : 0 ≤ ρ * q ^ 2 := by positivity
    linarith
  have hzz : 0 < 1 - z ^ 2 := by
    have := (sq_lt_one_iff_abs_lt_one z).2 hz1
    linarith
  have w2 : |2 / ((1 - z' ^ 2) * (derivative (P n)).eval a * (derivative (P n)).eval a) -
      2 / ((1 - z * z) * (derivative (P n)).eval a * (derivative (P n)).eval a)| ≤
      (33 / 2 * ρ) * |2 / ((1 - z * z) * (derivative (P n)).eval a * (derivative (P n)).eval a)| := by
    have e : 2 / ((1 - z' ^ 2) * (derivative (P n)).eval a * (derivative (P n)).eval a) -
      2 / ((1 - z * z) * (derivative (P n)).eval a * (derivative (P n)).eval a) =
      (z' ^ 2 - z ^ 2) / (1 - z' ^ 2) *
        (2 / ((1 - z * z) * (derivative (P n)).eval a * (derivative (P n)).eval a)) := by
      have h1 : 1 - z * z ≠ 0 := by rw [← sq]; exact hzz.ne'
      have h2 := hQ0.ne'
      field_simp
      ring
    rw [e, abs_mul]
    refine mul_le_mul_of_nonneg_right ?_ (abs_nonneg _)
    rw [abs_div, abs_of_pos hQ0, div_le_iff₀ hQ0]
    have h1 := sq_sub_le hz'1 hz1 k3
    have h2 := mul_le_mul_of_nonneg_left hQ (by positivity : 0 ≤ 33 / 2 * ρ)
    have : 0 ≤ ρ * q ^ 2 := by positivity
    linarith
  -- bounds of the derivative
  have hσ1 : √(1 - a ^ 2) ≤ 1 := by
    rw [sqrt_le_one]
    have := sq_nonneg a
    linarith
  have hp1 : 1 / 4 ≤ |(derivative (P n)).eval a| := by
    have h1 : |(derivative (P n)).eval a| * √(1 - a ^ 2) ≤ |(derivative (P n)).eval a| :=
      mul_le_of_le_one_right (abs_nonneg _) hσ1
    have h2 := mul_le_mul_of_nonneg_right h1 (by linarith : 0 ≤ 4 * R)
    have h3 : R * R ≤ |(derivative (P n)).eval a| * 4 * R := by
      rw [← sq, hR2]
      linarith
    have h4 := le_of_mul_le_mul_right h3 (by linarith)
    linarith
  have hp2 : |(derivative (P n)).eval a| ≤ 2 ^ 60 := by
    have ha2 : 0 < 1 - a ^ 2 := lt_of_lt_of_le (by positivity) hσ
    have hne : a ^ 2 ≠ 1 := by
      intro h
      rw [h] at ha2
      linarith
    rw [legendre_deriv_eval n a hne, abs_mul, abs_div, Nat.abs_cast]
    have e : |a * a - 1| = 1 - a ^ 2 := by
      rw [← sq, abs_of_neg (by linarith)]
      ring
    rw [e, ← mul_div_assoc, div_le_iff₀ ha2]
    have h1 := legendre_abs_le_one n hza.le
    have hPm : |legPrev n a| ≤ 1 := by
      unfold legPrev
      split_ifs
      · simp
      · exact legendre_abs_le_one _ hza.le
    have h2 : |a * (P n).eval a| ≤ 1 := by
      rw [abs_mul]
      exact (mul_le_of_le_one_left (abs_nonneg _) hza.le).trans h1
    have h3 : |a * (P n).eval a - legPrev n a| ≤ 2 := (abs_sub _ _).trans (by linarith)
    have h4 : |a * (P n).eval a - legPrev n a| * n ≤ 2 * 32768 := mul_le_mul h3 hnr (by linarith) (by norm_num)
    have h5 : ((n : ℝ) + 1 / 2) ^ 2 ≤ 32769 ^ 2 := pow_le_pow_left₀ hM.le (by linarith) 2
    have h6 := mul_le_mul_of_nonneg_right h5 hqp.le
    have h7 : 1 / 32769 ^ 2 ≤ q ^ 2 := by
      rw [div_le_iff₀ (by norm_num)]
      linarith
    norm_num at h7 ⊢
    linarith
  have w3 := gl_weight_rounding (L := L) (z := z') (g := g) (p' := (derivative (P n)).eval a) (ρ := ρ) hz' hg
    (by linarith) hρ0 hy (by linarith) (by
      have := mul_le_mul_of_nonneg_left hQ hρ0
      linarith) (by rw [hρd]; linarith) hp1 hp2
  refine ⟨hz', k2, hz'1, ?_⟩
  obtain ⟨v, hv, hvf, hv1⟩ := w3
  refine ⟨v, hv, hvf, ?_⟩
  have w4 := rel_trans w2 w1 (by positivity) (s := 92 * ρ) (by
    have := mul_le_mul_of_nonneg_left hy hρ0
    linarith)
  have w5 := rel_trans hv1 w4 (by positivity) (s := 200 * ρ) (by
    have := mul_le_mul_of_nonneg_left hy hρ0
    linarith)
  rw [abs_of_pos hom, hρd] at w5
  linarith

/-- One Newton run of GaussLegendre. -/
theorem gl_node_double (hL : L.Accurate) {n k : ℕ} (hk : k < (n + 1) / 2) (hn : n ≤ 2 ^ 15)
    (h : glNewton n 100 (glStart (F64 L) n k) = some (glZ (F64 L) n k)) :
    ∃ z w : ℝ, (glZ (F64 L) n k).1 = F64.fin z ∧ glW (F64 L) n k = F64.fin w ∧ IsF64 z ∧ IsF64 w ∧
      |z - cos (glAng n k)| ≤ 50 * √(n : ℝ) * uro ∧ |z| < 1 ∧
      |w - glOm n (cos (glAng n k))| ≤ 200 * √(n : ℝ) * (n + 1 / 2) ^ 2 * uro * glOm n (cos (glAng n k)) := by
  have hu := uro_pos
  have hn1 : 1 ≤ n := by omega
  obtain ⟨hR2, hR1, hy⟩ := gl_small hn1 hn
  obtain ⟨s, hs, hsf, hs1⟩ := glStart_double hL hk hn
  obtain ⟨hr0, hD0, h0, h1, hDq, hw⟩ := gl_newton_wide hk
  have hq := sin_glAng_ge hk
  have hn0 : (1 : ℝ) ≤ n := by exact_mod_cast hn1
  have hM : (0 : ℝ) < (n : ℝ) + 1 / 2 := by positivity
  have hlow : 14 * uro ≤ 1 / 400 * angStep n * sin (glAng n k) := by
    have h2 := angStep_mul n
    have h3 : 3 / ((n : ℝ) + 1 / 2) ≤ angStep n := by
      rw [div_le_iff₀ hM]
      have := pi_gt_three
      linarith
    have h4 : 3 / ((n : ℝ) + 1 / 2) * (3 / 2 / (n + 1 / 2)) ≤ angStep n * sin (glAng n k) :=
      mul_le_mul h3 hq (by positivity) (angStep_pos n).le
    have e : 3 / ((n : ℝ) + 1 / 2) * (3 / 2 / (n + 1 / 2)) = 9 / 2 / ((n : ℝ) + 1 / 2) ^ 2 := by
      field_simp
      norm_num
    rw [e] at h4
    have h5 : 5600 * uro ≤ 9 / 2 / ((n : ℝ) + 1 / 2) ^ 2 := by
      rw [le_div_iff₀ (by positivity)]
      have := mul_le_mul_of_nonneg_right hR1 (by positivity : 0 ≤ ((n : ℝ) + 1 / 2) ^ 2 * uro)
      linarith
    linarith
  have hDe : glD n k = 1 / 4 * angStep n * sin (glAng n k) + 1 / 400 * angStep n * sin (glAng n k) := by
    unfold glD
    ring
  have hs2 := abs_le.1 hs1
  rw [hs] at h
  rcases gl_run_double (L := L) hk hn 100 s hsf (by
    have : 0 < 1 / 4 * angStep n * sin (glAng n k) := by
      have := angStep_pos n
      have : 0 < sin (glAng n k) := lt_of_lt_of_le (by positivity) hq
      positivity
    linarith) (by linarith) with hnone | ⟨a, z', g, hsome, ha, ha1, ha2, e1, e2, hacc⟩
  · rw [hnone] at h
    cases h
  · rw [hsome] at h
    have hZ : glZ (F64 L) n k = (F64.fin z', F64.fin g) := (Option.some.inj h).symm
    obtain ⟨b1, b2, b3, w, b4, b5, b6⟩ := gl_weight_double (L := L) hk hn ha ha1 ha2 e1 e2 hacc
    refine ⟨z', w, by rw [hZ], ?_, b1, b5, b2, b3, b6⟩
    unfold glW
    rw [hZ]
    exact b4

/-- The rule computed by GaussLegendre. -/
theorem gl_rule_double (hL : L.Accurate) {n : ℕ} (hn : n ≤ 2 ^ 15) :
    (gaussLegendre n : Outcome (List (F64 L) × List (F64 L))) = .throws (.runtimeError glMsg) ∨
    ∃ x w : ℕ → ℝ,
      (gaussLegendre n : Outcome (List (F64 L) × List (F64 L))) =
        .ok ((List.range n).map (fun j => F64.fin (x j)), (List.range n).map (fun j => F64.fin (w j))) ∧
      (∀ j < n / 2, x (n - 1 - j) = -x j ∧ w (n - 1 - j) = w j) ∧
      ∀ j < n, IsF64 (x j) ∧ IsF64 (w j) ∧ |x j - glXi n j| ≤ 50 * √(n : ℝ) * uro ∧ |x j| < 1 ∧
        |w j - glOm n (glXi n j)| ≤ 200 * √(n : ℝ) * (n + 1 / 2) ^ 2 * uro * glOm n (glXi n j) := by
  rcases gaussLegendre_cases (F := F64 L) n with hc | ⟨hN, hc⟩
  · exact .inl hc
  right
  have hrun : ∀ k, ∃ z w : ℝ, k < (n + 1) / 2 →
      (glZ (F64 L) n k).1 = F64.fin z ∧ glW (F64 L) n k = F64.fin w ∧ IsF64 z ∧ IsF64 w ∧
      |z - cos (glAng n k)| ≤ 50 * √(n : ℝ) * uro ∧ |z| < 1 ∧
      |w - glOm n (cos (glAng n k))| ≤ 200 * √(n : ℝ) * (n + 1 / 2) ^ 2 * uro * glOm n (cos (glAng n k)) := by
    intro k
    by_cases hk : k < (n + 1) / 2
    · obtain ⟨z, w, h⟩ := gl_node_double hL hk hn (hN k hk)
      exact ⟨z, w, fun _ => h⟩
    · exact ⟨0, 0, fun h => absurd h hk⟩
  choose z w h using hrun
  refine ⟨fun j => if j < n / 2 then -z j else z (n - 1 - j),
    fun j => if j < n / 2 then w j else w (n - 1 - j), ?_, ?_, ?_⟩
  · rw [hc]
    congr 2
    · apply List.map_congr_left
      intro j hj
      rw [List.mem_range] at hj
      dsimp only
      split_ifs with hj2
      · rw [(h j (by omega)).1]; rfl
      · exact (h (n - 1 - j) (by omega)).1
    · apply List.map_congr_left
      intro j hj
      rw [List.mem_range] at hj
      dsimp only
      split_ifs with hj2
      · exact (h j (by omega)).2.1
      · exact (h (n - 1 - j) (by omega)).2.1
  · intro j hj
    dsimp only
    have h1 : ¬ n - 1 - j < n / 2 := by omega
    rw [if_neg h1, if_neg h1, if_pos hj, if_pos hj, show n - 1 - (n - 1 - j) = j by omega, neg_neg]
    exact ⟨rfl, rfl⟩
  · intro j hj
    dsimp only
    split_ifs with hj2
    · obtain ⟨-, -, f1, f2, h1, h2, h3⟩ := h j (by omega)
      rw [glXi_neg hj, glOm_neg]
      refine ⟨isF64_neg f1, f2, ?_, by rwa [abs_neg], h3⟩
      rw [show -z j - -cos (glAng n j) = -(z j - cos (glAng n j)) by ring, abs_neg]
      exact h1
    · obtain ⟨-, -, f1, f2, h1, h2, h3⟩ := h (n - 1 - j) (by omega)
      exact ⟨f1, f2, h1, h2, h3⟩

end IntegratorXX
