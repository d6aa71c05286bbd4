import Verif.Lemmas.FloatRel
import Verif.Lemmas.WeightError

/-!
# `eval_Pn` in `double` arithmetic

Errors of the recurrence are measured by `(a - x b)² + (1 - x²) b²`, which the recurrence does not
increase.
-/

namespace IntegratorXX

open Polynomial Spec Set Real

local notation "P" => legendre

/-! ## The quadratic form -/

/-- Size of a pair of consecutive values. -/
noncomputable def recNorm (x a b : ℝ) : ℝ := √((a - x * b) ^ 2 + (1 - x ^ 2) * b ^ 2)

theorem recNorm_nonneg (x a b : ℝ) : 0 ≤ recNorm x a b := sqrt_nonneg _

theorem recNorm_swap (x a b : ℝ) : recNorm x a b = √((x * a - b) ^ 2 + (1 - x ^ 2) * a ^ 2) := by
  unfold recNorm
  congr 1
  ring

theorem abs_le_recNorm {x : ℝ} (hx : |x| ≤ 1) (a b : ℝ) : |a - x * b| ≤ recNorm x a b := by
  have := (sq_le_one_iff_abs_le_one x).2 hx
  refine abs_le_sqrt ?_
  have : 0 ≤ (1 - x ^ 2) * b ^ 2 := mul_nonneg (by linarith) (sq_nonneg _)
  linarith

theorem abs_le_recNorm' {x : ℝ} (hx : |x| ≤ 1) (a b : ℝ) : |x * a - b| ≤ recNorm x a b := by
  rw [recNorm_swap]
  have := (sq_le_one_iff_abs_le_one x).2 hx
  refine abs_le_sqrt ?_
  have : 0 ≤ (1 - x ^ 2) * a ^ 2 := mul_nonneg (by linarith) (sq_nonneg _)
  linarith

theorem sqrt_mul_abs_le_recNorm {x : ℝ} (hx : |x| ≤ 1) (a b : ℝ) :
    √(1 - x ^ 2) * |a| ≤ recNorm x a b := by
  have := (sq_le_one_iff_abs_le_one x).2 hx
  rw [recNorm_swap, ← sqrt_sq_eq_abs, ← sqrt_mul (by linarith)]
  apply sqrt_le_sqrt
  have := sq_nonneg (x * a - b)
  linarith

theorem recNorm_add_le {x : ℝ} (hx : |x| ≤ 1) (a b e : ℝ) :
    recNorm x (a + e) b ≤ recNorm x a b + |e| := by
  have h1 := abs_le_recNorm hx a b
  have h0 := recNorm_nonneg x a b
  have hsq : recNorm x a b ^ 2 = (a - x * b) ^ 2 + (1 - x ^ 2) * b ^ 2 := by
    have := (sq_le_one_iff_abs_le_one x).2 hx
    refine sq_sqrt ?_
    have : 0 ≤ (1 - x ^ 2) * b ^ 2 := mul_nonneg (by linarith) (sq_nonneg _)
    positivity
  refine (sqrt_le_left (by positivity)).2 ?_
  have h2 : (a - x * b) * e ≤ recNorm x a b * |e| := by
    refine (le_abs_self _).trans ?_
    rw [abs_mul]
    exact mul_le_mul_of_nonneg_right h1 (abs_nonneg _)
  have h3 : |e| ^ 2 = e ^ 2 := sq_abs e
  nlinarith

/-- The recurrence does not increase the quadratic form. -/
theorem recNorm_step {x : ℝ} (hx : |x| ≤ 1) (a b : ℝ) (n : ℕ) :
    recNorm x (((2 * (n + 1) - 1) * x * a - ((n + 1) - 1) * b) / (n + 1)) a ≤ recNorm x a b := by
  rw [recNorm_swap x a b]
  unfold recNorm
  apply sqrt_le_sqrt
  have hn : (0 : ℝ) < n + 1 := by positivity
  have e : ((2 * (n + 1) - 1) * x * a - ((n + 1) - 1) * b) / (n + 1) - x * a =
      n / (n + 1) * (x * a - b) := by
    field_simp
    ring
  rw [e, mul_pow]
  have h1 : ((n : ℝ) / (n + 1)) ^ 2 ≤ 1 := by
    rw [sq_le_one_iff₀ (by positivity), div_le_one hn]
    linarith
  have := mul_le_mul_of_nonneg_right h1 (sq_nonneg (x * a - b))
  linarith

theorem legendre_abs_le_one (n : ℕ) {x : ℝ} (hx : |x| ≤ 1) : |(P n).eval x| ≤ 1 := by
  rcases Nat.eq_zero_or_pos n with rfl | hn
  · simp
  · have h1 := sonin_mono n (abs_nonneg x) (by norm_num : (0 : ℝ) ≤ 1) hx
    rw [sonin_abs] at h1
    unfold sonin at h1
    rw [legendre_eval_one] at h1
    have h2 := (sq_le_one_iff_abs_le_one x).2 hx
    have hn0 : (0 : ℝ) < n := by exact_mod_cast hn
    have h3 : 0 ≤ (1 - x ^ 2) * (derivative (P n)).eval x ^ 2 :=
      mul_nonneg (by linarith) (sq_nonneg _)
    rw [← sq_le_one_iff_abs_le_one]
    have h4 : (n : ℝ) * (n + 1) * (P n).eval x ^ 2 ≤ n * (n + 1) * 1 := by linarith
    exact le_of_mul_le_mul_left h4 (by positivity)

/-! ## One step of the recurrence -/

variable {L : Libm}

theorem lit_zero : (Arith.lit 0 : F64 L) = F64.fin 0 ∧ IsF64 0 := by
  have := of_exact (L := L) (z := 0) rnd_zero (by norm_num)
  refine ⟨?_, this.2⟩
  rw [← this.1]
  show F64.of _ = _
  norm_num

theorem lit_nat' (n : ℕ) (h : n ≤ 2 ^ 53) : (Arith.ofNat n : F64 L) = F64.fin n ∧ IsF64 (n : ℝ) := by
  refine of_exact (rnd_nat h) ?_
  rw [Nat.abs_cast]
  calc (n : ℝ) ≤ ((2 ^ 53 : ℕ) : ℝ) := by exact_mod_cast h
    _ ≤ 2 ^ 200 := by norm_num

theorem lit_one : (Arith.lit 1 : F64 L) = F64.fin 1 ∧ IsF64 1 := by
  have := lit_nat' (L := L) 1 (by norm_num)
  rw [Nat.cast_one] at this
  refine ⟨?_, this.2⟩
  rw [← this.1]
  show F64.of _ = F64.of _
  norm_num

theorem lit_two : (Arith.lit 2 : F64 L) = F64.fin 2 ∧ IsF64 2 := by
  have := lit_nat' (L := L) 2 (by norm_num)
  rw [Nat.cast_ofNat] at this
  refine ⟨?_, this.2⟩
  rw [← this.1]
  show F64.of _ = F64.of _
  norm_num

/-- Integer differences are exact. -/
theorem nat_sub_one (n : ℕ) (h : n + 1 ≤ 2 ^ 53) :
    (Arith.ofNat (n + 1) - Arith.lit 1 : F64 L) = F64.fin n := by
  have h1 := lit_nat' (L := L) (n + 1) h
  have h2 := lit_nat' (L := L) n (by omega)
  have h3 := (lit_one (L := L)).1
  rw [h1.1, h3, F64.fin_sub, show ((n + 1 : ℕ) : ℝ) - 1 = (n : ℝ) by push_cast; ring, ← h2.1]
  rfl

theorem two_nat_sub_one (n : ℕ) (h : n + 1 ≤ 2 ^ 51) :
    (Arith.lit 2 * Arith.ofNat (n + 1) - Arith.lit 1 : F64 L) = F64.fin (2 * n + 1 : ℕ) := by
  have h1 := lit_nat' (L := L) (n + 1) (by omega)
  have h2 := lit_nat' (L := L) (2 * (n + 1)) (by omega)
  have h3 := (lit_two (L := L)).1
  have h4 := nat_sub_one (L := L) (2 * n + 1) (by omega)
  rw [h1.1, h3, F64.fin_mul, ← h4]
  congr 1
  show F64.of _ = F64.of _
  push_cast
  ring_nf

/-- Rounding errors of one step. -/
theorem pn_step {x v w : ℝ} (hx : IsF64 x) (hx1 : |x| ≤ 1) (hv : IsF64 v) (hw : IsF64 w)
    (hv1 : |v| ≤ 65 / 64) (hw1 : |w| ≤ 65 / 64) (n : ℕ) (hn : n + 1 ≤ 2 ^ 51)
    (hnew : |((2 * (n + 1) - 1) * x * v - ((n + 1) - 1) * w) / (n + 1)| ≤ 65 / 64) :
    Near (((Arith.lit 2 * Arith.ofNat (n + 1) - Arith.lit 1) * F64.fin x * F64.fin v -
        (Arith.ofNat (n + 1) - Arith.lit 1) * F64.fin w) / Arith.ofNat (n + 1) : F64 L)
      (((2 * (n + 1) - 1) * x * v - ((n + 1) - 1) * w) / (n + 1)) (8 * uro) := by
  have hu := uro_pos
  have hu' := uro_lt
  have ht : (2⁻¹ : ℝ) ^ 200 ≤ uro / 100 := by rw [uro_eq]; norm_num
  have ht0 : (0 : ℝ) < 2⁻¹ ^ 200 := by positivity
  have hbig : (2 : ℝ) ^ 60 ≤ 2 ^ 200 := by norm_num
  set τ : ℝ := 2⁻¹ ^ 200 with hτ
  obtain ⟨m, hm⟩ : ∃ m : ℝ, m = n + 1 := ⟨_, rfl⟩
  have hm1 : 1 ≤ m := by rw [hm]; have : (0 : ℝ) ≤ n := Nat.cast_nonneg n; linarith
  have hm2 : m ≤ 2 ^ 51 := by rw [hm]; exact_mod_cast hn
  have hmu : uro * 1 ≤ uro * m := mul_le_mul_of_nonneg_left hm1 hu.le
  have hmu0 : 0 < uro * m := by positivity
  rw [two_nat_sub_one n hn, nat_sub_one n (by omega)]
  have hc : ((2 * n + 1 : ℕ) : ℝ) = 2 * m - 1 := by rw [hm]; push_cast; ring
  have hc' : (n : ℝ) = m - 1 := by rw [hm]; ring
  have i1 := (lit_nat' (L := L) (2 * n + 1) (by omega)).2
  have i2 := (lit_nat' (L := L) n (by omega)).2
  have i3 := lit_nat' (L := L) (n + 1) (by omega)
  rw [hc] at i1
  rw [i3.1, hc]
  have hm' : ((n + 1 : ℕ) : ℝ) = m := by rw [hm]; push_cast; ring
  rw [hm']
  rw [← hm] at hnew ⊢
  rw [hc'] at i2 ⊢
  have hcx : |(2 * m - 1) * x| ≤ 2 * m - 1 := by
    rw [abs_mul, abs_of_nonneg (by linarith : (0 : ℝ) ≤ 2 * m - 1)]
    exact mul_le_of_le_one_right (by linarith) hx1
  -- first product
  have A := Near.mul (L := L) (near_self i1) (near_self hx) (X := 2 * m - 1) (Y := 1)
    (B := 2 * m) (by rw [abs_of_nonneg (by linarith)]) hx1 (by linarith) (by linarith)
  obtain ⟨eA, heA⟩ : ∃ eA, eA = 0 * (1 + 0) + (2 * m - 1) * 0 + uro * (2 * m) + τ := ⟨_, rfl⟩
  rw [← heA] at A
  have heA1 : eA ≤ 201 / 100 * (uro * m) := by rw [heA]; linarith
  have heA0 : 0 ≤ eA := by rw [heA]; linarith
  have hmu1 : uro * m ≤ 1 / 100 * m := mul_le_mul_of_nonneg_right (by linarith) (by linarith)
  have hcxv : |(2 * m - 1) * x * v| ≤ (2 * m - 1) * (65 / 64) := by
    rw [abs_mul]
    exact mul_le_mul hcx hv1 (abs_nonneg _) (by linarith)
  -- second product
  have B := Near.mul (L := L) A (near_self hv) (X := 2 * m - 1) (Y := 65 / 64)
    (B := 21 / 10 * m) hcx hv1 (by linarith) (by linarith)
  obtain ⟨eB, heB⟩ : ∃ eB, eB = eA * (65 / 64 + 0) + (2 * m - 1) * 0 + uro * (21 / 10 * m) + τ := ⟨_, rfl⟩
  rw [← heB] at B
  have heB1 : eB ≤ 416 / 100 * (uro * m) := by rw [heB]; linarith
  have heB0 : 0 ≤ eB := by rw [heB]; linarith
  -- third product
  have hmw : |(m - 1) * w| ≤ (m - 1) * (65 / 64) := by
    rw [abs_mul, abs_of_nonneg (by linarith : (0 : ℝ) ≤ m - 1)]
    exact mul_le_mul_of_nonneg_left hw1 (by linarith)
  have Cc := Near.mul (L := L) (near_self i2) (near_self hw) (X := m - 1) (Y := 65 / 64)
    (B := 65 / 64 * m) (by rw [abs_of_nonneg (by linarith)]) hw1 (by linarith) (by linarith)
  obtain ⟨eC, heC⟩ : ∃ eC, eC = 0 * (65 / 64 + 0) + (m - 1) * 0 + uro * (65 / 64 * m) + τ := ⟨_, rfl⟩
  rw [← heC] at Cc
  have heC1 : eC ≤ 103 / 100 * (uro * m) := by rw [heC]; linarith
  have heC0 : 0 ≤ eC := by rw [heC]; linarith
  -- difference
  have hm0 : 0 < m := by linarith
  have hnum : |(2 * m - 1) * x * v - (m - 1) * w| ≤ 65 / 64 * m := by
    rw [abs_div, abs_of_pos hm0, div_le_iff₀ hm0] at hnew
    exact hnew
  have D := Near.sub B Cc (B := 11 / 10 * m) (by linarith) (by linarith)
  obtain ⟨eD, heD⟩ : ∃ eD, eD = eB + eC + uro * (11 / 10 * m) + τ := ⟨_, rfl⟩
  rw [← heD] at D
  have heD1 : eD ≤ 631 / 100 * (uro * m) := by rw [heD]; linarith
  obtain ⟨d, hd, hdf, hd1⟩ := D
  rw [hd, F64.fin_div _ hm0.ne']
  refine (of_near (e := 631 / 100 * uro) (B := 11 / 10) ?_ (by linarith) (by norm_num)).mono (by linarith)
  rw [div_sub_div_same, abs_div, abs_of_pos hm0, div_le_iff₀ hm0]
  linarith

/-- Errors of the values computed by `eval_Pn`. -/
theorem pn_double {x : ℝ} (hx : IsF64 x) (hx1 : |x| ≤ 1) (n : ℕ) (hn : n ≤ 2 ^ 20) :
    ∃ v w : ℝ, (pnLoop (F64.fin x : F64 L) n).1 = F64.fin v ∧
      (pnLoop (F64.fin x : F64 L) n).2.1 = F64.fin w ∧ IsF64 v ∧ IsF64 w ∧
      recNorm x (v - (P n).eval x) (w - legPrev n x) ≤ 8 * n * uro ∧
      |v - (P n).eval x| ≤ 8 * n ^ 2 * uro ∧ |w - legPrev n x| ≤ 8 * n ^ 2 * uro := by
  have hu := uro_pos
  induction n with
  | zero =>
    have h1 := lit_one (L := L)
    have h0 := lit_zero (L := L)
    refine ⟨1, 0, h1.1, h0.1, h1.2, h0.2, ?_, ?_, ?_⟩
    · simp [legPrev, recNorm]
    · simp
    · simp [legPrev]
  | succ n ih =>
    obtain ⟨v, w, e1, e2, hv, hw, hN, hev, hew⟩ := ih (by omega)
    have hn0 : (0 : ℝ) ≤ n := Nat.cast_nonneg n
    have hn20 : (n : ℝ) + 1 ≤ 2 ^ 20 := by exact_mod_cast hn
    have hsmall : ∀ t : ℝ, 0 ≤ t → t ≤ 2 ^ 20 → 8 * t ^ 2 * uro ≤ 1 / 1000 := by
      intro t h0 h1
      have : t ^ 2 ≤ (2 ^ 20) ^ 2 := pow_le_pow_left₀ h0 h1 2
      have := mul_le_mul_of_nonneg_right this hu.le
      rw [uro_eq] at this ⊢
      norm_num at this
      linarith
    have hPn := legendre_abs_le_one n hx1
    have hPm : |legPrev n x| ≤ 1 := by
      unfold legPrev
      split_ifs
      · simp
      · exact legendre_abs_le_one _ hx1
    have hPs := legendre_abs_le_one (n + 1) hx1
    have hs := hsmall n hn0 (by linarith)
    have hv1 : |v| ≤ 65 / 64 := by
      have := abs_add_le (v - (P n).eval x) ((P n).eval x)
      rw [sub_add_cancel] at this
      linarith
    have hw1 : |w| ≤ 65 / 64 := by
      have := abs_add_le (w - legPrev n x) (legPrev n x)
      rw [sub_add_cancel] at this
      linarith
    have hB := legendre_bonnet_eval n x
    have hdiff : ((2 * ((n : ℝ) + 1) - 1) * x * v - (((n : ℝ) + 1) - 1) * w) / ((n : ℝ) + 1) - (P (n + 1)).eval x =
        ((2 * ((n : ℝ) + 1) - 1) * x * (v - (P n).eval x) -
          (((n : ℝ) + 1) - 1) * (w - legPrev n x)) / ((n : ℝ) + 1) := by
      rw [hB]; ring
    have hst := recNorm_step hx1 (v - (P n).eval x) (w - legPrev n x) n
    rw [← hdiff] at hst
    set t := ((2 * ((n : ℝ) + 1) - 1) * x * v - (((n : ℝ) + 1) - 1) * w) / ((n : ℝ) + 1) with ht
    have hab : ∀ y, recNorm x (y - (P (n + 1)).eval x) (v - (P n).eval x) ≤ 8 * (n + 1) * uro →
        |y - (P (n + 1)).eval x| ≤ 8 * (n + 1) ^ 2 * uro := by
      intro y hy
      have h1 := abs_le_recNorm hx1 (y - (P (n + 1)).eval x) (v - (P n).eval x)
      have h2 : |x * (v - (P n).eval x)| ≤ 8 * n ^ 2 * uro := by
        rw [abs_mul]
        exact (mul_le_of_le_one_left (abs_nonneg _) hx1).trans hev
      have h3 := abs_add_le (y - (P (n + 1)).eval x - x * (v - (P n).eval x)) (x * (v - (P n).eval x))
      rw [sub_add_cancel] at h3
      have : 0 ≤ n * uro := by positivity
      linarith
    have hnew : |t| ≤ 65 / 64 := by
      have h1 := hab t (by linarith)
      have h2 := hsmall (n + 1) (by linarith) hn20
      have := abs_add_le (t - (P (n + 1)).eval x) ((P (n + 1)).eval x)
      rw [sub_add_cancel] at this
      linarith
    obtain ⟨y, hy, hyf, hy1⟩ := pn_step (L := L) hx hx1 hv hw hv1 hw1 n (by omega) hnew
    rw [← ht] at hy1
    have hlp : legPrev (n + 1) x = (P n).eval x := by simp [legPrev]
    have hfin : recNorm x (y - (P (n + 1)).eval x) (v - (P n).eval x) ≤ 8 * (n + 1) * uro := by
      have := recNorm_add_le hx1 (t - (P (n + 1)).eval x) (v - (P n).eval x) (y - t)
      rw [show t - (P (n + 1)).eval x + (y - t) = y - (P (n + 1)).eval x by ring] at this
      linarith
    refine ⟨y, v, ?_, ?_, hyf, hv, ?_, ?_, ?_⟩
    · rw [pnLoop_succ, e1, e2]
      exact hy
    · rw [pnLoop_succ]
      exact e1
    · rw [hlp]; push_cast; exact hfin
    · push_cast; exact hab y hfin
    · rw [hlp]
      push_cast
      have : 0 ≤ n * uro := by positivity
      linarith

end IntegratorXX
