import Verif.Lemmas.FloatGLRule

/-!
# GaussLobatto in `double` arithmetic
-/

namespace IntegratorXX

open Polynomial Spec Set Real

local notation "P" => legendre

variable {L : Libm}

/-- Lower bound of `P_m` in terms of the Newton correction `s`. -/
theorem lobP_ge (m : ℕ) (hm : 1 ≤ m) (z s K σ Λ : ℝ)
    (hs : z * (P m).eval z - legPrev m z = (m + 1) * (P m).eval z * s)
    (hσ0 : 0 < σ) (hσ : σ ^ 2 = 1 - z ^ 2) (hK : m * (m + 1) * s ^ 2 ≤ K * σ ^ 2)
    (hΛ0 : 0 < Λ) (hΛ : 2 * (m + 1) * (1 + K) ≤ Λ ^ 2) : 1 ≤ |(P m).eval z| * Λ := by
  have h1 := sonin_ge m hm z
  have hσ2 : 0 < σ ^ 2 := by positivity
  have hzsq : z ^ 2 ≠ 1 := by
    intro h
    rw [h, sub_self] at hσ
    linarith
  have hd := legendre_deriv_eval m z hzsq
  unfold sonin at h1
  rw [hs, show z * z - 1 = -σ ^ 2 by rw [hσ]; ring] at hd
  rw [hd, ← hσ] at h1
  set p := (P m).eval z
  have hm0 : (0 : ℝ) < m := by exact_mod_cast hm
  have e : σ ^ 2 * ((m + 1) * p * s * (m / -σ ^ 2)) ^ 2 = m * (m + 1) * p ^ 2 * (m * (m + 1) * s ^ 2 / σ ^ 2) := by
    field_simp
  rw [e] at h1
  have h2 : m * (m + 1) * s ^ 2 / σ ^ 2 ≤ K := by
    rw [div_le_iff₀ hσ2]
    exact hK
  have h3 := mul_le_mul_of_nonneg_left h2 (by positivity : 0 ≤ m * (m + 1) * p ^ 2)
  have h4 : (m : ℝ) * 1 ≤ m * (2 * (m + 1) * (1 + K) * p ^ 2) := by linarith
  have h5 := le_of_mul_le_mul_left h4 hm0
  have h6 := mul_le_mul_of_nonneg_right hΛ (sq_nonneg p)
  refine abs_le_of_sq_le_sq' ?_ (by positivity) |>.2
  rw [mul_pow, sq_abs]
  linarith

set_option maxHeartbeats 400000 in
/-- A Newton step. -/
theorem lob_step_double {m : ℕ} (hm : 1 ≤ m) (hm2 : m + 1 ≤ 2 ^ 20) {z σ Λ κ : ℝ} (hz : IsF64 z) (hσ0 : 0 < σ)
    (hσ : σ ^ 2 = 1 - z ^ 2) (hΛ1 : 1 ≤ Λ) (hΛ2 : Λ ≤ 2 ^ 30) (hd : 1 ≤ |(P m).eval z| * Λ)
    (hκ : κ = 8 * m * uro * Λ / σ) (hκ1 : κ ≤ 1 / 400)
    (hs1 : |(z * (P m).eval z - legPrev m z) / ((m + 1) * (P m).eval z)| ≤ 1) :
    ∃ v z' : ℝ, (evalPn (F64.fin z : F64 L) m).1 = F64.fin v ∧ IsF64 v ∧
      |v - (P m).eval z| ≤ κ * |(P m).eval z| ∧
      F64.fin z - (F64.fin z * (evalPn (F64.fin z : F64 L) m).1 - (evalPn (F64.fin z : F64 L) m).2.2) /
        (Arith.ofNat (m + 1) * (evalPn (F64.fin z : F64 L) m).1) = F64.fin z' ∧
      IsF64 z' ∧
      |z' - (z - (z * (P m).eval z - legPrev m z) / ((m + 1) * (P m).eval z))| ≤
        9 * uro * Λ + 2 * κ * |(z * (P m).eval z - legPrev m z) / ((m + 1) * (P m).eval z)| + 6 * uro := by
  have hu := uro_pos
  have hu' := uro_lt
  have ht : (2⁻¹ : ℝ) ^ 200 ≤ uro / 100 := by rw [uro_eq]; norm_num
  have hm0 : (1 : ℝ) ≤ m := by exact_mod_cast hm
  have hmr : (m : ℝ) + 1 ≤ 1048576 := by exact_mod_cast hm2
  have hz1 : |z| ≤ 1 := by
    rw [← sq_le_one_iff_abs_le_one]
    have := sq_nonneg σ
    linarith
  obtain ⟨v, w, e1, e2, hv, hw, hev, -, hv1, hw1, hq⟩ := evalPn_double (L := L) (n := m) (by omega) hz hσ0 hσ
  have hκ0 : 0 ≤ κ := by rw [hκ]; positivity
  have hp1 := legendre_abs_le_one m hz1
  set p := (P m).eval z with hp
  set q := z * p - legPrev m z with hqdef
  have hpa : 0 < |p| := by
    rcases (abs_nonneg p).eq_or_lt with h | h
    · rw [← h, zero_mul] at hd
      linarith
    · exact h
  have hp0 : p ≠ 0 := abs_pos.1 hpa
  have hplow : 2⁻¹ ^ 30 ≤ |p| := by
    have h1 := mul_le_mul_of_nonneg_left hΛ2 hpa.le
    have h2 : (2 : ℝ)⁻¹ ^ 30 * 1 ≤ 2⁻¹ ^ 30 * (|p| * 2 ^ 30) := by gcongr; linarith
    have e : (2 : ℝ)⁻¹ ^ 30 * (|p| * 2 ^ 30) = |p| := by norm_num; ring
    linarith
  have hvr : |v - p| ≤ κ * |p| := by
    refine hev.trans ?_
    have h1 := mul_le_mul_of_nonneg_left hd (by positivity : 0 ≤ 8 * m * uro / σ)
    have e : 8 * m * uro / σ * (|p| * Λ) = κ * |p| := by rw [hκ]; ring
    linarith
  have hV : Near (F64.fin v : F64 L) p (κ * |p|) := ⟨v, rfl, hv, hvr⟩
  have hN : Near (Arith.ofNat (m + 1) : F64 L) (m + 1) (0 * |(m : ℝ) + 1|) := by
    rw [zero_mul]
    have := near_nat (L := L) (n := m + 1) (by omega)
    push_cast at this
    exact this
  have habs : |((m : ℝ) + 1) * p| = (m + 1) * |p| := by
    rw [abs_mul, abs_of_pos (by linarith)]
  have hMid : Mid (((m : ℝ) + 1) * p) := by
    constructor
    · rw [habs]
      have := mul_le_mul (by linarith : (1 : ℝ) ≤ m + 1) hplow (by positivity) (by linarith)
      refine le_trans ?_ this
      norm_num
    · rw [habs]
      have := mul_le_mul hmr hp1 (abs_nonneg _) (by norm_num)
      refine this.trans ?_
      norm_num
  have hG := near_mul hN hV le_rfl hκ0 (by norm_num) (by linarith) hMid
  obtain ⟨g, hg, hgf, hg1⟩ := hG
  obtain ⟨b, hb, hbf, hb1⟩ := hq
  have hyne : ((m : ℝ) + 1) * p ≠ 0 := hMid.ne
  obtain ⟨hg0, hdiv⟩ := near_div_abs (v := b) (x := q) (g := g) (y := ((m : ℝ) + 1) * p) hb1 hg1 hyne
    (by positivity) (by linarith)
  set s := q / ((m + 1) * p) with hsdef
  have hfirst : (8 * m + 4) * uro / |((m : ℝ) + 1) * p| ≤ 8 * uro * Λ := by
    rw [habs, div_le_iff₀ (by positivity)]
    have h1 := mul_le_mul_of_nonneg_left hd (by positivity : 0 ≤ 8 * uro * (m + 1))
    have h2 : (8 * m + 4) * uro ≤ 8 * uro * (m + 1) * 1 := by linarith
    linarith
  have hΛu : uro ≤ uro * Λ := by
    have := mul_le_mul_of_nonneg_left hΛ1 hu.le
    linarith
  have hΛs : uro * Λ ≤ 1 / 1000 := by
    have h1 := mul_le_mul_of_nonneg_left hΛ2 hu.le
    have h2 : uro * 2 ^ 30 ≤ 1 / 1000 := by rw [uro_eq]; norm_num
    linarith
  have hκs : κ * |s| ≤ κ := mul_le_of_le_one_right hκ0 hs1
  have hκs0 : 0 ≤ κ * |s| := by positivity
  have hus : uro * |s| ≤ uro := mul_le_of_le_one_right hu.le hs1
  have hS : Near ((F64.fin b : F64 L) / F64.fin g) s
      (100 / 99 * (8 * uro * Λ) + 11 / 10 * (κ * |s|) + 21 / 10 * uro + uro * (11 / 10) + 2⁻¹ ^ 200) := by
    rw [F64.fin_div _ hg0]
    refine of_near (e := 100 / 99 * (8 * uro * Λ) + 11 / 10 * (κ * |s|) + 21 / 10 * uro) (le_trans hdiv ?_) ?_
      (by norm_num)
    · have := mul_le_mul_of_nonneg_left hfirst (by norm_num : (0 : ℝ) ≤ 100 / 99)
      linarith
    · linarith
  have hzs : |z - s| ≤ 2 := (abs_sub _ _).trans (by linarith)
  have hZ := Near.sub (L := L) (near_self hz) hS (B := 21 / 10) (by linarith) (by norm_num)
  obtain ⟨z', hz', hzf', hz1'⟩ := hZ
  refine ⟨v, z', e1, hv, hvr, ?_, hzf', ?_⟩
  · rw [e1, e2, hb, hg]
    exact hz'
  · refine hz1'.trans ?_
    linarith

/-! ## Near a root -/

/-- An interval around the root number `k + 1` on which Newton's map contracts. -/
structure LobIv (m k : ℕ) (lo hi M : ℝ) : Prop where
  lo_le : lo ≤ lobXi m (k + 1) - 7 / 10 * M
  hi_ge : lobXi m (k + 1) + 7 / 10 * M ≤ hi
  lo_ge : lobXi m (k + 1) - M ≤ lo
  hi_le : hi ≤ lobXi m (k + 1) + M
  M_ge : 1 / 400 * angStep m * sin (lobAng m k) ≤ M
  M_le : M ≤ 101 / 400 * angStep m * sin (lobAng m k)
  start_lo : lo ≤ -cos ((k + 1) * π / m) - 7 / 4000 * angStep m * sin (lobAng m k)
  start_hi : -cos ((k + 1) * π / m) + 7 / 4000 * angStep m * sin (lobAng m k) ≤ hi
  abs_lt : ∀ z, lo ≤ z → z ≤ hi → |z| < 1
  one_sub : ∀ z, lo ≤ z → z ≤ hi → 1 / 2 * sin (lobAng m k) ^ 2 ≤ 1 - z ^ 2
  ne : ∀ z, lo ≤ z → z ≤ hi → (P m).eval z ≠ 0
  contract : ∀ z, lo ≤ z → z ≤ hi →
    |z - (z * (P m).eval z - legPrev m z) / ((m + 1) * (P m).eval z) - lobXi m (k + 1)| ≤
      3 / 5 * |z - lobXi m (k + 1)|

theorem lobIv_exists {m k : ℕ} (hk : 2 * (k + 1) ≤ m) : ∃ lo hi M, LobIv m k lo hi M := by
  obtain ⟨d, e, M, h1, h2, h3, h4, h5, h6, h7, h8, h9⟩ := lob_newton_wide hk
  have hxi : lobXi m (k + 1) = -cos (lobAng m k) := lobXi_mid (by omega) (by omega)
  refine ⟨-cos (lobAng m k) - d, -cos (lobAng m k) + e, M, ?_⟩
  have hz : ∀ z, -cos (lobAng m k) - d ≤ z → z ≤ -cos (lobAng m k) + e → _ := fun z hz0 hz1 =>
    h9 (-z) (by linarith) (by linarith)
  refine ⟨by rw [hxi]; linarith, by rw [hxi]; linarith, by rw [hxi]; linarith, by rw [hxi]; linarith, h5, h6,
    by linarith, by linarith, fun z hz0 hz1 => ?_, fun z hz0 hz1 => ?_, fun z hz0 hz1 => ?_, fun z hz0 hz1 => ?_⟩
  · have := (hz z hz0 hz1).1
    rwa [abs_neg] at this
  · have := (hz z hz0 hz1).2.1
    rwa [neg_sq] at this
  · intro h0
    refine (hz z hz0 hz1).2.2.1 ?_
    rw [legendre_eval_neg, h0, mul_zero]
  · have h := (hz z hz0 hz1).2.2
    rw [legendre_eval_neg, legendre_eval_neg] at h
    obtain ⟨l, rfl⟩ : ∃ l, m = l + 1 := ⟨m - 1, by omega⟩
    have hp : legPrev (l + 1) z = (P l).eval z := by rw [legPrev, if_neg (by omega)]; rfl
    rw [Nat.add_sub_cancel] at h
    rw [hp, hxi]
    have hsgn : ((-1 : ℝ)) ^ l ≠ 0 := by positivity
    have hne : (P (l + 1)).eval z ≠ 0 := fun h0 => h.1 (by rw [h0, mul_zero])
    have e1 : -z - (-z * ((-1) ^ (l + 1) * (P (l + 1)).eval z) - (-1) ^ l * (P l).eval z) /
        (((l + 1 : ℕ) + 1) * ((-1) ^ (l + 1) * (P (l + 1)).eval z)) - cos (lobAng (l + 1) k) =
        -(z - (z * (P (l + 1)).eval z - (P l).eval z) /
          (((l + 1 : ℕ) + 1) * (P (l + 1)).eval z) - -cos (lobAng (l + 1) k)) := by
      have : (((l + 1 : ℕ) : ℝ) + 1) ≠ 0 := by positivity
      rw [pow_succ]
      field_simp
      ring
    rw [e1, abs_neg, show -z - cos (lobAng (l + 1) k) = -(z - -cos (lobAng (l + 1) k)) by ring, abs_neg] at h
    exact h.2

theorem sin_lobAng_ge {m k : ℕ} (hk : 2 * (k + 1) ≤ m) : 2 / ((m : ℝ) + 1 / 2) ≤ sin (lobAng m k) := by
  have hpi := pi_pos
  have g1 := lobAng_lower (m := m) (k := k) (by omega)
  have g2 := mul_le_sin (lobAng_mem (m := m) (k := k) (by omega)).1.le (lobAng_le_half hk)
  have g3 : angStep m ≤ lobAng m k := by
    have := angStep_pos m
    have hk0 : (0 : ℝ) ≤ k := Nat.cast_nonneg k
    nlinarith
  have g4 : 2 / π * angStep m ≤ 2 / π * lobAng m k :=
    mul_le_mul_of_nonneg_left g3 (by positivity)
  have e : 2 / π * angStep m = 2 / ((m : ℝ) + 1 / 2) := by
    unfold angStep; field_simp
  linarith

/-- Sizes for which the errors are small. -/
theorem lob_small {m : ℕ} (hm : m + 1 ≤ 2 ^ 15) :
    √((m : ℝ) + 1) ^ 2 = m + 1 ∧ 1 ≤ √((m : ℝ) + 1) ∧ √((m : ℝ) + 1) * ((m : ℝ) + 1 / 2) ^ 2 * uro ≤ 1 / 40000 := by
  obtain ⟨h1, h2, h3⟩ := gl_small (n := m + 1) (by omega) hm
  push_cast at h1 h2 h3
  refine ⟨h1, h2, le_trans ?_ h3⟩
  have h4 : ((m : ℝ) + 1 / 2) ^ 2 ≤ (m + 1 + 1 / 2) ^ 2 := pow_le_pow_left₀ (by positivity) (by linarith) 2
  have h5 := mul_le_mul_of_nonneg_left h4 (mul_nonneg (sqrt_nonneg ((m : ℝ) + 1)) uro_pos.le)
  linarith

/-- Geometry of the interval in terms of the size. -/
theorem LobIv.step_ge {m k : ℕ} (hk : 2 * (k + 1) ≤ m) :
    6 / ((m : ℝ) + 1 / 2) ^ 2 ≤ angStep m * sin (lobAng m k) := by
  have h1 : (0 : ℝ) < m + 1 / 2 := by positivity
  have h2 := angStep_mul m
  have h3 : 3 / ((m : ℝ) + 1 / 2) ≤ angStep m := by
    rw [div_le_iff₀ h1]
    have := pi_gt_three
    linarith
  have h4 : 3 / ((m : ℝ) + 1 / 2) * (2 / (m + 1 / 2)) ≤ angStep m * sin (lobAng m k) :=
    mul_le_mul h3 (sin_lobAng_ge hk) (by positivity) (angStep_pos m).le
  refine le_trans (le_of_eq ?_) h4
  field_simp
  norm_num

/-- `P_m` is not small in the interval. -/
theorem LobIv.P_ge {m k : ℕ} (hk : 2 * (k + 1) ≤ m) {lo hi M z : ℝ} (h : LobIv m k lo hi M) (hz0 : lo ≤ z)
    (hz1 : z ≤ hi) : 1 ≤ |(P m).eval z| * (3 * √((m : ℝ) + 1)) := by
  have hm : 1 ≤ m := by omega
  have hm0 : (1 : ℝ) ≤ m := by exact_mod_cast hm
  have hsq := h.one_sub z hz0 hz1
  have hs0 : 0 < sin (lobAng m k) := lt_of_lt_of_le (by positivity) (sin_lobAng_ge hk)
  have h1z : 0 < 1 - z ^ 2 := lt_of_lt_of_le (by positivity) hsq
  have hσ : √(1 - z ^ 2) ^ 2 = 1 - z ^ 2 := sq_sqrt h1z.le
  have hR2 : √((m : ℝ) + 1) ^ 2 = m + 1 := sq_sqrt (by linarith)
  have hp0 := h.ne z hz0 hz1
  have hN := h.contract z hz0 hz1
  have hM1 := h.M_le
  have hlo := h.lo_ge
  have hhi := h.hi_le
  have hzr : |z - lobXi m (k + 1)| ≤ M := by
    rw [abs_le]
    constructor <;> linarith
  obtain ⟨s, hs⟩ : ∃ s, s = (z * (P m).eval z - legPrev m z) / ((m + 1) * (P m).eval z) := ⟨_, rfl⟩
  rw [← hs] at hN
  have hsM : |s| ≤ 8 / 5 * M := by
    have e : s = (z - lobXi m (k + 1)) - (z - s - lobXi m (k + 1)) := by ring
    rw [e]
    refine (abs_sub _ _).trans ?_
    linarith
  refine lobP_ge m hm z s (33 / 10) (√(1 - z ^ 2)) _ ?_ (sqrt_pos.2 h1z) hσ ?_ ?_ ?_
  · rw [hs]
    field_simp
  · have h1 : s ^ 2 ≤ (8 / 5 * (101 / 400 * angStep m * sin (lobAng m k))) ^ 2 := by
      rw [← sq_abs]
      exact pow_le_pow_left₀ (abs_nonneg _) (by linarith) 2
    have h2 := mul_le_mul_of_nonneg_left h1 (by positivity : 0 ≤ (m : ℝ) * (m + 1))
    have h3 := mul_le_mul_of_nonneg_right (angStep_sq_le m) (sq_nonneg (sin (lobAng m k)))
    rw [hσ]
    linarith
  · have : 0 < √((m : ℝ) + 1) := sqrt_pos.2 (by linarith)
    linarith
  · rw [mul_pow, hR2]
    linarith

/-- A Newton step near a root. -/
theorem LobIv.step {m k : ℕ} (hk : 2 * (k + 1) ≤ m) (hm2 : m + 1 ≤ 2 ^ 15) {lo hi M z Λ : ℝ}
    (h : LobIv m k lo hi M) (hz : IsF64 z) (hz0 : lo ≤ z) (hz1 : z ≤ hi) (hΛ1 : 1 ≤ Λ) (hΛ2 : Λ ≤ 3 * √((m : ℝ) + 1))
    (hd : 1 ≤ |(P m).eval z| * Λ) :
    ∃ v z' : ℝ, (evalPn (F64.fin z : F64 L) m).1 = F64.fin v ∧ IsF64 v ∧
      |v - (P m).eval z| ≤ 6 * Λ * (m + 1 / 2) ^ 2 * uro * |(P m).eval z| ∧
      F64.fin z - (F64.fin z * (evalPn (F64.fin z : F64 L) m).1 - (evalPn (F64.fin z : F64 L) m).2.2) /
        (Arith.ofNat (m + 1) * (evalPn (F64.fin z : F64 L) m).1) = F64.fin z' ∧
      IsF64 z' ∧
      |z' - (z - (z * (P m).eval z - legPrev m z) / ((m + 1) * (P m).eval z))| ≤
        (9 * Λ + 6) * uro + 1 / 100 * |z - lobXi m (k + 1)| := by
  have hu := uro_pos
  have hm : 1 ≤ m := by omega
  have hm0 : (1 : ℝ) ≤ m := by exact_mod_cast hm
  obtain ⟨hR2, hR1, hy⟩ := lob_small hm2
  have hsq := h.one_sub z hz0 hz1
  have hq := sin_lobAng_ge hk
  have hs0 : 0 < sin (lobAng m k) := lt_of_lt_of_le (by positivity) hq
  have h1z : 0 < 1 - z ^ 2 := lt_of_lt_of_le (by positivity) hsq
  have hσ : √(1 - z ^ 2) ^ 2 = 1 - z ^ 2 := sq_sqrt h1z.le
  have hσ0 := sqrt_pos.2 h1z
  have hN := h.contract z hz0 hz1
  have hM1 := h.M_le
  have hlo := h.lo_ge
  have hhi := h.hi_le
  obtain ⟨σ, hσd⟩ : ∃ σ, σ = √(1 - z ^ 2) := ⟨_, rfl⟩
  rw [← hσd] at hσ hσ0
  have hzr : |z - lobXi m (k + 1)| ≤ M := by
    rw [abs_le]
    constructor <;> linarith
  have hM58 : M ≤ 5 / 8 := by
    have h2 : angStep m ≤ 8 / 5 := by
      have h3 := angStep_mul m
      have h4 := pi_lt_d2
      have h5 : angStep m * (3 / 2) ≤ angStep m * (m + 1 / 2) :=
        mul_le_mul_of_nonneg_left (by linarith) (angStep_pos m).le
      have h6 := angStep_pos m
      have h7 : (2 : ℝ) ≤ m := by exact_mod_cast (by omega : 2 ≤ m)
      have h8 : angStep m * (5 / 2) ≤ angStep m * (m + 1 / 2) :=
        mul_le_mul_of_nonneg_left (by linarith) h6.le
      linarith
    have h3 := mul_le_mul h2 (sin_le_one (lobAng m k)) hs0.le (by norm_num)
    linarith
  have hs : |(z * (P m).eval z - legPrev m z) / ((m + 1) * (P m).eval z)| ≤ 8 / 5 * |z - lobXi m (k + 1)| := by
    have e : (z * (P m).eval z - legPrev m z) / ((m + 1) * (P m).eval z) = (z - lobXi m (k + 1)) -
      (z - (z * (P m).eval z - legPrev m z) / ((m + 1) * (P m).eval z) - lobXi m (k + 1)) := by ring
    rw [e]
    refine (abs_sub _ _).trans ?_
    linarith
  obtain ⟨T, hT⟩ : ∃ T : ℝ, T = m + 1 / 2 := ⟨_, rfl⟩
  have hT0 : 0 < T := by linarith
  rw [← hT] at hq hy
  -- σ T ≥ 7/5
  have hσT : 7 / 5 ≤ σ * T := by
    rw [div_le_iff₀ hT0] at hq
    have h1 : (2 : ℝ) ^ 2 ≤ (sin (lobAng m k) * T) ^ 2 := pow_le_pow_left₀ (by norm_num) hq 2
    rw [← hσ] at hsq
    have h2 := mul_le_mul_of_nonneg_right hsq (sq_nonneg T)
    refine abs_le_of_sq_le_sq' ?_ (by positivity) |>.2
    rw [mul_pow] at h1 ⊢
    linarith
  have hκ : 8 * m * uro * Λ / σ ≤ 6 * Λ * T ^ 2 * uro := by
    rw [div_le_iff₀ hσ0]
    have h1 := mul_le_mul_of_nonneg_left hσT (by positivity : 0 ≤ 6 * Λ * T * uro)
    have h2 : 8 * m * uro * Λ ≤ 8 * T * uro * Λ := by
      have : (m : ℝ) ≤ T := by linarith
      gcongr
    have h3 : 0 ≤ T * uro * Λ := by positivity
    linarith
  have hκ2 : 6 * Λ * T ^ 2 * uro ≤ 1 / 2000 := by
    have h2 := mul_le_mul_of_nonneg_right hΛ2 (by positivity : 0 ≤ 6 * T ^ 2 * uro)
    linarith
  have hΛ3 : Λ ≤ 2 ^ 30 := by
    have h1 : √((m : ℝ) + 1) ≤ m + 1 := by
      have h2 := mul_le_mul_of_nonneg_left hR1 (sqrt_nonneg ((m : ℝ) + 1))
      rw [← sq, hR2] at h2
      linarith
    have hnr : (m : ℝ) + 1 ≤ 32768 := by exact_mod_cast hm2
    norm_num
    linarith
  obtain ⟨κ, hκd⟩ : ∃ κ, κ = 8 * m * uro * Λ / σ := ⟨_, rfl⟩
  rw [← hκd] at hκ
  obtain ⟨v, z', e1, hv, hve, e2, hz', hze⟩ := lob_step_double (L := L) hm (by omega) hz hσ0 (by rw [hσ]) hΛ1 hΛ3
    hd hκd (by linarith) (by linarith)
  rw [← hT]
  refine ⟨v, z', e1, hv, hve.trans (mul_le_mul_of_nonneg_right hκ (abs_nonneg _)), e2, hz', hze.trans ?_⟩
  have h0 : 0 ≤ κ := by rw [hκd]; positivity
  have h1 := mul_le_mul (hκ.trans hκ2) hs (abs_nonneg _) (by norm_num)
  have h3 := abs_nonneg (z - lobXi m (k + 1))
  linarith

/-- Newton iterations end without a result or near the root. -/
theorem LobIv.run {m k : ℕ} (hk : 2 * (k + 1) ≤ m) (hm2 : m + 1 ≤ 2 ^ 15) {lo hi M : ℝ} (h : LobIv m k lo hi M) :
    ∀ (it : ℕ) (z : ℝ), IsF64 z → lo ≤ z → z ≤ hi →
      lobNewton (m + 1) it (F64.fin z : F64 L) = none ∨
      ∃ a z' v : ℝ, lobNewton (m + 1) it (F64.fin z : F64 L) = some (F64.fin z', F64.fin v) ∧
        IsF64 a ∧ lo ≤ a ∧ a ≤ hi ∧ (evalPn (F64.fin a : F64 L) m).1 = F64.fin v ∧
        F64.fin a - (F64.fin a * (evalPn (F64.fin a : F64 L) m).1 - (evalPn (F64.fin a : F64 L) m).2.2) /
          (Arith.ofNat (m + 1) * (evalPn (F64.fin a : F64 L) m).1) = F64.fin z' ∧
        |z' - a| ≤ 201 / 100 * uro := by
  have hu := uro_pos
  obtain ⟨hR2, hR1, hy⟩ := lob_small hm2
  have hg := LobIv.step_ge hk
  have hMg := h.M_ge
  have hM1 := h.M_le
  have hlo := h.lo_ge
  have hhi := h.hi_le
  have hlo' := h.lo_le
  have hhi' := h.hi_ge
  have hnoise : (9 * (3 * √((m : ℝ) + 1)) + 6) * uro ≤ 9 / 100 * M := by
    have h1 : (0 : ℝ) < ((m : ℝ) + 1 / 2) ^ 2 := by positivity
    rw [div_le_iff₀ h1] at hg
    have h3 : (9 * (3 * √((m : ℝ) + 1)) + 6) * uro * ((m : ℝ) + 1 / 2) ^ 2 ≤ 9 / 100 * M * ((m : ℝ) + 1 / 2) ^ 2 := by
      have h2 := mul_le_mul_of_nonneg_right hR1 (by positivity : 0 ≤ ((m : ℝ) + 1 / 2) ^ 2 * uro)
      have h4 := mul_le_mul_of_nonneg_right hMg h1.le
      linarith
    exact le_of_mul_le_mul_right h3 h1
  intro it
  induction it with
  | zero => intro z _ _ _; left; rfl
  | succ it ih =>
    intro z hz hz0 hz1
    obtain ⟨v, z', e1, hv, -, e2, hz', hze⟩ := h.step (L := L) hk hm2 hz hz0 hz1 (Λ := 3 * √((m : ℝ) + 1))
      (by linarith) le_rfl (h.P_ge hk hz0 hz1)
    have hN := h.contract z hz0 hz1
    have hzr : |z - lobXi m (k + 1)| ≤ M := by
      rw [abs_le]
      constructor <;> linarith
    have hz'r : |z' - lobXi m (k + 1)| ≤ 7 / 10 * M := by
      have e : z' - lobXi m (k + 1) =
        (z' - (z - (z * (P m).eval z - legPrev m z) / ((m + 1) * (P m).eval z))) +
        (z - (z * (P m).eval z - legPrev m z) / ((m + 1) * (P m).eval z) - lobXi m (k + 1)) := by ring
      rw [e]
      refine (abs_add_le _ _).trans ?_
      linarith
    have hz'r' := abs_le.1 hz'r
    have hz0' : lo ≤ z' := by linarith
    have hz1' : z' ≤ hi := by linarith
    unfold lobNewton
    dsimp only
    rw [Nat.add_sub_cancel, e2]
    split_ifs with hacc
    · right
      refine ⟨z, z', v, by rw [e1], hz, hz0, hz1, e1, e2, accept_le (L := L) ?_ hacc⟩
      have e := abs_sub z' z
      have h3 := h.abs_lt z hz0 hz1
      have h4 := h.abs_lt z' hz0' hz1'
      have : (2 : ℝ) ≤ 2 ^ 100 := by norm_num
      linarith
    · exact ih z' hz' hz0' hz1'

/-- The starting value. -/
theorem lobStart_double (hL : L.Accurate) {m k : ℕ} (hk : 2 * (k + 1) ≤ m) (hm2 : m + 1 ≤ 2 ^ 15) :
    Near (lobStart (F64 L) (m + 1) (k + 1)) (-cos ((k + 1) * π / m)) (24 * uro) := by
  have hu := uro_pos
  have hu' := uro_lt
  have hmr : (m : ℝ) + 1 ≤ 32768 := by exact_mod_cast hm2
  have hkm : 2 * ((k : ℝ) + 1) ≤ m := by exact_mod_cast hk
  have hk0 : (0 : ℝ) ≤ k := Nat.cast_nonneg k
  have hpi := pi_gt_three
  have hpi' := pi_le_four
  obtain ⟨j, hj⟩ : ∃ j : ℕ, j = m + 1 - 1 - (k + 1) := ⟨_, rfl⟩
  have hj1 : 1 ≤ j := by omega
  have hjr : (j : ℝ) = m - (k + 1) := by
    rw [hj, show m + 1 - 1 - (k + 1) = m - (k + 1) by omega, Nat.cast_sub (by omega)]
    push_cast
    ring
  have hj1r : (1 : ℝ) ≤ j := by exact_mod_cast hj1
  have A : Rel (Arith.ofNat j : F64 L) j 0 := rel_nat (by omega)
  have B : Rel (Arith.ofNat (m + 1) - Arith.lit 1 : F64 L) m 0 := by
    obtain ⟨h1, -⟩ := lit_nat' (L := L) (m + 1) (by omega)
    obtain ⟨h2, h3⟩ := lit_nat' (L := L) m (by omega)
    have l1 := lit_one (L := L)
    rw [h1, l1.1, F64.fin_sub, show ((m + 1 : ℕ) : ℝ) - 1 = m by push_cast; ring]
    have h4 : (F64.of (m : ℝ) : F64 L) = F64.fin (m : ℝ) := h2
    rw [h4]
    exact ⟨_, rfl, h3, by simp⟩
  have C := Rel.mul A (rel_pi (L := L)) le_rfl (by norm_num) (by norm_num) (by norm_num) (mid_of (by
      have : 1 * 3 ≤ (j : ℝ) * π := mul_le_mul hj1r hpi.le (by norm_num) (by linarith)
      refine le_trans ?_ this
      norm_num) (by
      have : (j : ℝ) * π ≤ 40000 * 4 := mul_le_mul (by linarith) hpi' (by linarith) (by norm_num)
      refine this.trans (by norm_num)))
  have hm0 : (0 : ℝ) < m := by linarith
  have hle : (j : ℝ) * π / m ≤ π := by
    rw [div_le_iff₀ hm0, mul_comm]
    exact mul_le_mul_of_nonneg_left (by linarith) (by linarith)
  have hge : 1 / 20000 ≤ (j : ℝ) * π / m := by
    rw [le_div_iff₀ hm0]
    have : 1 * 3 ≤ (j : ℝ) * π := mul_le_mul hj1r hpi.le (by norm_num) (by linarith)
    linarith
  have E := Rel.div C B (by norm_num) (by norm_num) le_rfl (by norm_num) hm0.ne' (mid_of (by
      refine le_trans ?_ hge
      norm_num) (by
      have : (4 : ℝ) ≤ 2 ^ 200 := by norm_num
      linarith))
  have F : Near (Arith.ofNat j * Arith.pi / (Arith.ofNat (m + 1) - Arith.lit 1) : F64 L) ((j : ℝ) * π / m) (20 * uro) := by
    refine Near.mono E ?_
    rw [abs_of_pos (by linarith)]
    have h2 : (j : ℝ) * π / m ≤ 3.15 := by
      have := pi_lt_d2
      linarith
    have := mul_le_mul_of_nonneg_left h2 (by positivity : 0 ≤ (0 + 2 + 2 + 0 + 2) * uro)
    norm_num at this ⊢
    linarith
  have hcos : cos ((j : ℝ) * π / m) = -cos ((k + 1) * π / m) := by
    rw [← cos_pi_sub]
    congr 1
    rw [hjr]
    field_simp
  unfold lobStart
  rw [← hj, ← hcos]
  exact (Near.cos hL F (by linarith)).mono (by linarith)

end IntegratorXX
