import Verif.Lemmas.FloatLob

/-!
# The rule computed by GaussLobatto in `double` arithmetic
-/

namespace IntegratorXX

open Polynomial Spec Set Real

local notation "P" => legendre

variable {L : Libm}

set_option maxHeartbeats 400000 in
/-- An accepted iterate. -/
theorem LobIv.accept {m k : ℕ} (hk : 2 * (k + 1) ≤ m) (hm2 : m + 1 ≤ 2 ^ 15) {lo hi M a z' v : ℝ}
    (h : LobIv m k lo hi M) (ha : IsF64 a) (ha0 : lo ≤ a) (ha1 : a ≤ hi)
    (e1 : (evalPn (F64.fin a : F64 L) m).1 = F64.fin v)
    (e2 : F64.fin a - (F64.fin a * (evalPn (F64.fin a : F64 L) m).1 - (evalPn (F64.fin a : F64 L) m).2.2) /
      (Arith.ofNat (m + 1) * (evalPn (F64.fin a : F64 L) m).1) = F64.fin z')
    (hacc : |z' - a| ≤ 201 / 100 * uro) :
    IsF64 z' ∧ IsF64 v ∧ 1 ≤ |(P m).eval a| * (3 / 2 * √((m : ℝ) + 1)) ∧
    |a - lobXi m (k + 1)| ≤ 56 * √((m : ℝ) + 1) * uro ∧
    |z' - lobXi m (k + 1)| ≤ 54 * √((m : ℝ) + 1) * uro ∧
    |z' - (a - (a * (P m).eval a - legPrev m a) / ((m + 1) * (P m).eval a))| ≤ 203 / 10 * √((m : ℝ) + 1) * uro ∧
    |v - (P m).eval a| ≤ 9 * √((m : ℝ) + 1) * (m + 1 / 2) ^ 2 * uro * |(P m).eval a| := by
  have hu := uro_pos
  have hm : 1 ≤ m := by omega
  have hm0 : (1 : ℝ) ≤ m := by exact_mod_cast hm
  obtain ⟨hR2, hR1, hy⟩ := lob_small hm2
  have hN := h.contract a ha0 ha1
  have hq := sin_lobAng_ge hk
  have hRu : uro ≤ √((m : ℝ) + 1) * uro := by
    have := mul_le_mul_of_nonneg_right hR1 hu.le
    linarith
  have hfin : ∀ x y : ℝ, (F64.fin x : F64 L) = F64.fin y → x = y := fun x y h => XReal.fin.inj h
  have hp0 := h.ne a ha0 ha1
  have hsq := h.one_sub a ha0 ha1
  have hd0 := h.P_ge hk ha0 ha1
  obtain ⟨s, hs⟩ : ∃ s, s = (a * (P m).eval a - legPrev m a) / ((m + 1) * (P m).eval a) := ⟨_, rfl⟩
  obtain ⟨ξ, hξ⟩ : ∃ ξ, ξ = lobXi m (k + 1) := ⟨_, rfl⟩
  obtain ⟨R, hRd⟩ : ∃ R, R = √((m : ℝ) + 1) := ⟨_, rfl⟩
  rw [← hs, ← hξ] at hN
  have key : ∀ Λ : ℝ, 1 ≤ Λ → Λ ≤ 3 * R → 1 ≤ |(P m).eval a| * Λ →
      IsF64 z' ∧ IsF64 v ∧ |a - ξ| ≤ (206 / 10 + 231 / 10 * Λ) * uro ∧
      |z' - (a - s)| ≤ (9 * Λ + 6) * uro + 1 / 100 * |a - ξ| ∧
      |v - (P m).eval a| ≤ 6 * Λ * (m + 1 / 2) ^ 2 * uro * |(P m).eval a| := by
    intro Λ h1 h2 h3
    obtain ⟨v', z'', f1, hv, hve, f2, hz', hze⟩ := h.step (L := L) hk hm2 ha ha0 ha1 h1 (by rw [← hRd]; exact h2) h3
    have ev : v' = v := hfin _ _ (by rw [← f1, e1])
    have ez : z'' = z' := hfin _ _ (by rw [← f2, e2])
    subst ev
    subst ez
    rw [← hs, ← hξ] at hze
    refine ⟨hz', hv, ?_, hze, hve⟩
    have e : a - ξ = -(z'' - a) + (z'' - (a - s)) + (a - s - ξ) := by ring
    have h4 := abs_add_three (-(z'' - a)) (z'' - (a - s)) (a - s - ξ)
    rw [← e, abs_neg] at h4
    have h5 : 0 ≤ Λ * uro := by positivity
    linarith
  rw [← hs, ← hξ]
  rw [← hRd] at hR2 hR1 hy hRu hd0 ⊢
  obtain ⟨hz', hv, k1, -, -⟩ := key (3 * R) (by linarith) le_rfl hd0
  have k2 : |a - ξ| ≤ 90 * R * uro := by linarith
  have hd2 : 1 ≤ |(P m).eval a| * (3 / 2 * R) := by
    have hs0 : 0 < sin (lobAng m k) := lt_of_lt_of_le (by positivity) hq
    have h1z : 0 < 1 - a ^ 2 := lt_of_lt_of_le (by positivity) hsq
    have hσ : √(1 - a ^ 2) ^ 2 = 1 - a ^ 2 := sq_sqrt h1z.le
    have hsa : |s| ≤ 150 * R * uro := by
      have e : s = (a - ξ) - (a - s - ξ) := by ring
      rw [e]
      refine (abs_sub _ _).trans ?_
      have := abs_nonneg (a - ξ)
      linarith
    refine lobP_ge m hm a s (1 / 8) (√(1 - a ^ 2)) _ ?_ (sqrt_pos.2 h1z) hσ ?_ (by linarith) ?_
    · rw [hs]
      field_simp
    · rw [hσ]
      refine le_trans ?_ (mul_le_mul_of_nonneg_left hsq (by norm_num))
      have h1 : s ^ 2 ≤ (150 * R * uro) ^ 2 := by
        rw [← sq_abs]
        exact pow_le_pow_left₀ (abs_nonneg _) hsa 2
      have hM : (0 : ℝ) < (m : ℝ) + 1 / 2 := by positivity
      have h2 : m * (m + 1) * s ^ 2 ≤ ((m : ℝ) + 1 / 2) ^ 2 * (150 * R * uro) ^ 2 :=
        mul_le_mul (by linarith) h1 (sq_nonneg _) (sq_nonneg _)
      have h3 : ((m : ℝ) + 1 / 2) * (150 * R * uro) ≤ 1 / 200 / (m + 1 / 2) := by
        rw [le_div_iff₀ hM]
        linarith
      have h4 : ((m : ℝ) + 1 / 2) * (150 * R * uro) ≤ 1 / 200 * sin (lobAng m k) := by
        refine h3.trans ?_
        rw [div_le_iff₀ hM] at hq
        rw [div_le_iff₀ hM]
        linarith
      have h5 := pow_le_pow_left₀ (by positivity) h4 2
      rw [mul_pow, mul_pow (1 / 200)] at h5
      have := sq_nonneg (sin (lobAng m k))
      linarith
    · rw [mul_pow, hR2]
      linarith
  obtain ⟨-, -, k3, k4, k5⟩ := key (3 / 2 * R) (by linarith) (by linarith) hd2
  have k6 : |a - ξ| ≤ 56 * R * uro := by linarith
  have k7 : |z' - (a - s)| ≤ 203 / 10 * R * uro := by linarith
  refine ⟨hz', hv, hd2, k6, ?_, k7, k5.trans ?_⟩
  · have e : z' - ξ = (z' - (a - s)) + (a - s - ξ) := by ring
    rw [e]
    refine (abs_add_le _ _).trans ?_
    have : 0 ≤ R * uro := by positivity
    linarith
  · refine mul_le_mul_of_nonneg_right ?_ (abs_nonneg _)
    linarith

/-- The end weight. -/
theorem lobE_double {m : ℕ} (hm : 1 ≤ m) (hm2 : m + 1 ≤ 2 ^ 15) :
    Near (lobE (F64 L) (m + 1)) (2 / ((m + 1) * m)) (2 * uro * |2 / (((m : ℝ) + 1) * m)|) := by
  have hm0 : (1 : ℝ) ≤ m := by exact_mod_cast hm
  have hmr : (m : ℝ) + 1 ≤ 32768 := by exact_mod_cast hm2
  have B : (Arith.ofNat (m + 1) - Arith.lit 1 : F64 L) = F64.fin (m : ℝ) := by
    obtain ⟨h1, -⟩ := lit_nat' (L := L) (m + 1) (by omega)
    obtain ⟨h2, h3⟩ := lit_nat' (L := L) m (by omega)
    have l1 := lit_one (L := L)
    rw [h1, l1.1, F64.fin_sub, show ((m + 1 : ℕ) : ℝ) - 1 = m by push_cast; ring]
    exact h2
  have hb : (m + 1) * m ≤ 2 ^ 53 := by
    have : (m + 1) * m ≤ 2 ^ 15 * 2 ^ 15 := Nat.mul_le_mul hm2 (by omega)
    omega
  have C : Rel (Arith.ofNat (m + 1) * (Arith.ofNat (m + 1) - Arith.lit 1) : F64 L) ((m + 1) * m) 0 := by
    obtain ⟨h1, -⟩ := lit_nat' (L := L) (m + 1) (by omega)
    obtain ⟨h2, h3⟩ := lit_nat' (L := L) ((m + 1) * m) hb
    rw [B, h1, F64.fin_mul, show ((m + 1 : ℕ) : ℝ) * m = ((m + 1) * m : ℕ) by push_cast; ring]
    have h4 : (F64.of (((m + 1) * m : ℕ) : ℝ) : F64 L) = F64.fin (((m + 1) * m : ℕ) : ℝ) := h2
    rw [h4, show ((m : ℝ) + 1) * m = ((m + 1) * m : ℕ) by push_cast; ring]
    exact ⟨_, rfl, h3, by simp⟩
  have hT : Rel (Arith.lit 2 : F64 L) 2 0 := by
    have l2 := lit_two (L := L)
    rw [l2.1]
    exact ⟨_, rfl, l2.2, by simp⟩
  have hpos : 0 < ((m : ℝ) + 1) * m := by positivity
  have hle : ((m : ℝ) + 1) * m ≤ 32768 * 32768 := mul_le_mul hmr (by linarith) (by linarith) (by norm_num)
  have D := Rel.div hT C le_rfl (by norm_num) le_rfl (by norm_num) hpos.ne' (mid_of (by
      rw [le_div_iff₀ hpos]
      have h1 : (2⁻¹ : ℝ) ^ 200 * ((m + 1) * m) ≤ 2⁻¹ ^ 200 * (32768 * 32768) := by gcongr
      refine h1.trans ?_
      norm_num) (by
      rw [div_le_iff₀ hpos]
      have h1 : (2 : ℝ) ^ 200 * 1 ≤ 2 ^ 200 * ((m + 1) * m) := by
        gcongr
        nlinarith
      refine le_trans ?_ h1
      norm_num))
  have e : (0 + 0 + 2 : ℝ) = 2 := by norm_num
  rw [e] at D
  exact D

set_option maxHeartbeats 400000 in
/-- The rounding errors of the weight formula. -/
theorem lob_weight_rounding {m : ℕ} (hm : 1 ≤ m) (hm2 : m + 1 ≤ 2 ^ 15) {v p ρ : ℝ} (hv : IsF64 v)
    (hρ : ρ ≤ 1 / 40000) (hu1 : uro ≤ ρ) (hve : |v - p| ≤ 9 * ρ * |p|)
    (hp1 : 2⁻¹ ^ 30 ≤ |p|) (hp2 : |p| ≤ 1) :
    Near (lobE (F64 L) (m + 1) / (F64.fin v * F64.fin v)) (2 / ((m + 1) * m) / (p * p))
      (26 * ρ * |2 / (((m : ℝ) + 1) * m) / (p * p)|) := by
  have hu := uro_pos
  have hm0 : (1 : ℝ) ≤ m := by exact_mod_cast hm
  have hmr : (m : ℝ) + 1 ≤ 32768 := by exact_mod_cast hm2
  have hV : Near (F64.fin v : F64 L) p (9 * ρ * |p|) := ⟨v, rfl, hv, hve⟩
  have hE := lobE_double (L := L) hm hm2
  have hpp : |p * p| = |p| * |p| := abs_mul p p
  have l1 : (2⁻¹ : ℝ) ^ 60 ≤ |p| * |p| := by
    have := mul_le_mul hp1 hp1 (by positivity) (abs_nonneg p)
    refine le_trans (le_of_eq ?_) this
    norm_num
  have l2 : |p| * |p| ≤ 1 := by
    have := mul_le_mul hp2 hp2 (abs_nonneg p) zero_le_one
    linarith
  have m1 : Mid (p * p) := by
    constructor
    · rw [hpp]
      refine le_trans ?_ l1
      norm_num
    · rw [hpp]
      refine l2.trans ?_
      norm_num
  have s1 := (near_mul hV hV (by linarith) (by linarith) (by linarith) (by linarith) m1).mono
    (f := 21 * ρ * |p * p|) (mul_le_mul_of_nonneg_right (by linarith) (abs_nonneg _))
  have hpos : 0 < ((m : ℝ) + 1) * m := by positivity
  have hle : ((m : ℝ) + 1) * m ≤ 32768 * 32768 := mul_le_mul hmr (by linarith) (by linarith) (by norm_num)
  have hE1 : 2⁻¹ ^ 30 ≤ 2 / (((m : ℝ) + 1) * m) := by
    rw [le_div_iff₀ hpos]
    have h1 : (2⁻¹ : ℝ) ^ 30 * ((m + 1) * m) ≤ 2⁻¹ ^ 30 * (32768 * 32768) := by gcongr
    refine h1.trans ?_
    norm_num
  have hE2 : 2 / (((m : ℝ) + 1) * m) ≤ 1 := by
    rw [div_le_iff₀ hpos]
    nlinarith
  have hE0 : 0 < 2 / (((m : ℝ) + 1) * m) := by positivity
  have h0 : 0 < |p| * |p| := lt_of_lt_of_le (by positivity) l1
  have m2 : Mid (2 / (((m : ℝ) + 1) * m) / (p * p)) := by
    constructor
    · rw [abs_div, hpp, abs_of_pos hE0, le_div_iff₀ h0]
      have h1 : (2⁻¹ : ℝ) ^ 200 * (|p| * |p|) ≤ 2⁻¹ ^ 200 * 1 := by gcongr
      refine (h1.trans ?_).trans hE1
      norm_num
    · rw [abs_div, hpp, abs_of_pos hE0, div_le_iff₀ h0]
      have h1 : (2 : ℝ) ^ 200 * 2⁻¹ ^ 60 ≤ 2 ^ 200 * (|p| * |p|) := by gcongr
      refine hE2.trans (le_trans ?_ h1)
      norm_num
  exact (near_div hE s1 (by linarith) (by linarith) (by linarith [uro_lt]) (by linarith) m1.ne m2).mono
    (mul_le_mul_of_nonneg_right (by linarith) (abs_nonneg _))

set_option maxHeartbeats 800000 in
/-- A weight computed by GaussLobatto. -/
theorem LobIv.weight {m k : ℕ} (hk : 2 * (k + 1) ≤ m) (hm2 : m + 1 ≤ 2 ^ 15) {lo hi M a z' v : ℝ}
    (h : LobIv m k lo hi M) (ha : IsF64 a) (ha0 : lo ≤ a) (ha1 : a ≤ hi)
    (e1 : (evalPn (F64.fin a : F64 L) m).1 = F64.fin v)
    (e2 : F64.fin a - (F64.fin a * (evalPn (F64.fin a : F64 L) m).1 - (evalPn (F64.fin a : F64 L) m).2.2) /
      (Arith.ofNat (m + 1) * (evalPn (F64.fin a : F64 L) m).1) = F64.fin z')
    (hacc : |z' - a| ≤ 201 / 100 * uro) :
    IsF64 z' ∧ |z' - lobXi m (k + 1)| ≤ 54 * √((m : ℝ) + 1) * uro ∧ |z'| < 1 ∧
    Near (lobE (F64 L) (m + 1) / (F64.fin v * F64.fin v)) (lobOm m (lobXi m (k + 1)))
      (75 * √((m : ℝ) + 1) * (m + 1 / 2) ^ 2 * uro * lobOm m (lobXi m (k + 1))) := by
  have hu := uro_pos
  have hm : 1 ≤ m := by omega
  have hm0 : (1 : ℝ) ≤ m := by exact_mod_cast hm
  have hmr : (m : ℝ) + 1 ≤ 32768 := by exact_mod_cast hm2
  obtain ⟨hR2, hR1, hy⟩ := lob_small hm2
  have hza := h.abs_lt a ha0 ha1
  have hp0 := h.ne a ha0 ha1
  have hq := sin_lobAng_ge hk
  obtain ⟨hz', hv, hd, k1, k2, k3, k4⟩ := h.accept (L := L) hk hm2 ha ha0 ha1 e1 e2 hacc
  have hroot := lobXi_root (m := m) (j := k + 1) (by omega) (by omega)
  have hrm := lobXi_abs (m := m) (j := k + 1) (by omega) (by omega)
  have hom := lobOm_pos (m := m) (j := k + 1) hm (by omega)
  have hxi : lobXi m (k + 1) = -cos (lobAng m k) := lobXi_mid (by omega) (by omega)
  have hprev : legPrev m a = (P (m - 1)).eval a := by rw [legPrev, if_neg (by omega)]
  rw [hprev] at k3
  obtain ⟨ρ, hρd⟩ : ∃ ρ, ρ = √((m : ℝ) + 1) * ((m : ℝ) + 1 / 2) ^ 2 * uro := ⟨_, rfl⟩
  obtain ⟨q, hqd⟩ : ∃ q, q = sin (lobAng m k) := ⟨_, rfl⟩
  have hrq : 1 - lobXi m (k + 1) ^ 2 = q ^ 2 := by rw [hxi, neg_sq, ← sin_sq, hqd]
  rw [← hqd] at hq
  generalize hrd : lobXi m (k + 1) = r at *
  generalize hRd : √((m : ℝ) + 1) = R at *
  rw [← hρd] at hy
  have hM : (0 : ℝ) < (m : ℝ) + 1 / 2 := by positivity
  have hM1 : 1 ≤ ((m : ℝ) + 1 / 2) ^ 2 := one_le_pow₀ (by linarith)
  have hρ0 : 0 ≤ ρ := by rw [hρd]; positivity
  have hq2 : 4 ≤ ((m : ℝ) + 1 / 2) ^ 2 * q ^ 2 := by
    rw [div_le_iff₀ hM] at hq
    have := pow_le_pow_left₀ (by norm_num) hq 2
    rw [mul_pow] at this
    linarith
  have hRq : R * uro ≤ 1 / 4 * (ρ * q ^ 2) := by
    have := mul_le_mul_of_nonneg_left hq2 (by positivity : 0 ≤ R * uro)
    rw [hρd]
    linarith
  have hRu : uro ≤ R * uro := by
    have := mul_le_mul_of_nonneg_right hR1 hu.le
    linarith
  have huρ : R * uro ≤ ρ := by
    have := mul_le_mul_of_nonneg_left hM1 (by positivity : 0 ≤ R * uro)
    rw [hρd]
    linarith
  have hq0 : 0 < q := lt_of_lt_of_le (by positivity) hq
  have hqp : 0 < q ^ 2 := by positivity
  have hρq : ρ * q ^ 2 ≤ 1 / 40000 * q ^ 2 := mul_le_mul_of_nonneg_right hy hqp.le
  -- the computed node
  have hrl : |r| ≤ 1 - q ^ 2 / 2 := by
    have h1 : q ^ 2 = (1 - |r|) * (1 + |r|) := by rw [← hrq, ← sq_abs r]; ring
    have h2 : (1 - |r|) * (1 + |r|) ≤ (1 - |r|) * 2 := mul_le_mul_of_nonneg_left (by linarith) (by linarith)
    linarith
  have hz'1 : |z'| < 1 := by
    have := abs_sub_abs_le_abs_sub z' r
    linarith
  have k6 : |(a - (a * (P m).eval a - (P (m - 1)).eval a) / ((m + 1) * (P m).eval a)) - a| ≤ 112 / 5 * R * uro := by
    have e : (a - (a * (P m).eval a - (P (m - 1)).eval a) / ((m + 1) * (P m).eval a)) - a = (z' - a) -
      (z' - (a - (a * (P m).eval a - (P (m - 1)).eval a) / ((m + 1) * (P m).eval a))) := by ring
    rw [e]
    refine (abs_sub _ _).trans ?_
    linarith
  have hw1 := lob_weight_error m hm r a _ (112 / 5 * R * uro) hroot hrm hza rfl hp0 (by linarith) k6 (by
      have h1 : (m : ℝ) * (m + 1) ≤ ((m : ℝ) + 1 / 2) ^ 2 := by linarith
      have := mul_le_mul_of_nonneg_right h1 (by positivity : 0 ≤ R * uro)
      linarith) (by
      rw [hrq, div_le_iff₀ hqp]
      linarith) (2 / ((m + 1) * m)) (by positivity)
  have eom : 2 / (((m : ℝ) + 1) * m) / (P m).eval r ^ 2 = lobOm m r := by unfold lobOm; rw [div_div]
  rw [eom, hrq] at hw1
  have w1 : |2 / (((m : ℝ) + 1) * m) / ((P m).eval a * (P m).eval a) - lobOm m r| ≤ 45 * ρ * |lobOm m r| := by
    refine hw1.trans ?_
    rw [abs_of_pos hom, mul_comm]
    refine mul_le_mul_of_nonneg_right ?_ hom.le
    rw [mul_div_assoc', div_le_iff₀ hqp]
    have : 0 ≤ ρ * q ^ 2 := by positivity
    linarith
  have hR3 : R ≤ 2 ^ 29 := by
    have h2 := mul_le_mul_of_nonneg_left hR1 (by linarith : 0 ≤ R)
    rw [← sq, hR2] at h2
    norm_num
    linarith
  have hp1 : 2⁻¹ ^ 30 ≤ |(P m).eval a| := by
    have h1 := mul_le_mul_of_nonneg_left (by linarith : 3 / 2 * R ≤ 2 ^ 30) (abs_nonneg ((P m).eval a))
    have h2 : (2 : ℝ)⁻¹ ^ 30 * 1 ≤ 2⁻¹ ^ 30 * (|(P m).eval a| * 2 ^ 30) := by gcongr; linarith
    have e : (2 : ℝ)⁻¹ ^ 30 * (|(P m).eval a| * 2 ^ 30) = |(P m).eval a| := by norm_num; ring
    linarith
  have w3 := lob_weight_rounding (L := L) hm hm2 (v := v) (p := (P m).eval a) (ρ := ρ) hv hy (by linarith)
    (by rw [hρd]; linarith) hp1 (legendre_abs_le_one m hza.le)
  refine ⟨hz', k2, hz'1, ?_⟩
  obtain ⟨w, hw, hwf, hwe⟩ := w3
  refine ⟨w, hw, hwf, ?_⟩
  have w5 := rel_trans hwe w1 (by positivity) (s := 75 * ρ) (by
    have := mul_le_mul_of_nonneg_left hy hρ0
    linarith)
  rw [abs_of_pos hom, hρd] at w5
  linarith

/-- One Newton run of GaussLobatto. -/
theorem lob_node_double (hL : L.Accurate) {m k : ℕ} (hk : 2 * (k + 1) ≤ m) (hm2 : m + 1 ≤ 2 ^ 15)
    (h : lobNewton (m + 1) 100 (lobStart (F64 L) (m + 1) (k + 1)) = some (lobZ (F64 L) (m + 1) (k + 1))) :
    ∃ z w : ℝ, (lobZ (F64 L) (m + 1) (k + 1)).1 = F64.fin z ∧ lobW (F64 L) (m + 1) (k + 1) = F64.fin w ∧
      IsF64 z ∧ IsF64 w ∧ |z - lobXi m (k + 1)| ≤ 54 * √((m : ℝ) + 1) * uro ∧ |z| < 1 ∧
      |w - lobOm m (lobXi m (k + 1))| ≤
        75 * √((m : ℝ) + 1) * (m + 1 / 2) ^ 2 * uro * lobOm m (lobXi m (k + 1)) := by
  have hu := uro_pos
  obtain ⟨hR2, hR1, hy⟩ := lob_small hm2
  obtain ⟨s, hs, hsf, hs1⟩ := lobStart_double hL hk hm2
  obtain ⟨lo, hi, M, hI⟩ := lobIv_exists hk
  have hg := LobIv.step_ge hk
  have hM : (0 : ℝ) < ((m : ℝ) + 1 / 2) ^ 2 := by positivity
  have hlow : 24 * uro ≤ 7 / 4000 * angStep m * sin (lobAng m k) := by
    have h5 : 24 * uro ≤ 7 / 4000 * (6 / ((m : ℝ) + 1 / 2) ^ 2) := by
      rw [mul_div_assoc', le_div_iff₀ hM]
      have := mul_le_mul_of_nonneg_right hR1 (by positivity : 0 ≤ ((m : ℝ) + 1 / 2) ^ 2 * uro)
      linarith
    linarith
  have hs2 := abs_le.1 hs1
  have h1 := hI.start_lo
  have h2 := hI.start_hi
  rw [hs] at h
  rcases hI.run (L := L) hk hm2 100 s hsf (by linarith) (by linarith) with
    hnone | ⟨a, z', v, hsome, ha, ha0, ha1, e1, e2, hacc⟩
  · rw [hnone] at h
    cases h
  · rw [hsome] at h
    have hZ : lobZ (F64 L) (m + 1) (k + 1) = (F64.fin z', F64.fin v) := (Option.some.inj h).symm
    obtain ⟨b1, b2, b3, w, b4, b5, b6⟩ := hI.weight (L := L) hk hm2 ha ha0 ha1 e1 e2 hacc
    refine ⟨z', w, by rw [hZ], ?_, b1, b5, b2, b3, b6⟩
    unfold lobW
    rw [hZ]
    exact b4

/-- The rule computed by GaussLobatto. -/
theorem lob_rule_double (hL : L.Accurate) {m : ℕ} (hm : 1 ≤ m) (hm2 : m + 1 ≤ 2 ^ 15) :
    (gaussLobatto (m + 1) : Outcome (List (F64 L) × List (F64 L))) = .throws (.runtimeError lobMsg) ∨
    ∃ x w : ℕ → ℝ,
      (gaussLobatto (m + 1) : Outcome (List (F64 L) × List (F64 L))) =
        .ok ((List.range (m + 1)).map (fun j => F64.fin (x j)),
          (List.range (m + 1)).map (fun j => F64.fin (w j))) ∧
      x 0 = -1 ∧ x m = 1 ∧ (∀ j, 1 ≤ j → j < m → |x j| < 1) ∧
      (∀ j ≤ m, x (m - j) = -x j ∧ w (m - j) = w j) ∧
      ∀ j ≤ m, IsF64 (x j) ∧ IsF64 (w j) ∧ |x j - lobXi m j| ≤ 54 * √((m : ℝ) + 1) * uro ∧
        |w j - lobOm m (lobXi m j)| ≤ 75 * √((m : ℝ) + 1) * (m + 1 / 2) ^ 2 * uro * lobOm m (lobXi m j) := by
  have hu := uro_pos
  have hm0 : (1 : ℝ) ≤ m := by exact_mod_cast hm
  obtain ⟨hR2, hR1, hy⟩ := lob_small hm2
  rcases gaussLobatto_cases (F := F64 L) (m + 1) (by omega) (by unfold sizeMod; omega) with hc | ⟨hN, hc⟩
  · exact .inl hc
  right
  have hrun : ∀ k, ∃ z w : ℝ, 1 ≤ k → 2 * k ≤ m →
      (lobZ (F64 L) (m + 1) k).1 = F64.fin z ∧ lobW (F64 L) (m + 1) k = F64.fin w ∧
      IsF64 z ∧ IsF64 w ∧ |z - lobXi m k| ≤ 54 * √((m : ℝ) + 1) * uro ∧ |z| < 1 ∧
      |w - lobOm m (lobXi m k)| ≤ 75 * √((m : ℝ) + 1) * (m + 1 / 2) ^ 2 * uro * lobOm m (lobXi m k) := by
    intro k
    by_cases hk : 1 ≤ k ∧ 2 * k ≤ m
    · obtain ⟨l, rfl⟩ : ∃ l, k = l + 1 := ⟨k - 1, by omega⟩
      obtain ⟨z, w, h⟩ := lob_node_double hL hk.2 hm2 (hN (l + 1) (by omega) (by omega))
      exact ⟨z, w, fun _ _ => h⟩
    · exact ⟨0, 0, fun h1 h2 => absurd ⟨h1, h2⟩ hk⟩
  choose z w h using hrun
  obtain ⟨E, hE, hEf, hE1⟩ := lobE_double (L := L) hm hm2
  have l0 := lit_zero (L := L)
  have l1 := lit_one (L := L)
  have hε0 : 0 ≤ 54 * √((m : ℝ) + 1) * uro := by positivity
  have hEe : |E - 2 / (((m : ℝ) + 1) * m)| ≤
      75 * √((m : ℝ) + 1) * (m + 1 / 2) ^ 2 * uro * (2 / (((m : ℝ) + 1) * m)) := by
    have hp : 0 < 2 / (((m : ℝ) + 1) * m) := by positivity
    rw [abs_of_pos hp] at hE1
    refine hE1.trans (mul_le_mul_of_nonneg_right ?_ hp.le)
    have h1 : 1 ≤ ((m : ℝ) + 1 / 2) ^ 2 := one_le_pow₀ (by linarith)
    have h2 := mul_le_mul hR1 h1 zero_le_one (by linarith)
    have h3 := mul_le_mul_of_nonneg_right h2 hu.le
    linarith
  refine ⟨fun j => if j = 0 then -1 else if j = m then 1 else if m % 2 = 0 ∧ j = m / 2 then 0
      else if 2 * j < m then z j else -z (m - j),
    fun j => if j = 0 ∨ j = m then E else if 2 * j < m then w j else w (m - j),
    ?_, by simp, by simp [show m ≠ 0 by omega], ?_, ?_, ?_⟩
  · rw [hc]
    congr 2
    · apply List.map_congr_left
      intro j hj
      rw [List.mem_range] at hj
      unfold lobPt
      simp only [Nat.add_sub_cancel]
      by_cases c0 : j = 0
      · subst c0
        rw [if_neg (by omega), if_neg (by omega), if_pos rfl, if_pos rfl, l1.1]
        rfl
      by_cases cm : j = m
      · subst cm
        rw [if_neg (by omega), if_pos rfl, if_neg c0, if_pos rfl, l1.1]
      rw [if_neg c0, if_neg cm, if_neg cm, if_neg c0]
      by_cases cc : m % 2 = 0 ∧ j = m / 2
      · rw [if_pos (by omega), if_pos cc, l0.1]
      rw [if_neg (by omega), if_neg cc]
      by_cases ch : 2 * j < m
      · rw [if_pos (by omega), if_pos ch]
        exact (h j (by omega) (by omega)).1
      · rw [if_neg (by omega), if_neg ch]
        rw [(h (m - j) (by omega) (by omega)).1]
        rfl
    · apply List.map_congr_left
      intro j hj
      rw [List.mem_range] at hj
      unfold lobWt
      simp only [Nat.add_sub_cancel]
      by_cases c0 : j = 0 ∨ j = m
      · rw [if_pos (by omega), if_pos c0, hE]
      rw [if_neg (by omega), if_neg c0]
      by_cases ch : 2 * j < m
      · rw [if_pos (by omega), if_pos ch]
        exact (h j (by omega) (by omega)).2.1
      · rw [if_neg ch]
        have ch2 : ¬ j < (m + 1) / 2 := by omega
        rw [if_neg ch2]
        exact (h (m - j) (by omega) (by omega)).2.1
  · intro j hj0 hj
    dsimp only
    rw [if_neg (by omega), if_neg (by omega)]
    split_ifs with cc ch
    · norm_num
    · exact (h j hj0 (by omega)).2.2.2.2.2.1
    · rw [abs_neg]; exact (h (m - j) (by omega) (by omega)).2.2.2.2.2.1
  · intro j hj
    dsimp only
    by_cases c0 : j = 0
    · subst c0
      simp [show m ≠ 0 by omega]
    by_cases cm : j = m
    · subst cm
      simp [show j ≠ 0 by omega]
    have d0 : m - j ≠ 0 := by omega
    have dm : m - j ≠ m := by omega
    have c0m : ¬ (j = 0 ∨ j = m) := by omega
    have d0m : ¬ (m - j = 0 ∨ m - j = m) := by omega
    rw [if_neg d0, if_neg dm, if_neg c0, if_neg cm, if_neg c0m, if_neg d0m, show m - (m - j) = j by omega]
    by_cases cc : m % 2 = 0 ∧ j = m / 2
    · have hmj : m - j = j := by omega
      rw [if_pos cc, hmj, if_pos cc, neg_zero]
      exact ⟨rfl, rfl⟩
    · have cd : ¬ (m % 2 = 0 ∧ m - j = m / 2) := by omega
      rw [if_neg cc, if_neg cd]
      by_cases ch : 2 * j < m
      · have dh : ¬ 2 * (m - j) < m := by omega
        rw [if_pos ch, if_neg dh, if_pos ch, if_neg dh]
        exact ⟨rfl, rfl⟩
      · have dh : 2 * (m - j) < m := by omega
        rw [if_neg ch, if_pos dh, if_neg ch, if_pos dh, neg_neg]
        exact ⟨rfl, rfl⟩
  · intro j hj
    dsimp only
    by_cases c0 : j = 0
    · subst c0
      rw [if_pos rfl, if_pos (.inl rfl), lobXi_zero, lobOm_neg, lobOm_one]
      exact ⟨isF64_neg l1.2, hEf, by rw [sub_self, abs_zero]; exact hε0, hEe⟩
    by_cases cm : j = m
    · subst cm
      rw [if_neg c0, if_pos rfl, if_pos (.inr rfl), lobXi_last hm, lobOm_one]
      exact ⟨l1.2, hEf, by rw [sub_self, abs_zero]; exact hε0, hEe⟩
    have c0m : ¬ (j = 0 ∨ j = m) := by omega
    rw [if_neg c0, if_neg cm, if_neg c0m]
    by_cases cc : m % 2 = 0 ∧ j = m / 2
    · have hmj : m - j = j := by omega
      have hxi : lobXi m j = 0 := by
        have := lobXi_neg (m := m) (j := j) (by omega) (by omega)
        rw [hmj] at this
        linarith
      rw [if_pos cc, if_neg (by omega), hmj]
      obtain ⟨-, -, f1, f2, h1, h2, h3⟩ := h j (by omega) (by omega)
      exact ⟨l0.2, f2, by rw [hxi, sub_zero, abs_zero]; exact hε0, h3⟩
    rw [if_neg cc]
    by_cases ch : 2 * j < m
    · rw [if_pos ch, if_pos ch]
      obtain ⟨-, -, f1, f2, h1, h2, h3⟩ := h j (by omega) (by omega)
      exact ⟨f1, f2, h1, h3⟩
    · rw [if_neg ch, if_neg ch]
      obtain ⟨-, -, f1, f2, h1, h2, h3⟩ := h (m - j) (by omega) (by omega)
      rw [lobXi_neg (by omega) (by omega)] at h1 h3
      rw [lobOm_neg] at h3
      refine ⟨isF64_neg f1, f2, ?_, h3⟩
      rw [show -z (m - j) - lobXi m j = -(z (m - j) - -lobXi m j) by ring, abs_neg]
      exact h1

end IntegratorXX
