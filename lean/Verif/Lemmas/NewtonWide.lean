import Verif.Lemmas.WeightError

/-!
# Wider contraction intervals of the Newton iterations, and lower bounds of derivatives

For the analysis in floating-point arithmetic, where iterates are perturbed.
-/

namespace IntegratorXX

open Polynomial Spec Set Real

local notation "P" => legendre

/-! ## Sonin's function at the centre -/

theorem legendre_zero_even (m : ℕ) : 1 ≤ 4 * (m + 1) * (P (2 * (m + 1))).eval 0 ^ 2 := by
  induction m with
  | zero =>
    have := legendre_bonnet_eval 1 0
    simp [legPrev] at this
    norm_num [this]
  | succ m ih =>
    have h := legendre_bonnet_eval (2 * m + 3) 0
    simp only [mul_zero, zero_mul, zero_sub] at h
    rw [show legPrev (2 * m + 3) 0 = (P (2 * (m + 1))).eval 0 by simp [legPrev]; rfl] at h
    rw [show 2 * (m + 1 + 1) = 2 * m + 3 + 1 by ring, h]
    generalize (P (2 * (m + 1))).eval 0 = a at *
    have hm : (0 : ℝ) ≤ m := Nat.cast_nonneg m
    push_cast
    rw [div_pow, mul_div_assoc', le_div_iff₀ (by positivity)]
    have h1 : 0 ≤ a ^ 2 := sq_nonneg a
    have h2 : 4 * ((m : ℝ) + 1) * a ^ 2 * (2 * m + 4) ^ 2 ≤
        4 * (m + 2) * (2 * m + 3) ^ 2 * a ^ 2 := by
      have : 4 * ((m : ℝ) + 1) * (2 * m + 4) ^ 2 ≤ 4 * (m + 2) * (2 * m + 3) ^ 2 := by nlinarith
      have := mul_le_mul_of_nonneg_right this h1
      linarith
    have h3 := mul_le_mul_of_nonneg_right ih (by positivity : (0 : ℝ) ≤ (2 * m + 4) ^ 2)
    nlinarith

theorem sonin_zero_ge (n : ℕ) (hn : 1 ≤ n) : (n : ℝ) / 2 ≤ sonin n 0 := by
  unfold sonin
  rcases Nat.even_or_odd' n with ⟨m, rfl | rfl⟩
  · obtain ⟨k, rfl⟩ : ∃ k, m = k + 1 := ⟨m - 1, by omega⟩
    have h := legendre_zero_even k
    have h2 := sq_nonneg ((derivative (P (2 * (k + 1)))).eval 0)
    generalize (P (2 * (k + 1))).eval 0 = a at *
    have hk : (0 : ℝ) ≤ k := Nat.cast_nonneg k
    push_cast
    have : (2 * (k + 1 : ℝ) + 1) * 1 ≤ (2 * (k + 1 : ℝ) + 1) * (4 * (k + 1) * a ^ 2) :=
      mul_le_mul_of_nonneg_left h (by positivity)
    nlinarith
  · have hd := legendre_deriv_eval (2 * m + 1) 0 (by norm_num)
    rcases Nat.eq_zero_or_pos m with rfl | hm
    · norm_num [legendre_one]
    · obtain ⟨k, rfl⟩ : ∃ k, m = k + 1 := ⟨m - 1, by omega⟩
      have h := legendre_zero_even k
      rw [show legPrev (2 * (k + 1) + 1) 0 = (P (2 * (k + 1))).eval 0 by simp [legPrev]] at hd
      rw [hd]
      have h2 := sq_nonneg ((P (2 * (k + 1) + 1)).eval 0)
      generalize (P (2 * (k + 1))).eval 0 = a at *
      generalize (P (2 * (k + 1) + 1)).eval 0 = c at *
      have hk : (0 : ℝ) ≤ k := Nat.cast_nonneg k
      push_cast
      have e : ((0 * c - a) * ((2 * (k + 1) + 1 : ℝ) / (0 * 0 - 1))) ^ 2 = (2 * k + 3) ^ 2 * a ^ 2 := by ring
      rw [e]
      have h3 : (2 * k + 3 : ℝ) ^ 2 ≤ 4 * (k + 1) * ((2 * k + 3) ^ 2 * a ^ 2) := by
        have := mul_le_mul_of_nonneg_left h (sq_nonneg (2 * k + 3 : ℝ))
        linarith
      have h4 : (0 : ℝ) ≤ (2 * (k + 1) + 1) * (2 * (k + 1) + 1 + 1) * c ^ 2 := by positivity
      have h5 : (0 : ℝ) ≤ a ^ 2 := sq_nonneg a
      have h6 : (2 * k + 3 : ℝ) / 2 ≤ (2 * k + 3) ^ 2 * a ^ 2 := by
        have h7 : (2 * k + 3 : ℝ) / 2 * (4 * (k + 1)) ≤ (2 * k + 3) ^ 2 * a ^ 2 * (4 * (k + 1)) := by nlinarith
        exact le_of_mul_le_mul_right h7 (by positivity)
      norm_num
      linarith

theorem sonin_ge (n : ℕ) (hn : 1 ≤ n) (x : ℝ) : (n : ℝ) / 2 ≤ sonin n x := by
  rw [← sonin_abs]
  exact (sonin_zero_ge n hn).trans (sonin_mono n (mem_Ici.2 le_rfl) (abs_nonneg x) (abs_nonneg x))

/-- Lower bound of the derivative in terms of the Newton correction `s`. -/
theorem deriv_ge (n : ℕ) (hn : 1 ≤ n) (z s K σ Λ : ℝ) (hs : (P n).eval z = s * (derivative (P n)).eval z)
    (hσ0 : 0 < σ) (hσ : σ ^ 2 = 1 - z ^ 2) (hK : n * (n + 1) * s ^ 2 ≤ K * σ ^ 2)
    (hΛ0 : 0 < Λ) (hΛ : 2 * n * (1 + K) ≤ Λ ^ 2) : n ≤ |(derivative (P n)).eval z| * σ * Λ := by
  have h1 := sonin_ge n hn z
  unfold sonin at h1
  rw [hs, ← hσ] at h1
  set p := (derivative (P n)).eval z
  have hn0 : (0 : ℝ) < n := by exact_mod_cast hn
  have h2 : (n : ℝ) / 2 ≤ σ ^ 2 * (1 + K) * p ^ 2 := by
    have := mul_le_mul_of_nonneg_right hK (sq_nonneg p)
    nlinarith
  refine abs_le_of_sq_le_sq' ?_ (by positivity) |>.2
  rw [mul_pow, mul_pow, sq_abs]
  have h3 : 2 * n * (σ ^ 2 * (1 + K) * p ^ 2) ≤ p ^ 2 * σ ^ 2 * Λ ^ 2 := by
    have := mul_le_mul_of_nonneg_left hΛ (by positivity : 0 ≤ p ^ 2 * σ ^ 2)
    linarith
  nlinarith

/-! ## Gauss-Legendre -/

/-- Half width of the contraction interval. -/
noncomputable def glD (n k : ℕ) : ℝ := 101 / 400 * angStep n * sin (glAng n k)

theorem sin_glAng_ge {n k : ℕ} (hk : k < (n + 1) / 2) : 3 / 2 / ((n : ℝ) + 1 / 2) ≤ sin (glAng n k) := by
  have hpi := pi_pos
  have g1 := glAng_start hk
  have g2 := mul_le_sin (glAng_mem (n := n) (k := k) (by omega)).1.le (glAng_le_half hk)
  have g3 : 3 / 4 * angStep n ≤ glAng n k := by
    have := angStep_pos n
    have hk0 : (0 : ℝ) ≤ k := Nat.cast_nonneg k
    nlinarith
  have g4 : 2 / π * (3 / 4 * angStep n) ≤ 2 / π * glAng n k :=
    mul_le_mul_of_nonneg_left g3 (by positivity)
  have e : 2 / π * (3 / 4 * angStep n) = 3 / 2 / ((n : ℝ) + 1 / 2) := by
    unfold angStep; field_simp; ring
  linarith

theorem angStep_sq_le (n : ℕ) : angStep n ^ 2 * (n * (n + 1)) ≤ 10 := by
  have e : (((n : ℝ) + 1 / 2) * angStep n) ^ 2 = angStep n ^ 2 * (n * (n + 1)) + angStep n ^ 2 / 4 := by ring
  rw [angStep_mul] at e
  have := sq_nonneg (angStep n)
  have := pi_sq_le
  linarith

set_option maxHeartbeats 1000000 in
/-- Contraction in a neighbourhood that does not degenerate for starting values at the root. -/
theorem gl_newton_wide {n k : ℕ} (hk : k < (n + 1) / 2) :
    0 ≤ cos (glAng n k) ∧ 0 < glD n k ∧
    (0 ≤ cos ((k + 3 / 4) * angStep n) - cos (glAng n k)) ∧
    (cos ((k + 3 / 4) * angStep n) - cos (glAng n k) ≤ 1 / 4 * angStep n * sin (glAng n k)) ∧
    n * (n + 1) * glD n k ^ 2 ≤ 64 / 100 * sin (glAng n k) ^ 2 ∧
    ∀ z, cos (glAng n k) - 31 / 50 * glD n k ≤ z → z ≤ cos (glAng n k) + glD n k →
      |z| < 1 ∧ 32 / 100 * sin (glAng n k) ^ 2 ≤ 1 - z ^ 2 ∧
      (derivative (P n)).eval z ≠ 0 ∧
      |z - (P n).eval z / (derivative (P n)).eval z - cos (glAng n k)| ≤
        3 / 5 * |z - cos (glAng n k)| := by
  obtain ⟨r, hrdef⟩ : ∃ r, r = cos (glAng n k) := ⟨_, rfl⟩
  obtain ⟨D, hDdef⟩ : ∃ D, D = glD n k := ⟨_, rfl⟩
  rw [← hrdef, ← hDdef]
  have hkn : k < n := by omega
  have hπ := pi_pos
  obtain ⟨hθ0, hθ1, hroot⟩ := glAng_mem hkn
  have hhalf := glAng_le_half hk
  have hup := glAng_upper hkn
  have hst := glAng_start hk
  have hh := angStep_pos n
  have hmul := angStep_mul n
  have hrS : r ∈ legRoots n := by rw [hrdef]; exact (mem_legRoots _ _).2 hroot
  have hhn := angStep_sq_le n
  unfold glD at hDdef
  set h := angStep n with hhdef
  set θ := glAng n k with hθ
  set θ0 := ((k : ℝ) + 3 / 4) * h with hθ0def
  have hk0 : (0 : ℝ) ≤ k := Nat.cast_nonneg k
  have hθ0pos : 0 < θ0 := by positivity
  have hsin : 0 < sin θ := sin_pos_of_pos_of_lt_pi hθ0 hθ1
  have hr0 : 0 ≤ r := by rw [hrdef]; exact cos_nonneg_of_neg_pi_div_two_le_of_le (by linarith) hhalf
  have hD0 : 0 < D := by rw [hDdef]; positivity
  have hd0 : 0 ≤ cos θ0 - r := by
    rw [hrdef]; exact sub_nonneg.2 (cos_le_cos_of_nonneg_of_le_pi hθ0pos.le hθ1.le hst)
  have hdD : cos θ0 - r ≤ 1 / 4 * h * sin θ := by
    rw [hrdef]
    refine (cos_sub_cos_le hθ0pos.le hst hhalf).trans (mul_le_mul_of_nonneg_right ?_ hsin.le)
    rw [hθ0def]; linarith
  have h3h : 3 / 4 * h ≤ θ := by
    have : 3 / 4 * h ≤ θ0 := by rw [hθ0def]; nlinarith
    linarith
  have hr2 : 1 - r ^ 2 = sin θ ^ 2 := by rw [sin_sq, hrdef]
  obtain ⟨hs1, hs2⟩ := legRoots_sums n r hrS
  rw [hr2] at hs1 hs2
  have hQ0 := rootSqSum_nonneg (legRoots n) r
  have hnD : n * (n + 1) * D ^ 2 ≤ 64 / 100 * sin θ ^ 2 := by
    have e : n * (n + 1) * D ^ 2 = (101 / 400) ^ 2 * (h ^ 2 * (n * (n + 1))) * sin θ ^ 2 := by
      rw [hDdef]; ring
    rw [e]
    refine mul_le_mul_of_nonneg_right ?_ (sq_nonneg _)
    linarith
  have hR : ∀ x ∈ legRoots n, r < x → D ≤ 43 / 100 * (x - r) := by
    intro x hx hrx
    obtain ⟨j, hj, rfl⟩ := glAng_surj ((mem_legRoots _ _).1 hx)
    have hjk : j < k := by
      by_contra hcon
      have h1 := glAng_le (not_lt.1 hcon) hj
      have := cos_le_cos_of_nonneg_of_le_pi hθ0.le (glAng_mem hj).2.1.le h1
      linarith
    have hb := glAng_upper hj
    have hb0 := (glAng_mem hj).1
    have hbk : glAng n j ≤ k * h := by
      have : (j : ℝ) + 1 ≤ k := by exact_mod_cast hjk
      nlinarith
    have hk1 : (1 : ℝ) ≤ k := by exact_mod_cast (by omega : 1 ≤ k)
    have hlt := glAng_lt hjk hkn
    have hc := cos_sub_cos_ge_sq hb0.le hlt.le hθ0 hθ1.le
    set b := glAng n j with hbdef
    rw [← hrdef] at hc
    have hbsq : b ^ 2 ≤ (k * h) ^ 2 := pow_le_pow_left₀ hb0.le hbk 2
    obtain ⟨η, hη⟩ : ∃ η, η = θ - θ0 := ⟨_, rfl⟩
    have hη0 : 0 ≤ η := by linarith
    have hθe : θ = (k + 3 / 4) * h + η := by rw [hη]; ring
    -- 2 D θ / (0.43 sin θ) ≤ θ² - b²
    have hpoly : 101 / 86 * h * θ ≤ θ ^ 2 - (k * h) ^ 2 := by
      rw [hθe]
      have h3 : 0 ≤ (k - 1) * h ^ 2 := mul_nonneg (by linarith) (by positivity)
      have h4 : 0 ≤ η * h := by positivity
      have h5 : 0 ≤ (k - 1) * (η * h) := mul_nonneg (by linarith) h4
      nlinarith [sq_nonneg η]
    have h5 : sin θ * (101 / 86 * h * θ) ≤ 2 * θ * (cos b - r) :=
      (mul_le_mul_of_nonneg_left (by linarith) hsin.le).trans hc
    have h6 : 2 * θ * (100 / 43 * D) ≤ 2 * θ * (cos b - r) := by
      refine le_trans (le_of_eq ?_) h5
      rw [hDdef]; ring
    have := le_of_mul_le_mul_left h6 (by linarith)
    linarith
  have hL : ∀ x ∈ legRoots n, x < r → 31 / 50 * D ≤ 33 / 100 * (r - x) := by
    intro x hx hrx
    obtain ⟨j, hj, rfl⟩ := glAng_surj ((mem_legRoots _ _).1 hx)
    have hjk : k < j := by
      by_contra hcon
      have h1 := glAng_le (not_lt.1 hcon) hkn
      have := cos_le_cos_of_nonneg_of_le_pi (glAng_mem hj).1.le hθ1.le h1
      linarith
    have h1 := glAng_le (Nat.succ_le_of_lt hjk) hj
    have h2 := glAng_lower (n := n) (k := k + 1) (by omega)
    push_cast at h2
    have h5 := cos_le_cos_of_nonneg_of_le_pi (glAng_mem (n := n) (k := k + 1) (by omega)).1.le
        (glAng_mem hj).2.1.le h1
    by_cases hc : k + 1 ≤ n - 1 - k
    · have h3 := glAng_le hc (by omega : n - 1 - k < n)
      rw [glAng_symm hkn] at h3
      have h4 := cos_sub_cos_ge hθ0.le (glAng_lt (Nat.lt_succ_self k) (by omega)).le h3
      have h6 : h / 2 ≤ glAng n (k + 1) - θ := by linarith
      have h7 := mul_le_mul_of_nonneg_right h6 hsin.le
      have : 0 < h * sin θ := by positivity
      rw [hDdef]
      linarith
    · -- centre of an odd rule
      have hn : n = 2 * k + 1 := by omega
      have h1' := glAng_symm hkn
      rw [show n - 1 - k = k by omega] at h1'
      have h2' : θ = π / 2 := by linarith
      have hr00 : r = 0 := by rw [hrdef, h2', cos_pi_div_two]
      have hθh : π / 2 = (k + 3 / 4) * h := by
        rw [← hmul, hn]; push_cast; ring
      set φ := glAng n (k + 1) with hφ
      have hφπ := (glAng_mem (n := n) (k := k + 1) (by omega)).2.1
      have hφ1 : 3 / 4 * h ≤ φ - π / 2 := by rw [hθh]; linarith
      have hms := mul_le_sin (x := φ - π / 2) (by linarith) (by linarith)
      rw [sin_sub_pi_div_two] at hms
      have h8 : 2 / π * (3 / 4 * h) ≤ 2 / π * (φ - π / 2) :=
        mul_le_mul_of_nonneg_left hφ1 (by positivity)
      have h9 : 636 / 1000 ≤ 2 / π := by
        rw [le_div_iff₀ hπ]
        have := pi_lt_d4
        linarith
      have h10 := mul_le_mul_of_nonneg_right h9 (by positivity : 0 ≤ 3 / 4 * h)
      have hs1 : sin θ = 1 := by rw [h2', sin_pi_div_two]
      rw [hDdef, hs1, hr00]
      linarith
  -- sums
  have hS0 : 0 ≤ rootSum (legRoots n) r := by
    have : 0 ≤ sin θ ^ 2 * rootSum (legRoots n) r := by rw [hs1]; exact hr0
    exact nonneg_of_mul_nonneg_right this (by positivity)
  have hdS : D * rootSum (legRoots n) r ≤ 101 / 300 := by
    have h1 : θ * (D * rootSum (legRoots n) r) * sin θ ≤ 101 / 400 * h * sin θ := by
      have := mul_cos_le_sin hθ0.le hhalf
      rw [← hrdef] at this
      calc θ * (D * rootSum (legRoots n) r) * sin θ
          = 101 / 400 * h * (θ * (sin θ ^ 2 * rootSum (legRoots n) r)) := by rw [hDdef]; ring
        _ = 101 / 400 * h * (θ * r) := by rw [hs1]
        _ ≤ 101 / 400 * h * sin θ := mul_le_mul_of_nonneg_left this (by positivity)
    have h2 := le_of_mul_le_mul_right h1 hsin
    have h4 : θ * (D * rootSum (legRoots n) r) ≤ θ * (101 / 300) := by linarith
    exact le_of_mul_le_mul_left h4 hθ0
  have hdQ : D ^ 2 * rootSqSum (legRoots n) r ≤ 2126 / 10000 := by
    have h7 : D ^ 2 * (3 * sin θ ^ 2 * rootSqSum (legRoots n) r) ≤ D ^ 2 * (n * (n + 1)) :=
      mul_le_mul_of_nonneg_left hs2 (by positivity)
    have e : D ^ 2 * (n * (n + 1)) = (101 / 400) ^ 2 * (h ^ 2 * (n * (n + 1))) * sin θ ^ 2 := by
      rw [hDdef]; ring
    have h8 : (101 / 400) ^ 2 * (h ^ 2 * (n * (n + 1))) * sin θ ^ 2 ≤ (101 / 400) ^ 2 * 10 * sin θ ^ 2 :=
      mul_le_mul_of_nonneg_right (by linarith) (sq_nonneg _)
    have hs : 0 < sin θ ^ 2 := by positivity
    have h9 : sin θ ^ 2 * (D ^ 2 * rootSqSum (legRoots n) r) ≤ sin θ ^ 2 * (2126 / 10000) := by
      linarith
    exact le_of_mul_le_mul_left h9 hs
  -- distance from 1
  have hD1 : D ≤ 68 / 100 * (1 - r) := by
    have h1 : θ / 2 * sin θ ≤ 1 - r := by
      have e1 : 1 - r = 2 * sin (θ / 2) ^ 2 := by
        rw [hrdef, show θ = 2 * (θ / 2) by ring, cos_two_mul', show 2 * (θ / 2) / 2 = θ / 2 by ring]
        have := sin_sq_add_cos_sq (θ / 2)
        linarith
      have e2 : sin θ = 2 * sin (θ / 2) * cos (θ / 2) := by
        rw [← sin_two_mul]; ring_nf
      have h2 := mul_cos_le_sin (x := θ / 2) (by linarith) (by linarith)
      have h3 : 0 ≤ sin (θ / 2) := sin_nonneg_of_nonneg_of_le_pi (by linarith) (by linarith)
      rw [e1, e2]
      have := mul_le_mul_of_nonneg_left h2 h3
      nlinarith
    have h2 : h * sin θ ≤ 4 / 3 * θ * sin θ := mul_le_mul_of_nonneg_right (by linarith) hsin.le
    rw [hDdef]
    have : 0 ≤ θ / 2 * sin θ := by positivity
    linarith
  have hr1 : r < 1 := by
    have := sq_nonneg (sin θ)
    nlinarith [pow_pos hsin 2]
  refine ⟨hr0, hD0, hd0, hdD, hnD, ?_⟩
  intro z hz0 hz1
  have := newton_contract (P n).leadingCoeff (leadingCoeff_ne_zero.2 (legendre_ne_zero n))
    (legRoots n) r D (31 / 50 * D) (43 / 100) (33 / 100) hrS (by norm_num) (by norm_num) (by norm_num)
    (by norm_num) hR hL hS0 (by linarith) (by
      rw [mul_div_assoc', div_le_iff₀ (by norm_num)]
      linarith) (by
      rw [mul_div_assoc', mul_pow, mul_assoc, mul_assoc]
      have : (31 / 50 : ℝ) ^ 2 * (D ^ 2 * rootSqSum (legRoots n) r) / (1 - 33 / 100) ≤ 0.13 := by
        rw [div_le_iff₀ (by norm_num)]
        linarith
      linarith) z hz0 hz1
  rw [← legRoots_nodal n] at this
  have hz1' : z < 1 := by linarith
  have hz0' : -1 < z := by linarith
  refine ⟨abs_lt.2 ⟨hz0', hz1'⟩, ?_, this.1, this.2⟩
  rw [← hr2]
  rcases le_total r z with hrz | hrz
  · have h1 : 32 / 100 * (1 - r) ≤ 1 - z := by linarith
    have h2 : 1 + r ≤ 1 + z := by linarith
    have := mul_le_mul h1 h2 (by linarith) (by linarith)
    linarith
  · have h1 : 1 - r ≤ 1 - z := by linarith
    have h2 : 32 / 100 * (1 + r) ≤ 1 + z := by linarith
    have := mul_le_mul h1 h2 (by linarith) (by linarith)
    linarith

end IntegratorXX
