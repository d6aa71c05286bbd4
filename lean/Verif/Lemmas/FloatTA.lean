import Verif.Lemmas.FloatRadial

/-!
# Treutler-Ahlrichs in `double` arithmetic
-/

namespace IntegratorXX

open Real

variable {L : Libm}

section
variable {n j e : ℕ} {N η R α : ℝ}

theorem ta_log_eq (t : ℝ) (_ht : 0 < 1 - cos t) : log (2 / (1 - cos t)) = -log (1 - (1 + cos t) / 2) := by
  rw [← log_inv]
  congr 1
  rw [show 1 - (1 + cos t) / 2 = (1 - cos t) / 2 by ring, inv_div]

theorem ta_log_ge {t : ℝ} (ht : 0 < 1 - cos t) : (1 + cos t) / 2 ≤ log (2 / (1 - cos t)) := by
  rw [ta_log_eq t ht]
  exact le_neglog (by linarith)

/-- Neighbouring angles: the factor between the logarithms. -/
theorem ta_log_gap {s t : ℝ} (hN : N = n + 1) (hN2 : 2 ≤ N) (hN13 : N ≤ 2 ^ 13) (hs : π / N ≤ s)
    (hst : s + π / N ≤ t) (ht : t ≤ π - π / N) :
    log (2 / (1 - cos t)) ≤ (1 - 1 / (16 * N)) * log (2 / (1 - cos s)) := by
  have hp := pi_pos
  have hN0 : 0 < N := by linarith
  have hd : 0 < π / N := by positivity
  have hsin1 : 0 < sin (s / 2) := sin_pos_of_pos_of_lt_pi (by linarith) (by linarith)
  have hsin2 : 0 < sin (t / 2) := sin_pos_of_pos_of_lt_pi (by linarith) (by linarith)
  have hcos1 : 0 < cos (s / 2) := cos_pos_of_mem_Ioo ⟨by linarith, by linarith⟩
  have hcos2 : 0 < cos (t / 2) := cos_pos_of_mem_Ioo ⟨by linarith, by linarith⟩
  have h1s : 0 < 1 - cos s := by rw [one_sub_cos]; positivity
  have h1t : 0 < 1 - cos t := by rw [one_sub_cos]; positivity
  have h2s : 0 < 1 + cos s := by rw [one_add_cos]; positivity
  have h2t : 0 < 1 + cos t := by rw [one_add_cos]; positivity
  have hg : 1 / N ≤ sin (π / N / 2) := by
    rw [hN]
    refine half_ge le_rfl ?_
    rw [← hN, div_le_iff₀ hN0]
    nlinarith
  have hlog0 : 0 < log (2 / (1 - cos s)) := lt_of_lt_of_le (by linarith) (ta_log_ge h1s)
  have hNinv : 0 < 1 / N := by positivity
  rcases le_total s (π / 3) with hcase | hcase
  · -- near the upper end the logarithm itself is bounded
    have hsmall : sin (s / 2) ≤ 1 / 2 := by
      rw [← sin_pi_div_six]
      exact sin_le_sin_of_le_of_le_pi_div_two (by linarith) (by linarith) (by linarith)
    have hlarge : 17 / 10 * sin (s / 2) ≤ cos (s / 2) := by
      have h5 : √3 / 2 ≤ cos (s / 2) := by
        rw [← cos_pi_div_six]
        exact cos_le_cos_of_nonneg_of_le_pi (by linarith) (by linarith) (by linarith)
      have h6 : (17 / 10 : ℝ) ≤ √3 := by
        rw [show (17 / 10 : ℝ) = √((17 / 10) ^ 2) by rw [sqrt_sq (by norm_num)]]
        exact sqrt_le_sqrt (by norm_num)
      linarith
    set D := π / N / 2 with hD
    have hD0 : 0 < D := by positivity
    have hD1 : D ≤ π / 4 := by
      rw [hD, div_div]
      rw [div_le_div_iff₀ (by positivity) (by norm_num)]
      nlinarith
    have hsD : 0 < sin D := by linarith
    have hsD1 : sin D ≤ 71 / 100 := by
      have h5 : sin D ≤ sin (π / 4) :=
        sin_le_sin_of_le_of_le_pi_div_two (by linarith) (by linarith) hD1
      rw [sin_pi_div_four] at h5
      have h6 : √2 ≤ 142 / 100 := by
        rw [show (142 / 100 : ℝ) = √((142 / 100) ^ 2) by rw [sqrt_sq (by norm_num)]]
        exact sqrt_le_sqrt (by norm_num)
      linarith
    have hcD : 1 - sin D ^ 2 ≤ cos D := by
      have h5 : 0 < cos D := cos_pos_of_mem_Ioo ⟨by linarith, by linarith⟩
      have h6 := cos_le_one D
      have h7 := sin_sq_add_cos_sq D
      nlinarith
    have hratio : (1 + 99 / 100 * (1 / N)) * sin (s / 2) ≤ sin (t / 2) := by
      have h5 : sin (s / 2 + D) ≤ sin (t / 2) :=
        sin_le_sin_of_le_of_le_pi_div_two (by linarith) (by linarith) (by rw [hD]; linarith)
      rw [sin_add] at h5
      have h6 : 17 / 10 * sin (s / 2) * sin D ≤ cos (s / 2) * sin D := by gcongr
      have h7 : sin (s / 2) * (1 - sin D ^ 2) ≤ sin (s / 2) * cos D := by gcongr
      have h8 : 99 / 100 * (1 / N) ≤ 17 / 10 * sin D - sin D ^ 2 := by
        have : sin D ^ 2 ≤ 71 / 100 * sin D := by
          rw [sq]
          gcongr
        linarith
      have h9 : 99 / 100 * (1 / N) * sin (s / 2) ≤ (17 / 10 * sin D - sin D ^ 2) * sin (s / 2) := by
        gcongr
      linarith
    have hle18 : log (2 / (1 - cos s)) ≤ 185 / 10 := by
      have h5 : 2 / (1 - cos s) ≤ 2 ^ 26 := by
        have h6 : 1 / N ≤ sin (s / 2) := by
          rw [hN]
          exact half_ge (by rw [← hN]; exact hs) (by linarith)
        rw [one_sub_cos]
        have h7 : 1 / sin (s / 2) ≤ N := by
          rw [div_le_iff₀ hsin1]
          have := mul_le_mul_of_nonneg_left h6 hN0.le
          rwa [mul_one_div, div_self hN0.ne'] at this
        calc 2 / (2 * sin (s / 2) ^ 2) = (1 / sin (s / 2)) ^ 2 := by field_simp
          _ ≤ (2 ^ 13) ^ 2 := by
              gcongr
              linarith
          _ = 2 ^ 26 := by norm_num
      have h6 := log_le_log (by positivity) h5
      rw [log_pow] at h6
      have := log_two_lt_d9
      push_cast at h6
      linarith
    have hdiff : log (2 / (1 - cos t)) ≤ log (2 / (1 - cos s)) - 5 / 4 * (1 / N) := by
      have h5 : log (2 / (1 - cos s)) - log (2 / (1 - cos t)) = 2 * log (sin (t / 2) / sin (s / 2)) := by
        rw [one_sub_cos, one_sub_cos, ← log_div (by positivity) (by positivity)]
        have : 2 / (2 * sin (s / 2) ^ 2) / (2 / (2 * sin (t / 2) ^ 2)) = (sin (t / 2) / sin (s / 2)) ^ 2 := by
          field_simp
        rw [this, log_pow]
        norm_num
      have h6 : 1 + 99 / 100 * (1 / N) ≤ sin (t / 2) / sin (s / 2) := by
        rw [le_div_iff₀ hsin1]
        exact hratio
      have h7 := log_le_log (by positivity) h6
      have h8 := one_sub_inv_le_log_of_pos (show 0 < 1 + 99 / 100 * (1 / N) by positivity)
      have h9 : 5 / 8 * (1 / N) ≤ 1 - (1 + 99 / 100 * (1 / N))⁻¹ := by
        have hN1 : 1 / N ≤ 1 / 2 := by gcongr
        have : (1 + 99 / 100 * (1 / N))⁻¹ ≤ 1 - 5 / 8 * (1 / N) := by
          rw [inv_eq_one_div, div_le_iff₀ (by positivity)]
          nlinarith
        linarith
      linarith
    have h5 : 1 / (16 * N) * log (2 / (1 - cos s)) ≤ 1 / (16 * N) * (185 / 10) := by gcongr
    have h6 : 1 / (16 * N) = 1 / 16 * (1 / N) := by field_simp
    rw [h6] at h5 ⊢
    linarith
  · -- convexity
    have hlarge : 1 / 2 ≤ sin (s / 2) := by
      rw [← sin_pi_div_six]
      exact sin_le_sin_of_le_of_le_pi_div_two (by linarith) (by linarith) (by linarith)
    set D := (t - s) / 2 with hD
    have hD0 : 0 < D := by rw [hD]; linarith
    have hDsin : 1 / N ≤ sin D := by
      rw [hN, hD]
      exact half_ge (by rw [← hN]; linarith) (by linarith)
    have hcos : cos (t / 2) ≤ (1 - 1 / 2 * (1 / N)) * cos (s / 2) := by
      have e1 : t / 2 = s / 2 + D := by rw [hD]; ring
      rw [e1, cos_add]
      have h5 := cos_le_one D
      have h6 := cos_le_one (s / 2)
      have h7 : cos (s / 2) * cos D ≤ cos (s / 2) * 1 := by gcongr
      have h8 : 1 / 2 * (1 / N) ≤ sin (s / 2) * sin D := by gcongr
      have h9 : 1 / 2 * (1 / N) * cos (s / 2) ≤ 1 / 2 * (1 / N) * 1 := by gcongr
      linarith
    have hN1 : 1 / N ≤ 1 / 2 := by gcongr
    have hratio : (1 + cos t) / 2 / ((1 + cos s) / 2) ≤ 1 - 1 / 2 * (1 / N) := by
      rw [one_add_cos, one_add_cos, div_le_iff₀ (by positivity)]
      have h5 : cos (t / 2) ^ 2 ≤ ((1 - 1 / 2 * (1 / N)) * cos (s / 2)) ^ 2 := by gcongr
      have h6 : (1 - 1 / 2 * (1 / N)) ^ 2 ≤ 1 - 1 / 2 * (1 / N) := by nlinarith
      have h7 : (1 - 1 / 2 * (1 / N)) ^ 2 * cos (s / 2) ^ 2 ≤ (1 - 1 / 2 * (1 / N)) * cos (s / 2) ^ 2 := by
        gcongr
      rw [mul_pow] at h5
      linarith
    have hle : cos t ≤ cos s := cos_le_cos_of_nonneg_of_le_pi (by linarith) (by linarith) (by linarith)
    have h := neglog_convex (y := (1 + cos t) / 2) (z := (1 + cos s) / 2) (by linarith) (by linarith) (by linarith)
    rw [← ta_log_eq t h1t, ← ta_log_eq s h1s] at h
    refine h.trans ?_
    have h6 : 1 / (16 * N) = 1 / 16 * (1 / N) := by field_simp
    rw [h6]
    gcongr
    linarith

theorem ta_gap {i : ℕ} (hN : N = n + 1) (hN2 : 2 ≤ N) (hN13 : N ≤ 2 ^ 13) (hij : i < j) (hj : j < n) (hR : 0 < R)
    (hα : 0 ≤ α) {c : ℝ} (hc : 0 < c) :
    R * (1 + cos (gc2A n i)) ^ α * log (2 / (1 - cos (gc2A n i))) / c ≤
      (1 - 1 / (16 * N)) * (R * (1 + cos (gc2A n j)) ^ α * log (2 / (1 - cos (gc2A n j))) / c) := by
  have hi : i < n := by omega
  have h1 := gc2A_ge hj
  have h2 := gc2A_step hij hj
  have h3 := gc2A_le hi
  have hp := pi_pos
  rw [← hN] at h1 h2 h3
  have hd : 0 < π / N := by positivity
  have hl := ta_log_gap hN hN2 hN13 h1 (by linarith) h3
  have hle : cos (gc2A n i) ≤ cos (gc2A n j) :=
    cos_le_cos_of_nonneg_of_le_pi (by linarith) (by linarith) (by linarith)
  have hpos : 0 < 1 + cos (gc2A n i) := lt_of_lt_of_le (by positivity) (gc2_one_add hi)
  have hpos' : 0 < 1 - cos (gc2A n i) := lt_of_lt_of_le (by positivity) (gc2_one_sub hi)
  have hl0 := ta_log_ge hpos'
  have hpow : (1 + cos (gc2A n i)) ^ α ≤ (1 + cos (gc2A n j)) ^ α := rpow_le_rpow hpos.le (by linarith) hα
  have hpow0 : 0 < (1 + cos (gc2A n i)) ^ α := rpow_pos_of_pos hpos α
  have hl1 : 0 ≤ log (2 / (1 - cos (gc2A n i))) := by linarith
  have hRp : 0 ≤ R * (1 + cos (gc2A n j)) ^ α := mul_nonneg hR.le (hpow0.le.trans hpow)
  calc R * (1 + cos (gc2A n i)) ^ α * log (2 / (1 - cos (gc2A n i))) / c
      ≤ R * (1 + cos (gc2A n j)) ^ α * ((1 - 1 / (16 * N)) * log (2 / (1 - cos (gc2A n j)))) / c := by
        gcongr
    _ = _ := by ring

/-- The logarithm. -/
theorem ta_log (hL : L.Accurate) (h : Sz n N η e) (hj : j < n) :
    RelP (Arith.log ((RadialTraits.taA (F64 L) + Arith.lit 1) /
        (Arith.lit 1 - mirrorFn n (gc2X (F64 L) n) (fun x => -x) (Arith.lit 0) j)))
      (log (2 / (1 - cos (gc2A n j)))) (22 * η) (2 * e) := by
  have hu := uro_pos
  have h1 := h.eta
  have h2 := h.eta'
  have h3 := h.e2
  have hN := h.lo
  have g1 := gc2_one_sub hj
  have g2 := gc2_one_add hj
  rw [← h.hN] at g1 g2
  have htwo : RelP (RadialTraits.taA (F64 L) + Arith.lit 1) 2 0 1 := by
    have : (RadialTraits.taA (F64 L) + Arith.lit 1) = F64.fin 2 := by
      unfold RadialTraits.taA
      rw [lit_one_eq, F64.fin_add]
      have h5 := (of_exact (L := L) (rnd_nat (n := 2) (by norm_num)) (by norm_num)).1
      norm_num at h5 ⊢
      exact h5
    rw [this, ← two_lit]
    exact relP_two
  have s := gc2_sub hL h hj
  set C := cos (gc2A n j) with hC
  have hs : Near (Arith.lit 1 - mirrorFn n (gc2X (F64 L) n) (fun x => -x) (Arith.lit 0) j) (1 - C) (36 * uro) := by
    refine (Near.sub (near_one (L := L)) (gc2_base_node hL h.n_le hj) (B := 3) (by
      have h1 := neg_one_le_cos (gc2A n j)
      have h2 := cos_le_one (gc2A n j)
      have := uro_lt
      rw [abs_of_nonneg (by linarith)]
      linarith) (by norm_num)).mono ?_
    have h8 : (2⁻¹ : ℝ) ^ 200 ≤ uro := tiny_le_uro.trans (div_le_self hu.le (by norm_num))
    linarith
  have hs0 : 0 < 1 - C := lt_of_lt_of_le (by positivity) g1
  have ha0 : 0 < 1 + C := lt_of_lt_of_le (by positivity) g2
  have hp18 : 36 * uro / (1 - C) ≤ 18 * η := by
    rw [div_le_iff₀ hs0]
    calc 36 * uro = 18 * η * (2 / N ^ 2) := by
          rw [h.he]
          field_simp
          ring
      _ ≤ _ := by
          have h5 : 0 ≤ 18 * η := by linarith
          gcongr
  have s' : RelP (Arith.lit 1 - mirrorFn n (gc2X (F64 L) n) (fun x => -x) (Arith.lit 0) j) (1 - C)
      (36 * uro / (1 - C)) (2 * e) :=
    relP_of_near hs (by rw [div_mul_cancel₀ _ hs0.ne']) (by positivity) (by linarith) s.lo s.hi
  have q := htwo.div s' (r := 101 / 100 * (36 * uro / (1 - C)) + 2 * uro) (g := 31) (by linarith) (by linarith)
    (by omega) (by norm_num)
  have hsin : 4 / N ^ 2 ≤ (1 - C) * (1 + C) := by
    have h5 := gc2_sin hj
    rw [← h.hN] at h5
    have h6 := sin_sq_add_cos_sq (gc2A n j)
    calc 4 / N ^ 2 = (2 / N) ^ 2 := by rw [div_pow]; norm_num
      _ ≤ sin (gc2A n j) ^ 2 := by gcongr
      _ = _ := by rw [← hC] at h6; linarith
  have hl := ta_log_ge hs0
  have hlpos : 0 < log (2 / (1 - C)) := by linarith
  have hlo : (2⁻¹ : ℝ) ^ (2 * e) ≤ log (2 / (1 - C)) := by
    refine h.sq_lo.trans (le_trans ?_ hl)
    calc 1 / N ^ 2 = 2 / N ^ 2 / 2 := by ring
      _ ≤ _ := by gcongr
  have hhi : log (2 / (1 - C)) ≤ (2 : ℝ) ^ (2 * e) := by
    have h5 := log_le_sub_one_of_pos (show 0 < 2 / (1 - C) by positivity)
    have h6 : 2 / (1 - C) ≤ N ^ 2 := by
      rw [div_le_iff₀ hs0]
      calc 2 = N ^ 2 * (2 / N ^ 2) := by field_simp
        _ ≤ _ := by gcongr
    have h7 : N ^ 2 ≤ (2 : ℝ) ^ (2 * e) := by
      calc N ^ 2 ≤ (2 ^ e) ^ 2 := by
            have := h.hi
            gcongr
        _ = _ := by rw [← pow_mul, mul_comm]
    linarith
  have habs : |log (2 / (1 - C))| = log (2 / (1 - C)) := abs_of_pos hlpos
  have hQ : 101 / 100 * (101 / 100 * (36 * uro / (1 - C)) + 2 * uro) ≤ 21 * η * log (2 / (1 - C)) := by
    have h5 : 36 * uro / (1 - C) ≤ 9 * η * (1 + C) := by
      rw [div_le_iff₀ hs0]
      calc 36 * uro = 9 * η * (4 / N ^ 2) := by
            rw [h.he]
            field_simp
            ring
        _ ≤ 9 * η * ((1 - C) * (1 + C)) := by
            have h5 : 0 ≤ 9 * η := by linarith
            gcongr
        _ = _ := by ring
    have h6 : 2 * uro ≤ η * (1 + C) := by
      calc 2 * uro = η * (2 / N ^ 2) := by
            rw [h.he]
            field_simp
        _ ≤ _ := by
            have h5 : 0 ≤ η := by linarith
            gcongr
    have h7 : 21 * η * ((1 + C) / 2) ≤ 21 * η * log (2 / (1 - C)) := by
      have h5 : 0 ≤ 21 * η := by linarith
      gcongr
    have h8 : 0 ≤ η * (1 + C) := by
      have : 0 ≤ η := by linarith
      positivity
    linarith
  have hmid : Mid (log (2 / (1 - C))) := by
    have := pow_bounds hlo hhi (by omega)
    exact mid_of this.1 this.2
  have l := log_near hL q.near q.pos q.p1 (q := 21 * η) (by rw [habs]; exact hQ) (by linarith) (by linarith) hmid
  rw [habs] at l
  refine relP_of_near l ?_ (by linarith) (by linarith) hlo hhi
  gcongr
  linarith

theorem ln2_rel : RelP (RadialTraits.taLn2 (F64 L)) (RadialTraits.taLn2 ℝ) (2 * uro) 1 := by
  have hu := uro_pos
  have hu' := uro_lt
  unfold RadialTraits.taLn2
  rw [F64.lit_eq, Arith.real_lit]
  refine of_relP (p := 0) (by simp) le_rfl (by linarith) (by linarith) ?_ ?_ (by norm_num)
  · norm_num
  · norm_num

theorem ta_pow (hL : L.Accurate) (h : Sz n N η e) (hj : j < n) (hα : IsF64 α) (hα0 : 0 ≤ α) (hα1 : α ≤ 1) :
    RelP (Arith.pow (RadialTraits.taA (F64 L) + mirrorFn n (gc2X (F64 L) n) (fun x => -x) (Arith.lit 0) j)
        (F64.fin α))
      ((1 + cos (gc2A n j)) ^ α) (20 * η) (2 * e) := by
  have hu := uro_pos
  have h1 := h.eta
  have h2 := h.eta'
  have h3 := h.e2
  have a := gc2_add hL h hj
  refine RelP.rpow hL (k := 1) a hα hα0 (by exact_mod_cast hα1) (by norm_num) (by push_cast; linarith)
    (by linarith) (by omega) (by omega)

theorem ta_point (hL : L.Accurate) (h : Sz n N η e) (he : e ≤ 13) (hj : j < n)
    (hR : RelP (F64.fin R : F64 L) R 0 50) (hα : IsF64 α) (hα0 : 0 ≤ α) (hα1 : α ≤ 1) :
    RelP ((RadialTraits.ta n (F64.fin R : F64 L) (F64.fin α)).transform
        ((RadialTraits.ta n (F64.fin R) (F64.fin α)).nodeX j))
      (R * (1 + cos (gc2A n j)) ^ α * log (2 / (1 - cos (gc2A n j))) / RadialTraits.taLn2 ℝ) (47 * η) 110 := by
  have hu := uro_pos
  have h1 := h.eta
  have h2 := h.eta'
  have p := ta_pow hL h hj hα hα0 hα1
  have l := ta_log hL h hj
  have m1 := hR.mul p (r := 21 * η) (g := 76) (by linarith) (by linarith) (by omega) (by norm_num)
  have m2 := m1.mul l (r := 45 * η) (g := 102) (by linarith) (by linarith) (by omega) (by norm_num)
  exact m2.div ln2_rel (r := 47 * η) (g := 110) (by linarith) (by linarith) (by omega) (by norm_num)

theorem ta_weight (hL : L.Accurate) (h : Sz n N η e) (he : e ≤ 13) (hj : j < n)
    (hR : RelP (F64.fin R : F64 L) R 0 50) (hα : RelP (F64.fin α : F64 L) α 0 30) (hαf : IsF64 α) (hα1 : α ≤ 1) :
    RelP ((RadialTraits.ta n (F64.fin R : F64 L) (F64.fin α)).nodeW j *
        (RadialTraits.ta n (F64.fin R : F64 L) (F64.fin α)).jacobian
          ((RadialTraits.ta n (F64.fin R) (F64.fin α)).nodeX j))
      (π / (n + 1) * sin (gc2A n j) * (R * (1 + cos (gc2A n j)) ^ α / RadialTraits.taLn2 ℝ *
        (α * log (2 / (1 - cos (gc2A n j))) / (1 + cos (gc2A n j)) + 1 / (1 - cos (gc2A n j)))))
      (115 * η) 188 := by
  have hu := uro_pos
  have h1 := h.eta
  have h2 := h.eta'
  have p := ta_pow hL h hj hαf hα.pos.le hα1
  have l := ta_log hL h hj
  have a := gc2_add hL h hj
  have s := gc2_sub hL h hj
  have w := gc2_wt hL h hj
  have one : RelP (Arith.lit 1 : F64 L) 1 0 0 := by
    rw [lit_one_eq]
    exact relP_exact isF64_one (by norm_num) (by norm_num)
  have m1 := hR.mul p (r := 21 * η) (g := 76) (by linarith) (by linarith) (by omega) (by norm_num)
  have m2 := m1.div ln2_rel (r := 23 * η) (g := 77) (by linarith) (by linarith) (by omega) (by norm_num)
  have m3 := hα.mul l (r := 23 * η) (g := 56) (by linarith) (by linarith) (by omega) (by norm_num)
  have m4 := m3.div a (r := 42 * η) (g := 82) (by linarith) (by linarith) (by omega) (by norm_num)
  have m5 := one.div s (r := 19 * η) (g := 26) (by linarith) (by linarith) (by omega) (by norm_num)
  have m6 := m4.add m5 (r := 43 * η) (g := 83) (by linarith) (by linarith) (by linarith) (by norm_num)
    (by norm_num) (by norm_num)
  have m7 := m2.mul m6 (r := 68 * η) (g := 160) (by linarith) (by linarith) (by norm_num) (by norm_num)
  exact w.mul m7 (r := 115 * η) (g := 188) (by linarith) (by linarith) (by omega) (by norm_num)

end

end IntegratorXX
