import Verif.Lemmas.FloatRel
import Verif.Lemmas.FloatCheb

/-!
# Base quantities of the radial quadratures in `double` arithmetic
-/

namespace IntegratorXX

open Real

variable {L : Libm}

/-! ## Gauss-Chebyshev base -/

theorem gc2A_ge {n j : ℕ} (hj : j < n) : π / (n + 1) ≤ gc2A n j := by
  have hp := pi_pos
  unfold gc2A
  have h1 : (1 : ℝ) ≤ ((n - j : ℕ) : ℝ) := by exact_mod_cast (by omega : 1 ≤ n - j)
  gcongr
  nlinarith

theorem gc2A_le {n j : ℕ} (hj : j < n) : gc2A n j ≤ π - π / (n + 1) := by
  have h1 := gc2A_reflect hj
  have h2 := gc2A_ge (n := n) (j := n - 1 - j) (by omega)
  linarith

theorem gc2A_step {n i j : ℕ} (hij : i < j) (hj : j < n) : π / (n + 1) ≤ gc2A n i - gc2A n j := by
  have e : gc2A n i - gc2A n j = ((j : ℝ) - i) * (π / (n + 1)) := by
    unfold gc2A
    rw [Nat.cast_sub (by omega), Nat.cast_sub (by omega)]
    field_simp
    ring
  have h1 : (1 : ℝ) ≤ (j : ℝ) - i := by
    have : ((i + 1 : ℕ) : ℝ) ≤ j := by exact_mod_cast hij
    push_cast at this
    linarith
  have hp := pi_pos
  have h2 : 1 * (π / (n + 1)) ≤ ((j : ℝ) - i) * (π / (n + 1)) := by gcongr
  linarith

theorem half_ge {t : ℝ} {n : ℕ} (h1 : π / (n + 1) ≤ t) (h2 : t ≤ π) : 1 / ((n : ℝ) + 1) ≤ sin (t / 2) := by
  have hp := pi_pos
  have h0 : 0 < π / ((n : ℝ) + 1) := by positivity
  have h := mul_le_sin (x := t / 2) (by linarith) (by linarith)
  refine le_trans ?_ h
  calc 1 / ((n : ℝ) + 1) = 2 / π * (π / (n + 1) / 2) := by field_simp
    _ ≤ 2 / π * (t / 2) := by gcongr

theorem one_sub_cos (t : ℝ) : 1 - cos t = 2 * sin (t / 2) ^ 2 := by
  have := cos_two_mul' (t / 2)
  rw [mul_div_cancel₀ _ (by norm_num : (2 : ℝ) ≠ 0)] at this
  have h2 := sin_sq_add_cos_sq (t / 2)
  linarith

theorem one_add_cos (t : ℝ) : 1 + cos t = 2 * cos (t / 2) ^ 2 := by
  have := cos_two_mul (t / 2)
  rw [mul_div_cancel₀ _ (by norm_num : (2 : ℝ) ≠ 0)] at this
  linarith

theorem gc2_one_sub {n j : ℕ} (hj : j < n) : 2 / ((n : ℝ) + 1) ^ 2 ≤ 1 - cos (gc2A n j) := by
  have h := half_ge (gc2A_ge hj) gc2A_lt.le
  rw [one_sub_cos]
  calc 2 / ((n : ℝ) + 1) ^ 2 = 2 * (1 / ((n : ℝ) + 1)) ^ 2 := by rw [div_pow]; ring
    _ ≤ _ := by gcongr

theorem gc2_one_add {n j : ℕ} (hj : j < n) : 2 / ((n : ℝ) + 1) ^ 2 ≤ 1 + cos (gc2A n j) := by
  have h := gc2_one_sub (n := n) (j := n - 1 - j) (by omega)
  rw [gc2A_reflect hj, cos_pi_sub] at h
  linarith

/-- Neighbouring angles: the factor between the ratios `(1 + cos)/(1 - cos)`. -/
theorem becke_gap {s t : ℝ} {n : ℕ} (hs : π / (n + 1) ≤ s) (hst : s + π / (n + 1) ≤ t)
    (ht : t ≤ π - π / (n + 1)) :
    (1 + cos t) / (1 - cos t) ≤ (1 - 1 / ((n : ℝ) + 1)) * ((1 + cos s) / (1 - cos s)) := by
  have hp := pi_pos
  have hd : 0 < π / ((n : ℝ) + 1) := by positivity
  have hN : (0 : ℝ) < (n : ℝ) + 1 := by positivity
  have hsin1 : 0 < sin (s / 2) := sin_pos_of_pos_of_lt_pi (by linarith) (by linarith)
  have hsin2 : 0 < sin (t / 2) := sin_pos_of_pos_of_lt_pi (by linarith) (by linarith)
  have hcos1 : 0 < cos (s / 2) := cos_pos_of_mem_Ioo ⟨by linarith, by linarith⟩
  have hcos2 : 0 < cos (t / 2) := cos_pos_of_mem_Ioo ⟨by linarith, by linarith⟩
  have hg : 1 / ((n : ℝ) + 1) ≤ sin ((t - s) / 2) := half_ge (by linarith) (by linarith)
  -- `sin (t/2) cos (s/2) - cos (t/2) sin (s/2) = sin ((t-s)/2)`
  have e1 : sin ((t - s) / 2) = sin (t / 2) * cos (s / 2) - cos (t / 2) * sin (s / 2) := by
    rw [sub_div, sin_sub]
  set S := sin (t / 2) * cos (s / 2) with hS
  set T := cos (t / 2) * sin (s / 2) with hT
  have hSpos : 0 < S := by positivity
  have hTpos : 0 < T := by positivity
  have hS1 : S ≤ 1 := by
    have h1 := sin_le_one (t / 2)
    have h2 := cos_le_one (s / 2)
    calc S ≤ 1 * 1 := by rw [hS]; gcongr
      _ = 1 := one_mul 1
  rw [one_sub_cos, one_sub_cos, one_add_cos, one_add_cos]
  have key : T ^ 2 ≤ (1 - 1 / ((n : ℝ) + 1)) * S ^ 2 := by
    set g := 1 / ((n : ℝ) + 1) with hgd
    have hg0 : 0 < g := by positivity
    have h1 : T ≤ S - g := by linarith
    have h2 : g ≤ S := by linarith
    have h3 : S ^ 2 ≤ S := by
      calc S ^ 2 = S * S := sq S
        _ ≤ S * 1 := by gcongr
        _ = S := mul_one S
    calc T ^ 2 ≤ (S - g) ^ 2 := by gcongr
      _ = S ^ 2 + g * (g - 2 * S) := by ring
      _ ≤ S ^ 2 + g * (-S ^ 2) := by
          gcongr
          linarith
      _ = _ := by ring
  have e2 : 2 * cos (t / 2) ^ 2 / (2 * sin (t / 2) ^ 2) =
      T ^ 2 / (sin (t / 2) ^ 2 * sin (s / 2) ^ 2) := by
    rw [hT]
    field_simp
  have e3 : 2 * cos (s / 2) ^ 2 / (2 * sin (s / 2) ^ 2) =
      S ^ 2 / (sin (t / 2) ^ 2 * sin (s / 2) ^ 2) := by
    rw [hS]
    field_simp
  rw [e2, e3, ← mul_div_assoc]
  gcongr

/-- Magnitudes for a number of points. -/
structure Sz (n : ℕ) (N η : ℝ) (e : ℕ) : Prop where
  hN : N = n + 1
  lo : 2 ≤ N
  hi : N ≤ 2 ^ e
  e2 : 2 * e ≤ 30
  he : η = N ^ 2 * uro
  eta : 4 * uro ≤ η
  eta' : η ≤ 1 / 1000000

theorem sz_of {n e : ℕ} (h1 : 1 ≤ n) (h2 : n < 2 ^ e) (he : 2 * e ≤ 30) :
    Sz n (n + 1) (((n : ℝ) + 1) ^ 2 * uro) e := by
  have hu := uro_pos
  have a1 : (1 : ℝ) ≤ n := by exact_mod_cast h1
  have a2 : (n : ℝ) + 1 ≤ 2 ^ e := by exact_mod_cast h2
  have a3 : (2 : ℝ) ^ e ≤ 2 ^ 15 := pow_le_pow_right₀ (by norm_num) (by omega)
  refine ⟨rfl, by linarith, a2, he, rfl, ?_, ?_⟩
  · gcongr
    nlinarith
  · have : ((n : ℝ) + 1) ^ 2 ≤ (2 ^ 15) ^ 2 := by
      gcongr
      linarith
    calc ((n : ℝ) + 1) ^ 2 * uro ≤ (2 ^ 15) ^ 2 * uro := by gcongr
      _ ≤ _ := by rw [uro_eq]; norm_num

theorem Sz.sq_lo {n : ℕ} {N η : ℝ} {e : ℕ} (h : Sz n N η e) : 2⁻¹ ^ (2 * e) ≤ 1 / N ^ 2 := by
  have h1 := h.lo
  have h2 := h.hi
  rw [one_div, inv_pow]
  refine inv_anti₀ (by positivity) ?_
  calc N ^ 2 ≤ (2 ^ e) ^ 2 := by gcongr
    _ = _ := by rw [← pow_mul, mul_comm]

theorem Sz.one_lo {n : ℕ} {N η : ℝ} {e : ℕ} (h : Sz n N η e) : 2⁻¹ ^ e ≤ 1 / N := by
  have h1 := h.lo
  have h2 := h.hi
  rw [one_div, inv_pow]
  exact inv_anti₀ (by positivity) h2

theorem two_le_pow {e : ℕ} (h : 1 ≤ e) : (2 : ℝ) ≤ 2 ^ e := by
  calc (2 : ℝ) = 2 ^ 1 := (pow_one _).symm
    _ ≤ 2 ^ e := pow_le_pow_right₀ (by norm_num) h

theorem Sz.e1 {n : ℕ} {N η : ℝ} {e : ℕ} (h : Sz n N η e) : 1 ≤ e := by
  by_contra hc
  have h1 := h.lo
  have h2 := h.hi
  rw [show e = 0 by omega, pow_zero] at h2
  linarith

theorem tiny_le_uro : (2⁻¹ : ℝ) ^ 200 ≤ uro / 2 ^ 100 := by rw [uro_eq]; norm_num

/-- The base node in `double`. -/
theorem gc2_base_node (hL : L.Accurate) {n j : ℕ} (hn : n ≤ 1048576) (hj : j < n) :
    Near (mirrorFn n (gc2X (F64 L) n) (fun x => -x) (Arith.lit 0) j) (cos (gc2A n j)) (32 * uro) :=
  near_mirror (X := fun j => cos (gc2A n j))
    (by have := uro_pos; positivity) (fun j hj => gc2_node hL hn (by omega)) (fun j hj => by
      rw [gc2A_reflect hj, cos_pi_sub]) hj

theorem gc2_base_weight (hL : L.Accurate) {n j : ℕ} (hn : n ≤ 1048576) (hj : j < n) :
    Near (mirrorFn n (gc2W (F64 L) n) id (Arith.pi / Arith.ofNat (n + 1)) j) (π / (n + 1) * sin (gc2A n j))
      (240 * uro) := by
  have hp := pi_pos
  refine near_mirror_id (W := fun j => π / (n + 1) * sin (gc2A n j))
      (fun j hj => gc2_weight hL hn (by omega))
      (fun j hj => by rw [gc2A_reflect hj, sin_pi_sub]) (fun h => ?_) hj
  rw [gc2A_mid h, sin_pi_div_two, mul_one]
  refine ((gc2_step (L := L) hn).near (B := 4) (by norm_num) ?_).mono ?_
  · rw [abs_of_pos (by positivity), div_le_iff₀ (by positivity)]
    have hn0 : (0 : ℝ) ≤ n := by positivity
    linarith [pi_le_four]
  · have := uro_pos
    linarith

theorem near_one : Near (Arith.lit 1 : F64 L) 1 0 := by
  have := lit_nat (L := L) 1 (by norm_num)
  rwa [Nat.cast_one, Nat.cast_one] at this

theorem isF64_one : IsF64 1 := by
  have := isF64_nat (n := 1) (by norm_num)
  rwa [Nat.cast_one] at this

section
variable {n j e : ℕ} {N η : ℝ}

theorem Sz.n_le (h : Sz n N η e) : n ≤ 1048576 := by
  have h1 := h.hi
  have h2 := h.e2
  have a3 : (2 : ℝ) ^ e ≤ 2 ^ 15 := pow_le_pow_right₀ (by norm_num) (by omega)
  rw [h.hN] at h1
  have h3 : (n : ℝ) ≤ 2 ^ 15 := by linarith
  have : n ≤ 2 ^ 15 := by exact_mod_cast h3
  omega

/-- `1 - x`. -/
theorem gc2_sub (hL : L.Accurate) (h : Sz n N η e) (hj : j < n) :
    RelP (Arith.lit 1 - mirrorFn n (gc2X (F64 L) n) (fun x => -x) (Arith.lit 0) j) (1 - cos (gc2A n j))
      (18 * η) (2 * e) := by
  have hu := uro_pos
  have h1 := gc2_one_sub hj
  rw [← h.hN] at h1
  have hN := h.lo
  have hs := Near.sub (near_one (L := L)) (gc2_base_node hL h.n_le hj) (B := 3) (by
    have := abs_cos_le_one (gc2A n j)
    have h1 := neg_one_le_cos (gc2A n j)
    have h2 := cos_le_one (gc2A n j)
    have := uro_lt
    rw [abs_of_nonneg (by linarith)]
    linarith) (by norm_num)
  refine relP_of_near hs (p := 18 * η) ?_ (by rw [h.he]; positivity) (by linarith [h.eta']) ?_ ?_
  · have := tiny_le_uro
    have h3 : 36 * uro = 18 * η * (2 / N ^ 2) := by
      rw [h.he]
      field_simp
      ring
    have h4 : 18 * η * (2 / N ^ 2) ≤ 18 * η * (1 - cos (gc2A n j)) := by
      have := h.eta
      have h5 : 0 ≤ 18 * η := by linarith
      gcongr
    norm_num at this
    linarith
  · refine h.sq_lo.trans (le_trans ?_ h1)
    gcongr
    norm_num
  · have := neg_one_le_cos (gc2A n j)
    have := two_le_pow (e := 2 * e) (by have := h.e1; omega)
    linarith

/-- `1 + x`. -/
theorem gc2_add (hL : L.Accurate) (h : Sz n N η e) (hj : j < n) :
    RelP (Arith.lit 1 + mirrorFn n (gc2X (F64 L) n) (fun x => -x) (Arith.lit 0) j) (1 + cos (gc2A n j))
      (18 * η) (2 * e) := by
  have hu := uro_pos
  have h1 := gc2_one_add hj
  rw [← h.hN] at h1
  have hN := h.lo
  have hs := Near.add (near_one (L := L)) (gc2_base_node hL h.n_le hj) (B := 3) (by
    have := abs_cos_le_one (gc2A n j)
    have h1 := neg_one_le_cos (gc2A n j)
    have h2 := cos_le_one (gc2A n j)
    have := uro_lt
    rw [abs_of_nonneg (by linarith)]
    linarith) (by norm_num)
  refine relP_of_near hs (p := 18 * η) ?_ (by rw [h.he]; positivity) (by linarith [h.eta']) ?_ ?_
  · have := tiny_le_uro
    have h3 : 36 * uro = 18 * η * (2 / N ^ 2) := by
      rw [h.he]
      field_simp
      ring
    have h4 : 18 * η * (2 / N ^ 2) ≤ 18 * η * (1 + cos (gc2A n j)) := by
      have := h.eta
      have h5 : 0 ≤ 18 * η := by linarith
      gcongr
    norm_num at this
    linarith
  · refine h.sq_lo.trans (le_trans ?_ h1)
    gcongr
    norm_num
  · have := cos_le_one (gc2A n j)
    have := two_le_pow (e := 2 * e) (by have := h.e1; omega)
    linarith

/-- The base weight. -/
theorem gc2_wt (hL : L.Accurate) (h : Sz n N η e) (hj : j < n) :
    RelP (mirrorFn n (gc2W (F64 L) n) id (Arith.pi / Arith.ofNat (n + 1)) j) (π / (n + 1) * sin (gc2A n j))
      (40 * η) (2 * e) := by
  have hu := uro_pos
  have hN := h.lo
  have hp := pi_gt_three
  have h1 : 6 / N ^ 2 ≤ π / (n + 1) * sin (gc2A n j) := by
    have h2 := gc2_sin hj
    rw [← h.hN] at h2 ⊢
    calc 6 / N ^ 2 = 3 / N * (2 / N) := by field_simp; norm_num
      _ ≤ π / N * sin (gc2A n j) := by gcongr
  refine relP_of_near (gc2_base_weight hL h.n_le hj) (p := 40 * η) ?_ (by rw [h.he]; positivity)
    (by linarith [h.eta']) ?_ ?_
  · have h3 : 240 * uro = 40 * η * (6 / N ^ 2) := by
      rw [h.he]
      field_simp
      ring
    rw [h3]
    have := h.eta
    have h5 : 0 ≤ 40 * η := by linarith
    gcongr
  · refine h.sq_lo.trans (le_trans ?_ h1)
    gcongr
    norm_num
  · rw [← h.hN]
    have h2 := two_le_pow (e := 2 * e) (by have := h.e1; omega)
    refine le_trans ?_ h2
    have h3 := sin_le_one (gc2A n j)
    have h4 : π / N ≤ 2 := by
      rw [div_le_iff₀ (by linarith)]
      linarith [pi_le_four]
    calc π / N * sin (gc2A n j) ≤ π / N * 1 := by gcongr
      _ ≤ 2 := by linarith

/-! ## Uniform base -/

/-- The base node. -/
theorem uni_base {m i : ℕ} (hm : m = n + 1) (h : Sz n N η e) (h0 : 1 ≤ i) (hi : i < m) :
    RelP (Arith.lit 0 + Arith.ofNat i * ((Arith.lit 1 - Arith.lit 0) / Arith.ofNat m) : F64 L) (i / m)
      (3 * uro) e := by
  have hu := uro_pos
  have hn := h.n_le
  have hm1 : 1 ≤ m := by omega
  have hm2 : m ≤ 2 ^ 53 := by omega
  obtain ⟨f1, -, f3, -⟩ := uni_facts hm1 hm2
  rw [uni_node hm1 hm2 hi.le]
  have a1 : (1 : ℝ) ≤ i := by exact_mod_cast h0
  have a2 : (i : ℝ) ≤ m := by exact_mod_cast hi.le
  have eN : N = m := by rw [h.hN, hm]; push_cast; ring
  have hN := h.lo
  refine ⟨?_, ?_, ⟨_, rfl, ⟨rnd_rnd _, ?_⟩, f1 i hi.le⟩, by positivity, by linarith [h.eta, h.eta']⟩
  · refine h.one_lo.trans ?_
    rw [← eN]
    gcongr
  · have h1 := two_le_pow h.e1
    refine le_trans ?_ h1
    rw [div_le_iff₀ (by rw [← eN]; linarith)]
    linarith
  · have h5 := f3 i hi.le
    rw [abs_of_nonneg h5.1]
    have := le_f64Big
    have : (2 : ℝ) ≤ 2 ^ 201 := by norm_num
    linarith

/-- `1 - x`. -/
theorem uni_sub {a : F64 L} {m i : ℕ} (hm : m = n + 1) (h : Sz n N η e) (hi : i < m)
    {y : ℝ} {k : ℝ} (_hk : 0 ≤ k) (hk' : k ≤ 100) (ha : Near a y (k * uro * y)) (hy0 : 0 ≤ y) (hy : y ≤ i / m) :
    Near (Arith.lit 1 - a) (1 - y) ((k + 1) * uro * y + uro * (1 - y) + 2⁻¹ ^ 200) ∧ 1 / N ≤ 1 - y := by
  have hu := uro_pos
  have hu' := uro_lt
  have a2 : (i : ℝ) + 1 ≤ m := by exact_mod_cast hi
  have eN : N = m := by rw [h.hN, hm]; push_cast; ring
  have hN := h.lo
  have hm0 : (0 : ℝ) < m := by rw [← eN]; linarith
  have hy1 : 1 / N ≤ 1 - y := by
    rw [eN]
    have : (1 : ℝ) / m ≤ 1 - i / m := by
      rw [div_le_iff₀ hm0, sub_mul, div_mul_cancel₀ _ hm0.ne']
      linarith
    linarith
  refine ⟨?_, hy1⟩
  have hpos : 0 < 1 / N := by positivity
  have ht : k * uro * y ≤ 100 * uro * 1 := by
    gcongr
    linarith
  have hku : k * uro ≤ 1 := by
    have h1 : k * uro ≤ 100 * uro := by gcongr
    rw [uro_eq] at h1 ⊢
    norm_num at h1 ⊢
    linarith
  refine (Near.sub near_one ha (B := (1 - y) + k * uro * y) ?_ ?_).mono ?_
  · rw [abs_of_pos (by linarith)]
    linarith
  · norm_num
    linarith
  · have : uro * (k * uro * y) ≤ uro * (1 * y) := by gcongr
    linarith

end

end IntegratorXX
