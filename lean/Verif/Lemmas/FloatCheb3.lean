import Verif.Lemmas.FloatCheb
import Verif.Lemmas.FloatRel

/-!
# GaussChebyshev3 in `double` arithmetic
-/

namespace IntegratorXX

open Real

variable {L : Libm}

theorem RelP.toRel {a : F64 L} {x k : ℝ} {e : ℕ} (h : RelP a x (k * uro) e) : Rel a x k := by
  have := h.near
  unfold Rel
  rwa [abs_of_pos h.pos]

theorem Rel.toP {a : F64 L} {x k : ℝ} {e : ℕ} (h : Rel a x k) (hk : 0 ≤ k) (hk' : k ≤ 1000000) (lo : 2⁻¹ ^ e ≤ x)
    (hi : x ≤ 2 ^ e) : RelP a x (k * uro) e := by
  have hx : 0 < x := lt_of_lt_of_le (by positivity) lo
  have hu := uro_pos
  refine ⟨lo, hi, ?_, by positivity, ?_⟩
  · unfold Rel at h
    rwa [abs_of_pos hx] at h
  · rw [uro_eq]
    linarith

theorem gc3_step {n : ℕ} (hn : n ≤ 1048576) :
    RelP (Arith.pi / Arith.ofNat (2 * n + 1) : F64 L) (π / (2 * n + 1)) (4 * uro) 23 := by
  have hn' : (n : ℝ) ≤ 1048576 := by exact_mod_cast hn
  have hn0 : (0 : ℝ) ≤ n := by positivity
  have h3 := pi_gt_three
  have h4 := pi_le_four
  have hu := uro_pos
  have e : ((2 * n + 1 : ℕ) : ℝ) = 2 * n + 1 := by push_cast; rfl
  have lo : 2⁻¹ ^ 23 ≤ π / (2 * n + 1) := by
    rw [le_div_iff₀ (by positivity)]
    norm_num
    linarith
  have hi : π / (2 * n + 1) ≤ 2 ^ 23 := by
    rw [div_le_iff₀ (by positivity)]
    norm_num
    linarith
  have h := Rel.div (rel_pi (L := L)) (rel_nat (L := L) (n := 2 * n + 1) (by omega)) (by norm_num) (by norm_num)
    le_rfl (by norm_num) (by positivity) (by
      obtain ⟨a, b⟩ := pow_bounds lo hi (by norm_num)
      rw [e]
      exact mid_of a b)
  rw [e] at h
  exact (h.mono (by norm_num : (2 : ℝ) + 0 + 2 ≤ 4)).toP (by norm_num) (by norm_num) lo hi

theorem lit_half_eq : (Arith.lit (1 / 2) : F64 L) = F64.fin (1 / 2) ∧ IsF64 (1 / 2) := by
  have h := of_exact (L := L) (z := 1 / 2) (by
    have := rnd_two_zpow (e := -1) (by norm_num)
    norm_num at this ⊢
    exact this) (by norm_num)
  refine ⟨?_, h.2⟩
  rw [← h.1]
  show F64.of _ = F64.of _
  norm_num

theorem gc3A_eq {n j : ℕ} (hj : j < n) :
    gc3A n j = 1 / 2 * ((2 * (n - j) - 1 : ℕ) : ℝ) * (π / (2 * n + 1)) := by
  unfold gc3A
  rw [show 2 * (n - j) - 1 = 2 * (n - 1 - j) + 1 by omega]
  push_cast
  field_simp

theorem gc3_bounds {n j : ℕ} (hj : j < n) :
    π / (2 * n + 1) / 2 ≤ gc3A n j ∧ gc3A n j + π / (2 * n + 1) ≤ π / 2 := by
  have hp := pi_pos
  have hn0 : (0 : ℝ) ≤ n := by positivity
  have h0 : (0 : ℝ) ≤ ((n - 1 - j : ℕ) : ℝ) := by positivity
  have h2 : ((n - 1 - j : ℕ) : ℝ) + 1 ≤ n := by exact_mod_cast (by omega : n - 1 - j + 1 ≤ n)
  unfold gc3A
  push_cast
  constructor
  · have e : π / (2 * n + 1) / 2 = 1 / (2 * (2 * (n : ℝ) + 1)) * π := by field_simp
    rw [e]
    gcongr
    linarith
  · have e : (2 * ((n - 1 - j : ℕ) : ℝ) + 1) / (2 * (2 * (n : ℝ) + 1)) * π + π / (2 * n + 1) =
        (2 * ((n - 1 - j : ℕ) : ℝ) + 3) / (2 * (2 * (n : ℝ) + 1)) * π := by
      field_simp
      ring
    have e2 : π / 2 = (2 * (n : ℝ) + 1) / (2 * (2 * (n : ℝ) + 1)) * π := by field_simp
    rw [e, e2]
    exact mul_le_mul_of_nonneg_right (div_le_div_of_nonneg_right (by linarith) (by positivity)) hp.le

theorem gc3_cos (hL : L.Accurate) {n j : ℕ} (hn : n ≤ 1048576) (hj : j < n) :
    Near (Arith.cos (Arith.lit (1 / 2) * Arith.ofNat (2 * (n - j) - 1) * (Arith.pi / Arith.ofNat (2 * n + 1))) : F64 L)
      (cos (gc3A n j)) (17 * uro) := by
  have hu := uro_pos
  have h1 : RelP (Arith.lit (1 / 2) : F64 L) (1 / 2) 0 1 := by
    rw [lit_half_eq.1]
    exact relP_exact (lit_half_eq (L := L)).2 (by norm_num) (by norm_num)
  have h2 : RelP (Arith.ofNat (2 * (n - j) - 1) : F64 L) ((2 * (n - j) - 1 : ℕ) : ℝ) 0 22 := by
    have := relP_nat (L := L) (n := 2 * (n - j) - 1) (e := 22) (by omega) (by norm_num; omega) (by norm_num)
    exact this
  have h3 := h1.mul h2 (r := 2 * uro) (g := 23) (by linarith) (by rw [uro_eq]; norm_num) (by norm_num) (by norm_num)
  have h4 := h3.mul (gc3_step hn) (r := 8.1 * uro) (g := 50) (by linarith) (by rw [uro_eq]; norm_num) (by norm_num)
    (by norm_num)
  rw [← gc3A_eq hj] at h4
  have hb := (gc3_bounds hj).2
  have hp := pi_lt_d2
  have : 0 < π / (2 * n + 1) := by have := pi_pos; positivity
  refine (Near.cos hL (h4.near.mono (f := 13 * uro) ?_) (by rw [uro_eq]; norm_num)).mono (by linarith)
  have : 8.1 * uro * gc3A n j ≤ 8.1 * uro * 1.6 := by
    gcongr
    norm_num at hp ⊢
    linarith
  linarith

theorem gc3_node (hL : L.Accurate) {n j : ℕ} (hn : n ≤ 1048576) (hj : j < n) :
    Near (gc3X (F64 L) n j) (cos (gc3A n j) ^ 2) (36 * uro) := by
  have hu := uro_pos
  have hu2 : uro = 1 / 9007199254740992 := uro_eq
  have hc := gc3_cos (L := L) hL hn hj
  have hc1 := abs_cos_le_one (gc3A n j)
  have t200 : (2⁻¹ : ℝ) ^ 200 ≤ uro / 1000000 := by rw [uro_eq]; norm_num
  have hcc : |cos (gc3A n j) * cos (gc3A n j)| ≤ 1 := by rw [abs_mul]; nlinarith [abs_nonneg (cos (gc3A n j))]
  rw [sq]
  unfold gc3X
  exact (Near.mul hc hc hc1 hc1 (B := 11 / 10) (by
      have : 17 * uro * (1 + 17 * uro) + 1 * (17 * uro) ≤ 1 / 10 := by rw [hu2]; norm_num
      linarith) (by norm_num)).mono (by nlinarith)

/-- Products of sine and cosine. -/
theorem gc3_sincos {n j : ℕ} (hj : j < n) : 1 / (2 * n + 1) ≤ cos (gc3A n j) * sin (gc3A n j) := by
  have hp := pi_pos
  obtain ⟨h1, h2⟩ := gc3_bounds hj
  have h := sin_ge (t := 2 * gc3A n j) (d := π / (2 * n + 1)) (by positivity) (by linarith) (by
    have : 0 < π / (2 * n + 1) := by positivity
    linarith)
  rw [sin_two_mul] at h
  have e : 2 / π * (π / (2 * n + 1)) = 2 * (1 / (2 * (n : ℝ) + 1)) := by field_simp
  linarith

theorem gc3_cos_le {n j : ℕ} (hj : j < n) :
    1 / (2 * n + 1) ^ 2 ≤ cos (gc3A n j) ^ 2 ∧ 1 / (2 * n + 1) ^ 2 ≤ 1 - cos (gc3A n j) ^ 2 := by
  have h := gc3_sincos hj
  have h2 : (1 / (2 * (n : ℝ) + 1)) ^ 2 ≤ (cos (gc3A n j) * sin (gc3A n j)) ^ 2 := by gcongr
  rw [div_pow, one_pow, mul_pow] at h2
  have h3 := sin_sq_add_cos_sq (gc3A n j)
  have h4 := sq_nonneg (sin (gc3A n j))
  have h5 := sq_nonneg (cos (gc3A n j))
  constructor <;> nlinarith

theorem gc3_weight (hL : L.Accurate) {n j : ℕ} (hn : n ≤ 1048576) (hj : j < n) :
    ∃ v w, gc3X (F64 L) n j = F64.fin v ∧ gc3W (F64 L) n j = F64.fin w ∧ IsF64 v ∧ IsF64 w ∧ 0 < v ∧ v < 1 ∧ 0 < w ∧
      |v - cos (gc3A n j) ^ 2| ≤ 36 * uro ∧
      |w - 2 * π / (2 * n + 1) * (cos (gc3A n j) * sin (gc3A n j))| ≤ 255 * uro := by
  have hn' : (n : ℝ) ≤ 1048576 := by exact_mod_cast hn
  have hn0 : (0 : ℝ) ≤ n := by positivity
  have hu := uro_pos
  have hu2 : uro = 1 / 9007199254740992 := uro_eq
  have hp3 := pi_gt_three
  have hp4 := pi_lt_d2
  obtain ⟨v, hv, hvf, hve⟩ := gc3_node (L := L) hL hn hj
  obtain ⟨k1, k2⟩ := gc3_cos_le hj
  have hsc := gc3_sincos hj
  obtain ⟨c, hc⟩ : ∃ c, c = cos (gc3A n j) ^ 2 := ⟨_, rfl⟩
  obtain ⟨m, hm⟩ : ∃ m, m = cos (gc3A n j) * sin (gc3A n j) := ⟨_, rfl⟩
  have hmc : m ^ 2 = c * (1 - c) := by
    rw [hm, hc, mul_pow, sin_sq]
  rw [← hc] at k1 k2 hve
  rw [← hm] at hsc
  rw [← hc, ← hm]
  have hb : (2⁻¹ : ℝ) ^ 43 ≤ 1 / (2 * n + 1) ^ 2 := by
    rw [le_div_iff₀ (by positivity)]
    have : (2 * (n : ℝ) + 1) ^ 2 ≤ (2 * 1048576 + 1) ^ 2 := by gcongr
    norm_num at this ⊢
    linarith
  have k1' := hb.trans k1
  have k2' := hb.trans k2
  obtain ⟨ve1, ve2⟩ := abs_le.1 hve
  have v1 : 2⁻¹ ^ 44 ≤ v := by
    rw [hu2] at ve1
    norm_num at k1' ve1 ⊢
    linarith
  have v2 : 2⁻¹ ^ 44 ≤ 1 - v := by
    rw [hu2] at ve2
    norm_num at k2' ve2 ⊢
    linarith
  have v0 : 0 < v := lt_of_lt_of_le (by positivity) v1
  have v3 : v < 1 := by
    have : (0 : ℝ) < 2⁻¹ ^ 44 := by positivity
    linarith
  have e1 : (Arith.lit 1 : F64 L) = F64.fin 1 := by
    have := (of_exact (L := L) rnd_one (by norm_num)).1
    rw [← this]
    show F64.of _ = F64.of _
    norm_num
  have r1 : RelP (Arith.lit 1 - F64.fin v : F64 L) (1 - v) (2 * uro) 44 := by
    rw [e1, F64.fin_sub]
    refine of_relP (p := 0) (by simp) le_rfl (by linarith) (by rw [hu2]; norm_num) v2 ?_ (by norm_num)
    have : (1 : ℝ) ≤ 2 ^ 44 := by norm_num
    linarith
  have hv44 : v ≤ 2 ^ 44 := v3.le.trans (by norm_num)
  have r2 : RelP (F64.fin v : F64 L) v 0 44 := relP_exact hvf v1 hv44
  have r3 := r1.div r2 (r := 5 * uro) (g := 88) (by linarith) (by rw [hu2]; norm_num) (by norm_num) (by norm_num)
  have hq : 0 < (1 - v) / v := r3.pos
  have hsq : (2⁻¹ : ℝ) ^ 44 ≤ √((1 - v) / v) ∧ √((1 - v) / v) ≤ 2 ^ 44 := by
    have a := r3.lo
    have b := r3.hi
    constructor
    · rw [Real.le_sqrt' (by positivity)]
      exact le_trans (by norm_num) a
    · rw [Real.sqrt_le_left (by positivity)]
      exact b.trans (by norm_num)
  have r4 := (r3.toRel.sqrt (by norm_num) (by norm_num) hq (by
    obtain ⟨a, b⟩ := pow_bounds hsq.1 hsq.2 (by norm_num)
    exact mid_of a b)).toP (by norm_num) (by norm_num) hsq.1 hsq.2
  have r5 : RelP (Arith.lit 2 : F64 L) 2 0 1 := by
    rw [lit_two_eq.1]
    exact relP_exact (lit_two_eq (L := L)).2 (by norm_num) (by norm_num)
  have r6 := r5.mul (gc3_step (L := L) hn) (r := 7 * uro) (g := 24) (by linarith) (by rw [hu2]; norm_num) (by norm_num)
    (by norm_num)
  have r7 := r6.mul r2 (r := 10 * uro) (g := 68) (by linarith) (by rw [hu2]; norm_num) (by norm_num) (by norm_num)
  have r8 := r7.mul r4 (r := 20 * uro) (g := 112) (by linarith) (by rw [hu2]; norm_num) (by norm_num) (by norm_num)
  obtain ⟨w, hw, hwf, hwe⟩ := r8.near
  have hz : 2 * (π / (2 * n + 1)) * v * √((1 - v) / v) = 2 * π / (2 * n + 1) * √(v * (1 - v)) := by
    have : √(v * (1 - v)) = v * √((1 - v) / v) := by
      rw [show v * (1 - v) = v ^ 2 * ((1 - v) / v) by field_simp, Real.sqrt_mul (sq_nonneg _), Real.sqrt_sq v0.le]
    rw [this]
    ring
  have hpos := r8.pos
  rw [hz] at hwe hpos
  refine ⟨v, w, hv, ?_, hvf, hwf, v0, v3, ?_, hve, ?_⟩
  · unfold gc3W
    rw [hv]
    exact hw
  · obtain ⟨a, -⟩ := abs_le.1 hwe
    have : 20 * uro ≤ 1 / 2 := by rw [hu2]; norm_num
    nlinarith
  · have hm0 : 0 < m := lt_of_lt_of_le (by positivity) hsc
    have hm1 : m ^ 2 ≤ 1 / 4 := by rw [hmc]; nlinarith [sq_nonneg (c - 1 / 2)]
    have hm2 : m ≤ 1 / 2 := by nlinarith
    have s1 : |√(v * (1 - v)) - m| ≤ 36 * uro / m := by
      have := sqrt_near (x := m ^ 2) (v := v * (1 - v)) (p := 36 * uro) (by positivity)
        (mul_nonneg v0.le (by linarith)) (by
          rw [hmc, show v * (1 - v) - c * (1 - c) = (v - c) * (1 - v - c) by ring, abs_mul]
          have hc0 : 0 ≤ c := by rw [hc]; positivity
          have hc1 : 0 ≤ 1 - c := by have : (0 : ℝ) < 2⁻¹ ^ 43 := by positivity
                                     linarith
          have : |1 - v - c| ≤ 1 := abs_le.2 ⟨by linarith, by linarith⟩
          calc |v - c| * |1 - v - c| ≤ (36 * uro) * 1 := by gcongr
            _ = _ := by ring)
      rwa [Real.sqrt_sq hm0.le] at this
    have hh : 2 * π / (2 * n + 1) * (36 * uro / m) ≤ 2 * π * (36 * uro) := by
      have : 1 ≤ m * (2 * n + 1) := by rwa [div_le_iff₀ (by positivity)] at hsc
      rw [div_mul_div_comm, div_le_iff₀ (by positivity)]
      have h9 : 2 * π * (36 * uro) * 1 ≤ 2 * π * (36 * uro) * (m * (2 * n + 1)) := by gcongr
      linarith
    have hn1 : (1 : ℝ) ≤ n := by exact_mod_cast (by omega : 1 ≤ n)
    have hstep : 2 * π / (2 * n + 1) ≤ 2.1 := by
      rw [div_le_iff₀ (by positivity)]
      norm_num at hp4
      linarith
    have hstep0 : 0 < 2 * π / (2 * n + 1) := by positivity
    have hs2 : √(v * (1 - v)) ≤ 1 / 2 := by
      rw [Real.sqrt_le_left (by norm_num)]
      nlinarith [sq_nonneg (v - 1 / 2)]
    have t1 : 20 * uro * (2 * π / (2 * n + 1) * √(v * (1 - v))) ≤ 20 * uro * (2.1 * (1 / 2)) := by gcongr
    have t2 : |2 * π / (2 * n + 1) * √(v * (1 - v)) - 2 * π / (2 * n + 1) * m| ≤ 2 * π * (36 * uro) := by
      rw [← mul_sub, abs_mul, abs_of_pos hstep0]
      refine le_trans ?_ hh
      gcongr
    have t3 := abs_sub_le w (2 * π / (2 * n + 1) * √(v * (1 - v))) (2 * π / (2 * n + 1) * m)
    have t4 : 2 * π * (36 * uro) ≤ 2 * 3.15 * (36 * uro) := by
      gcongr
    linarith

theorem gc3_double (hL : L.Accurate) {n : ℕ} (hn : n ≤ 1048576) :
    ∃ xs ws, Doubles ((List.range n).map (gc3X (F64 L) n)) xs ∧ Doubles ((List.range n).map (gc3W (F64 L) n)) ws ∧
      xs.Pairwise (· < ·) ∧ (∀ y ∈ xs, 0 < y ∧ y < 1) ∧ (∀ y ∈ ws, 0 < y) ∧
      Within (2⁻¹ ^ 47) xs ((List.range n).map fun j => cos (gc3A n j) ^ 2) ∧
      Within (2⁻¹ ^ 45) ws ((List.range n).map fun j => 2 * π / (2 * n + 1) * (cos (gc3A n j) * sin (gc3A n j))) := by
  have hn' : (n : ℝ) ≤ 1048576 := by exact_mod_cast hn
  have hn0 : (0 : ℝ) ≤ n := by positivity
  have hp := pi_pos
  have hu2 : uro = 1 / 9007199254740992 := uro_eq
  choose! v w h using fun j (hj : j < n) => gc3_weight (L := L) hL hn hj
  refine ⟨(List.range n).map v, (List.range n).map w, ⟨?_, ?_⟩, ⟨?_, ?_⟩, ?_, ?_, ?_, ?_, ?_⟩
  · rw [List.map_map]
    exact List.map_congr_left (fun j hj => (h j (List.mem_range.1 hj)).1)
  · intro y hy
    obtain ⟨j, hj, rfl⟩ := List.mem_map.1 hy
    exact (h j (List.mem_range.1 hj)).2.2.1
  · rw [List.map_map]
    exact List.map_congr_left (fun j hj => (h j (List.mem_range.1 hj)).2.1)
  · intro y hy
    obtain ⟨j, hj, rfl⟩ := List.mem_map.1 hy
    exact (h j (List.mem_range.1 hj)).2.2.2.1
  · rw [List.pairwise_map]
    refine (List.pairwise_lt_range).imp_of_mem ?_
    intro i j hi hj hij
    have hi' := List.mem_range.1 hi
    have hj' := List.mem_range.1 hj
    obtain ⟨-, -, -, -, -, -, -, a1, -⟩ := h i hi'
    obtain ⟨-, -, -, -, -, -, -, a2, -⟩ := h j hj'
    obtain ⟨b1, b2⟩ := gc3_bounds hi'
    obtain ⟨b3, b4⟩ := gc3_bounds hj'
    have hgap : gc3A n j + π / (2 * n + 1) ≤ gc3A n i := by
      have h2 : ((n - 1 - j : ℕ) : ℝ) + 1 ≤ ((n - 1 - i : ℕ) : ℝ) := by exact_mod_cast (by omega)
      unfold gc3A
      push_cast
      have e : (2 * ((n - 1 - j : ℕ) : ℝ) + 1) / (2 * (2 * (n : ℝ) + 1)) * π + π / (2 * n + 1) =
          (2 * ((n - 1 - j : ℕ) : ℝ) + 3) / (2 * (2 * (n : ℝ) + 1)) * π := by
        field_simp
        ring
      rw [e]
      exact mul_le_mul_of_nonneg_right (div_le_div_of_nonneg_right (by linarith) (by positivity)) hp.le
    have hsp := cos_spacing (s := 2 * gc3A n j) (t := 2 * gc3A n i) (d := 2 * (π / (2 * n + 1))) (by positivity)
      (by linarith) (by linarith) (by
        have : 0 < π / (2 * n + 1) := by positivity
        linarith)
    rw [cos_two_mul, cos_two_mul] at hsp
    have e : 2 * (2 * (π / (2 * n + 1))) ^ 2 / π ^ 2 = 8 * (1 / (2 * (n : ℝ) + 1) ^ 2) := by
      field_simp
      ring
    rw [e] at hsp
    have hb : (2⁻¹ : ℝ) ^ 43 ≤ 1 / (2 * n + 1) ^ 2 := by
      rw [le_div_iff₀ (by positivity)]
      have : (2 * (n : ℝ) + 1) ^ 2 ≤ (2 * 1048576 + 1) ^ 2 := by gcongr
      norm_num at this ⊢
      linarith
    generalize 1 / (2 * (n : ℝ) + 1) ^ 2 = B at hsp hb
    have c1 := (abs_le.1 a1).2
    have c2 := (abs_le.1 a2).1
    rw [hu2] at c1 c2
    norm_num at hb c1 c2
    linarith
  · intro y hy
    obtain ⟨j, hj, rfl⟩ := List.mem_map.1 hy
    obtain ⟨-, -, -, -, a, b, -⟩ := h j (List.mem_range.1 hj)
    exact ⟨a, b⟩
  · intro y hy
    obtain ⟨j, hj, rfl⟩ := List.mem_map.1 hy
    exact (h j (List.mem_range.1 hj)).2.2.2.2.2.2.1
  · unfold Within
    rw [List.forall₂_map_left_iff, List.forall₂_map_right_iff, List.forall₂_same]
    intro j hj
    refine (h j (List.mem_range.1 hj)).2.2.2.2.2.2.2.1.trans ?_
    rw [hu2]
    norm_num
  · unfold Within
    rw [List.forall₂_map_left_iff, List.forall₂_map_right_iff, List.forall₂_same]
    intro j hj
    refine (h j (List.mem_range.1 hj)).2.2.2.2.2.2.2.2.trans ?_
    rw [hu2]
    norm_num

end IntegratorXX
