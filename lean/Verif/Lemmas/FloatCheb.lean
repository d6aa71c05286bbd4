import Verif.Lemmas.FloatCalc
import Verif.Lemmas.ChebReal
import Verif.Spec.Float
import Mathlib.Analysis.Real.Pi.Bounds

/-!
# The Chebyshev rules in `double` arithmetic
-/

namespace IntegratorXX

open Real

variable {L : Libm}

theorem near_lit_zero : Near (Arith.lit 0 : F64 L) 0 0 := by
  have := lit_nat (L := L) 0 (by norm_num)
  simpa using this

theorem near_lit_one : Near (Arith.lit 1 : F64 L) 1 0 := by
  have := lit_nat (L := L) 1 (by norm_num)
  simpa using this

theorem rel_pi : Rel (Arith.pi : F64 L) π 2 := by
  have h1 := pi_gt_d20
  have h2 := pi_lt_d20
  have hp : |π| = π := abs_of_pos pi_pos
  rw [F64.pi_eq]
  refine (of_rel (k := 1 / 4) ?_ (by norm_num) (by norm_num) (mid_of ?_ ?_)).mono (by norm_num)
  · rw [hp, uro_eq, abs_le]
    norm_num at h1 h2 ⊢
    constructor <;> linarith
  · refine le_trans ?_ pi_gt_three.le
    norm_num
  · refine pi_le_four.trans ?_
    norm_num

theorem abs_cos_sub (x y : ℝ) : |cos x - cos y| ≤ |x - y| := by
  have := abs_cos_sub_cos_le x y
  exact this

theorem Near.cos {a : F64 L} {t e : ℝ} (hL : L.Accurate) (h : Near a t e) (he : e ≤ 1 / 4) :
    Near (Arith.cos a) (cos t) (e + 4 * uro) := by
  obtain ⟨v, rfl, hv, hvt⟩ := h
  rw [F64.fin_cos]
  have hu := uro_pos
  have h1 := hL.cos_err v hv
  have h2 := abs_cos_sub v t
  have h3 := abs_cos_le_one v
  have h5 : |L.cos v - Real.cos v| ≤ 2 * uro := by
    refine h1.trans ?_
    have : (2⁻¹ : ℝ) ^ 52 = 2 * uro := by rw [← uro_def, pow_succ]; ring
    rw [this]
    nlinarith
  have h6 : |L.cos v - Real.cos t| ≤ e + 2 * uro := by
    calc |L.cos v - Real.cos t| = |(L.cos v - Real.cos v) + (Real.cos v - Real.cos t)| := by ring_nf
      _ ≤ _ := (abs_add_le _ _).trans (by linarith)
  have h7 := abs_cos_le_one t
  have h8 : uro ≤ 1 / 16 := by rw [uro_eq]; norm_num
  refine (of_near h6 (B := 3 / 2) (by linarith) (by norm_num)).mono ?_
  have : (2⁻¹ : ℝ) ^ 200 ≤ uro / 2 := by rw [uro_eq]; norm_num
  linarith

/-- The weight `D sqrt(1 - x²)` for `x` close to `cos t`. -/
theorem weight_near {d x : F64 L} {D t : ℝ} (hd : Rel d D 4) (hx : Near x (cos t) (32 * uro)) (hD : 0 < D)
    (hD' : D ≤ 2) (hs : D ≤ 3.15 * sin t) (hs2 : 2⁻¹ ^ 20 ≤ sin t) :
    Near (d * Arith.sqrt (Arith.lit 1 - x * x)) (D * sin t) (240 * uro) := by
  have hu := uro_pos
  have hu2 : uro = 1 / 9007199254740992 := uro_eq
  have hs0 : 0 < sin t := lt_of_lt_of_le (by positivity) hs2
  have hs1 := sin_le_one t
  have hc1 := abs_cos_le_one t
  have t200 : (2⁻¹ : ℝ) ^ 200 ≤ uro / 1000000 := by rw [uro_eq]; norm_num
  have hcc : |cos t * cos t| ≤ 1 := by rw [abs_mul]; nlinarith [abs_nonneg (cos t)]
  have n1 : Near (x * x) (cos t * cos t) (66 * uro) :=
    (Near.mul hx hx hc1 hc1 (B := 11 / 10) (by
      have : 32 * uro * (1 + 32 * uro) + 1 * (32 * uro) ≤ 1 / 10 := by rw [hu2]; norm_num
      linarith) (by norm_num)).mono (by nlinarith)
  have hsin : 1 - cos t * cos t = sin t ^ 2 := by nlinarith [sin_sq_add_cos_sq t]
  have n2 : Near (Arith.lit 1 - x * x) (1 - cos t * cos t) (68 * uro) :=
    (Near.sub near_lit_one n1 (B := 11 / 10) (by
      rw [hsin, abs_of_nonneg (by positivity), hu2]
      nlinarith) (by norm_num)).mono (by linarith)
  rw [hsin] at n2
  obtain ⟨v, hv, hv1, hv2⟩ := n2
  have hsq : 2⁻¹ ^ 40 ≤ sin t ^ 2 := by
    have : ((2⁻¹ : ℝ) ^ 20) ^ 2 ≤ sin t ^ 2 := by gcongr
    rw [← pow_mul] at this
    exact this
  have hv0 : 0 ≤ v := by
    have := (abs_le.1 hv2).1
    rw [hu2] at this
    norm_num at hsq this
    linarith
  have hsr := sqrt_near (by positivity) hv0 hv2
  rw [sqrt_sq hs0.le] at hsr
  have hle : 68 * uro / sin t ≤ 1 / 100 := by
    rw [div_le_iff₀ hs0, hu2]
    norm_num at hs2
    linarith
  have n3 : Near (Arith.sqrt (Arith.lit 1 - x * x)) (sin t) (68 * uro / sin t + 2 * uro) := by
    rw [hv, F64.fin_sqrt hv0]
    refine (of_near hsr (B := 11 / 10) (by rw [abs_of_pos hs0]; linarith) (by norm_num)).mono (by linarith)
  have n4 : Near d D (4 * uro * D) := by
    have := hd
    unfold Rel at this
    rwa [abs_of_pos hD] at this
  have hDs : D * (68 * uro / sin t) ≤ 215 * uro := by
    rw [← mul_div_assoc, div_le_iff₀ hs0]
    have : D * (68 * uro) ≤ 3.15 * sin t * (68 * uro) := by gcongr
    have : 3.15 * sin t * (68 * uro) = 214.2 * (uro * sin t) := by ring
    have : 0 ≤ uro * sin t := by positivity
    linarith
  have hf : 68 * uro / sin t + 2 * uro ≤ 1 / 10 := by rw [hu2] at hle ⊢; linarith
  have key : 4 * uro * D * (1 + (68 * uro / sin t + 2 * uro)) + D * (68 * uro / sin t + 2 * uro) ≤
      235 * uro := by
    have h1 : 4 * uro * D * (1 + (68 * uro / sin t + 2 * uro)) ≤ 4 * uro * 2 * (1 + 1 / 10) := by
      gcongr
    have h2 : D * (2 * uro) ≤ 2 * (2 * uro) := by gcongr
    linarith
  have hDs1 : |D * sin t| ≤ 2 := by
    rw [abs_of_pos (by positivity)]
    nlinarith
  refine (Near.mul n4 n3 (X := D) (Y := 1) (by rw [abs_of_pos hD]) (by rw [abs_of_pos hs0]; exact hs1)
    (B := 3) (by
      have : 235 * uro ≤ 1 := by rw [hu2]; norm_num
      linarith) (by norm_num)).mono (by linarith)

/-! ## Reflected rules -/

theorem near_mirror {n : ℕ} {x : ℕ → F64 L} {X : ℕ → ℝ} {e : ℝ} (he : 0 ≤ e)
    (h : ∀ j, j < n / 2 → Near (x j) (X j) e) (hr : ∀ j, j < n → X (n - 1 - j) = -X j) {j : ℕ} (hj : j < n) :
    Near (mirrorFn n x (fun y => -y) (Arith.lit 0) j) (X j) e := by
  unfold mirrorFn
  split_ifs with h1 h2
  · exact h j h1
  · have := hr j hj
    rw [show n - 1 - j = j by omega] at this
    rw [show X j = 0 by linarith]
    exact near_lit_zero.mono he
  · have h3 := (h (n - 1 - j) (by omega)).neg
    rw [hr j hj, neg_neg] at h3
    exact h3

theorem near_mirror_id {n : ℕ} {w : ℕ → F64 L} {c : F64 L} {W : ℕ → ℝ} {e : ℝ}
    (h : ∀ j, j < n / 2 → Near (w j) (W j) e) (hr : ∀ j, j < n → W (n - 1 - j) = W j)
    (hc : n % 2 = 1 → Near c (W (n / 2)) e) {j : ℕ} (hj : j < n) :
    Near (mirrorFn n w id c j) (W j) e := by
  unfold mirrorFn
  split_ifs with h1 h2
  · exact h j h1
  · rw [h2.2]
    exact hc h2.1
  · have h3 := h (n - 1 - j) (by omega)
    rw [hr j hj] at h3
    exact h3

/-! ## Distances of exact nodes -/

/-- Sine in the middle of the interval. -/
theorem sin_ge {t d : ℝ} (hd : 0 ≤ d) (h1 : d ≤ t) (h2 : t ≤ π - d) : 2 / π * d ≤ sin t := by
  rcases le_total t (π / 2) with h | h
  · have := mul_le_sin (x := t) (by linarith) h
    have hp := pi_pos
    have : 2 / π * d ≤ 2 / π * t := by gcongr
    linarith
  · have := mul_le_sin (x := π - t) (by linarith) (by linarith)
    rw [sin_pi_sub] at this
    have hp := pi_pos
    have : 2 / π * d ≤ 2 / π * (π - t) := by gcongr; linarith
    linarith

/-- Cosines of angles at distance `d` that keep away from 0 and `π` by `d/2`. -/
theorem cos_spacing {s t d : ℝ} (hd : 0 < d) (h1 : d / 2 ≤ s) (h2 : s + d ≤ t) (h3 : t + d / 2 ≤ π) :
    2 * d ^ 2 / π ^ 2 ≤ cos s - cos t := by
  have hp := pi_pos
  have e : cos s - cos t = 2 * sin ((s + t) / 2) * sin ((t - s) / 2) := by
    rw [cos_sub_cos, show (s - t) / 2 = -((t - s) / 2) by ring, sin_neg]
    ring
  rw [e]
  have a1 : 2 / π * d ≤ sin ((s + t) / 2) := sin_ge hd.le (by linarith) (by linarith)
  have a2 : 2 / π * (d / 2) ≤ sin ((t - s) / 2) := sin_ge (by linarith) (by linarith) (by linarith)
  have h5 : (2 / π * d) * (2 / π * (d / 2)) ≤ sin ((s + t) / 2) * sin ((t - s) / 2) :=
    mul_le_mul a1 a2 (by positivity) (le_trans (by positivity) a1)
  have e2 : (2 / π * d) * (2 / π * (d / 2)) = 2 * d ^ 2 / π ^ 2 := by
    field_simp
  rw [e2] at h5
  have : 0 ≤ sin ((s + t) / 2) * sin ((t - s) / 2) := le_trans (by positivity) h5
  linarith

theorem cos_lt {t d : ℝ} (hd : 0 ≤ d) (h1 : d / 2 ≤ t) (h3 : t ≤ π) : cos t ≤ 1 - d ^ 2 / (2 * π ^ 2) := by
  have hp := pi_pos
  have a1 : 2 / π * (d / 4) ≤ sin (t / 2) := sin_ge (by linarith) (by linarith) (by linarith)
  have a2 : (2 / π * (d / 4)) ^ 2 ≤ sin (t / 2) ^ 2 := by gcongr
  have e : cos t = 1 - 2 * sin (t / 2) ^ 2 := by
    have := cos_two_mul (t / 2)
    rw [show 2 * (t / 2) = t by ring] at this
    nlinarith [sin_sq_add_cos_sq (t / 2)]
  have e2 : d ^ 2 / (2 * π ^ 2) = 2 * (2 / π * (d / 4)) ^ 2 := by
    field_simp
    ring
  linarith

/-! ## Lists -/

theorem doubles_of_near {n : ℕ} {x : ℕ → F64 L} {X : ℕ → ℝ} {e : ℝ} (h : ∀ j, j < n → Near (x j) (X j) e) :
    ∃ v : ℕ → ℝ, (∀ j, j < n → |v j - X j| ≤ e) ∧
      Doubles ((List.range n).map x) ((List.range n).map v) ∧
      Within e ((List.range n).map v) ((List.range n).map X) := by
  choose! v hv using h
  refine ⟨v, fun j hj => (hv j hj).2.2, ⟨?_, ?_⟩, ?_⟩
  · rw [List.map_map]
    exact List.map_congr_left (fun j hj => (hv j (List.mem_range.1 hj)).1)
  · intro y hy
    obtain ⟨j, hj, rfl⟩ := List.mem_map.1 hy
    exact (hv j (List.mem_range.1 hj)).2.1
  · unfold Within
    rw [List.forall₂_map_left_iff, List.forall₂_map_right_iff, List.forall₂_same]
    exact fun j hj => (hv j (List.mem_range.1 hj)).2.2

/-- What the two rules have in common. -/
theorem cheb_double {n : ℕ} {x w : ℕ → F64 L} {A : ℕ → ℝ} {d D : ℝ} (hd : 0 < d) (hd2 : 2⁻¹ ^ 41 ≤ d ^ 2 / π ^ 2)
    (hx : ∀ j, j < n → Near (x j) (cos (A j)) (32 * uro))
    (hw : ∀ j, j < n → Near (w j) (D * sin (A j)) (240 * uro))
    (hgap : ∀ i j, i < j → j < n → A j + d ≤ A i)
    (hlo : ∀ j, j < n → d / 2 ≤ A j) (hhi : ∀ j, j < n → A j + d / 2 ≤ π)
    (hpos : ∀ j, j < n → 2⁻¹ ^ 44 ≤ D * sin (A j)) :
    ∃ xs ws, Doubles ((List.range n).map x) xs ∧ Doubles ((List.range n).map w) ws ∧
      xs.Pairwise (· < ·) ∧ (∀ y ∈ xs, -1 < y ∧ y < 1) ∧ (∀ y ∈ ws, 0 < y) ∧
      Within (2⁻¹ ^ 48) xs ((List.range n).map fun j => cos (A j)) ∧
      Within (2⁻¹ ^ 45) ws ((List.range n).map fun j => D * sin (A j)) := by
  have hu2 : uro = 1 / 9007199254740992 := uro_eq
  obtain ⟨v, hv, hv1, hv2⟩ := doubles_of_near hx
  obtain ⟨z, hz, hz1, hz2⟩ := doubles_of_near hw
  refine ⟨_, _, hv1, hz1, ?_, ?_, ?_, ?_, ?_⟩
  · rw [List.pairwise_map]
    refine (List.pairwise_lt_range).imp_of_mem ?_
    intro i j hi hj hij
    have hi' := List.mem_range.1 hi
    have hj' := List.mem_range.1 hj
    have h1 := cos_spacing hd (hlo j hj') (hgap i j hij hj') (hhi i hi')
    have h2 := (abs_le.1 (hv i hi')).2
    have h3 := (abs_le.1 (hv j hj')).1
    rw [mul_div_assoc] at h1
    rw [hu2] at h2 h3
    norm_num at hd2 h2 h3
    linarith
  · intro y hy
    obtain ⟨j, hj, rfl⟩ := List.mem_map.1 hy
    have hj' := List.mem_range.1 hj
    have h1 := cos_lt hd.le (hlo j hj') (by linarith [hhi j hj'])
    have h2 := cos_lt (t := π - A j) hd.le (by linarith [hhi j hj']) (by linarith [hlo j hj'])
    rw [cos_pi_sub] at h2
    have h3 := abs_le.1 (hv j hj')
    have e : d ^ 2 / (2 * π ^ 2) = d ^ 2 / π ^ 2 / 2 := by rw [div_div, mul_comm]
    rw [e] at h1 h2
    rw [hu2] at h3
    norm_num at hd2 h3
    constructor <;> linarith
  · intro y hy
    obtain ⟨j, hj, rfl⟩ := List.mem_map.1 hy
    have hj' := List.mem_range.1 hj
    have h1 := hpos j hj'
    have h3 := (abs_le.1 (hz j hj')).1
    rw [hu2] at h3
    norm_num at h1 h3
    linarith
  · refine List.Forall₂.imp (fun a b h => h.trans ?_) hv2
    rw [hu2]
    norm_num
  · refine List.Forall₂.imp (fun a b h => h.trans ?_) hz2
    rw [hu2]
    norm_num

/-! ## GaussChebyshev2 -/

theorem gc2_step {n : ℕ} (hn : n ≤ 1048576) :
    Rel (Arith.pi / Arith.ofNat (n + 1) : F64 L) (π / (n + 1)) 4 := by
  have hn' : (n : ℝ) ≤ 1048576 := by exact_mod_cast hn
  have h := Rel.div (rel_pi (L := L)) (rel_nat (L := L) (n := n + 1) (by omega)) (by norm_num) (by norm_num)
    le_rfl (by norm_num) (by positivity) (mid_of ?_ ?_)
  · refine Rel.mono (x := π / (n + 1)) ?_ (by norm_num : (2 : ℝ) + 0 + 2 ≤ 4)
    have e : ((n + 1 : ℕ) : ℝ) = n + 1 := by push_cast; rfl
    rwa [e] at h
  · have := pi_gt_three
    push_cast
    rw [le_div_iff₀ (by positivity)]
    norm_num
    linarith
  · have := pi_le_four
    push_cast
    rw [div_le_iff₀ (by positivity)]
    have : (0 : ℝ) ≤ n := by positivity
    norm_num
    linarith

theorem gc2_node (hL : L.Accurate) {n j : ℕ} (hn : n ≤ 1048576) (hj : j < n) :
    Near (gc2X (F64 L) n j) (cos (gc2A n j)) (32 * uro) := by
  have hn' : (n : ℝ) ≤ 1048576 := by exact_mod_cast hn
  have hA := gc2A_pos hj
  have hA2 := gc2A_lt (n := n) (j := j)
  have e : ((n - j : ℕ) : ℝ) * (π / (n + 1)) = gc2A n j := by unfold gc2A; ring
  have h := Rel.mul (rel_nat (L := L) (n := n - j) (by omega)) (gc2_step (L := L) hn) le_rfl (by norm_num)
    (by norm_num) (by norm_num) (mid_of ?_ ?_)
  · rw [e] at h
    have h2 := h.near (B := 3.15) (by norm_num) (by
      rw [abs_of_pos hA]
      linarith [pi_lt_d2])
    refine (Near.cos hL (h2.mono (f := 19 * uro) ?_) ?_).mono ?_
    · have := uro_pos
      linarith
    · rw [uro_eq]
      norm_num
    · have := uro_pos
      linarith
  · have h1 : (1 : ℝ) ≤ ((n - j : ℕ) : ℝ) := by exact_mod_cast (by omega : 1 ≤ n - j)
    have h2 : 2⁻¹ ^ 200 ≤ π / (n + 1) := by
      have := pi_gt_three
      rw [le_div_iff₀ (by positivity)]
      norm_num
      linarith
    calc (2⁻¹ : ℝ) ^ 200 ≤ 1 * (π / (n + 1)) := by rw [one_mul]; exact h2
      _ ≤ _ := by gcongr
  · rw [e]
    have := pi_le_four
    norm_num
    linarith

theorem gc2_sin {n j : ℕ} (hj : j < n) : 2 / (n + 1) ≤ sin (gc2A n j) := by
  have hp := pi_pos
  have h := sin_ge (t := gc2A n j) (d := π / (n + 1)) (by positivity) (by
      unfold gc2A
      have h1 : (1 : ℝ) ≤ ((n - j : ℕ) : ℝ) := by exact_mod_cast (by omega : 1 ≤ n - j)
      gcongr
      nlinarith) (by
      have h1 := gc2A_reflect hj
      have h2 : π / (n + 1) ≤ gc2A n (n - 1 - j) := by
        unfold gc2A
        have h1 : (1 : ℝ) ≤ ((n - (n - 1 - j) : ℕ) : ℝ) := by
          exact_mod_cast (by omega : 1 ≤ n - (n - 1 - j))
        gcongr
        nlinarith
      linarith)
  refine le_trans (le_of_eq ?_) h
  field_simp

theorem gc2_weight (hL : L.Accurate) {n j : ℕ} (hn : n ≤ 1048576) (hj : j < n) :
    Near (gc2W (F64 L) n j) (π / (n + 1) * sin (gc2A n j)) (240 * uro) := by
  have hn' : (n : ℝ) ≤ 1048576 := by exact_mod_cast hn
  have hn1 : (1 : ℝ) ≤ n := by exact_mod_cast (by omega : 1 ≤ n)
  have hs := gc2_sin hj
  have hp := pi_pos
  refine weight_near (gc2_step hn) (gc2_node hL hn hj) (by positivity) ?_ ?_ ?_
  · rw [div_le_iff₀ (by positivity)]
    linarith [pi_le_four]
  · refine le_trans ?_ (mul_le_mul_of_nonneg_left hs (by norm_num : (0 : ℝ) ≤ 3.15))
    rw [← mul_div_assoc]
    gcongr
    linarith [pi_le_four]
  · refine le_trans ?_ hs
    rw [le_div_iff₀ (by positivity)]
    norm_num
    linarith

/-! ## GaussChebyshev1 -/

theorem gc1_step {n : ℕ} (hn0 : 0 < n) (hn : n ≤ 1048576) : Rel (Arith.pi / Arith.ofNat n : F64 L) (π / n) 4 := by
  have hn' : (n : ℝ) ≤ 1048576 := by exact_mod_cast hn
  have hn1 : (1 : ℝ) ≤ n := by exact_mod_cast hn0
  have h := Rel.div (rel_pi (L := L)) (rel_nat (L := L) (n := n) (by omega)) (by norm_num) (by norm_num)
    le_rfl (by norm_num) (by positivity) (mid_of ?_ ?_)
  · exact h.mono (by norm_num)
  · have := pi_gt_three
    rw [le_div_iff₀ (by positivity)]
    norm_num
    linarith
  · have := pi_le_four
    rw [div_le_iff₀ (by positivity)]
    norm_num
    linarith

theorem lit_two_eq : (Arith.lit 2 : F64 L) = F64.fin 2 ∧ IsF64 2 := by
  have h := of_exact (L := L) (z := 2) (by
    have := rnd_nat (n := 2) (by norm_num)
    exact_mod_cast this) (by norm_num)
  refine ⟨?_, h.2⟩
  rw [← h.1]
  show F64.of _ = F64.of _
  norm_num

theorem rel_lit_two : Rel (Arith.lit 2 : F64 L) 2 0 := by
  rw [lit_two_eq.1]
  refine ⟨2, rfl, (lit_two_eq (L := L)).2, by simp⟩

/-- `2.0 * i - 1.0` is exact. -/
theorem gc1_odd {i : ℕ} (h1 : 1 ≤ i) (h2 : i ≤ 1048576) :
    Rel (Arith.lit 2 * Arith.ofNat i - Arith.lit 1 : F64 L) (2 * i - 1) 0 := by
  have h3 : (i : ℝ) ≤ 1048576 := by exact_mod_cast h2
  have h4 : (1 : ℝ) ≤ i := by exact_mod_cast h1
  have e1 : (Arith.ofNat i : F64 L) = F64.fin i := by
    refine (of_exact (rnd_nat (by omega)) ?_).1
    rw [Nat.abs_cast]
    refine h3.trans (by norm_num)
  have e2 : (Arith.lit 1 : F64 L) = F64.fin 1 := by
    have := (of_exact (L := L) rnd_one (by norm_num)).1
    rw [← this]
    show F64.of _ = F64.of _
    norm_num
  have e3 : (F64.of (2 * i) : F64 L) = F64.fin (2 * i) := by
    refine (of_exact ?_ ?_).1
    · have := rnd_nat (n := 2 * i) (by omega)
      push_cast at this
      exact this
    · rw [abs_of_pos (by positivity)]
      norm_num
      linarith
  rw [e1, e2, lit_two_eq.1, F64.fin_mul, e3, F64.fin_sub]
  refine rel_exact ?_ ?_
  · have := rnd_nat (n := 2 * i - 1) (by omega)
    rw [Nat.cast_sub (by omega)] at this
    push_cast at this
    exact this
  · rw [abs_of_pos (by linarith)]
    norm_num
    linarith

theorem gc1_node (hL : L.Accurate) {n j : ℕ} (hn : n ≤ 1048576) (hj : j < n) :
    Near (gc1X (F64 L) n j) (cos (gc1A n j)) (32 * uro) := by
  have hn' : (n : ℝ) ≤ 1048576 := by exact_mod_cast hn
  have hn1 : (1 : ℝ) ≤ n := by exact_mod_cast (by omega : 1 ≤ n)
  have hA := gc1A_pos hj
  have hA2 := gc1A_lt hj
  have hp := pi_gt_three
  have hp' := pi_le_four
  have i1 : (1 : ℝ) ≤ ((n - j : ℕ) : ℝ) := by exact_mod_cast (by omega : 1 ≤ n - j)
  have h0 := Rel.div (gc1_step (L := L) (by omega) hn) rel_lit_two (by norm_num) (by norm_num)
    le_rfl (by norm_num) (by norm_num) (mid_of ?_ ?_)
  · have h := Rel.mul (gc1_odd (L := L) (i := n - j) (by omega) (by omega)) h0 le_rfl (by norm_num)
      (by norm_num) (by norm_num) (mid_of ?_ ?_)
    · have e : (2 * ((n - j : ℕ) : ℝ) - 1) * (π / n / 2) = gc1A n j := by
        unfold gc1A
        rw [Nat.cast_sub hj.le, Nat.cast_sub (by omega), Nat.cast_sub (by omega)]
        field_simp
        push_cast
        ring
      rw [e] at h
      have h2 := h.near (B := 3.15) (by norm_num) (by
        rw [abs_of_pos hA]
        linarith [pi_lt_d2])
      refine (Near.cos hL (h2.mono (f := 26 * uro) ?_) ?_).mono ?_
      · have := uro_pos
        linarith
      · rw [uro_eq]
        norm_num
      · have := uro_pos
        linarith
    · have h2 : (2⁻¹ : ℝ) ^ 200 ≤ π / n / 2 := by
        rw [div_div, le_div_iff₀ (by positivity)]
        norm_num
        linarith
      calc (2⁻¹ : ℝ) ^ 200 ≤ 1 * (π / n / 2) := by rw [one_mul]; exact h2
        _ ≤ _ := by
          gcongr
          linarith
    · have h5 : ((n - j : ℕ) : ℝ) ≤ n := by exact_mod_cast (by omega : n - j ≤ n)
      calc (2 * ((n - j : ℕ) : ℝ) - 1) * (π / n / 2) ≤ (2 * n) * (π / n / 2) := by
            gcongr
            linarith
        _ = π := by field_simp
        _ ≤ _ := hp'.trans (by norm_num)
  · rw [div_div, le_div_iff₀ (by positivity)]
    norm_num
    linarith
  · rw [div_div, div_le_iff₀ (by positivity)]
    norm_num
    linarith

theorem gc1_half {n j : ℕ} (hj : j < n) : π / n / 2 ≤ gc1A n j ∧ gc1A n j + π / n / 2 ≤ π := by
  have hp := pi_pos
  have hn1 : (0 : ℝ) < n := by exact_mod_cast (by omega : 0 < n)
  have key : ∀ j, j < n → π / n / 2 ≤ gc1A n j := by
    intro j hj
    unfold gc1A
    have h1 : (0 : ℝ) ≤ ((n - 1 - j : ℕ) : ℝ) := by positivity
    have e : π / n / 2 = 1 / (2 * n) * π := by field_simp
    rw [e]
    gcongr
    linarith
  have h2 := key (n - 1 - j) (by omega)
  rw [gc1A_reflect hj] at h2
  exact ⟨key j hj, by linarith⟩

theorem gc1_sin {n j : ℕ} (hj : j < n) : 1 / n ≤ sin (gc1A n j) := by
  have hp := pi_pos
  have hn1 : (0 : ℝ) < n := by exact_mod_cast (by omega : 0 < n)
  obtain ⟨h1, h2⟩ := gc1_half hj
  have h := sin_ge (t := gc1A n j) (d := π / n / 2) (by positivity) h1 (by linarith)
  refine le_trans (le_of_eq ?_) h
  field_simp

theorem gc1_weight (hL : L.Accurate) {n j : ℕ} (hn : n ≤ 1048576) (hn2 : 2 ≤ n) (hj : j < n) :
    Near (gc1W (F64 L) n j) (π / n * sin (gc1A n j)) (240 * uro) := by
  have hn' : (n : ℝ) ≤ 1048576 := by exact_mod_cast hn
  have hn1 : (2 : ℝ) ≤ n := by exact_mod_cast hn2
  have hs := gc1_sin hj
  have hp := pi_pos
  refine weight_near (gc1_step (by omega) hn) (gc1_node hL hn hj) (by positivity) ?_ ?_ ?_
  · rw [div_le_iff₀ (by positivity)]
    linarith [pi_le_four]
  · refine le_trans ?_ (mul_le_mul_of_nonneg_left hs (by norm_num : (0 : ℝ) ≤ 3.15))
    rw [← mul_div_assoc, mul_one]
    gcongr
    linarith [pi_lt_d2]
  · refine le_trans ?_ hs
    rw [le_div_iff₀ (by positivity)]
    norm_num
    linarith

/-! ## The rules -/

theorem gc1_double (hL : L.Accurate) {n : ℕ} (hn : n ≤ 1048576) :
    ∃ xs ws, Doubles ((List.range n).map (mirrorFn n (gc1X (F64 L) n) (fun x => -x) (Arith.lit 0))) xs ∧
      Doubles ((List.range n).map (mirrorFn n (gc1W (F64 L) n) id (Arith.pi / Arith.ofNat n))) ws ∧
      xs.Pairwise (· < ·) ∧ (∀ y ∈ xs, -1 < y ∧ y < 1) ∧ (∀ y ∈ ws, 0 < y) ∧
      Within (2⁻¹ ^ 48) xs ((List.range n).map fun j => cos (gc1A n j)) ∧
      Within (2⁻¹ ^ 45) ws ((List.range n).map fun j => π / n * sin (gc1A n j)) := by
  rcases Nat.eq_zero_or_pos n with rfl | hn0
  · refine ⟨[], [], ⟨rfl, by simp⟩, ⟨rfl, by simp⟩, by simp, by simp, by simp, List.Forall₂.nil,
      List.Forall₂.nil⟩
  have hn' : (n : ℝ) ≤ 1048576 := by exact_mod_cast hn
  have hn1 : (1 : ℝ) ≤ n := by exact_mod_cast hn0
  have hp := pi_pos
  refine cheb_double (d := π / n) (by positivity) ?_ (fun j hj => near_mirror (X := fun j => cos (gc1A n j))
    (by have := uro_pos; positivity) (fun j hj => gc1_node hL hn (by omega)) (fun j hj => by
      rw [gc1A_reflect hj, cos_pi_sub]) hj)
    (fun j hj => near_mirror_id (W := fun j => π / n * sin (gc1A n j))
      (fun j hj => gc1_weight hL hn (by omega) (by omega))
      (fun j hj => by rw [gc1A_reflect hj, sin_pi_sub]) (fun h => ?_) hj) ?_
    (fun j hj => (gc1_half hj).1) (fun j hj => (gc1_half hj).2) ?_
  · rw [div_pow, div_div, mul_comm, ← div_div, div_self (by positivity)]
    rw [le_div_iff₀ (by positivity)]
    have : (n : ℝ) ^ 2 ≤ 1048576 ^ 2 := by gcongr
    norm_num at this ⊢
    linarith
  · rw [gc1A_mid h, sin_pi_div_two, mul_one]
    refine ((gc1_step (L := L) hn0 hn).near (B := 4) (by norm_num) ?_).mono ?_
    · rw [abs_of_pos (by positivity), div_le_iff₀ (by positivity)]
      linarith [pi_le_four]
    · have := uro_pos
      linarith
  · intro i j hij hj
    have e : gc1A n i - gc1A n j = ((j : ℝ) - i) * (π / n) := by
      unfold gc1A
      have c : ∀ k, k < n → ((n - 1 - k : ℕ) : ℝ) = n - 1 - k := by
        intro k hk
        rw [Nat.cast_sub (by omega), Nat.cast_sub (by omega)]
        norm_num
      rw [c i (by omega), c j hj]
      field_simp
      ring
    have h1 : (1 : ℝ) ≤ (j : ℝ) - i := by
      have : ((i + 1 : ℕ) : ℝ) ≤ j := by exact_mod_cast hij
      push_cast at this
      linarith
    have h2 : 1 * (π / n) ≤ ((j : ℝ) - i) * (π / n) := by gcongr
    linarith
  · intro j hj
    have h1 : π / n * (1 / n) ≤ π / n * sin (gc1A n j) := by
      gcongr
      exact gc1_sin hj
    refine le_trans ?_ h1
    rw [← mul_div_assoc, mul_one, div_div, le_div_iff₀ (by positivity)]
    have : (n : ℝ) * n ≤ 1048576 * 1048576 := by gcongr
    have := pi_gt_three
    norm_num at *
    linarith

theorem gc2_double (hL : L.Accurate) {n : ℕ} (hn : n ≤ 1048576) :
    ∃ xs ws, Doubles ((List.range n).map (mirrorFn n (gc2X (F64 L) n) (fun x => -x) (Arith.lit 0))) xs ∧
      Doubles ((List.range n).map (mirrorFn n (gc2W (F64 L) n) id (Arith.pi / Arith.ofNat (n + 1)))) ws ∧
      xs.Pairwise (· < ·) ∧ (∀ y ∈ xs, -1 < y ∧ y < 1) ∧ (∀ y ∈ ws, 0 < y) ∧
      Within (2⁻¹ ^ 48) xs ((List.range n).map fun j => cos (gc2A n j)) ∧
      Within (2⁻¹ ^ 45) ws ((List.range n).map fun j => π / (n + 1) * sin (gc2A n j)) := by
  have hn' : (n : ℝ) ≤ 1048576 := by exact_mod_cast hn
  have hn0 : (0 : ℝ) ≤ n := by positivity
  have hp := pi_pos
  have hA : ∀ j, j < n → π / (n + 1) ≤ gc2A n j := by
    intro j hj
    unfold gc2A
    have h1 : (1 : ℝ) ≤ ((n - j : ℕ) : ℝ) := by exact_mod_cast (by omega : 1 ≤ n - j)
    gcongr
    nlinarith
  refine cheb_double (d := π / (n + 1)) (by positivity) ?_
    (fun j hj => near_mirror (X := fun j => cos (gc2A n j))
    (by have := uro_pos; positivity) (fun j hj => gc2_node hL hn (by omega)) (fun j hj => by
      rw [gc2A_reflect hj, cos_pi_sub]) hj)
    (fun j hj => near_mirror_id (W := fun j => π / (n + 1) * sin (gc2A n j))
      (fun j hj => gc2_weight hL hn (by omega))
      (fun j hj => by rw [gc2A_reflect hj, sin_pi_sub]) (fun h => ?_) hj) ?_
    (fun j hj => ?_) (fun j hj => ?_) ?_
  · rw [div_pow, div_div, mul_comm, ← div_div, div_self (by positivity)]
    rw [le_div_iff₀ (by positivity)]
    have : ((n : ℝ) + 1) ^ 2 ≤ (1048576 + 1) ^ 2 := by gcongr
    norm_num at this ⊢
    linarith
  · rw [gc2A_mid h, sin_pi_div_two, mul_one]
    refine ((gc2_step (L := L) hn).near (B := 4) (by norm_num) ?_).mono ?_
    · rw [abs_of_pos (by positivity), div_le_iff₀ (by positivity)]
      linarith [pi_le_four]
    · have := uro_pos
      linarith
  · intro i j hij hj
    have e : gc2A n i - gc2A n j = ((j : ℝ) - i) * (π / (n + 1)) := by
      unfold gc2A
      rw [Nat.cast_sub (by omega), Nat.cast_sub (by omega)]
      field_simp
      ring
    have h1 : (1 : ℝ) ≤ (j : ℝ) - i := by
      have : ((i + 1 : ℕ) : ℝ) ≤ j := by exact_mod_cast hij
      push_cast at this
      linarith
    have h2 : 1 * (π / (n + 1)) ≤ ((j : ℝ) - i) * (π / (n + 1)) := by gcongr
    linarith
  · have := hA j hj
    have : 0 < π / (n + 1) := by positivity
    linarith
  · have := hA (n - 1 - j) (by omega)
    rw [gc2A_reflect hj] at this
    have : 0 < π / (n + 1) := by positivity
    linarith
  · intro j hj
    have h1 : π / (n + 1) * (2 / (n + 1)) ≤ π / (n + 1) * sin (gc2A n j) := by
      gcongr
      exact gc2_sin hj
    refine le_trans ?_ h1
    rw [← mul_div_assoc, div_mul_eq_mul_div, div_div, le_div_iff₀ (by positivity)]
    have : ((n : ℝ) + 1) * (n + 1) ≤ (1048576 + 1) * (1048576 + 1) := by gcongr
    have := pi_gt_three
    norm_num at *
    linarith

end IntegratorXX
