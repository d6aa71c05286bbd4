import Verif.Lemmas.PrimitiveForms
import Verif.Lemmas.RuleSum
import Verif.Lemmas.Trig

/-!
# The Chebyshev generators in exact arithmetic
-/

namespace IntegratorXX

open Real

theorem sqrt_one_sub_cos_mul {x : ℝ} (h0 : 0 ≤ x) (h1 : x ≤ π) :
    √(1 - cos x * cos x) = sin x := by
  rw [show 1 - cos x * cos x = sin x ^ 2 by nlinarith [sin_sq_add_cos_sq x]]
  exact sqrt_sq (sin_nonneg_of_nonneg_of_le_pi h0 h1)

/-- Angle of node `j` of GaussChebyshev1. -/
noncomputable def gc1A (n j : ℕ) : ℝ := (2 * ((n - 1 - j : ℕ) : ℝ) + 1) / (2 * n) * π

theorem gc1A_pos {n j : ℕ} (h : j < n) : 0 < gc1A n j := by
  have : (0 : ℝ) < n := by exact_mod_cast (by omega : 0 < n)
  unfold gc1A; positivity

theorem gc1A_lt {n j : ℕ} (h : j < n) : gc1A n j < π := by
  have hn : (0 : ℝ) < n := by exact_mod_cast (by omega : 0 < n)
  have h2 : ((n - 1 - j : ℕ) : ℝ) + 1 ≤ n := by exact_mod_cast (by omega : n - 1 - j + 1 ≤ n)
  unfold gc1A
  have : (2 * ((n - 1 - j : ℕ) : ℝ) + 1) / (2 * n) < 1 := by
    rw [div_lt_one (by positivity)]; linarith
  nlinarith [pi_pos]

theorem gc1A_anti {n i j : ℕ} (hij : i < j) (h : j < n) : gc1A n j < gc1A n i := by
  have hn : (0 : ℝ) < n := by exact_mod_cast (by omega : 0 < n)
  have h2 : ((n - 1 - j : ℕ) : ℝ) < ((n - 1 - i : ℕ) : ℝ) := by exact_mod_cast (by omega)
  unfold gc1A
  have := pi_pos
  gcongr

theorem gc1X_real {n j : ℕ} (h : j < n) : gc1X ℝ n j = cos (gc1A n j) := by
  have hn : (n : ℝ) ≠ 0 := by exact_mod_cast (by omega : n ≠ 0)
  simp only [gc1X, gc1A, Arith.real_cos, Arith.real_lit, Arith.real_ofNat, Arith.real_pi]
  rw [show n - j = (n - 1 - j) + 1 by omega]
  congr 1; push_cast; field_simp; ring

theorem gc1W_real {n j : ℕ} (h : j < n) : gc1W ℝ n j = π / n * sin (gc1A n j) := by
  simp only [gc1W, Arith.real_sqrt, Arith.real_lit, Arith.real_ofNat, Arith.real_pi, gc1X_real h]
  push_cast
  rw [sqrt_one_sub_cos_mul (gc1A_pos h).le (gc1A_lt h).le]

theorem gc1A_reflect {n j : ℕ} (h : j < n) : gc1A n (n - 1 - j) = π - gc1A n j := by
  have hn : (n : ℝ) ≠ 0 := by exact_mod_cast (by omega : n ≠ 0)
  have e : ((n - 1 - j : ℕ) : ℝ) = n - 1 - j := by
    rw [Nat.cast_sub (by omega), Nat.cast_sub (by omega)]; simp
  unfold gc1A
  rw [show n - 1 - (n - 1 - j) = j by omega, e]
  field_simp; ring

theorem gc1A_mid {n : ℕ} (h : n % 2 = 1) : gc1A n (n / 2) = π / 2 := by
  have h0 := gc1A_reflect (n := n) (j := n / 2) (by omega)
  rw [show n - 1 - n / 2 = n / 2 by omega] at h0
  linarith

theorem gc1_real (n : ℕ) (b : Build) :
    construct b (gaussChebyshev1 n : Outcome (List ℝ × List ℝ)) =
      .ok ⟨(List.range n).map (fun j => cos (gc1A n j)),
        (List.range n).map (fun j => π / n * sin (gc1A n j))⟩ := by
  rw [gaussChebyshev1_eq, construct_ok b (by simp)]
  congr 2
  · apply List.map_congr_left
    intro j hj
    have hj : j < n := by simpa using hj
    unfold mirrorFn
    split_ifs with h1 h2
    · exact gc1X_real hj
    · obtain ⟨h2, rfl⟩ := h2
      simp [gc1A_mid h2]
    · rw [gc1X_real (by omega), gc1A_reflect hj, cos_pi_sub]; exact neg_neg _
  · apply List.map_congr_left
    intro j hj
    have hj : j < n := by simpa using hj
    unfold mirrorFn
    split_ifs with h1 h2
    · exact gc1W_real hj
    · obtain ⟨h2, rfl⟩ := h2
      simp [gc1A_mid h2]
    · rw [id, gc1W_real (by omega), gc1A_reflect hj, sin_pi_sub]

/-- Angle of node `j` of GaussChebyshev2 and GaussChebyshev2Modified. -/
noncomputable def gc2A (n j : ℕ) : ℝ := ((n - j : ℕ) : ℝ) * π / (n + 1)

theorem gc2A_pos {n j : ℕ} (h : j < n) : 0 < gc2A n j := by
  have : (0 : ℝ) < ((n - j : ℕ) : ℝ) := by exact_mod_cast (by omega : 0 < n - j)
  unfold gc2A; positivity

theorem gc2A_lt {n j : ℕ} : gc2A n j < π := by
  have hn : (0 : ℝ) < n + 1 := by positivity
  have h2 : ((n - j : ℕ) : ℝ) < n + 1 := by exact_mod_cast (by omega : n - j < n + 1)
  unfold gc2A
  rw [div_lt_iff₀ hn]; nlinarith [pi_pos]

theorem gc2A_anti {n i j : ℕ} (hij : i < j) (h : j < n) : gc2A n j < gc2A n i := by
  have h2 : ((n - j : ℕ) : ℝ) < ((n - i : ℕ) : ℝ) := by exact_mod_cast (by omega)
  unfold gc2A
  have := pi_pos
  gcongr

theorem gc2A_reflect {n j : ℕ} (h : j < n) : gc2A n (n - 1 - j) = π - gc2A n j := by
  have hn : (n : ℝ) + 1 ≠ 0 := by positivity
  unfold gc2A
  rw [show n - (n - 1 - j) = j + 1 by omega, Nat.cast_sub h.le]
  push_cast; field_simp; ring

theorem gc2A_mid {n : ℕ} (h : n % 2 = 1) : gc2A n (n / 2) = π / 2 := by
  have h0 := gc2A_reflect (n := n) (j := n / 2) (by omega)
  rw [show n - 1 - n / 2 = n / 2 by omega] at h0
  linarith

theorem gc2X_real {n j : ℕ} : gc2X ℝ n j = cos (gc2A n j) := by
  simp only [gc2X, gc2A, Arith.real_cos, Arith.real_ofNat, Arith.real_pi]
  congr 1; push_cast; ring

theorem gc2W_real {n j : ℕ} (h : j < n) : gc2W ℝ n j = π / (n + 1) * sin (gc2A n j) := by
  simp only [gc2W, Arith.real_sqrt, Arith.real_lit, Arith.real_ofNat, Arith.real_pi, gc2X_real]
  push_cast
  rw [sqrt_one_sub_cos_mul (gc2A_pos h).le gc2A_lt.le]

theorem gc2_real (n : ℕ) (b : Build) :
    construct b (gaussChebyshev2 n : Outcome (List ℝ × List ℝ)) =
      .ok ⟨(List.range n).map (fun j => cos (gc2A n j)),
        (List.range n).map (fun j => π / (n + 1) * sin (gc2A n j))⟩ := by
  rw [gaussChebyshev2_eq, construct_ok b (by simp)]
  congr 2
  · apply List.map_congr_left
    intro j hj
    have hj : j < n := by simpa using hj
    unfold mirrorFn
    split_ifs with h1 h2
    · exact gc2X_real
    · obtain ⟨h2, rfl⟩ := h2
      simp [gc2A_mid h2]
    · rw [gc2X_real, gc2A_reflect hj, cos_pi_sub]; exact neg_neg _
  · apply List.map_congr_left
    intro j hj
    have hj : j < n := by simpa using hj
    unfold mirrorFn
    split_ifs with h1 h2
    · exact gc2W_real hj
    · obtain ⟨h2, rfl⟩ := h2
      simp [gc2A_mid h2]
    · rw [id, gc2W_real (by omega), gc2A_reflect hj, sin_pi_sub]

/-- Closed form of the node map of GaussChebyshev2Modified. -/
noncomputable def gmap (t : ℝ) : ℝ :=
  1 - 2 * t / π + 2 / π * (1 + 2 / 3 * sin t ^ 2) * cos t * sin t

theorem gc2mT_real {n j : ℕ} : gc2mT ℝ n j = gc2A n j := by
  simp only [gc2mT, gc2A, Arith.real_lit, Arith.real_ofNat, Arith.real_pi]
  push_cast; ring

theorem gc2mX_real {n j : ℕ} : gc2mX ℝ n j = gmap (gc2A n j) := by
  have hn : (n : ℝ) + 1 ≠ 0 := by positivity
  simp only [gc2mX, gc2mT_real, gmap, Arith.real_lit, Arith.real_ofNat, Arith.real_sin,
    Arith.real_cos, Arith.real_twoOverPi]
  rw [gc2A]; have := pi_ne_zero; push_cast; field_simp

theorem gc2mW_real {n j : ℕ} : gc2mW ℝ n j = 16 / (3 * (n + 1)) * sin (gc2A n j) ^ 4 := by
  have hn : (n : ℝ) + 1 ≠ 0 := by positivity
  simp only [gc2mW, gc2mT_real, Arith.real_lit, Arith.real_ofNat, Arith.real_sin]
  push_cast; field_simp

theorem gmap_reflect (t : ℝ) : gmap (π - t) = - gmap t := by
  have := pi_ne_zero
  unfold gmap; rw [sin_pi_sub, cos_pi_sub]; field_simp; ring

theorem gc2m_real (n : ℕ) (b : Build) :
    construct b (gaussChebyshev2Modified n : Outcome (List ℝ × List ℝ)) =
      .ok ⟨(List.range n).map (fun j => gmap (gc2A n j)),
        (List.range n).map (fun j => 16 / (3 * (n + 1)) * sin (gc2A n j) ^ 4)⟩ := by
  have hn : (n : ℝ) + 1 ≠ 0 := by positivity
  rw [gaussChebyshev2Modified_eq, construct_ok b (by simp)]
  congr 2
  · apply List.map_congr_left
    intro j hj
    have hj : j < n := by simpa using hj
    unfold mirrorFn
    split_ifs with h1 h2
    · exact gc2mX_real
    · obtain ⟨h2, rfl⟩ := h2
      rw [gc2A_mid h2]
      have := pi_ne_zero
      simp [gmap]
      field_simp; ring
    · rw [gc2mX_real, gc2A_reflect hj, gmap_reflect]; exact neg_neg _
  · apply List.map_congr_left
    intro j hj
    have hj : j < n := by simpa using hj
    unfold mirrorFn
    split_ifs with h1 h2
    · exact gc2mW_real
    · obtain ⟨h2, rfl⟩ := h2
      rw [gc2A_mid h2]
      simp; field_simp
    · rw [id, gc2mW_real, gc2A_reflect hj, sin_pi_sub]

/-- Angle of node `j` of GaussChebyshev3. -/
noncomputable def gc3A (n j : ℕ) : ℝ :=
  (2 * ((n - 1 - j : ℕ) : ℝ) + 1) / (2 * ((2 * n + 1 : ℕ) : ℝ)) * π

theorem gc3A_pos {n j : ℕ} : 0 < gc3A n j := by
  unfold gc3A; positivity

theorem gc3A_lt {n j : ℕ} (h : j < n) : gc3A n j < π / 2 := by
  have h2 : ((n - 1 - j : ℕ) : ℝ) + 1 ≤ n := by exact_mod_cast (by omega : n - 1 - j + 1 ≤ n)
  have h3 : (0 : ℝ) ≤ n := by positivity
  unfold gc3A
  have : (2 * ((n - 1 - j : ℕ) : ℝ) + 1) / (2 * ((2 * n + 1 : ℕ) : ℝ)) < 1 / 2 := by
    rw [div_lt_iff₀ (by positivity)]; push_cast; linarith
  nlinarith [pi_pos]

theorem gc3A_anti {n i j : ℕ} (hij : i < j) (h : j < n) : gc3A n j < gc3A n i := by
  have h2 : ((n - 1 - j : ℕ) : ℝ) < ((n - 1 - i : ℕ) : ℝ) := by exact_mod_cast (by omega)
  unfold gc3A
  have := pi_pos
  gcongr

theorem gc3X_real {n j : ℕ} (h : j < n) : gc3X ℝ n j = cos (gc3A n j) ^ 2 := by
  simp only [gc3X, gc3A, Arith.real_cos, Arith.real_lit, Arith.real_ofNat, Arith.real_pi]
  rw [show 2 * (n - j) - 1 = 2 * (n - 1 - j) + 1 by omega, ← sq]
  congr 2; push_cast; field_simp

theorem gc3W_real {n j : ℕ} (h : j < n) :
    gc3W ℝ n j = 2 * π / (2 * n + 1) * (cos (gc3A n j) * sin (gc3A n j)) := by
  have h0 := gc3A_pos (n := n) (j := j)
  have h1 := gc3A_lt h
  have hc : 0 < cos (gc3A n j) := cos_pos_of_mem_Ioo ⟨by linarith, h1⟩
  have hs : 0 < sin (gc3A n j) := sin_pos_of_pos_of_lt_pi h0 (by linarith [pi_pos])
  simp only [gc3W, gc3X_real h, Arith.real_lit, Arith.real_ofNat, Arith.real_pi, Arith.real_sqrt]
  push_cast
  have e : (1 - cos (gc3A n j) ^ 2) / cos (gc3A n j) ^ 2 =
      (sin (gc3A n j) / cos (gc3A n j)) ^ 2 := by
    rw [div_pow, sin_sq]
  rw [e, sqrt_sq (by positivity)]
  field_simp

theorem gc3_real (n : ℕ) (b : Build) :
    construct b (gaussChebyshev3 n : Outcome (List ℝ × List ℝ)) =
      .ok ⟨(List.range n).map (fun j => cos (gc3A n j) ^ 2),
        (List.range n).map (fun j =>
          2 * π / (2 * n + 1) * (cos (gc3A n j) * sin (gc3A n j)))⟩ := by
  rw [gaussChebyshev3_eq, construct_ok b (by simp)]
  congr 2
  · apply List.map_congr_left
    intro j hj
    exact gc3X_real (by simpa using hj)
  · apply List.map_congr_left
    intro j hj
    exact gc3W_real (by simpa using hj)

end IntegratorXX
