import Verif.Lemmas.GaussApprox
import Verif.Prop.FloatLobatto

/-!
# GaussLegendre and GaussLobatto on functions which are not polynomials (C96)

In exact arithmetic and in `double`.
-/

namespace IntegratorXX

open Spec Polynomial Real

private theorem gl_exact {n : ℕ} (h1 : 1 ≤ n) (p : ℝ[X]) (hp : p.degree < (2 * n : ℕ)) :
    ∑ j ∈ Finset.range n, glOm n (glXi n j) * p.eval (glXi n j) = ∫ t in (-1 : ℝ)..1, p.eval t := by
  show _ = polyInt p
  rw [gauss_legendre_exact n h1 p hp]
  exact (sum_glXi n (fun x => glOm n x * p.eval x)).symm

private theorem lob_exact {m : ℕ} (hm : 1 ≤ m) (p : ℝ[X]) (hp : p.degree < (2 * m : ℕ)) :
    ∑ j ∈ Finset.range (m + 1), lobOm m (lobXi m j) * p.eval (lobXi m j) = ∫ t in (-1 : ℝ)..1, p.eval t := by
  show _ = polyInt p
  rw [gauss_lobatto_exact m hm p hp]
  exact (sum_lobXi hm (fun x => lobOm m x * p.eval x)).symm

private theorem gaussError_mono {m : ℕ} {a b a' b' : ℝ} {xs ws : List ℝ} (h : GaussError m a b xs ws) (ha : a ≤ a')
    (hb : b ≤ b') : GaussError m a' b' xs ws := by
  intro f K M hK hM
  have hK0 : 0 ≤ K := by
    have := (abs_nonneg _).trans (hK 1 (by norm_num) 0 (by norm_num))
    rw [sub_zero, abs_one] at this
    linarith
  have hM0 : 0 ≤ M := (abs_nonneg _).trans (hM 0 (by norm_num))
  have g1 := mul_le_mul_of_nonneg_right ha hK0
  have g2 := mul_le_mul_of_nonneg_right hb hM0
  obtain ⟨h1, h2⟩ := h f K M hK hM
  exact ⟨fun p δ hp hδ => (h1 p δ hp hδ).trans (by linarith), h2.trans (by linarith)⟩

/-- **C96.**  GaussLegendre, exact arithmetic. -/
theorem C96_gauss_legendre (b : Build) (npts : ℕ) (h1 : 1 ≤ npts) (hn : npts ≤ 2 ^ 20) :
    ∃ x w : List ℝ, construct b (gaussLegendre npts : Outcome (List XReal × List XReal)) =
        .ok ⟨x.map .fin, w.map .fin⟩ ∧
      GaussError (2 * npts) (3 * 2⁻¹ ^ 52) (8 * (npts + 1) ^ 2 * 2⁻¹ ^ 52) x w := by
  obtain ⟨x, w, hrule, h⟩ := gl_rule npts
  refine ⟨(List.range npts).map x, (List.range npts).map w, ?_, ?_⟩
  · rw [hrule, construct_ok b (by simp), List.map_map, List.map_map]; rfl
  exact gaussError_mono (gaussError_of_near npts (2 * npts) (by omega) (glXi npts) (fun j => glOm npts (glXi npts j)) x w
    (3 / 2 * 2⁻¹ ^ 52) (4 * (npts + 1) ^ 2 * 2⁻¹ ^ 52)
    (fun j hj => (abs_lt.2 (legendre_root_mem npts _ (glXi_root hj))).le)
    (fun j hj => (h j hj).2.1.le) (fun j hj => (h j hj).1) (fun j hj => (glOm_pos hj).le)
    (fun j hj => (h j hj).2.2.2 hn) (gl_exact h1)) (by linarith) (by linarith)

/-- **C96.**  GaussLobatto, exact arithmetic. -/
theorem C96_gauss_lobatto (b : Build) (npts : ℕ) (h2 : 2 ≤ npts) (hn : npts ≤ 2 ^ 20) :
    ∃ x w : List ℝ, construct b (gaussLobatto npts : Outcome (List XReal × List XReal)) =
        .ok ⟨x.map .fin, w.map .fin⟩ ∧
      GaussError (2 * npts - 2) (3 * 2⁻¹ ^ 52) (4 * npts ^ 2 * 2⁻¹ ^ 52) x w := by
  obtain ⟨m, rfl⟩ : ∃ m, npts = m + 1 := ⟨npts - 1, by omega⟩
  have hm : 1 ≤ m := by omega
  obtain ⟨x, w, hrule, -, -, -, -, -, h⟩ := lob_rule hm (by unfold sizeMod; omega)
  refine ⟨(List.range (m + 1)).map x, (List.range (m + 1)).map w, ?_, ?_⟩
  · rw [hrule, construct_ok b (by simp), List.map_map, List.map_map]; rfl
  rw [show 2 * (m + 1) - 2 = 2 * m by omega]
  exact gaussError_mono (gaussError_of_near (m + 1) (2 * m) (by omega) (lobXi m) (fun j => lobOm m (lobXi m j)) x w
    (3 / 2 * 2⁻¹ ^ 52) (2 * (m + 1) ^ 2 * 2⁻¹ ^ 52)
    (fun j hj => lobXi_le_one hm (by omega))
    (fun j hj => (h j (by omega)).2.1) (fun j hj => (h j (by omega)).1)
    (fun j hj => (lobOm_pos hm (by omega)).le)
    (fun j hj => (h j (by omega)).2.2.2 (by omega)) (lob_exact hm)) (by linarith) (by push_cast; linarith)

section
variable {L : Libm}

/-- **C96.**  GaussLegendre in `double`. -/
theorem C96_gauss_legendre_double (hL : L.Accurate) (b : Build) (npts : ℕ) (h1 : 1 ≤ npts) (hn : npts ≤ 2 ^ 15) :
    construct b (gaussLegendre npts : Outcome (List (F64 L) × List (F64 L))) =
      .throws (.runtimeError "Gauss-Legendre Newton Iterations Failed to Converge") ∨
    ∃ (q : Quad (F64 L) (F64 L)) (xs ws : List ℝ),
      construct b (gaussLegendre npts) = .ok q ∧ Doubles q.points xs ∧ Doubles q.weights ws ∧
      GaussError (2 * npts) (50 * √(npts : ℝ) * 2⁻¹ ^ 52) (200 * √(npts : ℝ) * (npts + 1) ^ 2 * 2⁻¹ ^ 52) xs ws := by
  have u52 : (2⁻¹ : ℝ) ^ 52 = 2 * uro := by rw [uro_eq]; norm_num
  have hu := uro_pos
  rcases gl_rule_double hL hn with h | ⟨x, w, hrule, -, h⟩
  · left; rw [h]; rfl
  right
  refine ⟨⟨(List.range npts).map (fun j => F64.fin (x j)), (List.range npts).map (fun j => F64.fin (w j))⟩,
    (List.range npts).map x, (List.range npts).map w, ?_, ⟨?_, ?_⟩, ⟨?_, ?_⟩, ?_⟩
  · rw [hrule, construct_ok b (by simp)]
  · rw [List.map_map]; rfl
  · intro y hy
    obtain ⟨j, hj, rfl⟩ := List.mem_map.1 hy
    exact (h j (List.mem_range.1 hj)).1
  · rw [List.map_map]; rfl
  · intro y hy
    obtain ⟨j, hj, rfl⟩ := List.mem_map.1 hy
    exact (h j (List.mem_range.1 hj)).2.1
  · rw [u52]
    have hRu : 0 ≤ √(npts : ℝ) * uro := by positivity
    have hn0 : (0 : ℝ) ≤ npts := Nat.cast_nonneg _
    have hM2 : ((npts : ℝ) + 1 / 2) ^ 2 ≤ (npts + 1) ^ 2 := by nlinarith
    have := mul_le_mul_of_nonneg_left hM2 hRu
    exact gaussError_mono (gaussError_of_near npts (2 * npts) (by omega) (glXi npts)
      (fun j => glOm npts (glXi npts j)) x w (50 * √(npts : ℝ) * uro) (200 * √(npts : ℝ) * (npts + 1 / 2) ^ 2 * uro)
      (fun j hj => (abs_lt.2 (legendre_root_mem npts _ (glXi_root hj))).le)
      (fun j hj => (h j hj).2.2.2.1.le) (fun j hj => (h j hj).2.2.1) (fun j hj => (glOm_pos hj).le)
      (fun j hj => by rw [mul_comm]; exact (h j hj).2.2.2.2) (gl_exact h1)) (by linarith) (by linarith)

/-- **C96.**  GaussLobatto in `double`. -/
theorem C96_gauss_lobatto_double (hL : L.Accurate) (b : Build) (npts : ℕ) (h2 : 2 ≤ npts) (hn : npts ≤ 2 ^ 15) :
    construct b (gaussLobatto npts : Outcome (List (F64 L) × List (F64 L))) =
      .throws (.runtimeError "Gauss-Lobatto Newton Iterations Failed to Converge") ∨
    ∃ (q : Quad (F64 L) (F64 L)) (xs ws : List ℝ),
      construct b (gaussLobatto npts) = .ok q ∧ Doubles q.points xs ∧ Doubles q.weights ws ∧
      GaussError (2 * npts - 2) (60 * √(npts : ℝ) * 2⁻¹ ^ 52) (80 * √(npts : ℝ) * npts ^ 2 * 2⁻¹ ^ 52) xs ws := by
  obtain ⟨m, rfl⟩ : ∃ m, npts = m + 1 := ⟨npts - 1, by omega⟩
  have hm : 1 ≤ m := by omega
  have u52 : (2⁻¹ : ℝ) ^ 52 = 2 * uro := by rw [uro_eq]; norm_num
  have hu := uro_pos
  rcases lob_rule_double hL hm hn with h | ⟨x, w, hrule, x0, xm, hxi, -, h⟩
  · left; rw [h]; rfl
  right
  refine ⟨⟨(List.range (m + 1)).map (fun j => F64.fin (x j)), (List.range (m + 1)).map (fun j => F64.fin (w j))⟩,
    (List.range (m + 1)).map x, (List.range (m + 1)).map w, ?_, ⟨?_, ?_⟩, ⟨?_, ?_⟩, ?_⟩
  · rw [hrule, construct_ok b (by simp)]
  · rw [List.map_map]; rfl
  · intro y hy
    obtain ⟨j, hj, rfl⟩ := List.mem_map.1 hy
    exact (h j (by have := List.mem_range.1 hj; omega)).1
  · rw [List.map_map]; rfl
  · intro y hy
    obtain ⟨j, hj, rfl⟩ := List.mem_map.1 hy
    exact (h j (by have := List.mem_range.1 hj; omega)).2.1
  · rw [u52, show 2 * (m + 1) - 2 = 2 * m by omega]
    push_cast
    have hRu : 0 ≤ √((m : ℝ) + 1) * uro := by positivity
    have hn0 : (0 : ℝ) ≤ m := Nat.cast_nonneg _
    have hM2 : ((m : ℝ) + 1 / 2) ^ 2 ≤ (m + 1) ^ 2 := by nlinarith
    have h3 := mul_le_mul_of_nonneg_left hM2 hRu
    have h4 : 0 ≤ √((m : ℝ) + 1) * uro * (m + 1) ^ 2 := by positivity
    exact gaussError_mono (gaussError_of_near (m + 1) (2 * m) (by omega) (lobXi m) (fun j => lobOm m (lobXi m j)) x w
      (54 * √((m : ℝ) + 1) * uro) (75 * √((m : ℝ) + 1) * (m + 1 / 2) ^ 2 * uro)
      (fun j hj => lobXi_le_one hm (by omega))
      (fun j hj => by
        rcases Nat.eq_zero_or_pos j with rfl | h0
        · rw [x0]; norm_num
        · rcases Nat.lt_or_ge j m with h1 | h1
          · exact (hxi j h0 h1).le
          · rw [show j = m by omega, xm]; norm_num)
      (fun j hj => (h j (by omega)).2.2.1) (fun j hj => (lobOm_pos hm (by omega)).le)
      (fun j hj => by rw [mul_comm]; exact (h j (by omega)).2.2.2) (lob_exact hm)) (by linarith) (by linarith)

end

/-- The conclusion applies to a function that is not a polynomial: the absolute value, with `K = M = 1`. -/
example : (∀ x ∈ Set.Icc (-1 : ℝ) 1, ∀ y ∈ Set.Icc (-1 : ℝ) 1, |(|x|) - (|y|)| ≤ 1 * |x - y|) ∧
    (∀ x ∈ Set.Icc (-1 : ℝ) 1, |(|x|)| ≤ 1) ∧ (1 ≤ 2000) ∧ 2000 ≤ 2 ^ 15 :=
  ⟨fun x _ y _ => by rw [one_mul]; exact abs_abs_sub_abs_le_abs_sub x y, fun x hx => by rw [abs_abs]; exact abs_le.2 hx,
    by norm_num, by norm_num⟩

end IntegratorXX
