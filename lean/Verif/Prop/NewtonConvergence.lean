import Verif.Lemmas.NewtonRules

/-!
# C68–C71: the Newton based rules converge for every size, with error bounds

Exact arithmetic with IEEE special values (`XReal`); `2⁻¹ ^ 52` is the `eps` of the loops.
-/

namespace IntegratorXX

open Polynomial Spec

local notation "ε" => (2 : ℝ)⁻¹ ^ 52

/-- **C68.**  `GaussLegendre(npts)` returns for every `npts`: none of its Newton iterations runs
out of steps.  The `i`-th node is within `3/2 eps` of the `i`-th smallest root of `P_npts`, the
nodes lie in `(-1, 1)` and the weights are finite and positive. -/
theorem C68_gauss_legendre_converges (b : Build) (npts : ℕ) :
    ∃ roots : List ℝ, Increasing roots ∧ roots.length = npts ∧
      (∀ x, x ∈ roots ↔ (legendre npts).eval x = 0) ∧
      Returns (construct b (gaussLegendre npts : Outcome (List XReal × List XReal))) (fun q =>
        q.points.length = npts ∧ q.weights.length = npts ∧
        ∀ (i : ℕ) (r : ℝ), roots[i]? = some r → ∃ x w : ℝ,
          q.points[i]? = some (.fin x) ∧ q.weights[i]? = some (.fin w) ∧
          |x - r| ≤ 3 / 2 * ε ∧ |x| < 1 ∧ 0 < w) := by
  obtain ⟨x, w, hrule, h⟩ := gl_rule npts
  refine ⟨(List.range npts).map (glXi npts), increasing_map_range _ _ (fun i j => glXi_lt),
    by simp, fun y => ⟨?_, fun hy => ?_⟩, ?_⟩
  · rintro hy
    obtain ⟨j, hj, rfl⟩ := List.mem_map.1 hy
    exact glXi_root (List.mem_range.1 hj)
  · obtain ⟨j, hj, rfl⟩ := glXi_surj hy
    exact List.mem_map.2 ⟨j, List.mem_range.2 hj, rfl⟩
  · rw [hrule]
    refine ⟨_, construct_ok b (by simp), by simp, by simp, ?_⟩
    intro i r hr
    rw [getElem?_map_range] at hr
    split_ifs at hr with hi
    cases hr
    obtain ⟨h1, h2, h3, -⟩ := h i hi
    refine ⟨x i, w i, ?_, ?_, h1, h2, h3⟩ <;> dsimp only <;> rw [getElem?_map_range, if_pos hi]

/-- Up to a million points the computed nodes are strictly increasing. -/
theorem C68_gauss_legendre_increasing (b : Build) (npts : ℕ) (hn : npts ≤ 2 ^ 20) :
    ∃ x w : List ℝ, construct b (gaussLegendre npts : Outcome (List XReal × List XReal)) =
        .ok ⟨x.map .fin, w.map .fin⟩ ∧ Increasing x := by
  obtain ⟨x, w, hrule, h⟩ := gl_rule npts
  refine ⟨(List.range npts).map x, (List.range npts).map w, ?_, ?_⟩
  · rw [hrule, construct_ok b (by simp), List.map_map, List.map_map]; rfl
  · have step : ∀ i, i + 1 < npts → x i < x (i + 1) := by
      intro i hi
      have h1 := abs_le.1 (h i (by omega)).1
      have h2 := abs_le.1 (h (i + 1) hi).1
      have h3 := glXi_gap hi
      have hn0 : (0 : ℝ) ≤ npts := Nat.cast_nonneg _
      have hp := pow52_le hn0 (by exact_mod_cast hn)
      have he : 4 * ε ≤ 1 / ((npts : ℝ) + 1) ^ 2 := by
        rw [le_div_iff₀ (by positivity)]
        linarith
      have : 0 < ε := by positivity
      linarith
    have mono : ∀ i d, i + (d + 1) < npts → x i < x (i + (d + 1)) := by
      intro i d
      induction d with
      | zero => exact step i
      | succ d ih => intro hd; exact (ih (by omega)).trans (step _ (by omega))
    refine increasing_map_range _ _ (fun i j hij hj => ?_)
    obtain ⟨d, rfl⟩ : ∃ d, j = i + (d + 1) := ⟨j - i - 1, by omega⟩
    exact mono i d hj

/-- **C69.**  `GaussLobatto(npts)` returns for every `npts ≥ 2` (that fits `size_t`): the `i`-th
node is within `3/2 eps` of the `i`-th smallest element of `{-1, 1} ∪ {roots of P'_{npts-1}}`,
the ends being exact; the weights are finite and positive. -/
theorem C69_gauss_lobatto_converges (b : Build) (npts : ℕ) (h2 : 2 ≤ npts) (h64 : npts < 2 ^ 64) :
    ∃ nodes : List ℝ, Increasing nodes ∧ nodes.length = npts ∧
      (∀ x, x ∈ nodes ↔ x = 1 ∨ x = -1 ∨ (derivative (legendre (npts - 1))).eval x = 0) ∧
      Returns (construct b (gaussLobatto npts : Outcome (List XReal × List XReal))) (fun q =>
        q.points.length = npts ∧ q.weights.length = npts ∧
        q.points[0]? = some (.fin (-1)) ∧ q.points[npts - 1]? = some (.fin 1) ∧
        ∀ (i : ℕ) (r : ℝ), nodes[i]? = some r → ∃ x w : ℝ,
          q.points[i]? = some (.fin x) ∧ q.weights[i]? = some (.fin w) ∧
          |x - r| ≤ 3 / 2 * ε ∧ |x| ≤ 1 ∧ 0 < w) := by
  obtain ⟨m, rfl⟩ : ∃ m, npts = m + 1 := ⟨npts - 1, by omega⟩
  have hm : 1 ≤ m := by omega
  rw [Nat.add_sub_cancel]
  obtain ⟨x, w, hrule, hx0, hxm, -, -, -, h⟩ := lob_rule hm (by unfold sizeMod; omega)
  refine ⟨(List.range (m + 1)).map (lobXi m),
    increasing_map_range _ _ (fun i j hij hj => lobXi_lt hij (by omega)),
    by simp, fun y => ⟨?_, fun hy => ?_⟩, ?_⟩
  · rintro hy
    obtain ⟨j, hj, rfl⟩ := List.mem_map.1 hy
    exact lobXi_mem hm (by have := List.mem_range.1 hj; omega)
  · obtain ⟨j, hj, rfl⟩ := lobXi_surj hm hy
    exact List.mem_map.2 ⟨j, List.mem_range.2 (by omega), rfl⟩
  · rw [hrule]
    refine ⟨_, construct_ok b (by simp), by simp, by simp, ?_, ?_, ?_⟩
    · dsimp only
      rw [getElem?_map_range, if_pos (by omega), hx0]
    · dsimp only
      rw [getElem?_map_range, if_pos (by omega), hxm]
    · intro i r hr
      rw [getElem?_map_range] at hr
      split_ifs at hr with hi
      cases hr
      obtain ⟨h1, h2, h3, -⟩ := h i (by omega)
      refine ⟨x i, w i, ?_, ?_, h1, h2, h3⟩ <;> dsimp only <;> rw [getElem?_map_range, if_pos hi]

/-- Up to a million points the computed nodes are strictly increasing. -/
theorem C69_gauss_lobatto_increasing (b : Build) (npts : ℕ) (h2 : 2 ≤ npts) (hn : npts ≤ 2 ^ 20) :
    ∃ x w : List ℝ, construct b (gaussLobatto npts : Outcome (List XReal × List XReal)) =
        .ok ⟨x.map .fin, w.map .fin⟩ ∧ Increasing x := by
  obtain ⟨m, rfl⟩ : ∃ m, npts = m + 1 := ⟨npts - 1, by omega⟩
  have hm : 1 ≤ m := by omega
  obtain ⟨x, w, hrule, hx0, hxm, -, -, hin, h⟩ := lob_rule hm (by unfold sizeMod; omega)
  refine ⟨(List.range (m + 1)).map x, (List.range (m + 1)).map w, ?_, ?_⟩
  · rw [hrule, construct_ok b (by simp), List.map_map, List.map_map]; rfl
  · have step : ∀ i, i + 1 < m + 1 → x i < x (i + 1) := by
      intro i hi
      rcases Nat.eq_zero_or_pos i with rfl | h0
      · rw [hx0]
        rcases (show 1 ≤ m from hm).eq_or_lt with h1 | h1
        · subst h1; rw [zero_add, hxm]; norm_num
        · exact (abs_lt.1 (hin 1 le_rfl h1)).1
      rcases (show i + 1 ≤ m by omega).eq_or_lt with h1 | h1
      · rw [h1, hxm]
        exact (abs_lt.1 (hin i h0 (by omega))).2
      have h1' := abs_le.1 (h i (by omega)).1
      have h2 := abs_le.1 (h (i + 1) (by omega)).1
      have h3 := lobXi_gap h0 h1
      have hn0 : (0 : ℝ) ≤ m := Nat.cast_nonneg _
      have hp := pow52_le hn0 (by exact_mod_cast (by omega : m ≤ 2 ^ 20))
      have he : 4 * ε ≤ 4 / ((m : ℝ) + 1) ^ 2 := by
        rw [le_div_iff₀ (by positivity)]
        linarith
      have : 0 < ε := by positivity
      linarith
    have mono : ∀ i d, i + (d + 1) < m + 1 → x i < x (i + (d + 1)) := by
      intro i d
      induction d with
      | zero => exact step i
      | succ d ih => intro hd; exact (ih (by omega)).trans (step _ (by omega))
    refine increasing_map_range _ _ (fun i j hij hj => ?_)
    obtain ⟨d, rfl⟩ : ∃ d, j = i + (d + 1) := ⟨j - i - 1, by omega⟩
    exact mono i d hj

/-- **C70.**  Up to a million points the rule returned by `GaussLegendre(npts)` integrates every
polynomial of degree `< 2 npts` over `[-1, 1]` with an error of at most `12 (npts+1)² eps` times
the sum of the absolute values of its coefficients. -/
theorem C70_gauss_legendre_accuracy (b : Build) (npts : ℕ) (h1 : 1 ≤ npts) (hn : npts ≤ 2 ^ 20) :
    ∃ x w : List ℝ, construct b (gaussLegendre npts : Outcome (List XReal × List XReal)) =
        .ok ⟨x.map .fin, w.map .fin⟩ ∧
      ∀ p : ℝ[X], p.degree < (2 * npts : ℕ) →
        |ruleSum x w p.eval - ∫ t in (-1 : ℝ)..1, p.eval t| ≤
          12 * (npts + 1) ^ 2 * ε * ∑ i ∈ p.support, |p.coeff i| := by
  obtain ⟨x, w, hrule, h⟩ := gl_rule npts
  refine ⟨(List.range npts).map x, (List.range npts).map w, ?_, ?_⟩
  · rw [hrule, construct_ok b (by simp), List.map_map, List.map_map]; rfl
  intro p hp
  have hex : ∀ f : ℝ[X], f.degree < (2 * npts : ℕ) → polyInt f =
      ∑ j ∈ Finset.range npts, glOm npts (glXi npts j) * f.eval (glXi npts j) := by
    intro f hf
    rw [gauss_legendre_exact npts h1 f hf]
    exact sum_glXi npts (fun x => glOm npts x * f.eval x)
  have hsum : ∑ j ∈ Finset.range npts, glOm npts (glXi npts j) = 2 := by
    have := hex 1 (by rw [degree_one]; exact_mod_cast (by omega : 0 < 2 * npts))
    simp only [eval_one, mul_one] at this
    rw [← this]
    simp [polyInt]
    norm_num
  have herr := rule_error npts (fun j => glXi npts j) (fun j => glOm npts (glXi npts j)) x w
    (3 / 2 * ε) (4 * (npts + 1) ^ 2 * ε)
    (fun j hj => (abs_lt.2 (legendre_root_mem npts _ (glXi_root hj))).le)
    (fun j hj => (h j hj).2.1.le) (fun j hj => (h j hj).1) (fun j hj => (glOm_pos hj).le)
    (fun j hj => (h j hj).2.2.2 hn) hsum p
  rw [ruleSum_map_range]
  show |_ - polyInt p| ≤ _
  rw [hex p hp]
  refine herr.trans (mul_le_mul_of_nonneg_right ?_ (Finset.sum_nonneg fun i _ => abs_nonneg _))
  have hdeg : (p.natDegree : ℝ) ≤ 2 * npts := by
    have : p.natDegree ≤ 2 * npts := natDegree_le_of_degree_le hp.le
    exact_mod_cast this
  have he : 0 < ε := by positivity
  have hn1 : (1 : ℝ) ≤ npts := by exact_mod_cast h1
  generalize ε = e at *
  have g1 : (p.natDegree : ℝ) * (3 / 2 * e) ≤ 2 * npts * (3 / 2 * e) :=
    mul_le_mul_of_nonneg_right hdeg (by linarith)
  have g2 : (npts : ℝ) * e ≤ (npts + 1) ^ 2 / 2 * e :=
    mul_le_mul_of_nonneg_right (by nlinarith) he.le
  nlinarith

/-- **C71.**  Up to a million points the rule returned by `GaussLobatto(npts)` integrates every
polynomial of degree `< 2 npts - 2` over `[-1, 1]` with an error of at most `8 npts² eps` times
the sum of the absolute values of its coefficients. -/
theorem C71_gauss_lobatto_accuracy (b : Build) (npts : ℕ) (h2 : 2 ≤ npts) (hn : npts ≤ 2 ^ 20) :
    ∃ x w : List ℝ, construct b (gaussLobatto npts : Outcome (List XReal × List XReal)) =
        .ok ⟨x.map .fin, w.map .fin⟩ ∧
      ∀ p : ℝ[X], p.degree < (2 * npts - 2 : ℕ) →
        |ruleSum x w p.eval - ∫ t in (-1 : ℝ)..1, p.eval t| ≤
          8 * npts ^ 2 * ε * ∑ i ∈ p.support, |p.coeff i| := by
  obtain ⟨m, rfl⟩ : ∃ m, npts = m + 1 := ⟨npts - 1, by omega⟩
  have hm : 1 ≤ m := by omega
  obtain ⟨x, w, hrule, -, -, -, -, -, h⟩ := lob_rule hm (by unfold sizeMod; omega)
  refine ⟨(List.range (m + 1)).map x, (List.range (m + 1)).map w, ?_, ?_⟩
  · rw [hrule, construct_ok b (by simp), List.map_map, List.map_map]; rfl
  intro p hp
  rw [show 2 * (m + 1) - 2 = 2 * m by omega] at hp
  have hex : ∀ f : ℝ[X], f.degree < (2 * m : ℕ) → polyInt f =
      ∑ j ∈ Finset.range (m + 1), lobOm m (lobXi m j) * f.eval (lobXi m j) := by
    intro f hf
    rw [gauss_lobatto_exact m hm f hf]
    exact sum_lobXi hm (fun x => lobOm m x * f.eval x)
  have hsum : ∑ j ∈ Finset.range (m + 1), lobOm m (lobXi m j) = 2 := by
    have := hex 1 (by rw [degree_one]; exact_mod_cast (by omega : 0 < 2 * m))
    simp only [eval_one, mul_one] at this
    rw [← this]
    simp [polyInt]
    norm_num
  have herr := rule_error (m + 1) (fun j => lobXi m j) (fun j => lobOm m (lobXi m j)) x w
    (3 / 2 * ε) (2 * (m + 1) ^ 2 * ε)
    (fun j hj => lobXi_le_one hm (by omega))
    (fun j hj => (h j (by omega)).2.1) (fun j hj => (h j (by omega)).1)
    (fun j hj => (lobOm_pos hm (by omega)).le)
    (fun j hj => (h j (by omega)).2.2.2 (by omega)) hsum p
  rw [ruleSum_map_range]
  show |_ - polyInt p| ≤ _
  rw [hex p hp]
  refine herr.trans (mul_le_mul_of_nonneg_right ?_ (Finset.sum_nonneg fun i _ => abs_nonneg _))
  have hdeg : (p.natDegree : ℝ) ≤ 2 * m := by
    have : p.natDegree ≤ 2 * m := natDegree_le_of_degree_le hp.le
    exact_mod_cast this
  have he : 0 < ε := by positivity
  have hn1 : (1 : ℝ) ≤ m := by exact_mod_cast hm
  push_cast
  generalize ε = e at *
  have g1 : (p.natDegree : ℝ) * (3 / 2 * e) ≤ 2 * m * (3 / 2 * e) :=
    mul_le_mul_of_nonneg_right hdeg (by linarith)
  have g2 : (m : ℝ) * e ≤ (m + 1) ^ 2 / 2 * e :=
    mul_le_mul_of_nonneg_right (by nlinarith) he.le
  nlinarith

/-- Instances: 64 points, the polynomial `3 t^101`. -/
example : (2 ≤ 64 ∧ 64 ≤ 2 ^ 20) ∧
    (C 3 * X ^ 101 : ℝ[X]).degree < ((2 * 64 - 2 : ℕ) : WithBot ℕ) :=
  ⟨by norm_num, lt_of_le_of_lt (degree_C_mul_X_pow_le 101 3)
    (Nat.cast_lt.2 (by norm_num : 101 < 2 * 64 - 2))⟩

/-- The rule with one point, as computed. -/
example (b : Build) : ∃ x w : ℝ,
    construct b (gaussLegendre 1 : Outcome (List XReal × List XReal)) =
      .ok ⟨[.fin x], [.fin w]⟩ ∧ |x| ≤ 3 / 2 * ε := by
  obtain ⟨x, w, hrule, h⟩ := gl_rule 1
  refine ⟨x 0, w 0, by rw [hrule, construct_ok b (by simp)]; rfl, ?_⟩
  have hx := (h 0 (by norm_num)).1
  have h0 : glXi 1 0 = 0 := by
    have := glXi_root (n := 1) (j := 0) (by norm_num)
    rwa [legendre_one, eval_X] at this
  rwa [h0, sub_zero] at hx

end IntegratorXX
