import Verif.Lemmas.FloatCheb2M

/-!
# C72, C89: Chebyshev rules in `double` arithmetic

For sizes up to 2^20 and a C library with errors of at most one unit in the last place the rules
computed in IEEE double precision consist of finite numbers, the nodes increase strictly inside
(-1, 1), the weights are positive, and both agree with the rules in exact arithmetic (C03–C06) up to
an absolute error of `2^-48` and `2^-45`.  GaussChebyshev3 lives on (0, 1) and its nodes err by up to `2^-47`.
GaussChebyshev2Modified is accurate as well, but its nodes need not be distinct.
-/

namespace IntegratorXX

open Real

variable {L : Libm}

theorem C72_gaussChebyshev1_double (hL : L.Accurate) (b : Build) (npts : ℕ) (hn : npts ≤ 2 ^ 20) :
    ∃ (q : Quad (F64 L) (F64 L)) (r : Quad ℝ ℝ) (xs ws : List ℝ),
      construct b (gaussChebyshev1 npts) = .ok q ∧ construct b (gaussChebyshev1 npts) = .ok r ∧
      Doubles q.points xs ∧ Doubles q.weights ws ∧ xs.length = npts ∧
      xs.Pairwise (· < ·) ∧ (∀ x ∈ xs, -1 < x ∧ x < 1) ∧ (∀ w ∈ ws, 0 < w) ∧
      Within (2⁻¹ ^ 48) xs r.points ∧ Within (2⁻¹ ^ 45) ws r.weights := by
  obtain ⟨xs, ws, h1, h2, h3, h4, h5, h6, h7⟩ := gc1_double hL (n := npts) (by omega)
  refine ⟨⟨_, _⟩, _, xs, ws, ?_, gc1_real npts b, h1, h2, ?_, h3, h4, h5, h6, h7⟩
  · rw [gaussChebyshev1_eq, construct_ok b (by simp)]
  · have := h6.length_eq
    simpa using this

theorem C72_gaussChebyshev2_double (hL : L.Accurate) (b : Build) (npts : ℕ) (hn : npts ≤ 2 ^ 20) :
    ∃ (q : Quad (F64 L) (F64 L)) (r : Quad ℝ ℝ) (xs ws : List ℝ),
      construct b (gaussChebyshev2 npts) = .ok q ∧ construct b (gaussChebyshev2 npts) = .ok r ∧
      Doubles q.points xs ∧ Doubles q.weights ws ∧ xs.length = npts ∧
      xs.Pairwise (· < ·) ∧ (∀ x ∈ xs, -1 < x ∧ x < 1) ∧ (∀ w ∈ ws, 0 < w) ∧
      Within (2⁻¹ ^ 48) xs r.points ∧ Within (2⁻¹ ^ 45) ws r.weights := by
  obtain ⟨xs, ws, h1, h2, h3, h4, h5, h6, h7⟩ := gc2_double hL (n := npts) (by omega)
  refine ⟨⟨_, _⟩, _, xs, ws, ?_, gc2_real npts b, h1, h2, ?_, h3, h4, h5, h6, h7⟩
  · rw [gaussChebyshev2_eq, construct_ok b (by simp)]
  · have := h6.length_eq
    simpa using this

/-- GaussChebyshev3 lives on `(0, 1)`. -/
theorem C72_gaussChebyshev3_double (hL : L.Accurate) (b : Build) (npts : ℕ) (hn : npts ≤ 2 ^ 20) :
    ∃ (q : Quad (F64 L) (F64 L)) (r : Quad ℝ ℝ) (xs ws : List ℝ),
      construct b (gaussChebyshev3 npts) = .ok q ∧ construct b (gaussChebyshev3 npts) = .ok r ∧
      Doubles q.points xs ∧ Doubles q.weights ws ∧ xs.length = npts ∧
      xs.Pairwise (· < ·) ∧ (∀ x ∈ xs, 0 < x ∧ x < 1) ∧ (∀ w ∈ ws, 0 < w) ∧
      Within (2⁻¹ ^ 47) xs r.points ∧ Within (2⁻¹ ^ 45) ws r.weights := by
  obtain ⟨xs, ws, h1, h2, h3, h4, h5, h6, h7⟩ := gc3_double hL (n := npts) (by omega)
  refine ⟨⟨_, _⟩, _, xs, ws, ?_, gc3_real npts b, h1, h2, ?_, h3, h4, h5, h6, h7⟩
  · rw [gaussChebyshev3_eq, construct_ok b (by simp)]
  · have := h6.length_eq
    simpa using this

/-- **C89.**  The rule computed by GaussChebyshev2Modified in `double`: all entries are finite, the weights are positive
and accurate both absolutely and relatively, the nodes absolutely.  Unlike for the other rules, nothing is said about
the order of the nodes; see `C89_nodes_collide`. -/
theorem C89_gc2m_double (hL : L.Accurate) (b : Build) (npts : ℕ) (hn : npts ≤ 2 ^ 20) :
    ∃ (q : Quad (F64 L) (F64 L)) (r : Quad ℝ ℝ) (xs ws : List ℝ),
      construct b (gaussChebyshev2Modified npts) = .ok q ∧ construct b (gaussChebyshev2Modified npts) = .ok r ∧
      Doubles q.points xs ∧ Doubles q.weights ws ∧ xs.length = npts ∧ (∀ w ∈ ws, 0 < w) ∧
      Within (2⁻¹ ^ 46) xs r.points ∧ Within (2⁻¹ ^ 45) ws r.weights ∧ WithinRel (2⁻¹ ^ 26) ws r.weights := by
  obtain ⟨xs, ws, h1, h2, h3, h4, h5, h6⟩ := gc2m_double hL (n := npts) (by omega)
  refine ⟨⟨_, _⟩, _, xs, ws, ?_, gc2m_real npts b, h1, h2, ?_, h3, h4, h5, h6⟩
  · rw [gaussChebyshev2Modified_eq, construct_ok b (by simp)]
  · have := h4.length_eq
    simpa using this

/-- In exact arithmetic the nodes increase strictly (C10).  In `double` they do not: with a million points or more
there are two equal nodes, whatever the C library. -/
theorem C89_nodes_collide (hL : L.Accurate) (b : Build) (npts : ℕ) (h0 : 10 ^ 6 ≤ npts) (hn : npts ≤ 2 ^ 20) :
    ∃ q : Quad (F64 L) (F64 L), construct b (gaussChebyshev2Modified npts) = .ok q ∧
      ∃ (i j : ℕ) (x : ℝ), i < j ∧ j < npts ∧ q.points[i]? = some (F64.fin x) ∧ q.points[j]? = some (F64.fin x) := by
  obtain ⟨i, j, hij, hj, he⟩ := gc2m_collide (L := L) hL (n := npts) (by omega) (by omega)
  obtain ⟨x, hx, -⟩ := gc2m_node (L := L) hL (n := npts) (j := j) (by omega) (by omega)
  refine ⟨_, by rw [gaussChebyshev2Modified_eq, construct_ok b (by simp)], i, j, x, hij, by omega, ?_, ?_⟩
  · have hi : i < npts / 2 := by omega
    dsimp only
    rw [List.getElem?_map, List.getElem?_range (by omega)]
    simp only [Option.map_some, mirrorFn, if_pos hi, he, hx]
  · dsimp only
    rw [List.getElem?_map, List.getElem?_range (by omega)]
    simp only [Option.map_some, mirrorFn, if_pos hj, hx]

example : ∃ q : Quad (F64 Libm.correct) (F64 Libm.correct),
    construct ⟨false⟩ (gaussChebyshev2Modified 1048576) = .ok q ∧
      ∃ (i j : ℕ) (x : ℝ), i < j ∧ j < 1048576 ∧ q.points[i]? = some (F64.fin x) ∧ q.points[j]? = some (F64.fin x) :=
  C89_nodes_collide Libm.correct_accurate ⟨false⟩ 1048576 (by norm_num) (by norm_num)

/-- The hypothesis holds for a correctly rounded library. -/
example : ∃ (q : Quad (F64 Libm.correct) (F64 Libm.correct)) (r : Quad ℝ ℝ) (xs ws : List ℝ),
    construct ⟨true⟩ (gaussChebyshev2 1000) = .ok q ∧ construct ⟨true⟩ (gaussChebyshev2 1000) = .ok r ∧
    Doubles q.points xs ∧ Doubles q.weights ws ∧ xs.length = 1000 ∧
    xs.Pairwise (· < ·) ∧ (∀ x ∈ xs, -1 < x ∧ x < 1) ∧ (∀ w ∈ ws, 0 < w) ∧
    Within (2⁻¹ ^ 48) xs r.points ∧ Within (2⁻¹ ^ 45) ws r.weights :=
  C72_gaussChebyshev2_double Libm.correct_accurate ⟨true⟩ 1000 (by norm_num)

end IntegratorXX
