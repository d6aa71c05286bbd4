import Verif.Lemmas.FloatUniform

/-!
# C73: UniformTrapezoid on [0,1] in `double` arithmetic

The grid computed in IEEE double precision starts exactly at 0, increases strictly and stays within
[0,1].  The last node may miss the upper end by one unit in the last place; the grid with 50 points does.
-/

namespace IntegratorXX

variable {L : Libm}

theorem C73_uniform_double (b : Build) (npts : ℕ) (hn : 2 ≤ npts) (hn' : npts ≤ 2 ^ 50) :
    ∃ (q : Quad (F64 L) (F64 L)) (r : Quad ℝ ℝ) (xs ws : List ℝ),
      construct b (uniformTrapezoid01 npts) = .ok q ∧ construct b (uniformTrapezoid01 npts) = .ok r ∧
      Doubles q.points xs ∧ Doubles q.weights ws ∧ xs.length = npts ∧ ws.length = npts ∧
      xs.Pairwise (· < ·) ∧ (∀ x ∈ xs, 0 ≤ x ∧ x ≤ 1) ∧ xs.head? = some 0 ∧
      (∃ z, xs.getLast? = some z ∧ 1 - 2⁻¹ ^ 53 ≤ z) ∧ (∀ w ∈ ws, 0 < w) ∧
      (∀ (i : ℕ) (x : ℝ), xs[i]? = some x → |x - i / (npts - 1)| ≤ 2⁻¹ ^ 51 * (i / (npts - 1))) ∧
      WithinRel (2⁻¹ ^ 51) xs r.points ∧ WithinRel (2⁻¹ ^ 53) ws r.weights := by
  obtain ⟨m, rfl⟩ : ∃ m, npts = m + 1 := ⟨npts - 1, by omega⟩
  have hm : 1 ≤ m := by omega
  have hm2 : m ≤ 2 ^ 53 := by omega
  obtain ⟨f1, f2, f3, f4⟩ := uni_facts hm hm2
  have h1 : (1 : ℝ) ≤ m := by exact_mod_cast hm
  have hs := uni_half (L := L) hm hm2
  have hstep := uni_step_err hm hm2
  have hsz : m + 1 < sizeMod := by unfold sizeMod; omega
  have hle1 : (1 : ℝ) / m ≤ 1 := by rw [div_le_one (by positivity)]; exact h1
  have hpos : (0 : ℝ) < 1 / m := by positivity
  have hu := uro_lt
  have hu' : (2⁻¹ : ℝ) ^ 51 = 4 * uro := by rw [uro_eq]; norm_num
  have h3u : uro * (1 / m) ≤ 1 / 2 * (1 / m) := by
    gcongr
    linarith
  have hrpos : 0 < rnd (1 / (m : ℝ)) := by
    have := (abs_le.1 hstep).1
    linarith
  have hrle : rnd (1 / (m : ℝ)) ≤ 2 := by
    have := (abs_le.1 hstep).2
    linarith
  have hcast : ((m + 1 : ℕ) : ℝ) - 1 = m := by push_cast; ring
  have herr4 : ∀ i : ℕ, i ≤ m → |rnd (i * rnd (1 / m)) - i / m| ≤ 2⁻¹ ^ 51 * ((i : ℝ) / m) := by
    intro i hi
    refine (f1 i hi).trans ?_
    rw [hu']
    have := uro_pos
    have hx : (0 : ℝ) ≤ i / m := by positivity
    gcongr
    norm_num
  refine ⟨⟨(List.range (m + 1)).map fun i =>
      (Arith.lit 0 + Arith.ofNat i * ((Arith.lit 1 - Arith.lit 0) / Arith.ofNat m)),
    (List.range (m + 1)).map (utW (m + 1) (Arith.lit 0) (Arith.lit 1))⟩,
    ⟨(List.range (m + 1)).map fun i =>
      (Arith.lit 0 + Arith.ofNat i * ((Arith.lit 1 - Arith.lit 0) / Arith.ofNat m)),
    (List.range (m + 1)).map (utW (m + 1) (Arith.lit 0) (Arith.lit 1))⟩,
    (List.range (m + 1)).map (fun i : ℕ => rnd (i * rnd (1 / m))),
    (List.range (m + 1)).map (fun j => if j = 0 ∨ j = m then rnd (1 / m) / 2 else rnd (1 / m)),
    ?_, ?_, ⟨?_, ?_⟩, ⟨?_, ?_⟩, by simp, by simp, ?_, ?_, ?_, ?_, ?_, ?_, ?_, ?_⟩
  · unfold uniformTrapezoid01
    rw [uniformTrapezoid_eq _ hn hsz]
    exact construct_ok b (by simp)
  · unfold uniformTrapezoid01
    rw [uniformTrapezoid_eq _ hn hsz]
    exact construct_ok b (by simp)
  · rw [List.map_map]
    refine List.map_congr_left fun i hi => ?_
    exact uni_node hm hm2 (by simpa [Nat.lt_succ_iff] using hi)
  · intro y hy
    obtain ⟨i, hi, rfl⟩ := List.mem_map.1 hy
    have hi' : i ≤ m := by simpa [Nat.lt_succ_iff] using hi
    refine ⟨rnd_rnd _, ?_⟩
    have h5 := f3 i hi'
    rw [abs_of_nonneg h5.1]
    have := le_f64Big
    have : (2 : ℝ) ≤ 2 ^ 201 := by norm_num
    linarith
  · rw [List.map_map]
    refine List.map_congr_left fun i hi => ?_
    exact uni_weight hn (by omega)
  · intro y hy
    obtain ⟨i, hi, rfl⟩ := List.mem_map.1 hy
    split_ifs
    · exact hs.2
    · refine ⟨rnd_rnd _, ?_⟩
      rw [abs_of_pos hrpos]
      have := le_f64Big
      have : (2 : ℝ) ≤ 2 ^ 201 := by norm_num
      linarith
  · rw [List.pairwise_map]
    refine (List.pairwise_lt_range).imp_of_mem ?_
    intro i j hi hj hij
    exact uni_strict hm (by omega) hij (by simpa [Nat.lt_succ_iff] using hj)
  · intro y hy
    obtain ⟨i, hi, rfl⟩ := List.mem_map.1 hy
    exact f3 i (by simpa [Nat.lt_succ_iff] using hi)
  · rw [List.range_succ_eq_map]
    simp [rnd_zero]
  · refine ⟨rnd (m * rnd (1 / m)), ?_, ?_⟩
    · rw [List.range_succ]
      simp
    · rw [uro_def]
      exact f4
  · intro y hy
    obtain ⟨i, hi, rfl⟩ := List.mem_map.1 hy
    split_ifs
    · linarith
    · exact hrpos
  · intro i x hx
    rw [getElem?_map_range] at hx
    split_ifs at hx with hi
    have hx := Option.some.inj hx
    rw [← hx, hcast]
    exact herr4 i (by omega)
  · unfold WithinRel
    rw [List.forall₂_map_left_iff, List.forall₂_map_right_iff, List.forall₂_same]
    intro i hi
    have hi' : i ≤ m := by simpa [Nat.lt_succ_iff] using hi
    have e : (Arith.lit 0 + Arith.ofNat i * ((Arith.lit 1 - Arith.lit 0) / Arith.ofNat m) : ℝ) = i / m := by
      simp only [Arith.real_lit, Arith.real_ofNat]
      push_cast
      ring
    rw [e, abs_of_nonneg (show (0 : ℝ) ≤ (i : ℝ) / m by positivity)]
    exact herr4 i hi'
  · unfold WithinRel
    rw [List.forall₂_map_left_iff, List.forall₂_map_right_iff, List.forall₂_same]
    intro i hi
    have e : (utW (m + 1) (Arith.lit 0) (Arith.lit 1) i : ℝ) =
        if i = 0 ∨ i = m then 1 / (m : ℝ) / 2 else 1 / (m : ℝ) := by
      unfold utW
      simp only [Arith.real_lit, Arith.real_ofNat, Nat.add_sub_cancel]
      push_cast
      split_ifs <;> ring
    rw [e, uro_def]
    split_ifs
    · rw [abs_of_pos (show (0 : ℝ) < 1 / m / 2 by positivity), ← sub_div, abs_div,
        abs_of_pos (show (0 : ℝ) < 2 by norm_num)]
      linarith
    · rw [abs_of_pos hpos]
      exact hstep

/-- With 50 points the last node is the `double` below 1, although the interval is `[0,1]`. -/
theorem C73_uniform_double_misses_end (b : Build) :
    ∃ (q : Quad (F64 L) (F64 L)), construct b (uniformTrapezoid01 50) = .ok q ∧
      q.points.getLast? = some (F64.fin (1 - 2⁻¹ ^ 53)) ∧
      (F64.fin (1 - 2⁻¹ ^ 53) : F64 L) ≠ Arith.lit 1 := by
  refine ⟨⟨(List.range 50).map fun i =>
    (Arith.lit 0 + Arith.ofNat i * ((Arith.lit 1 - Arith.lit 0) / Arith.ofNat 49)),
    (List.range 50).map (utW 50 (Arith.lit 0) (Arith.lit 1))⟩, ?_, ?_, ?_⟩
  · unfold uniformTrapezoid01
    rw [uniformTrapezoid_eq _ (by norm_num) (by unfold sizeMod; norm_num)]
    exact construct_ok b (by simp)
  · rw [List.range_succ]
    simp only [List.map_append, List.map_cons, List.map_nil, List.getLast?_append, List.getLast?_singleton,
      Option.some_or]
    rw [uni_node (by norm_num) (by norm_num) le_rfl]
    have := rnd_last_49
    push_cast
    rw [this, uro_def]
  · rw [lit_one_eq]
    intro h
    have := XReal.fin.inj h
    norm_num at this

/-- A grid whose spacing is no binary fraction. -/
example : ∃ (q : Quad (F64 Libm.correct) (F64 Libm.correct)) (r : Quad ℝ ℝ) (xs ws : List ℝ),
      construct ⟨true⟩ (uniformTrapezoid01 50) = .ok q ∧ construct ⟨true⟩ (uniformTrapezoid01 50) = .ok r ∧
      Doubles q.points xs ∧ Doubles q.weights ws ∧ xs.length = 50 ∧ ws.length = 50 ∧
      xs.Pairwise (· < ·) ∧ (∀ x ∈ xs, 0 ≤ x ∧ x ≤ 1) ∧ xs.head? = some 0 ∧
      (∃ z, xs.getLast? = some z ∧ 1 - 2⁻¹ ^ 53 ≤ z) ∧ (∀ w ∈ ws, 0 < w) ∧
      (∀ (i : ℕ) (x : ℝ), xs[i]? = some x → |x - i / ((50 : ℕ) - 1)| ≤ 2⁻¹ ^ 51 * (i / ((50 : ℕ) - 1))) ∧
      WithinRel (2⁻¹ ^ 51) xs r.points ∧ WithinRel (2⁻¹ ^ 53) ws r.weights :=
  C73_uniform_double ⟨true⟩ 50 (by norm_num) (by norm_num)

end IntegratorXX
