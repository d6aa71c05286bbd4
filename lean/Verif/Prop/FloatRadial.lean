import Verif.Lemmas.FloatTA
import Verif.Lemmas.FloatMK

/-!
# C75: the radial quadratures in `double` arithmetic

With a C library accurate to one unit in the last place the radial rules computed in IEEE double precision
have finite, positive, strictly increasing radii and positive weights, and each entry has a small relative
error against exact arithmetic (`PositiveRule`).  The Mura-Knowles rule loses this for many points: its first
radii are exactly zero.
-/

namespace IntegratorXX

open Real

variable {L : Libm}

private theorem scale_ok {R : ℝ} (hR : IsF64 R) (h1 : 2⁻¹ ^ 50 ≤ R) (h2 : R ≤ 2 ^ 50) :
    RelP (F64.fin R : F64 L) R 0 50 := relP_exact hR h1 h2

private theorem small_sq {n e : ℕ} (hn : n < 2 ^ e) (he : e ≤ 15) : ((n : ℝ) + 1) ≤ 2 ^ e ∧ (2 : ℝ) ^ e ≤ 2 ^ 15 :=
  ⟨by exact_mod_cast hn, pow_le_pow_right₀ (by norm_num) he⟩

theorem C75_becke_double (hL : L.Accurate) (b : Build) (n : ℕ) (hn : n < 2 ^ 15) (R : ℝ) (hR : IsF64 R)
    (hR1 : 2⁻¹ ^ 50 ≤ R) (hR2 : R ≤ 2 ^ 50) :
    ∃ (q : Quad (F64 L) (F64 L)) (r : Quad ℝ ℝ),
      construct b (RadialTraits.becke n (F64.fin R : F64 L)).generate = .ok q ∧
      construct b (RadialTraits.becke n R).generate = .ok r ∧ q.points.length = n ∧ q.weights.length = n ∧
      PositiveRule q r (2⁻¹ ^ 47 * ((n : ℝ) + 1) ^ 2) (2⁻¹ ^ 46 * ((n : ℝ) + 1) ^ 2) := by
  have hs : RelP (F64.fin R : F64 L) R 0 50 := scale_ok hR hR1 hR2
  have hR0 : 0 < R := hs.pos
  have hu := uro_pos
  have hNu : 0 ≤ ((n : ℝ) + 1) ^ 2 * uro := by positivity
  have e47 : (2⁻¹ : ℝ) ^ 47 = 64 * uro := by rw [uro_eq]; norm_num
  have e46 : (2⁻¹ : ℝ) ^ 46 = 128 * uro := by rw [uro_eq]; norm_num
  obtain ⟨a1, a2⟩ := small_sq hn le_rfl
  refine radial_finish (n := n) b _ _ rfl rfl (by unfold sizeMod; omega) (g := 1 / ((n : ℝ) + 1)) ?_ ?_
    (fun j hj => becke_point hL (sz_of (by omega) hn (by norm_num)) hj hs)
    (fun j hj => becke_weight hL (sz_of (by omega) hn (by norm_num)) hj hs) ?_ ?_ (by rw [e47]; linarith)
    (by rw [e46]; linarith)
  · intro j
    simp [RadialTraits.transform, RadialTraits.nodeXR, RadialTraits.inclusive, RadialTraits.npts]
  · intro j
    simp [RadialTraits.jacobian, RadialTraits.nodeXR, RadialTraits.nodeWR, RadialTraits.inclusive,
      RadialTraits.npts]
  · intro i j hij hj
    have hp := pi_pos
    have h := becke_gap (n := n) (gc2A_ge hj) (by linarith [gc2A_step hij hj]) (gc2A_le (j := i) (by omega))
    rw [mul_div_assoc, mul_div_assoc]
    calc R * ((1 + cos (gc2A n i)) / (1 - cos (gc2A n i)))
        ≤ R * ((1 - 1 / ((n : ℝ) + 1)) * ((1 + cos (gc2A n j)) / (1 - cos (gc2A n j)))) := by gcongr
      _ = _ := by ring
  · have hN0 : (0 : ℝ) < (n : ℝ) + 1 := by positivity
    rw [lt_div_iff₀ hN0]
    calc 2 * (40 * (((n : ℝ) + 1) ^ 2 * uro)) * ((n : ℝ) + 1) = 80 * ((n : ℝ) + 1) ^ 3 * uro := by ring
      _ ≤ 80 * (2 ^ 15) ^ 3 * uro := by gcongr
      _ < 1 := by rw [uro_eq]; norm_num

/-- The library uses `M = 2`. -/
theorem C75_mhl_double (hL : L.Accurate) (b : Build) (M : ℕ) (hM1 : 1 ≤ M) (hM : M ≤ 4) (n : ℕ) (hn : n < 2 ^ 15)
    (R : ℝ) (hR : IsF64 R) (hR1 : 2⁻¹ ^ 50 ≤ R) (hR2 : R ≤ 2 ^ 50) :
    ∃ (q : Quad (F64 L) (F64 L)) (r : Quad ℝ ℝ),
      construct b (RadialTraits.mhl M n (F64.fin R : F64 L)).generate = .ok q ∧
      construct b (RadialTraits.mhl M n R).generate = .ok r ∧ q.points.length = n ∧ q.weights.length = n ∧
      PositiveRule q r (2⁻¹ ^ 48 * ((n : ℝ) + 1) ^ 2) (2⁻¹ ^ 48 * ((n : ℝ) + 1) ^ 2) := by
  have hs : RelP (F64.fin R : F64 L) R 0 50 := scale_ok hR hR1 hR2
  have hR0 : 0 < R := hs.pos
  have hu := uro_pos
  have hNu : 0 ≤ ((n : ℝ) + 1) ^ 2 * uro := by positivity
  have e48 : (2⁻¹ : ℝ) ^ 48 = 32 * uro := by rw [uro_eq]; norm_num
  obtain ⟨a1, a2⟩ := small_sq hn le_rfl
  refine radial_finish (n := n) b _ _ rfl rfl (by unfold sizeMod; omega) (g := 1 / ((n : ℝ) + 1)) ?_ ?_
    (fun j hj => mhl_point hL hM (sz_of (by omega) hn (by norm_num)) hj hs)
    (fun j hj => mhl_weight hL hM1 hM (sz_of (by omega) hn (by norm_num)) hj hs)
    (fun i j hij hj => mhl_gap hM1 hij hj hR0) ?_ (by rw [e48]; linarith) (by rw [e48]; linarith)
  · intro j
    simp [RadialTraits.transform, RadialTraits.nodeXR, RadialTraits.inclusive, RadialTraits.npts]
  · intro j
    simp only [RadialTraits.jacobian, RadialTraits.nodeXR, RadialTraits.nodeWR, RadialTraits.inclusive,
      RadialTraits.npts, if_true, Arith.real_lit, Arith.real_ofNat, Arith.real_pow, rpow_natCast, Rat.cast_one]
  · have hN0 : (0 : ℝ) < (n : ℝ) + 1 := by positivity
    rw [lt_div_iff₀ hN0]
    calc 2 * (24 * (((n : ℝ) + 1) ^ 2 * uro)) * ((n : ℝ) + 1) = 48 * ((n : ℝ) + 1) ^ 3 * uro := by ring
      _ ≤ 48 * (2 ^ 15) ^ 3 * uro := by gcongr
      _ < 1 := by rw [uro_eq]; norm_num

theorem C75_mk_double (hL : L.Accurate) (b : Build) (n : ℕ) (hn : n < 2 ^ 12) (R : ℝ) (hR : IsF64 R)
    (hR1 : 2⁻¹ ^ 50 ≤ R) (hR2 : R ≤ 2 ^ 50) :
    ∃ (q : Quad (F64 L) (F64 L)) (r : Quad ℝ ℝ),
      construct b (RadialTraits.mk n (F64.fin R : F64 L)).generate = .ok q ∧
      construct b (RadialTraits.mk n R).generate = .ok r ∧ q.points.length = n ∧ q.weights.length = n ∧
      PositiveRule q r (2⁻¹ ^ 50 * ((n : ℝ) + 1) ^ 3) (2⁻¹ ^ 48 * ((n : ℝ) + 1)) := by
  have hs : RelP (F64.fin R : F64 L) R 0 50 := scale_ok hR hR1 hR2
  have hR0 : 0 < R := hs.pos
  have hu := uro_pos
  have e50 : (2⁻¹ : ℝ) ^ 50 = 8 * uro := by rw [uro_eq]; norm_num
  have e48 : (2⁻¹ : ℝ) ^ 48 = 32 * uro := by rw [uro_eq]; norm_num
  obtain ⟨a1, a2⟩ := small_sq hn (by norm_num)
  refine radial_finish (n := n) b _ _ rfl rfl (by unfold sizeMod; omega) (g := 1 / ((n : ℝ) + 1)) ?_ ?_
    (fun j hj => mk_point hL (sz_of (by omega) hn (by norm_num)) (by norm_num) hj hs)
    (fun j hj => mk_weight (sz_of (by omega) hn (by norm_num)) (by norm_num) hj hs)
    (fun i j hij hj => mk_gap hij hj hR0) ?_ (by rw [e50]; linarith) (by rw [e48]; linarith)
  · intro j
    simp [RadialTraits.transform, RadialTraits.nodeXR, RadialTraits.inclusive, RadialTraits.npts]
  · intro j
    simp [RadialTraits.jacobian, RadialTraits.nodeXR, RadialTraits.nodeWR, RadialTraits.inclusive,
      RadialTraits.npts]
  · have hN0 : (0 : ℝ) < (n : ℝ) + 1 := by positivity
    rw [lt_div_iff₀ hN0]
    calc 2 * (8 * (((n : ℝ) + 1) ^ 3 * uro)) * ((n : ℝ) + 1) = 16 * ((n : ℝ) + 1) ^ 4 * uro := by ring
      _ ≤ 16 * (2 ^ 12) ^ 4 * uro := by gcongr
      _ < 1 := by rw [uro_eq]; norm_num

/-- The library's default is `α = 0.6`. -/
theorem C75_ta_double (hL : L.Accurate) (b : Build) (n : ℕ) (hn : n < 2 ^ 13) (R : ℝ) (hR : IsF64 R)
    (hR1 : 2⁻¹ ^ 50 ≤ R) (hR2 : R ≤ 2 ^ 50) (α : ℝ) (hα : IsF64 α) (hα1 : 2⁻¹ ^ 30 ≤ α) (hα2 : α ≤ 1) :
    ∃ (q : Quad (F64 L) (F64 L)) (r : Quad ℝ ℝ),
      construct b (RadialTraits.ta n (F64.fin R : F64 L) (F64.fin α)).generate = .ok q ∧
      construct b (RadialTraits.ta n R α).generate = .ok r ∧ q.points.length = n ∧ q.weights.length = n ∧
      PositiveRule q r (2⁻¹ ^ 47 * ((n : ℝ) + 1) ^ 2) (2⁻¹ ^ 46 * ((n : ℝ) + 1) ^ 2) := by
  have hs : RelP (F64.fin R : F64 L) R 0 50 := scale_ok hR hR1 hR2
  have hR0 : 0 < R := hs.pos
  have ha : RelP (F64.fin α : F64 L) α 0 30 := relP_exact hα hα1 (hα2.trans (by norm_num))
  have hu := uro_pos
  have hNu : 0 ≤ ((n : ℝ) + 1) ^ 2 * uro := by positivity
  have e47 : (2⁻¹ : ℝ) ^ 47 = 64 * uro := by rw [uro_eq]; norm_num
  have e46 : (2⁻¹ : ℝ) ^ 46 = 128 * uro := by rw [uro_eq]; norm_num
  obtain ⟨a1, a2⟩ := small_sq hn (by norm_num)
  have hN0 : (0 : ℝ) < (n : ℝ) + 1 := by positivity
  refine radial_finish (n := n) b _ _ rfl rfl (by unfold sizeMod; omega) (g := 1 / (16 * ((n : ℝ) + 1))) ?_ ?_
    (fun j hj => ta_point hL (sz_of (by omega) hn (by norm_num)) le_rfl hj hs hα ha.pos.le hα2)
    (fun j hj => ta_weight hL (sz_of (by omega) hn (by norm_num)) le_rfl hj hs ha hα hα2)
    (fun i j hij hj => ta_gap (N := (n : ℝ) + 1) rfl (by
      have : (1 : ℝ) ≤ n := by exact_mod_cast (by omega : 1 ≤ n)
      linarith) a1 hij hj hR0 ha.pos.le (ln2_rel (L := L)).pos) ?_ (by rw [e47]; linarith)
    (by rw [e46]; linarith)
  · intro j
    simp only [RadialTraits.transform, RadialTraits.nodeXR, RadialTraits.inclusive, RadialTraits.npts,
      RadialTraits.taA, Arith.real_lit, Arith.real_pow, Arith.real_log, Rat.cast_one]
    norm_num
  · intro j
    simp only [RadialTraits.jacobian, RadialTraits.nodeXR, RadialTraits.nodeWR, RadialTraits.inclusive,
      RadialTraits.npts, RadialTraits.taA, Arith.real_lit, Arith.real_pow, Arith.real_log, Rat.cast_one]
    norm_num
  · rw [lt_div_iff₀ (by positivity)]
    calc 2 * (47 * (((n : ℝ) + 1) ^ 2 * uro)) * (16 * ((n : ℝ) + 1)) = 1504 * ((n : ℝ) + 1) ^ 3 * uro := by ring
      _ ≤ 1504 * (2 ^ 13) ^ 3 * uro := by gcongr
      _ < 1 := by rw [uro_eq]; norm_num

/-- Many points: the first two radii of the Mura-Knowles rule coincide with the origin, although the exact
radii are positive and different. -/
theorem C75_mk_double_zero (hL : L.Accurate) (b : Build) (n : ℕ) (hn : 2 ^ 19 ≤ n + 1) (hn' : n + 1 ≤ 2 ^ 53)
    (R : ℝ) :
    ∃ q : Quad (F64 L) (F64 L), construct b (RadialTraits.mk n (F64.fin R : F64 L)).generate = .ok q ∧
      q.points.length = n ∧ q.points[0]? = some (F64.fin 0) ∧ q.points[1]? = some (F64.fin 0) := by
  have hsz : n + 2 < sizeMod := by unfold sizeMod; omega
  have hz : ∀ j, j < 2 → (RadialTraits.mk n (F64.fin R : F64 L)).transform
      ((RadialTraits.mk n (F64.fin R : F64 L)).nodeX j) = F64.fin 0 := by
    intro j hj
    rw [nodeX_uni (by rfl)]
    have := uni_node (L := L) (m := n + 1) (i := j + 1) (by omega) hn' (by omega)
    show (RadialTraits.mk n (F64.fin R : F64 L)).transform (Arith.lit 0 + Arith.ofNat (j + 1) *
      ((Arith.lit 1 - Arith.lit 0) / Arith.ofNat (n + 1))) = _
    rw [this]
    exact mk_zero hL (rnd_nonneg (mul_nonneg (Nat.cast_nonneg _) (rnd_nonneg (by positivity))))
      (mk_small hn (by omega)) n
  refine ⟨⟨(List.range n).map (fun j => (RadialTraits.mk n (F64.fin R : F64 L)).transform
      ((RadialTraits.mk n (F64.fin R : F64 L)).nodeX j)),
    (List.range n).map (fun j => (RadialTraits.mk n (F64.fin R : F64 L)).nodeW j *
      (RadialTraits.mk n (F64.fin R : F64 L)).jacobian ((RadialTraits.mk n (F64.fin R : F64 L)).nodeX j))⟩,
    ?_, by simp, ?_, ?_⟩
  · rw [RadialTraits.generate_eq (RadialTraits.mk n (F64.fin R : F64 L)) hsz]
    exact construct_ok b (by simp)
  · rw [getElem?_map_range, if_pos (by omega), hz 0 (by norm_num)]
  · rw [getElem?_map_range, if_pos (by omega), hz 1 (by norm_num)]

/-- A Becke rule for a scale that is no power of two. -/
example : ∃ (q : Quad (F64 Libm.correct) (F64 Libm.correct)) (r : Quad ℝ ℝ),
    construct ⟨true⟩ (RadialTraits.becke 75 (F64.fin 3 : F64 Libm.correct)).generate = .ok q ∧
    construct ⟨true⟩ (RadialTraits.becke 75 (3 : ℝ)).generate = .ok r ∧
    q.points.length = 75 ∧ q.weights.length = 75 ∧
    PositiveRule q r (2⁻¹ ^ 47 * (((75 : ℕ) : ℝ) + 1) ^ 2) (2⁻¹ ^ 46 * (((75 : ℕ) : ℝ) + 1) ^ 2) :=
  C75_becke_double Libm.correct_accurate ⟨true⟩ 75 (by norm_num) 3
    (by have := isF64_nat (n := 3) (by norm_num); exact_mod_cast this) (by norm_num) (by norm_num)

/-- The instantiation of the library. -/
example : ∃ (q : Quad (F64 Libm.correct) (F64 Libm.correct)) (r : Quad ℝ ℝ),
    construct ⟨true⟩ (RadialTraits.mhl 2 75 (F64.fin 3 : F64 Libm.correct)).generate = .ok q ∧
    construct ⟨true⟩ (RadialTraits.mhl 2 75 (3 : ℝ)).generate = .ok r ∧
    q.points.length = 75 ∧ q.weights.length = 75 ∧
    PositiveRule q r (2⁻¹ ^ 48 * (((75 : ℕ) : ℝ) + 1) ^ 2) (2⁻¹ ^ 48 * (((75 : ℕ) : ℝ) + 1) ^ 2) :=
  C75_mhl_double Libm.correct_accurate ⟨true⟩ 2 (by norm_num) (by norm_num) 75 (by norm_num) 3
    (by have := isF64_nat (n := 3) (by norm_num); exact_mod_cast this) (by norm_num) (by norm_num)

example : ∃ (q : Quad (F64 Libm.correct) (F64 Libm.correct)) (r : Quad ℝ ℝ),
    construct ⟨true⟩ (RadialTraits.mk 1000 (F64.fin 7 : F64 Libm.correct)).generate = .ok q ∧
    construct ⟨true⟩ (RadialTraits.mk 1000 (7 : ℝ)).generate = .ok r ∧
    q.points.length = 1000 ∧ q.weights.length = 1000 ∧
    PositiveRule q r (2⁻¹ ^ 50 * (((1000 : ℕ) : ℝ) + 1) ^ 3) (2⁻¹ ^ 48 * (((1000 : ℕ) : ℝ) + 1)) :=
  C75_mk_double Libm.correct_accurate ⟨true⟩ 1000 (by norm_num) 7
    (by have := isF64_nat (n := 7) (by norm_num); exact_mod_cast this) (by norm_num) (by norm_num)

/-- Two radii at the origin. -/
example : ∃ q : Quad (F64 Libm.correct) (F64 Libm.correct),
    construct ⟨true⟩ (RadialTraits.mk 1000000 (F64.fin 7 : F64 Libm.correct)).generate = .ok q ∧
    q.points.length = 1000000 ∧ q.points[0]? = some (F64.fin 0) ∧ q.points[1]? = some (F64.fin 0) :=
  C75_mk_double_zero Libm.correct_accurate ⟨true⟩ 1000000 (by norm_num) (by norm_num) 7

/-- An exponent of a half. -/
example : ∃ (q : Quad (F64 Libm.correct) (F64 Libm.correct)) (r : Quad ℝ ℝ),
    construct ⟨true⟩ (RadialTraits.ta 75 (F64.fin 3 : F64 Libm.correct) (F64.fin (2⁻¹ ^ 1))).generate = .ok q ∧
    construct ⟨true⟩ (RadialTraits.ta 75 (3 : ℝ) (2⁻¹ ^ 1)).generate = .ok r ∧
    q.points.length = 75 ∧ q.weights.length = 75 ∧
    PositiveRule q r (2⁻¹ ^ 47 * (((75 : ℕ) : ℝ) + 1) ^ 2) (2⁻¹ ^ 46 * (((75 : ℕ) : ℝ) + 1) ^ 2) :=
  C75_ta_double Libm.correct_accurate ⟨true⟩ 75 (by norm_num) 3
    (by have := isF64_nat (n := 3) (by norm_num); exact_mod_cast this) (by norm_num) (by norm_num) (2⁻¹ ^ 1)
    (of_exact (L := Libm.correct) (rnd_dyadic 1 (by norm_num)) (by norm_num)).2 (by norm_num) (by norm_num)

end IntegratorXX
