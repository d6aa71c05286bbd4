import Verif.Lemmas.FloatRadialBase
import Verif.Lemmas.RadialForms
import Mathlib.Analysis.Convex.SpecificFunctions.Basic
import Mathlib.Analysis.Convex.SpecificFunctions.Pow

/-!
# The radial quadratures in `double` arithmetic
-/

namespace IntegratorXX

open Real

variable {L : Libm}

/-- From entrywise relative errors to the lists. -/
theorem radial_assemble {n : ℕ} {x w : ℕ → F64 L} {X W : ℕ → ℝ} {p q g : ℝ} {e f : ℕ}
    (hx : ∀ j, j < n → RelP (x j) (X j) p e) (hw : ∀ j, j < n → RelP (w j) (W j) q f)
    (hg : ∀ i j, i < j → j < n → X i ≤ (1 - g) * X j) (hpg : 2 * p < g) :
    ∃ xs ws, Doubles ((List.range n).map x) xs ∧ Doubles ((List.range n).map w) ws ∧
      xs.Pairwise (· < ·) ∧ (∀ y ∈ xs, 0 < y) ∧ (∀ y ∈ ws, 0 < y) ∧
      WithinRel p xs ((List.range n).map X) ∧ WithinRel q ws ((List.range n).map W) := by
  have hx' : ∀ j, j < n → ∃ v, x j = F64.fin v ∧ IsF64 v ∧ |v - X j| ≤ p * X j := fun j hj => (hx j hj).near
  have hw' : ∀ j, j < n → ∃ v, w j = F64.fin v ∧ IsF64 v ∧ |v - W j| ≤ q * W j := fun j hj => (hw j hj).near
  choose! v hv using hx'
  choose! u hu using hw'
  have hpos : ∀ {a z r : ℝ}, |a - z| ≤ r * z → 0 < z → r ≤ 1 / 200 → 0 < a := by
    intro a z r h hz hr
    have h1 := (abs_le.1 h).1
    have : r * z ≤ 1 / 200 * z := by gcongr
    linarith
  refine ⟨(List.range n).map v, (List.range n).map u, ⟨?_, ?_⟩, ⟨?_, ?_⟩, ?_, ?_, ?_, ?_, ?_⟩
  · rw [List.map_map]
    exact List.map_congr_left (fun j hj => (hv j (List.mem_range.1 hj)).1)
  · intro y hy
    obtain ⟨j, hj, rfl⟩ := List.mem_map.1 hy
    exact (hv j (List.mem_range.1 hj)).2.1
  · rw [List.map_map]
    exact List.map_congr_left (fun j hj => (hu j (List.mem_range.1 hj)).1)
  · intro y hy
    obtain ⟨j, hj, rfl⟩ := List.mem_map.1 hy
    exact (hu j (List.mem_range.1 hj)).2.1
  · rw [List.pairwise_map]
    refine (List.pairwise_lt_range).imp_of_mem ?_
    intro i j hi hj hij
    have hi := List.mem_range.1 hi
    have hj := List.mem_range.1 hj
    have h1 := (abs_le.1 (hv i hi).2.2).2
    have h2 := (abs_le.1 (hv j hj).2.2).1
    have h3 := hg i j hij hj
    have p0 := (hx j hj).p0
    have hXj := (hx j hj).pos
    have hXi := (hx i hi).pos
    have hij : X i ≤ X j := h3.trans (by nlinarith)
    have h4 : p * X i ≤ p * X j := by gcongr
    nlinarith
  · intro y hy
    obtain ⟨j, hj, rfl⟩ := List.mem_map.1 hy
    have hj := List.mem_range.1 hj
    exact hpos (hv j hj).2.2 (hx j hj).pos (hx j hj).p1
  · intro y hy
    obtain ⟨j, hj, rfl⟩ := List.mem_map.1 hy
    have hj := List.mem_range.1 hj
    exact hpos (hu j hj).2.2 (hw j hj).pos (hw j hj).p1
  · unfold WithinRel
    rw [List.forall₂_map_left_iff, List.forall₂_map_right_iff, List.forall₂_same]
    intro j hj
    have hj := List.mem_range.1 hj
    rw [abs_of_pos (hx j hj).pos]
    exact (hv j hj).2.2
  · unfold WithinRel
    rw [List.forall₂_map_left_iff, List.forall₂_map_right_iff, List.forall₂_same]
    intro j hj
    have hj := List.mem_range.1 hj
    rw [abs_of_pos (hw j hj).pos]
    exact (hu j hj).2.2

theorem WithinRel.mono {p q : ℝ} {xs ys : List ℝ} (h : WithinRel p xs ys) (hpq : p ≤ q) : WithinRel q xs ys := by
  refine List.Forall₂.imp ?_ h
  intro a b hab
  exact hab.trans (by gcongr)

/-- The constructed quadrature against the one in exact arithmetic. -/
theorem radial_finish (b : Build) (t : RadialTraits (F64 L)) (r : RadialTraits ℝ) {n : ℕ} (ht : t.npts = n)
    (hr : r.npts = n) (hn : n + 2 < sizeMod) {X W : ℕ → ℝ} {p q g p' q' : ℝ} {e f : ℕ}
    (hX : ∀ j, r.transform (r.nodeXR j) = X j) (hW : ∀ j, r.nodeWR j * r.jacobian (r.nodeXR j) = W j)
    (hx : ∀ j, j < n → RelP (t.transform (t.nodeX j)) (X j) p e)
    (hw : ∀ j, j < n → RelP (t.nodeW j * t.jacobian (t.nodeX j)) (W j) q f)
    (hg : ∀ i j, i < j → j < n → X i ≤ (1 - g) * X j) (hpg : 2 * p < g) (hp : p ≤ p') (hq : q ≤ q') :
    ∃ (a : Quad (F64 L) (F64 L)) (c : Quad ℝ ℝ),
      construct b t.generate = .ok a ∧ construct b r.generate = .ok c ∧ a.points.length = n ∧
      a.weights.length = n ∧ PositiveRule a c p' q' := by
  obtain ⟨xs, ws, h1, h2, h3, h4, h5, h6, h7⟩ := radial_assemble hx hw hg hpg
  refine ⟨⟨(List.range n).map (fun j => t.transform (t.nodeX j)),
      (List.range n).map (fun j => t.nodeW j * t.jacobian (t.nodeX j))⟩,
    ⟨(List.range n).map X, (List.range n).map W⟩, ?_, ?_, by simp, by simp,
    xs, ws, h1, h2, h3, h4, h5, h6.mono hp, h7.mono hq⟩
  · rw [RadialTraits.generate_eq t (by rw [ht]; exact hn), ht]
    exact construct_ok b (by simp)
  · rw [RadialTraits.generate_real r (by rw [hr]; exact hn), hr]
    simp only [hX, hW]
    exact construct_ok b (by simp)

section
variable {n j e : ℕ} {N η R : ℝ}

/-! ## Becke -/

theorem two_lit : (Arith.lit 2 : F64 L) = F64.fin 2 := by
  have h : (Arith.lit 2 : F64 L) = Arith.ofNat 2 := by
    show F64.of _ = F64.of _
    push_cast
    rfl
  rw [h, ofNat_fin (by norm_num)]
  norm_num

theorem relP_two : RelP (Arith.lit 2 : F64 L) 2 0 1 := by
  rw [two_lit]
  have := isF64_nat (n := 2) (by norm_num)
  exact relP_exact (by exact_mod_cast this) (by norm_num) (by norm_num)

theorem becke_point (hL : L.Accurate) (h : Sz n N η e) (hj : j < n) (hR : RelP (F64.fin R : F64 L) R 0 50) :
    RelP ((RadialTraits.becke n (F64.fin R : F64 L)).transform ((RadialTraits.becke n (F64.fin R)).nodeX j))
      (R * (1 + cos (gc2A n j)) / (1 - cos (gc2A n j))) (40 * η) 110 := by
  have hu := uro_pos
  have h1 := h.eta
  have h2 := h.eta'
  have h3 := h.e2
  have e : (RadialTraits.becke n (F64.fin R : F64 L)).nodeX j =
      mirrorFn n (gc2X (F64 L) n) (fun x => -x) (Arith.lit 0) j := rfl
  rw [e]
  have a := gc2_add hL h hj
  have s := gc2_sub hL h hj
  have m1 := hR.mul a (r := 20 * η) (g := 80) (by linarith) (by linarith) (by omega) (by norm_num)
  exact m1.div s (r := 40 * η) (g := 110) (by linarith) (by linarith) (by omega) (by norm_num)

theorem becke_weight (hL : L.Accurate) (h : Sz n N η e) (hj : j < n) (hR : RelP (F64.fin R : F64 L) R 0 50) :
    RelP ((RadialTraits.becke n (F64.fin R : F64 L)).nodeW j *
        (RadialTraits.becke n (F64.fin R : F64 L)).jacobian ((RadialTraits.becke n (F64.fin R)).nodeX j))
      (π / (n + 1) * sin (gc2A n j) * (R * 2 / (1 - cos (gc2A n j)) ^ 2)) (90 * η) 150 := by
  have hu := uro_pos
  have h1 := h.eta
  have h2 := h.eta'
  have h3 := h.e2
  have e : (RadialTraits.becke n (F64.fin R : F64 L)).nodeX j =
      mirrorFn n (gc2X (F64 L) n) (fun x => -x) (Arith.lit 0) j := rfl
  have e' : (RadialTraits.becke n (F64.fin R : F64 L)).nodeW j =
      mirrorFn n (gc2W (F64 L) n) id (Arith.pi / Arith.ofNat (n + 1)) j := rfl
  rw [e, e']
  have s := gc2_sub hL h hj
  have w := gc2_wt hL h hj
  have m1 := hR.mul relP_two (r := η) (g := 51) (by linarith) (by linarith) (by omega) (by norm_num)
  have m2 := RelP.pow hL 2 s (r := 39 * η) (g := 60) (by norm_num) (by push_cast; linarith) (by linarith)
    (by omega) (by norm_num)
  have m3 := m1.div m2 (r := 42 * η) (g := 111) (by linarith) (by linarith) (by omega) (by norm_num)
  exact w.mul m3 (r := 90 * η) (g := 150) (by linarith) (by linarith) (by omega) (by norm_num)

/-! ## Murray, Handy and Laming -/

theorem nodeX_uni {t : RadialTraits (F64 L)} (ht : t.inclusive = true) (j : ℕ) :
    t.nodeX j = Arith.lit 0 + Arith.ofNat (j + 1) * ((Arith.lit 1 - Arith.lit 0) / Arith.ofNat (t.npts + 1)) := by
  unfold RadialTraits.nodeX
  rw [if_pos ht]

theorem uni_x (h : Sz n N η e) (hj : j < n) :
    RelP (Arith.lit 0 + Arith.ofNat (j + 1) * ((Arith.lit 1 - Arith.lit 0) / Arith.ofNat (n + 1)) : F64 L)
      (((j : ℝ) + 1) / (n + 1)) (3 * uro) e := by
  have := uni_base (L := L) (m := n + 1) (i := j + 1) rfl h (by omega) (by omega)
  push_cast at this
  exact this

/-- `1 - x`, relative to `1/N`. -/
theorem uni_x_sub (h : Sz n N η e) (hj : j < n) :
    RelP (Arith.lit 1 -
        (Arith.lit 0 + Arith.ofNat (j + 1) * ((Arith.lit 1 - Arith.lit 0) / Arith.ofNat (n + 1))) : F64 L)
      (1 - ((j : ℝ) + 1) / (n + 1)) (3 * η) e := by
  have hu := uro_pos
  have h0 := uni_x (L := L) h hj
  have hy := h0.pos
  have hN := h.lo
  obtain ⟨s1, s2⟩ := uni_sub (m := n + 1) (i := j + 1) rfl h (by omega) (by norm_num : (0 : ℝ) ≤ 3)
    (by norm_num) h0.near hy.le (by push_cast; exact le_rfl)
  set y := ((j : ℝ) + 1) / (n + 1)
  have hNpos : 0 < 1 / N := by positivity
  have hy1 : y ≤ 1 := by linarith
  refine relP_of_near s1 (p := 3 * η) ?_ (by linarith [h.eta]) (by linarith [h.eta']) (h.one_lo.trans s2) ?_
  · have h3 : 3 * η * (1 / N) ≤ 3 * η * (1 - y) := by
      have := h.eta
      have h5 : 0 ≤ 3 * η := by linarith
      gcongr
    have h4 : 3 * η * (1 / N) = 3 * N * uro := by
      rw [h.he]
      field_simp
    have h5 : 3 * 2 * uro ≤ 3 * N * uro := by gcongr
    have h6 : (3 + 1) * uro * y ≤ (3 + 1) * uro * 1 := by gcongr
    have h7 : uro * (1 - y) ≤ uro * 1 := by
      gcongr
      linarith
    have h8 : (2⁻¹ : ℝ) ^ 200 ≤ uro := tiny_le_uro.trans (div_le_self hu.le (by norm_num))
    linarith
  · have h1 := two_le_pow h.e1
    linarith

/-- The base weight. -/
theorem uni_w (h : Sz n N η e) :
    RelP ((Arith.lit 1 - Arith.lit 0) / Arith.ofNat (n + 1) : F64 L) (1 / ((n : ℝ) + 1)) uro e := by
  have hu := uro_pos
  have hn := h.n_le
  have hm1 : 1 ≤ n + 1 := by omega
  have hm2 : n + 1 ≤ 2 ^ 53 := by omega
  have h1 := uni_step_err hm1 hm2
  rw [uni_step hm1 hm2]
  push_cast at h1 ⊢
  have hN := h.lo
  have eN := h.hN
  rw [← eN] at h1 ⊢
  have hpos : 0 < 1 / N := by positivity
  have hle : 1 / N ≤ 1 := by
    rw [div_le_one (by positivity)]
    linarith
  refine ⟨h.one_lo, ?_, ⟨_, rfl, ⟨rnd_rnd _, ?_⟩, h1⟩, hu.le, by linarith [h.eta, h.eta']⟩
  · have := two_le_pow h.e1
    linarith
  · obtain ⟨a, b⟩ := abs_le.1 h1
    have h3 : uro * (1 / N) ≤ 1 / 2 * (1 / N) := by
      gcongr
      linarith [uro_lt]
    refine lt_of_le_of_lt (le_big_of ?_) (by
      have h5 := le_f64Big
      have : (0 : ℝ) < 2 ^ 201 := by positivity
      linarith)
    rw [abs_le]
    constructor
    · refine le_trans (b := -2) (by norm_num) (by linarith)
    · refine le_trans (b := 2) (by linarith) (by norm_num)

theorem nodeW_uni {t : RadialTraits (F64 L)} (ht : t.inclusive = true) (j : ℕ) :
    t.nodeW j = (Arith.lit 1 - Arith.lit 0) / Arith.ofNat (t.npts + 1) := by
  unfold RadialTraits.nodeW
  rw [if_pos ht]

theorem mhl_point (hL : L.Accurate) {M : ℕ} (hM : M ≤ 4) (h : Sz n N η e) (hj : j < n)
    (hR : RelP (F64.fin R : F64 L) R 0 50) :
    RelP ((RadialTraits.mhl M n (F64.fin R : F64 L)).transform ((RadialTraits.mhl M n (F64.fin R)).nodeX j))
      (R * (((j : ℝ) + 1) / (n + 1) / (1 - ((j : ℝ) + 1) / (n + 1))) ^ M) (24 * η) 170 := by
  have h1 := h.eta
  have h2 := h.eta'
  have h3 := h.e2
  have hu := uro_pos
  have hM' : (M : ℝ) ≤ 4 := by exact_mod_cast hM
  rw [nodeX_uni (by rfl)]
  have x := uni_x (L := L) h hj
  have s := uni_x_sub (L := L) h hj
  have m1 := x.div s (r := 5 * η) (g := 30) (by linarith) (by linarith) (by omega) (by norm_num)
  have m2 := RelP.pow hL M m1 (r := 22 * η) (g := 120) (by omega) (by
    have : (M : ℝ) * (5 * η) ≤ 4 * (5 * η) := by
      have h5 : 0 ≤ 5 * η := by linarith
      gcongr
    linarith) (by linarith) (by omega) (by norm_num)
  exact hR.mul m2 (r := 24 * η) (g := 170) (by linarith) (by linarith) (by omega) (by norm_num)

theorem mhl_weight (hL : L.Accurate) {M : ℕ} (hM1 : 1 ≤ M) (hM : M ≤ 4) (h : Sz n N η e) (hj : j < n)
    (hR : RelP (F64.fin R : F64 L) R 0 50) :
    RelP ((RadialTraits.mhl M n (F64.fin R : F64 L)).nodeW j *
        (RadialTraits.mhl M n (F64.fin R : F64 L)).jacobian ((RadialTraits.mhl M n (F64.fin R)).nodeX j))
      (1 / ((n : ℝ) + 1) * (R * M * (((j : ℝ) + 1) / (n + 1)) ^ (M - 1) /
        (1 - ((j : ℝ) + 1) / (n + 1)) ^ (M + 1))) (28 * η) 190 := by
  have h1 := h.eta
  have h2 := h.eta'
  have h3 := h.e2
  have hu := uro_pos
  have hM' : (M : ℝ) ≤ 4 := by exact_mod_cast hM
  rw [nodeX_uni (by rfl), nodeW_uni (by rfl)]
  have w := uni_w (L := L) h
  have x := uni_x (L := L) h hj
  have s := uni_x_sub (L := L) h hj
  have mM := relP_nat (L := L) (n := M) (e := 2) hM1 (by omega) (by norm_num)
  have m1 := hR.mul mM (r := η) (g := 52) (by linarith) (by linarith) (by omega) (by norm_num)
  have m2 := RelP.pow hL (M - 1) x (r := 5 * η) (g := 45) (by omega) (by
    have : ((M - 1 : ℕ) : ℝ) ≤ 3 := by exact_mod_cast (by omega : M - 1 ≤ 3)
    have : ((M - 1 : ℕ) : ℝ) * (3 * uro) ≤ 3 * (3 * uro) := by gcongr
    linarith) (by linarith) (by
      calc (M - 1) * e ≤ 3 * e := Nat.mul_le_mul_right e (by omega)
        _ ≤ 45 := by omega) (by norm_num)
  have m3 := m1.mul m2 (r := 7 * η) (g := 97) (by linarith) (by linarith) (by omega) (by norm_num)
  have m4 := RelP.pow hL (M + 1) s (r := 18 * η) (g := 75) (by omega) (by
    have : ((M + 1 : ℕ) : ℝ) ≤ 5 := by exact_mod_cast (by omega : M + 1 ≤ 5)
    have : ((M + 1 : ℕ) : ℝ) * (3 * η) ≤ 5 * (3 * η) := by
      have h5 : 0 ≤ 3 * η := by linarith
      gcongr
    linarith) (by linarith) (by
      calc (M + 1) * e ≤ 5 * e := Nat.mul_le_mul_right e (by omega)
        _ ≤ 75 := by omega) (by norm_num)
  have m5 := m3.div m4 (r := 26 * η) (g := 172) (by linarith) (by linarith) (by omega) (by norm_num)
  exact w.mul m5 (r := 28 * η) (g := 190) (by linarith) (by linarith) (by omega) (by norm_num)

theorem mhl_gap {i M : ℕ} (hM1 : 1 ≤ M) (hij : i < j) (hj : j < n) (hR : 0 < R) :
    R * (((i : ℝ) + 1) / (n + 1) / (1 - ((i : ℝ) + 1) / (n + 1))) ^ M ≤
      (1 - 1 / ((n : ℝ) + 1)) * (R * (((j : ℝ) + 1) / (n + 1) / (1 - ((j : ℝ) + 1) / (n + 1))) ^ M) := by
  have hi' : (i : ℝ) + 1 ≤ j := by exact_mod_cast hij
  have hj' : (j : ℝ) + 1 ≤ n := by exact_mod_cast hj
  have hi0 : (0 : ℝ) ≤ i := by positivity
  set N := (n : ℝ) + 1 with hN
  have hN0 : 0 < N := by positivity
  set x := ((i : ℝ) + 1) / N with hx
  set y := ((j : ℝ) + 1) / N with hy
  have hx0 : 0 < x := by positivity
  have hy0 : 0 < y := by positivity
  have hy1 : y < 1 := by rw [hy, div_lt_one hN0]; linarith
  have hxy : x ≤ (1 - 1 / N) * y := by
    rw [hx, hy]
    have : (1 - 1 / N) * (((j : ℝ) + 1) / N) = (((j : ℝ) + 1) - ((j : ℝ) + 1) / N) / N := by
      field_simp
    rw [this]
    gcongr
    have : ((j : ℝ) + 1) / N ≤ 1 := by rw [div_le_one hN0]; linarith
    linarith
  have hc0 : 0 ≤ 1 - 1 / N := by
    have : 1 / N ≤ 1 := by rw [div_le_one hN0]; linarith
    linarith
  have hc1 : 1 - 1 / N ≤ 1 := by
    have : 0 < 1 / N := by positivity
    linarith
  have hxy' : x ≤ y := hxy.trans (by nlinarith)
  have hr : x / (1 - x) ≤ (1 - 1 / N) * (y / (1 - y)) := by
    have h1 : x / (1 - x) ≤ x / (1 - y) := by
      have : 0 < 1 - y := by linarith
      gcongr
    have h2 : x / (1 - y) ≤ (1 - 1 / N) * y / (1 - y) := by
      have : 0 < 1 - y := by linarith
      gcongr
    rw [← mul_div_assoc]
    linarith
  have hx1 : 0 ≤ x / (1 - x) := div_nonneg hx0.le (by linarith)
  have hyp : 0 ≤ y / (1 - y) := div_nonneg hy0.le (by linarith)
  calc R * (x / (1 - x)) ^ M ≤ R * ((1 - 1 / N) * (y / (1 - y))) ^ M := by gcongr
    _ = R * ((1 - 1 / N) ^ M * (y / (1 - y)) ^ M) := by rw [mul_pow]
    _ ≤ R * ((1 - 1 / N) * (y / (1 - y)) ^ M) := by
        gcongr
        exact pow_le_of_le_one hc0 hc1 (by omega)
    _ = _ := by ring

/-! ## Mura and Knowles -/

/-- Convexity of `-log (1 - y)`. -/
theorem neglog_convex {y z : ℝ} (h0 : 0 < y) (h1 : y ≤ z) (h2 : z < 1) :
    -log (1 - y) ≤ y / z * -log (1 - z) := by
  have hz : 0 < z := by linarith
  have h := rpow_one_add_le_one_add_mul_self (s := -z) (p := y / z) (by linarith) (by positivity)
    (by rw [div_le_one hz]; exact h1)
  have e : 1 + y / z * -z = 1 - y := by
    field_simp
    ring
  rw [e, ← sub_eq_add_neg] at h
  have h3 := log_le_log (rpow_pos_of_pos (by linarith) _) h
  rw [log_rpow (by linarith)] at h3
  linarith

theorem le_neglog {y : ℝ} (h1 : y < 1) : y ≤ -log (1 - y) := by
  have := log_le_sub_one_of_pos (show 0 < 1 - y by linarith)
  linarith

theorem mk_gap {i : ℕ} (hij : i < j) (hj : j < n) (hR : 0 < R) :
    R * -log (1 - (((i : ℝ) + 1) / (n + 1)) * (((i : ℝ) + 1) / (n + 1)) * (((i : ℝ) + 1) / (n + 1))) ≤
      (1 - 1 / ((n : ℝ) + 1)) *
        (R * -log (1 - (((j : ℝ) + 1) / (n + 1)) * (((j : ℝ) + 1) / (n + 1)) * (((j : ℝ) + 1) / (n + 1)))) := by
  have hi' : (i : ℝ) + 1 ≤ j := by exact_mod_cast hij
  have hj' : (j : ℝ) + 1 ≤ n := by exact_mod_cast hj
  have hi0 : (0 : ℝ) ≤ i := by positivity
  set N := (n : ℝ) + 1 with hN
  have hN0 : 0 < N := by positivity
  set x := ((i : ℝ) + 1) / N with hx
  set y := ((j : ℝ) + 1) / N with hy
  have hx0 : 0 < x := by positivity
  have hy0 : 0 < y := by positivity
  have hy1 : y < 1 := by rw [hy, div_lt_one hN0]; linarith
  have hxy : x ≤ (1 - 1 / N) * y := by
    rw [hx, hy]
    have : (1 - 1 / N) * (((j : ℝ) + 1) / N) = (((j : ℝ) + 1) - ((j : ℝ) + 1) / N) / N := by
      field_simp
    rw [this]
    gcongr
    have : ((j : ℝ) + 1) / N ≤ 1 := by rw [div_le_one hN0]; linarith
    linarith
  have hc1 : 1 - 1 / N ≤ 1 := by
    have : 0 < 1 / N := by positivity
    linarith
  have hxy' : x ≤ y := hxy.trans (by nlinarith)
  have hyyy : y * y * y < 1 := by
    calc y * y * y ≤ 1 * 1 * y := by gcongr
      _ < 1 := by linarith
  have h1 := neglog_convex (y := x * x * x) (z := y * y * y) (by positivity) (by gcongr) hyyy
  have h2 : x * x * x / (y * y * y) ≤ 1 - 1 / N := by
    have e : x * x * x / (y * y * y) = (x / y) * (x / y) * (x / y) := by field_simp
    have h3 : x / y ≤ 1 - 1 / N := by rw [div_le_iff₀ hy0]; exact hxy
    have h4 : x / y ≤ 1 := by rw [div_le_one hy0]; exact hxy'
    have h5 : 0 < x / y := by positivity
    rw [e]
    calc (x / y) * (x / y) * (x / y) ≤ 1 * 1 * (x / y) := by gcongr
      _ ≤ _ := by linarith
  have h3 : 0 ≤ -log (1 - y * y * y) := le_trans (by positivity) (le_neglog hyyy)
  calc R * -log (1 - x * x * x) ≤ R * (x * x * x / (y * y * y) * -log (1 - y * y * y)) := by gcongr
    _ ≤ R * ((1 - 1 / N) * -log (1 - y * y * y)) := by gcongr
    _ = _ := by ring

/-- The cube of the base node. -/
theorem mk_cube (h : Sz n N η e) (he : e ≤ 12) {x : F64 L} {y : ℝ} (hx : RelP x y (3 * uro) e) :
    RelP (x * x) (y * y) (9 * uro) 24 ∧ RelP (x * x * x) (y * y * y) (15 * uro) 36 := by
  have h1 := h.eta
  have h2 := h.eta'
  have hu := uro_pos
  have m1 := hx.mul hx (r := 9 * uro) (g := 24) (by linarith) (by linarith) (by omega) (by norm_num)
  exact ⟨m1, m1.mul hx (r := 15 * uro) (g := 36) (by linarith) (by linarith) (by omega) (by norm_num)⟩

theorem neg_mul_swap {a b : F64 L} {x y p q : ℝ} (ha : Near a x p) (hb : Near b y q) : -a * b = a * -b := by
  obtain ⟨v, rfl, -, -⟩ := ha
  obtain ⟨w, rfl, -, -⟩ := hb
  rw [F64.fin_neg, F64.fin_neg, F64.fin_mul, F64.fin_mul]
  congr 1
  ring

/-- `1 - x³` in `double`. -/
theorem mk_sub (h : Sz n N η e) (he : e ≤ 12) (hj : j < n) {x : F64 L} {y : ℝ} (hy : y = ((j : ℝ) + 1) / (n + 1))
    (hx : RelP x y (3 * uro) e) :
    Near (Arith.lit 1 - x * x * x) (1 - y * y * y)
        ((16 * uro * (y * y * y) / (1 - y * y * y) + 2 * uro) * (1 - y * y * y)) ∧
      1 / N ≤ 1 - y * y * y ∧ 1 / N ≤ y ∧ 0 < y * y * y := by
  have hu := uro_pos
  have hN := h.lo
  have hN0 : 0 < 1 / N := by positivity
  obtain ⟨-, c⟩ := mk_cube h he hx
  have hy0 := hx.pos
  have hj' : (j : ℝ) + 1 ≤ n := by exact_mod_cast hj
  have hy1 : y ≤ 1 := by
    rw [hy, ← h.hN, div_le_one (by positivity)]
    have := h.hN
    linarith
  have hle : y * y * y ≤ ((j + 1 : ℕ) : ℝ) / ((n + 1 : ℕ) : ℝ) := by
    push_cast
    rw [← hy]
    calc y * y * y ≤ 1 * 1 * y := by gcongr
      _ = y := by ring
  obtain ⟨s1, s2⟩ := uni_sub (m := n + 1) (i := j + 1) rfl h (by omega) (by norm_num : (0 : ℝ) ≤ 15)
    (by norm_num) c.near c.pos.le hle
  refine ⟨s1.mono ?_, s2, ?_, c.pos⟩
  · have hz : 0 < 1 - y * y * y := by linarith
    have ez : (16 * uro * (y * y * y) / (1 - y * y * y) + 2 * uro) * (1 - y * y * y) =
        16 * uro * (y * y * y) + 2 * uro * (1 - y * y * y) := by
      rw [add_mul, div_mul_cancel₀ _ hz.ne']
    rw [ez]
    have h3 : (2⁻¹ : ℝ) ^ 200 ≤ uro * (1 / N) := by
      have e1 := tiny_le_uro
      have h4 : 1 / (2 : ℝ) ^ 100 ≤ 1 / N := by
        have := h.hi
        have : (2 : ℝ) ^ e ≤ 2 ^ 100 := pow_le_pow_right₀ (by norm_num) (by omega)
        gcongr
        linarith
      have h5 : uro * (1 / (2 : ℝ) ^ 100) ≤ uro * (1 / N) := mul_le_mul_of_nonneg_left h4 hu.le
      rw [mul_one_div] at h5
      exact e1.trans h5
    have h4 : uro * (1 / N) ≤ uro * (1 - y * y * y) := by gcongr
    linarith
  · rw [hy, ← h.hN]
    gcongr
    have : (0 : ℝ) ≤ j := by positivity
    linarith

theorem mk_point (hL : L.Accurate) (h : Sz n N η e) (he : e ≤ 12) (hj : j < n)
    (hR : RelP (F64.fin R : F64 L) R 0 50) :
    RelP ((RadialTraits.mk n (F64.fin R : F64 L)).transform ((RadialTraits.mk n (F64.fin R)).nodeX j))
      (R * -log (1 - (((j : ℝ) + 1) / (n + 1)) * (((j : ℝ) + 1) / (n + 1)) * (((j : ℝ) + 1) / (n + 1))))
      (8 * (N ^ 3 * uro)) 90 := by
  have hu := uro_pos
  have h1 := h.eta
  have h2 := h.eta'
  have hN := h.lo
  have hN12 : N ≤ 2 ^ 12 := h.hi.trans (pow_le_pow_right₀ (by norm_num) he)
  rw [nodeX_uni (by rfl)]
  have hx := uni_x (L := L) h hj
  obtain ⟨s1, s2, s3, s4⟩ := mk_sub h he hj rfl hx
  show RelP (-F64.fin R * Arith.log (Arith.lit 1 - _ * _ * _)) _ _ _
  set x : F64 L := Arith.lit 0 + Arith.ofNat (j + 1) * ((Arith.lit 1 - Arith.lit 0) / Arith.ofNat (n + 1))
  change RelP (-F64.fin R * Arith.log (Arith.lit 1 - x * x * x)) _ _ _
  set y := ((j : ℝ) + 1) / (n + 1)
  set c := y * y * y
  have hNi : 0 < 1 / N := by positivity
  have hz : 0 < 1 - c := by linarith
  have hc1 : c < 1 := by linarith
  have hclo : 1 / N ^ 3 ≤ c := by
    calc 1 / N ^ 3 = 1 / N * (1 / N) * (1 / N) := by field_simp
      _ ≤ y * y * y := by gcongr
  have hlog := le_neglog hc1
  have habs : |log (1 - c)| = -log (1 - c) := abs_of_neg (by linarith)
  set E := N ^ 3 * uro with hE
  have hE0 : 0 < E := by positivity
  have hN3 : N * N ^ 2 = N ^ 3 := by ring
  have hNE : 4 * (N * uro) ≤ E := by
    have : 4 * (N * uro) ≤ N ^ 2 * (N * uro) := by
      gcongr
      nlinarith
    rw [hE]
    linarith [hN3]
  have hE8 : 8 * uro ≤ E := by
    have : 2 * uro ≤ N * uro := by gcongr
    linarith
  have hEs : E ≤ 1 / 100000 := by
    have : N ^ 3 ≤ (2 ^ 12) ^ 3 := by gcongr
    calc E ≤ (2 ^ 12) ^ 3 * uro := by rw [hE]; gcongr
      _ ≤ _ := by rw [uro_eq]; norm_num
  have hinv : 1 / (1 - c) ≤ N := by
    rw [div_le_iff₀ hz]
    have := mul_le_mul_of_nonneg_left s2 (show (0 : ℝ) ≤ N by linarith)
    rwa [mul_one_div, div_self (by positivity)] at this
  have hp : 16 * uro * c / (1 - c) ≤ 16 * (N * uro) * c := by
    rw [div_eq_mul_one_div]
    calc 16 * uro * c * (1 / (1 - c)) ≤ 16 * uro * c * N := by gcongr
      _ = _ := by ring
  have hpc : 16 * (N * uro) * c ≤ 16 * (N * uro) * 1 := by gcongr
  have hone : uro ≤ E * c := by
    calc uro = E * (1 / N ^ 3) := by rw [hE]; field_simp
      _ ≤ E * c := by gcongr
  have hqc : 101 / 100 * (16 * (N * uro) * c + 2 * uro) ≤ 25 / 4 * E * c := by
    have h5 : 4 * (N * uro) * c ≤ E * c := by gcongr
    linarith
  have hlo36 : (2⁻¹ : ℝ) ^ 36 ≤ -log (1 - c) := by
    refine le_trans ?_ hlog
    refine le_trans ?_ hclo
    rw [one_div, inv_pow]
    refine inv_anti₀ (by positivity) ?_
    calc N ^ 3 ≤ (2 ^ 12) ^ 3 := by gcongr
      _ = 2 ^ 36 := by norm_num
  have hhi36 : -log (1 - c) ≤ (2 : ℝ) ^ 36 := by
    have h5 := log_le_sub_one_of_pos (show 0 < 1 / (1 - c) by positivity)
    rw [one_div, log_inv] at h5
    rw [one_div] at hinv
    have : (2 : ℝ) ^ 12 ≤ 2 ^ 36 := by norm_num
    linarith
  have hmid : Mid (log (1 - c)) := by
    have := pow_bounds hlo36 hhi36 (by norm_num)
    have := (mid_of this.1 this.2).neg
    rwa [neg_neg] at this
  have l := log_near hL s1 hz (q := 25 / 4 * E) (by linarith) (by
      rw [habs]
      have h6 : 25 / 4 * E * c ≤ 25 / 4 * E * -log (1 - c) := by gcongr
      linarith) (by positivity) (by linarith) hmid
  have lneg := l.neg
  have hR' := hR.near
  rw [neg_mul_swap hR' l]
  have lR : RelP (-(Arith.log (Arith.lit 1 - x * x * x))) (-log (1 - c)) (7 * E) 36 := by
    refine relP_of_near lneg ?_ (by positivity) (by linarith) hlo36 hhi36
    rw [habs]
    have : 0 ≤ -log (1 - c) := by linarith
    gcongr
    linarith
  exact hR.mul lR (r := 8 * E) (g := 90) (by linarith) (by linarith) (by norm_num) (by norm_num)

theorem relP_three : RelP (Arith.lit 3 : F64 L) 3 0 2 := by
  have h : (Arith.lit 3 : F64 L) = Arith.ofNat 3 := by
    show F64.of _ = F64.of _
    push_cast
    rfl
  rw [h]
  have := relP_nat (L := L) (n := 3) (e := 2) (by norm_num) (by norm_num) (by norm_num)
  exact_mod_cast this

theorem mk_weight (h : Sz n N η e) (he : e ≤ 12) (hj : j < n)
    (hR : RelP (F64.fin R : F64 L) R 0 50) :
    RelP ((RadialTraits.mk n (F64.fin R : F64 L)).nodeW j *
        (RadialTraits.mk n (F64.fin R : F64 L)).jacobian ((RadialTraits.mk n (F64.fin R)).nodeX j))
      (1 / ((n : ℝ) + 1) * (R * 3 * ((((j : ℝ) + 1) / (n + 1)) * (((j : ℝ) + 1) / (n + 1))) /
        (1 - (((j : ℝ) + 1) / (n + 1)) * (((j : ℝ) + 1) / (n + 1)) * (((j : ℝ) + 1) / (n + 1)))))
      (32 * (N * uro)) 110 := by
  have hu := uro_pos
  have h1 := h.eta
  have h2 := h.eta'
  have hN := h.lo
  have hN12 : N ≤ 2 ^ 12 := h.hi.trans (pow_le_pow_right₀ (by norm_num) he)
  rw [nodeX_uni (by rfl), nodeW_uni (by rfl)]
  have hw := uni_w (L := L) h
  have hx := uni_x (L := L) h hj
  obtain ⟨s1, s2, s3, s4⟩ := mk_sub h he hj rfl hx
  obtain ⟨c1, c2⟩ := mk_cube h he hx
  have hlo := h.one_lo
  have hhi := two_le_pow h.e1
  set y := ((j : ℝ) + 1) / (n + 1)
  have hNi : 0 < 1 / N := by positivity
  have hz : 0 < 1 - y * y * y := by linarith
  set c := y * y * y
  have hc1 : c ≤ 1 := by linarith
  have hNu : 2 * uro ≤ N * uro := by gcongr
  have hNs : N * uro ≤ 1 / 100000 := by
    calc N * uro ≤ 2 ^ 12 * uro := by gcongr
      _ ≤ _ := by rw [uro_eq]; norm_num
  have hinv : 1 / (1 - c) ≤ N := by
    rw [div_le_iff₀ hz]
    have := mul_le_mul_of_nonneg_left s2 (show (0 : ℝ) ≤ N by linarith)
    rwa [mul_one_div, div_self (by positivity)] at this
  have hp : 16 * uro * c / (1 - c) ≤ 16 * (N * uro) := by
    rw [div_eq_mul_one_div]
    calc 16 * uro * c * (1 / (1 - c)) ≤ 16 * uro * 1 * N := by gcongr
      _ = _ := by ring
  have s := relP_of_near s1 (p := 17 * (N * uro)) (e := e) (by
    gcongr
    linarith) (by positivity) (by linarith) (hlo.trans s2) (by linarith)
  have m1 := hR.mul relP_three (r := 2 * uro) (g := 52) (by linarith) (by linarith) (by norm_num) (by norm_num)
  have m2 := m1.mul c1 (r := 14 * uro) (g := 76) (by linarith) (by linarith) (by norm_num) (by norm_num)
  have m3 := m2.div s (r := 27 * (N * uro)) (g := 88) (by linarith) (by linarith) (by omega) (by norm_num)
  exact hw.mul m3 (r := 32 * (N * uro)) (g := 110) (by linarith) (by linarith) (by omega) (by norm_num)

end

end IntegratorXX
