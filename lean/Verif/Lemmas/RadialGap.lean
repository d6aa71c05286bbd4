import Mathlib.Analysis.Convex.SpecificFunctions.Basic
import Verif.Lemmas.RadialReal
import Verif.Lemmas.FloatRadialBase
import Verif.Lemmas.CompositeForms
import Verif.Lemmas.PrunedConv

/-!
# Consecutive radial points keep a distance

and the points of a product grid are therefore distinct.
-/

namespace IntegratorXX

open Spec RadialTraits Arith

theorem neglog_ratio {c d : ℝ} (hc : 0 < c) (hcd : c ≤ d) (hd : d < 1) :
    -Real.log (1 - c) * d ≤ -Real.log (1 - d) * c := by
  have hd0 : 0 < d := lt_of_lt_of_le hc hcd
  have h1 := rpow_one_add_le_one_add_mul_self (s := -d) (by linarith) (p := c / d) (by positivity)
    (by rw [div_le_one hd0]; exact hcd)
  have e : 1 + c / d * -d = 1 - c := by field_simp; ring
  rw [e, ← sub_eq_add_neg] at h1
  have h2 := Real.log_le_log (Real.rpow_pos_of_pos (by linarith) _) h1
  rw [Real.log_rpow (by linarith)] at h2
  have h3 : c / d * Real.log (1 - d) * d = c * Real.log (1 - d) := by field_simp
  nlinarith

/-- The relative distance of radial points is at least half the distance of the nodes. -/
theorem radialMap_gap (t : RadialTraits ℝ) (h : radialValid t) {x y : ℝ} (hx : x ∈ radialDomain t)
    (hy : y ∈ radialDomain t) (hxy : x < y) :
    radialMap t x * (1 + (y - x) / 2) ≤ radialMap t y := by
  cases t with
  | becke n R =>
    obtain ⟨x0, x1⟩ := hx
    obtain ⟨y0, y1⟩ := hy
    have hR : 0 < R := h
    show R * ((1 + x) / (1 - x)) * (1 + (y - x) / 2) ≤ R * ((1 + y) / (1 - y))
    rw [mul_assoc]
    refine mul_le_mul_of_nonneg_left ?_ hR.le
    have h1 : (1 + x) * (1 + (y - x) / 2) ≤ 1 + y := by nlinarith
    calc (1 + x) / (1 - x) * (1 + (y - x) / 2) = (1 + x) * (1 + (y - x) / 2) / (1 - x) := by ring
      _ ≤ (1 + y) / (1 - x) := by gcongr
      _ ≤ (1 + y) / (1 - y) := by
          apply div_le_div_of_nonneg_left <;> linarith
  | mhl M n R =>
    obtain ⟨x0, x1⟩ := hx
    obtain ⟨y0, y1⟩ := hy
    obtain ⟨hR, hM⟩ := h
    show R * (x / (1 - x)) ^ M * (1 + (y - x) / 2) ≤ R * (y / (1 - y)) ^ M
    rw [mul_assoc]
    refine mul_le_mul_of_nonneg_left ?_ hR.le
    have h1 : x * (1 + (y - x) / 2) ≤ y := by nlinarith
    have h2 : x / (1 - x) * (1 + (y - x) / 2) ≤ y / (1 - y) := by
      calc x / (1 - x) * (1 + (y - x) / 2) = x * (1 + (y - x) / 2) / (1 - x) := by ring
        _ ≤ y / (1 - x) := by gcongr
        _ ≤ y / (1 - y) := by
            apply div_le_div_of_nonneg_left <;> linarith
    have h3 : 0 ≤ x / (1 - x) := div_nonneg x0.le (by linarith)
    have h4 : (1 : ℝ) ≤ 1 + (y - x) / 2 := by linarith
    calc (x / (1 - x)) ^ M * (1 + (y - x) / 2) ≤ (x / (1 - x)) ^ M * (1 + (y - x) / 2) ^ M := by
          gcongr
          exact le_self_pow₀ h4 (by omega)
      _ = (x / (1 - x) * (1 + (y - x) / 2)) ^ M := by rw [mul_pow]
      _ ≤ (y / (1 - y)) ^ M := by gcongr
  | mk n R =>
    obtain ⟨x0, x1⟩ := hx
    obtain ⟨y0, y1⟩ := hy
    have hR : 0 < R := h
    show -R * Real.log (1 - x ^ 3) * (1 + (y - x) / 2) ≤ -R * Real.log (1 - y ^ 3)
    have hx3 : 0 < x ^ 3 := by positivity
    have hxy3 : x ^ 3 ≤ y ^ 3 := by gcongr
    have hy3 : y ^ 3 < 1 := pow_lt_one₀ y0.le y1 (by norm_num)
    have h1 := neglog_ratio hx3 hxy3 hy3
    have h2 : 0 ≤ -Real.log (1 - x ^ 3) := by
      have := Real.log_nonpos (x := 1 - x ^ 3) (by linarith) (by linarith)
      linarith
    have h3 : x ^ 3 * (1 + (y - x) / 2) ≤ y ^ 3 := by
      have : x * (1 + (y - x) / 2) ≤ y := by nlinarith
      calc x ^ 3 * (1 + (y - x) / 2) = x ^ 2 * (x * (1 + (y - x) / 2)) := by ring
        _ ≤ y ^ 2 * y := by gcongr
        _ = y ^ 3 := by ring
    have h4 : x ^ 3 * (-Real.log (1 - x ^ 3) * (1 + (y - x) / 2)) ≤ x ^ 3 * -Real.log (1 - y ^ 3) := by
      nlinarith
    have h5 := le_of_mul_le_mul_left h4 hx3
    nlinarith
  | ta n R alpha =>
    obtain ⟨x0, x1⟩ := hx
    obtain ⟨y0, y1⟩ := hy
    obtain ⟨hR, ha⟩ := h
    have hl : 0 < ln2Literal := by unfold ln2Literal; norm_num
    have e : ∀ z : ℝ, z < 1 → Real.log (2 / (1 - z)) = -Real.log (1 - (1 + z) / 2) := by
      intro z hz
      rw [← Real.log_inv]
      congr 1
      have : 1 - z ≠ 0 := by linarith
      have : 1 - (1 + z) / 2 ≠ 0 := by intro h'; apply this; linarith
      rw [eq_comm, inv_eq_one_div, div_eq_div_iff this (by linarith)]
      ring
    show R / ln2Literal * (1 + x) ^ alpha * Real.log (2 / (1 - x)) * (1 + (y - x) / 2) ≤
      R / ln2Literal * (1 + y) ^ alpha * Real.log (2 / (1 - y))
    rw [e x x1, e y y1]
    have h1 := neglog_ratio (c := (1 + x) / 2) (d := (1 + y) / 2) (by linarith) (by linarith) (by linarith)
    have h2 : 0 ≤ -Real.log (1 - (1 + x) / 2) := by
      have := Real.log_nonpos (x := 1 - (1 + x) / 2) (by linarith) (by linarith)
      linarith
    have h3 : (1 + x) / 2 * (1 + (y - x) / 2) ≤ (1 + y) / 2 := by nlinarith
    have h4 : (1 + x) / 2 * (-Real.log (1 - (1 + x) / 2) * (1 + (y - x) / 2)) ≤
        (1 + x) / 2 * -Real.log (1 - (1 + y) / 2) := by nlinarith
    have h5 := le_of_mul_le_mul_left h4 (by linarith)
    have h6 : (1 + x) ^ alpha ≤ (1 + y) ^ alpha := Real.rpow_le_rpow (by linarith) (by linarith) ha
    have h7 : 0 ≤ (1 + x) ^ alpha := Real.rpow_nonneg (by linarith) _
    have h8 : 0 ≤ -Real.log (1 - (1 + x) / 2) * (1 + (y - x) / 2) := mul_nonneg h2 (by linarith)
    calc R / ln2Literal * (1 + x) ^ alpha * -Real.log (1 - (1 + x) / 2) * (1 + (y - x) / 2)
        = R / ln2Literal * (1 + x) ^ alpha * (-Real.log (1 - (1 + x) / 2) * (1 + (y - x) / 2)) := by ring
      _ ≤ R / ln2Literal * (1 + y) ^ alpha * -Real.log (1 - (1 + y) / 2) := by
        gcongr
        exact mul_nonneg (by positivity) (le_trans h7 h6)

/-- The distance of the nodes. -/
theorem nodeXR_gap (t : RadialTraits ℝ) {i j : ℕ} (hij : i < j) (hj : j < t.npts) :
    1 / ((t.npts : ℝ) + 1) ^ 2 ≤ (t.nodeXR j - t.nodeXR i) / 4 ∨ 1 / ((t.npts : ℝ) + 1) ≤ t.nodeXR j - t.nodeXR i := by
  have hn : (0 : ℝ) < t.npts + 1 := by positivity
  have hij' : (i : ℝ) + 1 ≤ j := by exact_mod_cast hij
  unfold nodeXR
  split_ifs
  · right
    rw [← sub_div]
    gcongr
    linarith
  · left
    have hp := Real.pi_pos
    have a1 := gc2A_ge (n := t.npts) hj
    have a2 := gc2A_ge (n := t.npts) (j := i) (by omega)
    have b1 := gc2A_le (n := t.npts) hj
    have b2 := gc2A_le (n := t.npts) (j := i) (by omega)
    have hd : gc2A t.npts i - gc2A t.npts j = ((j : ℝ) - i) * Real.pi / (t.npts + 1) := by
      unfold gc2A
      rw [Nat.cast_sub (by omega : i ≤ t.npts), Nat.cast_sub (by omega : j ≤ t.npts)]
      ring
    have hd1 : Real.pi / (t.npts + 1) ≤ gc2A t.npts i - gc2A t.npts j := by
      rw [hd]
      gcongr
      nlinarith
    obtain ⟨A, hA⟩ : ∃ A, A = gc2A t.npts i := ⟨_, rfl⟩
    obtain ⟨B, hB⟩ : ∃ B, B = gc2A t.npts j := ⟨_, rfl⟩
    obtain ⟨δ, hδ⟩ : ∃ δ, δ = Real.pi / ((t.npts : ℝ) + 1) := ⟨_, rfl⟩
    rw [← hB, ← hδ] at a1 b1
    rw [← hA, ← hδ] at a2 b2
    rw [← hA, ← hB, ← hδ] at hd1
    rw [← hA, ← hB]
    have hδ0 : 0 < δ := by rw [hδ]; positivity
    have hδe : 2 / Real.pi * δ = 2 / ((t.npts : ℝ) + 1) := by rw [hδ]; field_simp
    have s1 : 1 / ((t.npts : ℝ) + 1) ≤ Real.sin ((A - B) / 2) := by
      have := Real.mul_le_sin (x := (A - B) / 2) (by linarith) (by linarith)
      have h2 : 2 / Real.pi * (δ / 2) ≤ 2 / Real.pi * ((A - B) / 2) := by gcongr
      have h3 : 2 / Real.pi * (δ / 2) = 1 / ((t.npts : ℝ) + 1) := by rw [hδ]; field_simp
      linarith
    have s2 : 2 / ((t.npts : ℝ) + 1) ≤ Real.sin ((B + A) / 2) := by
      by_cases hh : (B + A) / 2 ≤ Real.pi / 2
      · have := Real.mul_le_sin (x := (B + A) / 2) (by linarith) hh
        have h2 : 2 / Real.pi * δ ≤ 2 / Real.pi * ((B + A) / 2) := by gcongr; linarith
        linarith
      · have := Real.mul_le_sin (x := Real.pi - (B + A) / 2) (by linarith) (by linarith)
        rw [Real.sin_pi_sub] at this
        have h2 : 2 / Real.pi * δ ≤ 2 / Real.pi * (Real.pi - (B + A) / 2) := by gcongr; linarith
        linarith
    have h1 : Real.cos B - Real.cos A = 2 * (Real.sin ((B + A) / 2) * Real.sin ((A - B) / 2)) := by
      rw [Real.cos_sub_cos]
      have : (B - A) / 2 = -((A - B) / 2) := by ring
      rw [this, Real.sin_neg]
      ring
    rw [h1]
    have h2 : 2 / ((t.npts : ℝ) + 1) * (1 / ((t.npts : ℝ) + 1)) ≤ Real.sin ((B + A) / 2) * Real.sin ((A - B) / 2) := by
      have : 0 ≤ 1 / ((t.npts : ℝ) + 1) := by positivity
      gcongr
      exact le_trans (by positivity) s2
    have h3 : 2 / ((t.npts : ℝ) + 1) * (1 / ((t.npts : ℝ) + 1)) = 2 * (1 / ((t.npts : ℝ) + 1) ^ 2) := by
      field_simp
    linarith

/-- Radii keep a relative distance larger than the error of the length of the angular points. -/
def ShellsApart (l : List ℝ) : Prop :=
  (∀ r ∈ l, 0 < r) ∧ l.Pairwise (fun r s => r * (1 + 3 / 10 ^ 14) ≤ s)

theorem radial_separated (t : RadialTraits ℝ) (h : radialValid t) (hn : t.npts ≤ 5000000) :
    ShellsApart ((List.range t.npts).map (fun i => t.transform (t.nodeXR i))) := by
  constructor
  · simp only [List.mem_map, List.mem_range, forall_exists_index, and_imp]
    rintro r i hi rfl
    rw [transform_eq_radialMap]
    exact radialMap_pos t h (nodeXR_mem t hi)
  · rw [List.pairwise_map]
    refine List.pairwise_lt_range.imp_of_mem (fun {i j} hi hj hij => ?_)
    rw [List.mem_range] at hi hj
    rw [transform_eq_radialMap, transform_eq_radialMap]
    refine le_trans ?_ (radialMap_gap t h (nodeXR_mem t hi) (nodeXR_mem t hj) (nodeXR_mono t hij hj))
    refine mul_le_mul_of_nonneg_left ?_ (radialMap_pos t h (nodeXR_mem t hi)).le
    have hN : (t.npts : ℝ) ≤ 5000000 := by exact_mod_cast hn
    have hN0 : (0 : ℝ) ≤ t.npts := Nat.cast_nonneg _
    have h1 : (1 : ℝ) / 5000001 ≤ 1 / ((t.npts : ℝ) + 1) := by
      apply one_div_le_one_div_of_le <;> linarith
    have h2 : (1 / 5000001 : ℝ) ^ 2 ≤ (1 / ((t.npts : ℝ) + 1)) ^ 2 := by gcongr
    have h3 : (1 / ((t.npts : ℝ) + 1)) ^ 2 = 1 / ((t.npts : ℝ) + 1) ^ 2 := by rw [div_pow, one_pow]
    rw [h3] at h2
    rcases nodeXR_gap t hij hj with h4 | h4
    · have h5 := h2.trans h4
      norm_num at h5 ⊢
      linarith
    · have h5 := h1.trans h4
      norm_num at h5 ⊢
      linarith

/-- Points at distance nearly 1. -/
def NearUnit (l : List (Pt ℝ)) : Prop := ∀ u ∈ l, |u.x ^ 2 + u.y ^ 2 + u.z ^ 2 - 1| ≤ 1 / 10 ^ 14

theorem separated_ne {r s : ℝ} (hr : 0 < r) (h : r * (1 + 3 / 10 ^ 14) ≤ s) {u v : Pt ℝ}
    (hu : |u.x ^ 2 + u.y ^ 2 + u.z ^ 2 - 1| ≤ 1 / 10 ^ 14) (hv : |v.x ^ 2 + v.y ^ 2 + v.z ^ 2 - 1| ≤ 1 / 10 ^ 14) :
    combinePt r u ≠ combinePt s v := by
  intro he
  injection he with hx hy hz
  obtain ⟨N, hN⟩ : ∃ N, N = u.x ^ 2 + u.y ^ 2 + u.z ^ 2 := ⟨_, rfl⟩
  obtain ⟨K, hK⟩ : ∃ K, K = v.x ^ 2 + v.y ^ 2 + v.z ^ 2 := ⟨_, rfl⟩
  have e : r ^ 2 * N = s ^ 2 * K := by
    rw [hN, hK]
    have e1 : (r * u.x) ^ 2 = (s * v.x) ^ 2 := by rw [hx]
    have e2 : (r * u.y) ^ 2 = (s * v.y) ^ 2 := by rw [hy]
    have e3 : (r * u.z) ^ 2 = (s * v.z) ^ 2 := by rw [hz]
    linear_combination e1 + e2 + e3
  rw [← hN, abs_le] at hu
  rw [← hK, abs_le] at hv
  have h1 : (r * (1 + 3 / 10 ^ 14)) ^ 2 ≤ s ^ 2 := by gcongr
  have h2 : (r * (1 + 3 / 10 ^ 14)) ^ 2 * (1 - 1 / 10 ^ 14) ≤ s ^ 2 * K := by
    have : 0 ≤ s ^ 2 := by positivity
    refine mul_le_mul h1 (by linarith) (by norm_num) this
  have h3 : r ^ 2 * N ≤ r ^ 2 * (1 + 1 / 10 ^ 14) := by
    refine mul_le_mul_of_nonneg_left (by linarith) (by positivity)
  have h4 : 0 < r ^ 2 := by positivity
  rw [mul_pow] at h2
  have h5 : r ^ 2 * ((1 + 3 / 10 ^ 14) ^ 2 * (1 - 1 / 10 ^ 14)) ≤ r ^ 2 * (1 + 1 / 10 ^ 14) := by linarith
  have h6 := le_of_mul_le_mul_left h5 h4
  norm_num at h6

theorem separated_eq {l : List ℝ} (hl : ShellsApart l) {r s : ℝ} (hr : r ∈ l) (hs : s ∈ l) {u v : Pt ℝ}
    (hu : |u.x ^ 2 + u.y ^ 2 + u.z ^ 2 - 1| ≤ 1 / 10 ^ 14) (hv : |v.x ^ 2 + v.y ^ 2 + v.z ^ 2 - 1| ≤ 1 / 10 ^ 14)
    (h : combinePt r u = combinePt s v) : r = s := by
  by_contra hne
  have key : r * (1 + 3 / 10 ^ 14) ≤ s ∨ s * (1 + 3 / 10 ^ 14) ≤ r := by
    have hp := List.pairwise_iff_getElem.1 hl.2
    obtain ⟨i, hi, rfl⟩ := List.getElem_of_mem hr
    obtain ⟨j, hj, rfl⟩ := List.getElem_of_mem hs
    rcases Nat.lt_trichotomy i j with hij | rfl | hij
    · exact Or.inl (hp i j hi hj hij)
    · exact absurd rfl hne
    · exact Or.inr (hp j i hj hi hij)
  rcases key with h' | h'
  · exact separated_ne (hl.1 r hr) h' hu hv h
  · exact separated_ne (hl.1 s hs) h' hv hu h.symm

theorem ShellsApart.nodup {l : List ℝ} (hl : ShellsApart l) : l.Nodup := by
  refine hl.2.imp_of_mem (fun {r s} hr _ h he => ?_)
  have := hl.1 r hr
  rw [← he] at h
  norm_num at h
  linarith

theorem combinePt_inj {r : ℝ} (hr : 0 < r) {u v : Pt ℝ} (h : combinePt r u = combinePt r v) : u = v := by
  injection h with hx hy hz
  have e := mul_left_cancel₀ hr.ne' hx
  have e2 := mul_left_cancel₀ hr.ne' hy
  have e3 := mul_left_cancel₀ hr.ne' hz
  cases u; cases v
  simp_all

theorem sphEntries_points (rl : List (ℝ × ℝ)) (al : List (Pt ℝ × ℝ)) :
    (sphEntries rl al).map Prod.fst = (al.map Prod.fst).flatMap (fun u => (rl.map Prod.fst).map (fun r => combinePt r u)) := by
  unfold sphEntries
  rw [List.map_flatMap, List.flatMap_map]
  congr 1
  funext a
  rw [List.map_map, List.map_map]
  rfl

/-- A product grid. -/
theorem sphEntries_nodup {L : List ℝ} (hL : ShellsApart L) {rl : List (ℝ × ℝ)} (hs : ∀ r ∈ rl.map Prod.fst, r ∈ L)
    (hr : (rl.map Prod.fst).Nodup) {al : List (Pt ℝ × ℝ)} (ha : (al.map Prod.fst).Nodup)
    (hu : NearUnit (al.map Prod.fst)) : ((sphEntries rl al).map Prod.fst).Nodup := by
  rw [sphEntries_points, List.nodup_flatMap]
  constructor
  · intro u hmu
    refine List.Nodup.map_on (fun r h1 s h2 he => separated_eq hL (hs _ h1) (hs _ h2) (hu u hmu) (hu u hmu) he) hr
  · refine List.Pairwise.imp_of_mem (R := fun a b => a ≠ b) (fun {u v} h1 h2 hne p hp hq => ?_) ha
    rw [List.mem_map] at hp hq
    obtain ⟨r, hr1, rfl⟩ := hp
    obtain ⟨s, hs1, he⟩ := hq
    have hrs := separated_eq hL (hs _ hs1) (hs _ hr1) (hu v h2) (hu u h1) he
    rw [hrs] at he
    exact hne (combinePt_inj (hL.1 _ (hs _ hr1)) he).symm

theorem shift_nodup (c : Pt ℝ) {l : List (Pt ℝ × ℝ)} (h : (l.map Prod.fst).Nodup) :
    ((l.map (shiftEntry c)).map Prod.fst).Nodup := by
  rw [List.map_map]
  have : (Prod.fst ∘ shiftEntry c : Pt ℝ × ℝ → Pt ℝ) = shiftPt c ∘ Prod.fst := rfl
  rw [this, ← List.map_map]
  refine h.map (fun u v he => ?_)
  injection he with hx hy hz
  cases u; cases v
  simp_all

/-- The regions of a pruned grid. -/
theorem regions_nodup {rl : List (ℝ × ℝ)} (hL : ShellsApart (rl.map Prod.fst)) {regions : List (Nat × Quad (Pt ℝ) ℝ)}
    (hst : StartsOk regions) (hlt : ∀ e ∈ regions, e.1 < rl.length)
    (hA : ∀ e ∈ tiles rl.length regions, ((e.2.points.zip e.2.weights).map Prod.fst).Nodup ∧
      NearUnit ((e.2.points.zip e.2.weights).map Prod.fst)) :
    (((tiles rl.length regions).flatMap (regionEntries rl)).map Prod.fst).Nodup := by
  have hsl := tiles_slices rl regions 0 hst.1 hst.2 hlt
  rw [List.drop_zero] at hsl
  have hnd : ((tiles rl.length regions).flatMap (fun e => ((rl.take e.1.2).drop e.1.1).map Prod.fst)).Nodup := by
    rw [← List.map_flatMap, hsl]
    exact hL.nodup
  rw [List.nodup_flatMap] at hnd
  obtain ⟨h1, h2⟩ := hnd
  have hsub : ∀ (i j : Nat), ∀ r ∈ ((rl.take j).drop i).map Prod.fst, r ∈ rl.map Prod.fst := by
    intro i j r hr
    rw [List.mem_map] at hr ⊢
    obtain ⟨a, ha, rfl⟩ := hr
    exact ⟨a, List.mem_of_mem_take (List.mem_of_mem_drop ha), rfl⟩
  rw [List.map_flatMap, List.nodup_flatMap]
  constructor
  · intro e he
    exact sphEntries_nodup hL (hsub _ _) (h1 e he) (hA e he).1 (hA e he).2
  · refine h2.imp_of_mem (fun {e f} he hf hd p hp hq => ?_)
    unfold regionEntries at hp hq
    dsimp only at hp hq
    rw [sphEntries_points, List.mem_flatMap] at hp hq
    obtain ⟨u, hu, hp⟩ := hp
    obtain ⟨v, hv, hq⟩ := hq
    rw [List.mem_map] at hp hq
    obtain ⟨r, hr, rfl⟩ := hp
    obtain ⟨s, hs, e'⟩ := hq
    have := separated_eq hL (hsub _ _ _ hs) (hsub _ _ _ hr) ((hA f hf).2 v hv) ((hA e he).2 u hu) e'
    rw [this] at hs
    exact hd hr hs

end IntegratorXX
