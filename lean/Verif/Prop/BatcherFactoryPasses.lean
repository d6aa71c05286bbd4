import Verif.Prop.BatcherPasses
import Verif.Prop.DistinctPoints
import Verif.Prop.FloatGrid
import Verif.Prop.RadialReach
import Verif.Lemmas.DistinctAng
import Verif.Lemmas.FloatApart

/-!
# C114: the number of refinements of the batcher over a grid of the factory
-/

namespace IntegratorXX

open Spec RadialTraits

/-! ## Distances of the points of a grid -/

private theorem shells_far {v w : ℝ} (hv : 0 < v) (hvw : v ≤ (1 - 2⁻¹ ^ 33) * w) {y z : Pt ℝ}
    (hy : |y.x ^ 2 + y.y ^ 2 + y.z ^ 2 - 1| ≤ 1 / 10 ^ 14) (hz : |z.x ^ 2 + z.y ^ 2 + z.z ^ 2 - 1| ≤ 1 / 10 ^ 14) :
    PtApart (2⁻¹ ^ 36 * w) (combinePt v y) (combinePt w z) := by
  by_contra hc
  unfold PtApart at hc
  push Not at hc
  obtain ⟨c1, c2, c3⟩ := hc
  have hw : 0 < w := by
    by_contra h
    have : (1 - (2⁻¹ : ℝ) ^ 33) * w ≤ 0 := mul_nonpos_of_nonneg_of_nonpos (by norm_num) (by linarith)
    linarith
  have hvw' : v ≤ w := by
    have : (0 : ℝ) ≤ 2⁻¹ ^ 33 * w := by positivity
    linarith
  obtain ⟨y1, y2, y3⟩ := coord_le hy
  obtain ⟨z1, z2, z3⟩ := coord_le hz
  have term : ∀ {a b : ℝ}, |a| ≤ 11 / 10 → |b| ≤ 11 / 10 → |v * a - w * b| < 2⁻¹ ^ 36 * w →
      (w * b) ^ 2 - (v * a) ^ 2 ≤ 3 * 2⁻¹ ^ 36 * w ^ 2 := by
    intro a b ha hb h
    have h1 : (w * b) ^ 2 - (v * a) ^ 2 = (w * b - v * a) * (w * b + v * a) := by ring
    have h2 : |w * b + v * a| ≤ 3 * w := by
      calc |w * b + v * a| ≤ |w * b| + |v * a| := abs_add_le _ _
        _ = w * |b| + v * |a| := by rw [abs_mul, abs_mul, abs_of_pos hw, abs_of_pos hv]
        _ ≤ w * (11 / 10) + w * (11 / 10) := by gcongr
        _ ≤ 3 * w := by linarith
    rw [h1]
    calc (w * b - v * a) * (w * b + v * a) ≤ |w * b - v * a| * |w * b + v * a| := by
          rw [← abs_mul]; exact le_abs_self _
      _ ≤ 2⁻¹ ^ 36 * w * (3 * w) := by
          rw [abs_sub_comm]
          gcongr
      _ = _ := by ring
  have t1 := term y1 z1 c1
  have t2 := term y2 z2 c2
  have t3 := term y3 z3 c3
  obtain ⟨Y, hY⟩ : ∃ Y, Y = y.x ^ 2 + y.y ^ 2 + y.z ^ 2 := ⟨_, rfl⟩
  obtain ⟨Z, hZ⟩ : ∃ Z, Z = z.x ^ 2 + z.y ^ 2 + z.z ^ 2 := ⟨_, rfl⟩
  rw [← hY] at hy
  rw [← hZ] at hz
  have hy' := abs_le.1 hy
  have hz' := abs_le.1 hz
  have hsum : w ^ 2 * Z - v ^ 2 * Y ≤ 9 * 2⁻¹ ^ 36 * w ^ 2 := by
    rw [hY, hZ]
    nlinarith
  have hw2 : 0 < w ^ 2 := by positivity
  have h1 : v ^ 2 ≤ (1 - 2⁻¹ ^ 33) ^ 2 * w ^ 2 := by
    rw [← mul_pow]
    gcongr
  have h2 : v ^ 2 * Y ≤ (1 - 2⁻¹ ^ 33) ^ 2 * w ^ 2 * (1 + 1 / 10 ^ 14) := by
    refine mul_le_mul h1 (by linarith) ?_ (by positivity)
    linarith [hy'.1, (by norm_num : (1 : ℝ) / 10 ^ 14 ≤ 1)]
  have h3 : w ^ 2 * (1 - 1 / 10 ^ 14) ≤ w ^ 2 * Z := by
    refine mul_le_mul_of_nonneg_left (by linarith) hw2.le
  norm_num at h2 h3 hsum
  nlinarith

private theorem ptApart_mono {δ ε : ℝ} (h : ε ≤ δ) {u v : Pt ℝ} (hd : PtApart δ u v) : PtApart ε u v := by
  rcases hd with h1 | h1 | h1
  · exact .inl (h.trans h1)
  · exact .inr (.inl (h.trans h1))
  · exact .inr (.inr (h.trans h1))

private theorem combine_far {r : ℝ} (hr : 0 < r) {u v : Pt ℝ} (h : PtApart (2⁻¹ ^ 36) u v) :
    PtApart (2⁻¹ ^ 36 * r) (combinePt r u) (combinePt r v) := by
  have key : ∀ {a b : ℝ}, 2⁻¹ ^ 36 ≤ |a - b| → 2⁻¹ ^ 36 * r ≤ |r * a - r * b| := by
    intro a b h
    rw [← mul_sub, abs_mul, abs_of_pos hr, mul_comm]
    exact mul_le_mul_of_nonneg_left h hr.le
  rcases h with h | h | h
  · exact .inl (key h)
  · exact .inr (.inl (key h))
  · exact .inr (.inr (key h))

/-- Radii between `a` and `z` that increase by a factor. -/
private def Radii (a z : ℝ) (rl : List (ℝ × ℝ)) : Prop :=
  (∀ r ∈ rl, a ≤ r.1 ∧ r.1 ≤ z) ∧ rl.Pairwise (fun r s => r.1 ≤ (1 - 2⁻¹ ^ 33) * s.1)

/-- Directions that are apart. -/
private def Dirs (al : List (Pt ℝ × ℝ)) : Prop :=
  (∀ u ∈ al, |u.1.x ^ 2 + u.1.y ^ 2 + u.1.z ^ 2 - 1| ≤ 1 / 10 ^ 14) ∧
    al.Pairwise (fun u v => PtApart (2⁻¹ ^ 36) u.1 v.1)

private theorem Radii.sublist {a z : ℝ} {rl sl : List (ℝ × ℝ)} (h : Radii a z rl) (hs : sl.Sublist rl) : Radii a z sl :=
  ⟨fun r hr => h.1 r (hs.subset hr), h.2.sublist hs⟩

private theorem far_of {a z : ℝ} (ha : 0 < a) {r s : ℝ} (hr : a ≤ r ∧ r ≤ z) (hs : a ≤ s ∧ s ≤ z) {u v : Pt ℝ}
    (hu : |u.x ^ 2 + u.y ^ 2 + u.z ^ 2 - 1| ≤ 1 / 10 ^ 14) (hv : |v.x ^ 2 + v.y ^ 2 + v.z ^ 2 - 1| ≤ 1 / 10 ^ 14)
    (h : (r = s ∧ PtApart (2⁻¹ ^ 36) u v) ∨ r ≤ (1 - 2⁻¹ ^ 33) * s ∨ s ≤ (1 - 2⁻¹ ^ 33) * r) :
    PtApart (2⁻¹ ^ 36 * a) (combinePt r u) (combinePt s v) := by
  have le : ∀ {x : ℝ}, a ≤ x → 2⁻¹ ^ 36 * a ≤ 2⁻¹ ^ 36 * x := fun h => mul_le_mul_of_nonneg_left h (by positivity)
  rcases h with ⟨rfl, h⟩ | h | h
  · exact ptApart_mono (le hr.1) (combine_far (ha.trans_le hr.1) h)
  · exact ptApart_mono (le hs.1) (shells_far (ha.trans_le hr.1) h hu hv)
  · exact ptApart_symm (ptApart_mono (le hr.1) (shells_far (ha.trans_le hs.1) h hv hu))

private def Inside (z : ℝ) (p : Pt ℝ) : Prop := |p.x| ≤ 11 / 10 * z ∧ |p.y| ≤ 11 / 10 * z ∧ |p.z| ≤ 11 / 10 * z

private theorem inside_of {a z : ℝ} (ha : 0 < a) {r : ℝ} (hr : a ≤ r ∧ r ≤ z) {u : Pt ℝ}
    (hu : |u.x ^ 2 + u.y ^ 2 + u.z ^ 2 - 1| ≤ 1 / 10 ^ 14) : Inside z (combinePt r u) := by
  obtain ⟨h1, h2, h3⟩ := coord_le hu
  have key : ∀ {x : ℝ}, |x| ≤ 11 / 10 → |r * x| ≤ 11 / 10 * z := by
    intro x hx
    rw [abs_mul, abs_of_pos (ha.trans_le hr.1), mul_comm]
    exact mul_le_mul hx hr.2 (ha.trans_le hr.1).le (by norm_num)
  exact ⟨key h1, key h2, key h3⟩

private theorem entries_far {a z : ℝ} (ha : 0 < a) {rl : List (ℝ × ℝ)} (hr : Radii a z rl) {al : List (Pt ℝ × ℝ)}
    (hd : Dirs al) :
    (sphEntries rl al).Pairwise (fun p q => PtApart (2⁻¹ ^ 36 * a) p.1 q.1) ∧
      ∀ p ∈ sphEntries rl al, Inside z p.1 := by
  unfold sphEntries
  constructor
  · rw [List.pairwise_flatMap]
    constructor
    · intro u hu
      rw [List.pairwise_map]
      exact hr.2.imp_of_mem fun {r s} h1 h2 h => far_of ha (hr.1 r h1) (hr.1 s h2) (hd.1 u hu) (hd.1 u hu) (.inr (.inl h))
    · refine hd.2.imp_of_mem (fun {u v} hu hv h p hp q hq => ?_)
      obtain ⟨r, h1, rfl⟩ := List.mem_map.1 hp
      obtain ⟨s, h2, rfl⟩ := List.mem_map.1 hq
      refine far_of ha (hr.1 r h1) (hr.1 s h2) (hd.1 u hu) (hd.1 v hv) ?_
      have hpw := List.pairwise_iff_getElem.1 hr.2
      obtain ⟨i, hi, rfl⟩ := List.getElem_of_mem h1
      obtain ⟨j, hj, rfl⟩ := List.getElem_of_mem h2
      rcases Nat.lt_trichotomy i j with hij | rfl | hij
      · exact .inr (.inl (hpw i j hi hj hij))
      · exact .inl ⟨rfl, h⟩
      · exact .inr (.inr (hpw j i hj hi hij))
  · intro p hp
    obtain ⟨u, hu, hp⟩ := List.mem_flatMap.1 hp
    obtain ⟨r, h1, rfl⟩ := List.mem_map.1 hp
    exact inside_of ha (hr.1 r h1) (hd.1 u hu)

private theorem regions_far {a z : ℝ} (ha : 0 < a) {rl : List (ℝ × ℝ)} (hr : Radii a z rl)
    {regions : List (Nat × Quad (Pt ℝ) ℝ)} (hst : StartsOk regions) (hlt : ∀ e ∈ regions, e.1 < rl.length)
    (hA : ∀ e ∈ tiles rl.length regions, Dirs (e.2.points.zip e.2.weights)) :
    ((tiles rl.length regions).flatMap (regionEntries rl)).Pairwise (fun p q => PtApart (2⁻¹ ^ 36 * a) p.1 q.1) ∧
      ∀ p ∈ (tiles rl.length regions).flatMap (regionEntries rl), Inside z p.1 := by
  have hsl := tiles_slices rl regions 0 hst.1 hst.2 hlt
  rw [List.drop_zero] at hsl
  have hsub : ∀ i j : Nat, ((rl.take j).drop i).Sublist rl := fun i j =>
    (List.drop_sublist _ _).trans (List.take_sublist _ _)
  have hpw := hr.2
  rw [← hsl, List.pairwise_flatMap] at hpw
  have key := fun e (he : e ∈ tiles rl.length regions) => entries_far ha (hr.sublist (hsub e.1.1 e.1.2)) (hA e he)
  constructor
  · rw [List.pairwise_flatMap]
    refine ⟨fun e he => (key e he).1, hpw.2.imp_of_mem (fun {e f} he hf h p hp q hq => ?_)⟩
    unfold regionEntries sphEntries at hp hq
    obtain ⟨u, hu, hp⟩ := List.mem_flatMap.1 hp
    obtain ⟨v, hv, hq⟩ := List.mem_flatMap.1 hq
    obtain ⟨r, h1, rfl⟩ := List.mem_map.1 hp
    obtain ⟨s, h2, rfl⟩ := List.mem_map.1 hq
    exact far_of ha (hr.1 r ((hsub _ _).subset h1)) (hr.1 s ((hsub _ _).subset h2)) ((hA e he).1 u hu) ((hA f hf).1 v hv)
      (.inr (.inl (h r h1 s h2)))
  · intro p hp
    obtain ⟨e, he, hp⟩ := List.mem_flatMap.1 hp
    exact (key e he).2 p hp

/-- The batcher over entries that are apart. -/
private theorem passes_of (part : PartitionFn ℝ) (hp : StdPartition part) (maxBatch : Nat) (h1 : 1 ≤ maxBatch)
    {l : List (Pt ℝ × ℝ)} (hne : l ≠ []) (hlt : l.length < sizeMod) {a z : ℝ} (ha : 0 < a)
    (hl : l.Pairwise (fun p q => PtApart (2⁻¹ ^ 36 * a) p.1 q.1) ∧ ∀ p ∈ l, Inside z p.1) (k : ℕ)
    (hk : 2 ^ 37 * z ≤ 2 ^ k * a) (s : SphQuad ℝ) (hs : s.quad = Quad.ofPairs (l.map (shiftEntry (origin ℝ)))) :
    ∃ b, Batcher.make part (k + 1) maxBatch s = some (.ok b) := by
  have ho : ∀ p : Pt ℝ × ℝ, (shiftEntry (origin ℝ) p).1 = p.1 := by
    intro p
    show shiftPt (origin ℝ) p.1 = p.1
    obtain ⟨⟨x, y, z⟩, w⟩ := p
    simp [shiftPt, origin]
  have hpts : s.quad.points = l.map Prod.fst := by
    rw [hs]
    show (l.map (shiftEntry (origin ℝ))).map Prod.fst = _
    rw [List.map_map]
    exact List.map_congr_left fun p _ => ho p
  refine C112_separated part hp maxBatch h1 s ?_ ?_ ?_ (11 / 5 * z) (2⁻¹ ^ 37 * a) ?_ ?_ k ?_
  · rw [hs]
    simp [Consistent, Quad.ofPairs]
  · rw [hpts]
    simpa using hne
  · unfold Quad.npts
    rw [hpts, List.length_map]
    exact hlt
  · intro u hu v hv
    rw [hpts, List.mem_map] at hu hv
    obtain ⟨p, hp, rfl⟩ := hu
    obtain ⟨q, hq, rfl⟩ := hv
    obtain ⟨u1, u2, u3⟩ := hl.2 p hp
    obtain ⟨v1, v2, v3⟩ := hl.2 q hq
    have key : ∀ {x y : ℝ}, |x| ≤ 11 / 10 * z → |y| ≤ 11 / 10 * z → |x - y| ≤ 11 / 5 * z := fun hx hy =>
      (abs_sub _ _).trans (by linarith)
    exact ⟨key u1 v1, key u2 v2, key u3 v3⟩
  · rw [hpts, List.pairwise_map]
    refine hl.1.imp fun {p q} h hw => ?_
    have hlt : (2⁻¹ : ℝ) ^ 37 * a < 2⁻¹ ^ 36 * a := by
      refine mul_lt_mul_of_pos_right (by norm_num) ha
    rcases h with h | h | h
    · linarith [hw.1]
    · linarith [hw.2.1]
    · linarith [hw.2.2]
  · have e : 3 * 2 ^ k * ((2⁻¹ : ℝ) ^ 37 * a) = 3 * 2⁻¹ ^ 37 * (2 ^ k * a) := by ring
    have hz : 0 ≤ z := by
      obtain ⟨p, hp⟩ := List.exists_mem_of_ne_nil l hne
      have := (hl.2 p hp).1
      have := abs_nonneg p.1.x
      linarith
    rw [e]
    calc 11 / 5 * z ≤ 3 * 2⁻¹ ^ 37 * (2 ^ 37 * z) := by norm_num; linarith
      _ ≤ _ := mul_le_mul_of_nonneg_left hk (by positivity)

/-! ## Radial and angular parts -/

private theorem radial_part (b : Build) {rq : RadialQuad} {t : RadialTraits ℝ} (hm : Matches rq t) (hv : radialValid t)
    (hn : t.npts < 2 ^ 16) {q : Quad ℝ ℝ} (hq : construct b t.generate = .ok q) {a z : ℝ}
    (ha : q.points[0]? = some a) (hz : q.points[t.npts - 1]? = some z) :
    ∃ rl : List (ℝ × ℝ), rl.length = t.npts ∧ radialGenerate b rq t = .ok (Quad.ofPairs rl) ∧
      construct b t.generate = .ok (Quad.ofPairs rl) ∧ 0 < a ∧ Radii a z rl := by
  have hn' : t.npts + 2 < sizeMod := by unfold sizeMod; omega
  obtain ⟨rl, hl, hr⟩ := radialGenerate_ok (F := ℝ) b hm hn'
  have hc := (radialGenerate_matches b hm).symm.trans hr
  refine ⟨rl, hl, hr, hc, ?_⟩
  rw [hq] at hc
  injection hc with hc
  rw [t.generate_real hn', construct_ok b (by simp)] at hq
  injection hq with hq
  have hpts : rl.map Prod.fst = (List.range t.npts).map (fun i => t.transform (t.nodeXR i)) := by
    have : (Quad.ofPairs rl).points = rl.map Prod.fst := rfl
    rw [← this, ← hc, ← hq]
  have hqp : q.points = (List.range t.npts).map (fun i => t.transform (t.nodeXR i)) := by rw [← hq]
  rw [hqp] at ha hz
  have h0 : 0 < t.npts := by
    by_contra h
    have : t.npts = 0 := by omega
    simp [this] at ha
  rw [List.getElem?_map, List.getElem?_range h0, Option.map_some, Option.some_inj, transform_eq_radialMap] at ha
  rw [List.getElem?_map, List.getElem?_range (by omega), Option.map_some, Option.some_inj, transform_eq_radialMap] at hz
  have mono : ∀ {i j : ℕ}, i < j → j < t.npts →
      radialMap t (t.nodeXR i) ≤ (1 - 2⁻¹ ^ 33) * radialMap t (t.nodeXR j) := by
    intro i j hij hj
    have hi : i < t.npts := by omega
    have g := radialMap_gap t hv (nodeXR_mem t hi) (nodeXR_mem t hj) (nodeXR_mono t hij hj)
    have p := radialMap_pos t hv (nodeXR_mem t hi)
    have gap : (2⁻¹ : ℝ) ^ 32 ≤ (t.nodeXR j - t.nodeXR i) / 2 := by
      have hN : (t.npts : ℝ) + 1 ≤ 2 ^ 16 := by exact_mod_cast hn
      have hN0 : (0 : ℝ) < (t.npts : ℝ) + 1 := by positivity
      have h1 : (1 : ℝ) / 2 ^ 16 ≤ 1 / ((t.npts : ℝ) + 1) := one_div_le_one_div_of_le hN0 hN
      have h2 : (1 / 2 ^ 16 : ℝ) ^ 2 ≤ (1 / ((t.npts : ℝ) + 1)) ^ 2 := by gcongr
      have h3 : (1 / ((t.npts : ℝ) + 1)) ^ 2 = 1 / ((t.npts : ℝ) + 1) ^ 2 := by rw [div_pow, one_pow]
      rw [h3] at h2
      rcases nodeXR_gap t hij hj with h4 | h4
      · have h5 := h2.trans h4
        norm_num at h5 ⊢
        linarith
      · have h5 := h1.trans h4
        norm_num at h5 ⊢
        linarith
    have h6 : radialMap t (t.nodeXR i) * (1 + 2⁻¹ ^ 32) ≤ radialMap t (t.nodeXR j) :=
      le_trans (mul_le_mul_of_nonneg_left (by linarith) p.le) g
    have h7 : radialMap t (t.nodeXR i) = radialMap t (t.nodeXR i) * (1 + 2⁻¹ ^ 32) * (1 / (1 + 2⁻¹ ^ 32)) := by
      field_simp
    rw [h7, mul_comm]
    have h8 : (1 : ℝ) / (1 + 2⁻¹ ^ 32) ≤ 1 - 2⁻¹ ^ 33 := by norm_num
    refine mul_le_mul h8 h6 (by positivity) (by norm_num)
  have le : ∀ {i j : ℕ}, i ≤ j → j < t.npts → radialMap t (t.nodeXR i) ≤ radialMap t (t.nodeXR j) := by
    intro i j hij hj
    rcases hij.eq_or_lt with rfl | hij
    · exact le_rfl
    have p := radialMap_pos t hv (nodeXR_mem t hj)
    refine (mono hij hj).trans ?_
    nlinarith [(by positivity : (0 : ℝ) < 2⁻¹ ^ 33)]
  refine ⟨by rw [← ha]; exact radialMap_pos t hv (nodeXR_mem t h0), ?_, ?_⟩
  · intro r hr
    have hm' : r.1 ∈ rl.map Prod.fst := List.mem_map_of_mem hr
    rw [hpts, List.mem_map] at hm'
    obtain ⟨i, hi, e⟩ := hm'
    rw [List.mem_range] at hi
    rw [← e, transform_eq_radialMap, ← ha, ← hz]
    exact ⟨le (Nat.zero_le _) hi, le (by omega) (by omega)⟩
  · rw [← List.pairwise_map (f := Prod.fst) (R := fun r s : ℝ => r ≤ (1 - 2⁻¹ ^ 33) * s), hpts, List.pairwise_map]
    refine List.pairwise_lt_range.imp_of_mem (fun {i j} hi hj hij => ?_)
    rw [List.mem_range] at hi hj
    rw [transform_eq_radialMap, transform_eq_radialMap]
    exact mono hij hj

private theorem ang_part (b : Build) (fam : AngFam) (n : Nat) (h : fam.orderByNpts n ≠ -1) :
    ∃ q : Quad (Pt ℝ) ℝ, angConstruct b (angData ℝ) fam n = .ok q ∧ Consistent q ∧ Dirs (q.points.zip q.weights) ∧
      q = ⟨(angData ℝ fam n).points, (angData ℝ fam n).weights.map fam.scaled⟩ ∧ q.points.length = n := by
  obtain ⟨q, hq, h1, -⟩ := C91_angular C91_real b fam n h (g := id) (by
    cases fam
    · exact Tetrahedral.one
    · exact Octahedral.one
    · exact Octahedral.one
    · rfl)
  obtain ⟨q'', hq'', h3⟩ := C64_unit_points b fam n h
  have e := angData_construct b fam n h
  rw [hq] at hq'' e
  injection hq'' with hq''
  injection e with e
  rw [← hq''] at h3
  have hz : (q.points.zip q.weights).map Prod.fst = q.points := by
    unfold Consistent at h1
    rw [List.map_fst_zip (by omega)]
  have hl : q.points.length = n := by
    have hm := (fam.orderByNpts_iff _ _).1 ⟨rfl, h⟩
    have := (angConstruct_supported b (angData ℝ) (angData_typed ℝ) fam n n ((fam.dispatch_iff n n).2 ⟨rfl, _, hm⟩)).2.2.1
    rw [e]
    exact this
  refine ⟨q, hq, h1, ⟨fun u hu => h3 u.1 ?_, ?_⟩, e, hl⟩
  · rw [← hz]
    exact List.mem_map_of_mem hu
  · rw [← List.pairwise_map (f := Prod.fst) (R := PtApart (2⁻¹ ^ 36)), hz, e]
    exact angData_apart fam n h

/-! ## C114 -/

/-- **C114.**  Let `a` and `z` be the first and the last radial point.  The batcher over an unpruned grid of the factory
is built after at most `37 + log2 (z / a)` refinements (rounded up), whatever the angular grid and the batch size. -/
theorem C114_unpruned (b : Build) {rq : RadialQuad} {t : RadialTraits ℝ} (hm : Matches rq t) (hv : radialValid t)
    (hn : t.npts < 2 ^ 16) {q : Quad ℝ ℝ} (hq : construct b t.generate = .ok q) {a z : ℝ}
    (ha : q.points[0]? = some a) (hz : q.points[t.npts - 1]? = some z) (fam : AngFam) (nang : Nat)
    (h : fam.orderByNpts nang ≠ -1) (part : PartitionFn ℝ) (hp : StdPartition part) (maxBatch : Nat) (hb : 1 ≤ maxBatch)
    (k : ℕ) (hk : 2 ^ 37 * z ≤ 2 ^ k * a) :
    Returns (generateGridUnpruned b (angData ℝ) ⟨rq, some t, .fam fam, nang⟩) (fun s =>
      ∃ bt, Batcher.make part (k + 1) maxBatch s = some (.ok bt)) := by
  obtain ⟨rl, hl, hr, -, ha0, hR⟩ := radial_part b hm hv hn hq ha hz
  obtain ⟨A, hA, a1, a2, -, a4⟩ := ang_part b fam nang h
  have e1 := sphConstruct_eq b rl (A.points.zip A.weights) (origin ℝ)
  rw [← Quad.eq_ofPairs A a1] at e1
  have : generateGridUnpruned b (angData ℝ) ⟨rq, some t, .fam fam, nang⟩ =
      sphConstruct b (Quad.ofPairs rl) A (origin ℝ) := by
    show generateUnprunedGrid b _ rq t (.fam fam) nang = _
    unfold generateUnprunedGrid
    simp only [hA, hr, Outcome.ok_bind]
  have hlen : (sphEntries rl (A.points.zip A.weights)).length = nang * t.npts := by
    unfold Consistent at a1
    simp [sphEntries, List.length_flatMap, hl, ← a1, a4]
  have h0 : 0 < t.npts := by
    by_contra hh
    have e : t.npts = 0 := by omega
    rw [← hl] at e
    rw [List.length_eq_zero_iff] at e
    have hc : q = Quad.ofPairs rl := by
      have := (radialGenerate_matches b hm).symm.trans hr
      rw [hq] at this
      injection this
    rw [hc, e] at ha
    simp [Quad.ofPairs] at ha
  obtain ⟨k1, k2⟩ := ang_size_lt h
  have k3 : 1 * 1 ≤ nang * t.npts := Nat.mul_le_mul k1 h0
  have k4 : nang * t.npts ≤ 20000 * 2 ^ 16 := Nat.mul_le_mul k2.le hn.le
  refine ⟨_, this.trans e1, ?_⟩
  refine passes_of part hp maxBatch hb (l := sphEntries rl (A.points.zip A.weights)) ?_ ?_ ha0 (entries_far ha0 hR a2) k hk _ rfl
  · intro he
    rw [he] at hlen
    simp at hlen
    omega
  · rw [hlen]
    unfold sizeMod
    omega

/-- **C114.**  The same for pruned grids. -/
theorem C114_pruned (b : Build) {rq : RadialQuad} {t : RadialTraits ℝ} (hm : Matches rq t) (hv : radialValid t)
    (hn : t.npts < 2 ^ 16) {q : Quad ℝ ℝ} (hq : construct b t.generate = .ok q) {a z : ℝ}
    (ha : q.points[0]? = some a) (hz : q.points[t.npts - 1]? = some z) (fam : AngFam) (rs : List PruningRegion)
    (hst : StartsOk (rs.map (fun r => (r.idxSt, r.angularSize)))) (hlt : ∀ r ∈ rs, r.idxSt < t.npts)
    (hdebug : b.asserts = true → ∀ r ∈ rs.tail, r.idxSt < t.npts - 1)
    (hang : ∀ r ∈ rs, r.angularQuad = .fam fam ∧ fam.orderByNpts r.angularSize ≠ -1)
    (part : PartitionFn ℝ) (hp : StdPartition part) (maxBatch : Nat) (hb : 1 ≤ maxBatch)
    (k : ℕ) (hk : 2 ^ 37 * z ≤ 2 ^ k * a) :
    Returns (generatePrunedGrid b (angData ℝ) rq t rs) (fun s =>
      ∃ bt, Batcher.make part (k + 1) maxBatch s = some (.ok bt)) := by
  obtain ⟨rl, hl, hrg, hr, ha0, hR⟩ := radial_part b hm hv hn hq ha hz
  obtain ⟨s0, hs0, -, c1, c2, c3⟩ := C92_pruned b hm hv (by omega) fam rs hst hlt hdebug hang
  have h0 : 0 < t.npts := by
    by_contra hh
    have e : rl = [] := List.length_eq_zero_iff.1 (by omega)
    rw [hq] at hr
    injection hr with hr
    rw [hr, e] at ha
    simp [Quad.ofPairs] at ha
  obtain ⟨A, hAd⟩ : ∃ A : Nat → Quad (Pt ℝ) ℝ, A = fun n =>
    ⟨(angData ℝ fam n).points, (angData ℝ fam n).weights.map fam.scaled⟩ := ⟨_, rfl⟩
  have hA : ∀ n : Nat, fam.orderByNpts n ≠ -1 →
      angConstruct b (angData ℝ) fam n = .ok (A n) ∧ Consistent (A n) ∧ Dirs ((A n).points.zip (A n).weights) := by
    intro n h
    obtain ⟨a, ha, a1, a2, e, -⟩ := ang_part b fam n h
    have : A n = a := by rw [hAd, e]
    rw [this]
    exact ⟨ha, a1, a2⟩
  have hclosed := pruned_grid_closed b (angData ℝ) hm hr (by simp [Consistent, Quad.ofPairs])
    (by simp [Quad.npts, Quad.ofPairs, hl]) (by unfold sizeMod; omega) fam rs hst hlt hdebug (fun r h => (hang r h).1) A
    (fun r h => (hA _ (hang r h).2).1) (fun r h => (hA _ (hang r h).2).2.1)
  rw [Quad.zip_ofPairs rl, ← hl] at hclosed
  have hst' : StartsOk (rs.map fun r => (r.idxSt, A r.angularSize)) := by
    unfold StartsOk at hst ⊢
    simpa [List.map_map, Function.comp_def] using hst
  have hlt' : ∀ e ∈ rs.map fun r => (r.idxSt, A r.angularSize), e.1 < rl.length := by
    intro e he
    obtain ⟨r, hr, rfl⟩ := List.mem_map.1 he
    rw [hl]
    exact hlt r hr
  have hfar := regions_far ha0 hR hst' hlt' (by
    intro e he
    have hcov := (C32_tiles_cover rl.length _ hst' hlt').2
    have hm : (e.1.1, e.2) ∈ rs.map fun r => (r.idxSt, A r.angularSize) := by
      rw [← hcov.2]
      exact List.mem_map.2 ⟨e, he, rfl⟩
    obtain ⟨r, hr, e'⟩ := List.mem_map.1 hm
    injection e' with _ e'
    rw [← e']
    exact (hA _ (hang r hr).2).2.2)
  rw [hclosed] at hs0
  injection hs0 with hs0
  have hnp : s0.quad.npts = ((tiles rl.length (rs.map fun r => (r.idxSt, A r.angularSize))).flatMap (regionEntries rl)).length := by
    rw [← hs0]
    simp [Quad.npts, Quad.ofPairs]
  refine ⟨_, hclosed, passes_of part hp maxBatch hb ?_ ?_ ha0 hfar k hk _ rfl⟩
  · intro he
    rw [he] at hnp
    simp at hnp
    omega
  · rw [← hnp]
    unfold sizeMod
    omega

/-- The ratio of the last and the first radial point. -/
private theorem reach_ratio (b : Build) {rq : RadialQuad} {t : RadialTraits ℝ} (hm : Matches rq t) (hv : radialValid t)
    (hn : t.npts < 2 ^ 16) (h1 : 1 ≤ t.npts) (hα : ∀ n R α, t = .ta n R α → α ≤ 1) :
    ∃ q a z, construct b t.generate = .ok q ∧ q.points[0]? = some a ∧ q.points[t.npts - 1]? = some z ∧
      z ≤ 2 * ((t.npts : ℝ) + 1) ^ 5 * a := by
  have hN1 : (1 : ℝ) ≤ t.npts := by exact_mod_cast h1
  have hs : t.npts + 2 < sizeMod := by unfold sizeMod; omega
  have up : ∀ {N x : ℝ}, 1 ≤ N → 0 ≤ x → N ^ 4 * x ≤ 2 * (N + 1) ^ 5 * x := by
    intro N x hN hx
    refine mul_le_mul_of_nonneg_right ?_ hx
    calc N ^ 4 ≤ (N + 1) ^ 4 := by gcongr; linarith
      _ = (N + 1) ^ 4 * 1 := (mul_one _).symm
      _ ≤ (N + 1) ^ 4 * (2 * (N + 1)) := by gcongr; linarith
      _ = _ := by ring
  cases hm with
  | becke n R =>
    change n + 2 < sizeMod at hs
    change 1 ≤ n at h1
    change (1 : ℝ) ≤ n at hN1
    have hR : 0 < R := hv
    obtain ⟨q, hq, -, a, z, ha, hz, haz, -, h3⟩ := C109_becke b n h1 hs R hR
    refine ⟨q, a, z, hq, ha, hz, ?_⟩
    show z ≤ 2 * ((n : ℝ) + 1) ^ 5 * a
    have hpi := Real.pi_gt_three
    have h4 : z ≤ ((n : ℝ) + 1) ^ 2 * R := by
      refine h3.trans ?_
      have : 4 / Real.pi ^ 2 ≤ 1 := by
        rw [div_le_one (by positivity)]
        nlinarith
      have h5 : (0 : ℝ) ≤ ((n : ℝ) + 1) ^ 2 * R := by positivity
      nlinarith
    have hz0 : 0 < z := by
      by_contra hneg
      push Not at hneg
      obtain ⟨q', hq', -, a', z', ha', hz', -, h6, -⟩ := C109_becke b n h1 hs R hR
      rw [hq] at hq'
      injection hq' with hq'
      subst hq'
      rw [hz] at hz'
      injection hz' with hz'
      subst hz'
      have : 0 < 2 / Real.pi ^ 2 * ((n : ℝ) + 1) ^ 2 * R := by positivity
      linarith
    have ha0 : 0 < a := by
      by_contra hneg
      push Not at hneg
      have : a * z ≤ 0 := mul_nonpos_of_nonpos_of_nonneg hneg hz0.le
      have : 0 < R ^ 2 := by positivity
      linarith
    have h7 : z ^ 2 ≤ ((n : ℝ) + 1) ^ 4 * (a * z) := by
      rw [haz]
      calc z ^ 2 ≤ (((n : ℝ) + 1) ^ 2 * R) ^ 2 := by gcongr
        _ = _ := by ring
    have h8 : z ≤ ((n : ℝ) + 1) ^ 4 * a := by
      by_contra hneg
      push Not at hneg
      have := mul_lt_mul_of_pos_right hneg hz0
      nlinarith
    refine h8.trans (mul_le_mul_of_nonneg_right ?_ ha0.le)
    have : (1 : ℝ) ≤ 2 * ((n : ℝ) + 1) := by linarith
    nlinarith [(by positivity : (0 : ℝ) < ((n : ℝ) + 1) ^ 4)]
  | mhl n R =>
    change n + 2 < sizeMod at hs
    change 1 ≤ n at h1
    change (1 : ℝ) ≤ n at hN1
    have hR : 0 < R := hv.1
    obtain ⟨q, hq, -, ha, hz⟩ := C109_mhl b 2 n h1 hs R
    refine ⟨q, _, _, hq, ha, hz, ?_⟩
    show R * (n : ℝ) ^ 2 ≤ 2 * ((n : ℝ) + 1) ^ 5 * (R / (n : ℝ) ^ 2)
    refine le_trans (le_of_eq ?_) (up hN1 (by positivity))
    have : (n : ℝ) ≠ 0 := by positivity
    field_simp
  | mk n R =>
    change n + 2 < sizeMod at hs
    change 1 ≤ n at h1
    change (1 : ℝ) ≤ n at hN1
    have hR : 0 < R := hv
    obtain ⟨q, hq, -, a, z, ha, hz, h2, -, -, h3⟩ := C109_mk b n h1 hs R hR
    refine ⟨q, a, z, hq, ha, hz, ?_⟩
    show z ≤ 2 * ((n : ℝ) + 1) ^ 5 * a
    have hl := Real.log_le_sub_one_of_pos (show (0 : ℝ) < n + 1 by positivity)
    calc z ≤ R * Real.log (n + 1) := h3
      _ ≤ R * (2 * ((n : ℝ) + 1) ^ 2) := by
          refine mul_le_mul_of_nonneg_left ?_ hR.le
          nlinarith
      _ = 2 * ((n : ℝ) + 1) ^ 5 * (R / (n + 1) ^ 3) := by field_simp
      _ ≤ _ := by gcongr
  | ta n R α =>
    change n + 2 < sizeMod at hs
    change 1 ≤ n at h1
    change (1 : ℝ) ≤ n at hN1
    have hR : 0 < R := hv.1
    have hα0 : 0 ≤ α := hv.2
    have hα1 := hα n R α rfl
    obtain ⟨q, hq, -, a, z, ha, hz, h2, -, -, h3⟩ := C109_ta b n h1 hs R α hR hα0
    refine ⟨q, a, z, hq, ha, hz, ?_⟩
    show z ≤ 2 * ((n : ℝ) + 1) ^ 5 * a
    set N : ℝ := (n : ℝ) + 1 with hN
    have hN2 : 2 ≤ N := by linarith
    have hl := Real.log_le_sub_one_of_pos (show (0 : ℝ) < N by positivity)
    have hln : (0 : ℝ) < ln2Literal := by norm_num [ln2Literal]
    have e1 : (2 : ℝ) ^ α = (N ^ 2) ^ α * (2 / N ^ 2) ^ α := by
      rw [← Real.mul_rpow (by positivity) (by positivity)]
      congr 1
      field_simp
    have e2 : (N ^ 2) ^ α ≤ N ^ 2 := by
      conv_rhs => rw [← Real.rpow_one (N ^ 2)]
      exact Real.rpow_le_rpow_of_exponent_le (by nlinarith) hα1
    have e3 : 0 < (2 / N ^ 2) ^ α := by positivity
    calc z ≤ R / ln2Literal * 2 ^ α * (2 * Real.log N) := h3
      _ ≤ R / ln2Literal * (N ^ 2 * (2 / N ^ 2) ^ α) * (2 * N) := by
          rw [e1]
          have : 0 ≤ Real.log N := Real.log_nonneg (by linarith)
          gcongr
          linarith
      _ = 2 * N ^ 5 * (R / ln2Literal * (2 / N ^ 2) ^ α * (1 / N ^ 2)) := by
          field_simp
      _ ≤ _ := by gcongr

/-- **C114.**  For a radial scheme of the factory with `n` points (`alpha` at most 1 for TreutlerAhlrichs, whose default is
0.6) the number of refinements is at most `38 + 5 log2 (n + 1)`, rounded up; it does not depend on the angular grid. -/
theorem C114_unpruned_schemes (b : Build) {rq : RadialQuad} {t : RadialTraits ℝ} (hm : Matches rq t)
    (hv : radialValid t) (hn : t.npts < 2 ^ 16) (h1 : 1 ≤ t.npts) (hα : ∀ n R α, t = .ta n R α → α ≤ 1) (fam : AngFam)
    (nang : Nat) (h : fam.orderByNpts nang ≠ -1) (part : PartitionFn ℝ) (hp : StdPartition part) (maxBatch : Nat)
    (hb : 1 ≤ maxBatch) (k : ℕ) (hk : 2 ^ 38 * (t.npts + 1) ^ 5 ≤ 2 ^ k) :
    Returns (generateGridUnpruned b (angData ℝ) ⟨rq, some t, .fam fam, nang⟩) (fun s =>
      ∃ bt, Batcher.make part (k + 1) maxBatch s = some (.ok bt)) := by
  obtain ⟨q, a, z, hq, ha, hz, h2⟩ := reach_ratio b hm hv hn h1 hα
  obtain ⟨-, -, -, -, ha0, -⟩ := radial_part b hm hv hn hq ha hz
  refine C114_unpruned b hm hv hn hq ha hz fam nang h part hp maxBatch hb k ?_
  have hk' : (2 : ℝ) ^ 38 * ((t.npts : ℝ) + 1) ^ 5 ≤ 2 ^ k := by exact_mod_cast hk
  calc (2 : ℝ) ^ 37 * z ≤ 2 ^ 37 * (2 * ((t.npts : ℝ) + 1) ^ 5 * a) := by gcongr
    _ = 2 ^ 38 * ((t.npts : ℝ) + 1) ^ 5 * a := by ring
    _ ≤ _ := by gcongr

/-- **C114.**  The same for pruned grids. -/
theorem C114_pruned_schemes (b : Build) {rq : RadialQuad} {t : RadialTraits ℝ} (hm : Matches rq t)
    (hv : radialValid t) (hn : t.npts < 2 ^ 16) (h1 : 1 ≤ t.npts) (hα : ∀ n R α, t = .ta n R α → α ≤ 1) (fam : AngFam)
    (rs : List PruningRegion) (hst : StartsOk (rs.map (fun r => (r.idxSt, r.angularSize)))) (hlt : ∀ r ∈ rs, r.idxSt < t.npts)
    (hdebug : b.asserts = true → ∀ r ∈ rs.tail, r.idxSt < t.npts - 1)
    (hang : ∀ r ∈ rs, r.angularQuad = .fam fam ∧ fam.orderByNpts r.angularSize ≠ -1)
    (part : PartitionFn ℝ) (hp : StdPartition part) (maxBatch : Nat) (hb : 1 ≤ maxBatch)
    (k : ℕ) (hk : 2 ^ 38 * (t.npts + 1) ^ 5 ≤ 2 ^ k) :
    Returns (generatePrunedGrid b (angData ℝ) rq t rs) (fun s =>
      ∃ bt, Batcher.make part (k + 1) maxBatch s = some (.ok bt)) := by
  obtain ⟨q, a, z, hq, ha, hz, h2⟩ := reach_ratio b hm hv hn h1 hα
  obtain ⟨-, -, -, -, ha0, -⟩ := radial_part b hm hv hn hq ha hz
  refine C114_pruned b hm hv hn hq ha hz fam rs hst hlt hdebug hang part hp maxBatch hb k ?_
  have hk' : (2 : ℝ) ^ 38 * ((t.npts : ℝ) + 1) ^ 5 ≤ 2 ^ k := by exact_mod_cast hk
  calc (2 : ℝ) ^ 37 * z ≤ 2 ^ 37 * (2 * ((t.npts : ℝ) + 1) ^ 5 * a) := by gcongr
    _ = 2 ^ 38 * ((t.npts : ℝ) + 1) ^ 5 * a := by ring
    _ ≤ _ := by gcongr

/-- A Mura-Knowles rule with 99 points and the Lebedev-Laikov grid with 302 points: 72 refinements, for every partition
function and every batch size. -/
example (b : Build) (part : PartitionFn ℝ) (hp : StdPartition part) (maxBatch : Nat) (hb : 1 ≤ maxBatch) :
    Returns (generateGridUnpruned b (angData ℝ) ⟨.muraKnowles, some (.mk 99 7), .fam .lebedevLaikov, 302⟩) (fun s =>
      ∃ bt, Batcher.make part 73 maxBatch s = some (.ok bt)) :=
  C114_unpruned_schemes b (.mk _ _) (by show (0 : ℝ) < 7; norm_num) (by show 99 < 2 ^ 16; norm_num)
    (by show 1 ≤ 99; norm_num) (by rintro n R α ⟨⟩) _ _ (by decide +kernel) part hp maxBatch hb 72
    (by show 2 ^ 38 * (99 + 1) ^ 5 ≤ 2 ^ 72; norm_num)

/-- The hypotheses on the regions: a Becke rule with 60 points and three regions, with assertions enabled. -/
example (part : PartitionFn ℝ) (hp : StdPartition part) :
    Returns (generatePrunedGrid ⟨true⟩ (angData ℝ) .becke (.becke 60 1)
      [⟨0, 16, .fam .lebedevLaikov, 50⟩, ⟨16, 31, .fam .lebedevLaikov, 110⟩, ⟨31, 60, .fam .lebedevLaikov, 302⟩])
      (fun s => ∃ bt, Batcher.make part 69 512 s = some (.ok bt)) :=
  C114_pruned_schemes _ (.becke _ _) (by show (0 : ℝ) < 1; norm_num) (by show 60 < 2 ^ 16; norm_num)
    (by show 1 ≤ 60; norm_num) (by rintro n R α ⟨⟩) .lebedevLaikov _ (by simp [StartsOk])
    (by intro r hr; fin_cases hr <;> decide) (by intro _ r hr; fin_cases hr <;> decide)
    (by intro r hr; fin_cases hr <;> exact ⟨rfl, by decide +kernel⟩) part hp 512 (by norm_num) 68
    (by show 2 ^ 38 * (60 + 1) ^ 5 ≤ 2 ^ 68; norm_num)

end IntegratorXX
