import Verif.Lemmas.FloatSphere
import Verif.Prop.PrunedConvergence

/-!
# C85 to C87: angular and molecular grids in `double` arithmetic, and integrals computed with them
-/

namespace IntegratorXX

open Spec Real

variable {L : Libm}

/-! ## C85 -/

/-- **C85.**  Every supported angular grid in `double`: the tables and the scaling with `4.0*M_PI` give finite numbers;
each coordinate differs from the exact decimal number of the table by a relative `2^-52` at most, each weight from the
exact product with `4 π` by a relative `2^-50`. -/
theorem C85_angular_double (b : Build) (fam : AngFam) (n : Nat) (h : fam.orderByNpts n ≠ -1) :
    ∃ (q : Quad (Pt (F64 L)) (F64 L)) (a : Quad (Pt ℝ) ℝ),
      angConstruct b (angData (F64 L)) fam n = .ok q ∧ angConstruct b (angData ℝ) fam n = .ok a ∧
      q.points.length = n ∧ q.weights.length = n ∧ CloseGrid (2⁻¹ ^ 52) (2⁻¹ ^ 50) q a := by
  obtain ⟨q, a, h1, h2, h3, h4, -, h6⟩ := angular_double (L := L) b fam n h
  exact ⟨q, a, h1, h2, h3, h4, h6⟩

example : AngFam.womersley.orderByNpts (1458 + 1 : Nat) ≠ -1 := by decide +kernel

theorem ang_entries (b : Build) (fam : AngFam) (n : Nat) (h : fam.orderByNpts n ≠ -1) :
    ∃ (q : Quad (Pt (F64 L)) (F64 L)) (a : Quad (Pt ℝ) ℝ),
      angConstruct b (angData (F64 L)) fam n = .ok q ∧ angConstruct b (angData ℝ) fam n = .ok a ∧
      Consistent q ∧ Consistent a ∧ List.Forall₂ AngE (q.points.zip q.weights) (a.points.zip a.weights) := by
  obtain ⟨q, a, h1, h2, h3, h4, h5, h6, h7⟩ := angular_double (L := L) b fam n h
  have l1 := h6.length_eq
  have l2 := h7.length_eq
  refine ⟨q, a, h1, h2, by unfold Consistent; omega, by unfold Consistent; omega, ?_⟩
  have hz := forall₂_zip h6 h7 (by omega)
  rw [List.forall₂_iff_get] at hz ⊢
  refine ⟨hz.1, fun i i1 i2 => ?_⟩
  obtain ⟨g1, g2⟩ := hz.2 i i1 i2
  have hm := List.get_mem (a.points.zip a.weights) ⟨i, i2⟩
  generalize (a.points.zip a.weights).get ⟨i, i2⟩ = y at *
  obtain ⟨r1, r2, r3, r4⟩ := h5.pts y.1 (List.of_mem_zip (a := y.1) (b := y.2) hm).1
  obtain ⟨r5, r6⟩ := h5.wts y.2 (List.of_mem_zip (a := y.1) (b := y.2) hm).2
  have hi : ∀ {z : ℝ}, |z| ≤ 32 → |z| ≤ 2 ^ 150 := fun hz => hz.trans (by norm_num)
  have rng : ∀ {z : ℝ}, (z = 0 ∨ 2⁻¹ ^ 150 ≤ |z|) → |z| ≤ 32 → ZRng 150 z := by
    intro z h1 h2
    rcases h1 with h1 | h1
    · exact .inl h1
    · exact .inr ⟨h1, hi h2⟩
  exact ⟨g1, g2, rng (r1 _ (by simp)) (by linarith), rng (r1 _ (by simp)) (by linarith),
    rng (r1 _ (by simp)) (by linarith), rng r5 r6⟩

/-! ## C86 -/

private theorem rad_entries (b : Build) {q : Quad (F64 L) (F64 L)} {r : RadialTraits ℝ} {t : RadialTraits (F64 L)} {n : ℕ}
    (hr : r.npts = n) (hn : n + 2 < sizeMod) {p w p' q' : ℝ} {e f : ℕ} {X W : ℕ → ℝ}
    (hX : ∀ j, r.transform (r.nodeXR j) = X j) (hW : ∀ j, r.nodeWR j * r.jacobian (r.nodeXR j) = W j)
    (hx : ∀ j, j < n → RelP (t.transform (t.nodeX j)) (X j) p' e)
    (hw : ∀ j, j < n → RelP (t.nodeW j * t.jacobian (t.nodeX j)) (W j) q' f) (he : e ≤ 200) (hf : f ≤ 200)
    {c : Quad ℝ ℝ} (hc : construct b r.generate = .ok c) (hl : q.points.length = n) (hl' : q.weights.length = n)
    (hpos : PositiveRule q c p w) :
    Consistent q ∧ Consistent c ∧ List.Forall₂ (RadE p w) (q.points.zip q.weights) (c.points.zip c.weights) := by
  obtain ⟨xs, ws, d1, d2, -, -, -, w1, w2⟩ := hpos
  have close : ∀ {l : List (F64 L)} {xs ys : List ℝ} {p : ℝ}, Doubles l xs → WithinRel p xs ys →
      List.Forall₂ (Close p) l ys := by
    intro l xs ys p hd hw
    rw [hd.1, List.forall₂_map_left_iff]
    unfold WithinRel at hw
    rw [List.forall₂_iff_get] at hw ⊢
    exact ⟨hw.1, fun i i1 i2 => ⟨_, rfl, hd.2 _ (List.get_mem _ _), hw.2 i i1 i2⟩⟩
  have c1 := close d1 w1
  have c2 := close d2 w2
  have l1 := c1.length_eq
  have l2 := c2.length_eq
  rw [RadialTraits.generate_real r (by rw [hr]; exact hn), hr] at hc
  simp only [hX, hW] at hc
  rw [construct_ok b (by simp)] at hc
  injection hc with hc
  have rng : ∀ {a : F64 L} {x p : ℝ} {e : ℕ}, RelP a x p e → e ≤ 200 → ZRng 200 x := by
    intro a x p e h he
    right
    rw [abs_of_pos h.pos]
    exact ⟨le_trans (pow_le_pow_of_le_one (by norm_num) (by norm_num) he) h.lo,
      h.hi.trans (pow_le_pow_right₀ (by norm_num) he)⟩
  refine ⟨by unfold Consistent; omega, by unfold Consistent; omega, ?_⟩
  have hz := forall₂_zip c1 c2 (by omega)
  rw [List.forall₂_iff_get] at hz ⊢
  refine ⟨hz.1, fun i i1 i2 => ?_⟩
  obtain ⟨g1, g2⟩ := hz.2 i i1 i2
  have hm := List.get_mem (c.points.zip c.weights) ⟨i, i2⟩
  generalize (c.points.zip c.weights).get ⟨i, i2⟩ = y at *
  obtain ⟨m1, m2⟩ := List.of_mem_zip (a := y.1) (b := y.2) hm
  rw [← hc] at m1 m2
  obtain ⟨j, hj, e1⟩ := List.mem_map.1 m1
  obtain ⟨k, hk, e2⟩ := List.mem_map.1 m2
  exact ⟨g1, g2, by rw [← e1]; exact rng (hx j (List.mem_range.1 hj)) he,
    by rw [← e2]; exact rng (hw k (List.mem_range.1 hk)) hf⟩

private theorem pow_small {n e : ℕ} (hn : n < 2 ^ e) {c : ℝ} (hc : 0 ≤ c) (k : ℕ) (h : c * (2 ^ e) ^ k ≤ 1 / 200) :
    0 ≤ c * ((n : ℝ) + 1) ^ k ∧ c * ((n : ℝ) + 1) ^ k ≤ 1 / 200 := by
  have h1 : (n : ℝ) + 1 ≤ 2 ^ e := by exact_mod_cast hn
  refine ⟨by positivity, le_trans ?_ h⟩
  gcongr

/-- The radial rules, with sizes. -/
theorem radial_entries (hL : L.Accurate) (b : Build) {rq : RadialQuad} {t : RadialTraits (F64 L)}
    {r : RadialTraits ℝ} {p w : ℝ} (hs : SameScheme L rq t r p w) :
    ∃ (q : Quad (F64 L) (F64 L)) (c : Quad ℝ ℝ), construct b t.generate = .ok q ∧ construct b r.generate = .ok c ∧
      Consistent q ∧ Consistent c ∧ q.npts = t.npts ∧ t.npts = r.npts ∧ r.npts + 2 < sizeMod ∧
      Matches rq t ∧ Matches rq r ∧
      List.Forall₂ (RadE p w) (q.points.zip q.weights) (c.points.zip c.weights) ∧
      (0 ≤ p ∧ p ≤ 1 / 200) ∧ 0 ≤ w ∧ w ≤ 1 / 200 := by
  cases hs with
  | becke n R hn hR h1 h2 =>
    obtain ⟨q, c, e1, e2, l1, l2, hp⟩ := C75_becke_double hL b n hn R hR h1 h2
    have hs : RelP (F64.fin R : F64 L) R 0 50 := relP_exact hR h1 h2
    obtain ⟨f1, f2, f3⟩ := rad_entries b (q := q) (r := .becke n R) (t := .becke n (F64.fin R)) (n := n) rfl
      (by unfold sizeMod; omega) (X := fun j => R * (1 + cos (gc2A n j)) / (1 - cos (gc2A n j)))
      (W := fun j => π / (n + 1) * sin (gc2A n j) * (R * 2 / (1 - cos (gc2A n j)) ^ 2))
      (fun j => by simp [RadialTraits.transform, RadialTraits.nodeXR, RadialTraits.inclusive, RadialTraits.npts])
      (fun j => by simp [RadialTraits.jacobian, RadialTraits.nodeXR, RadialTraits.nodeWR, RadialTraits.inclusive,
        RadialTraits.npts])
      (fun j hj => becke_point hL (sz_of (by omega) hn (by norm_num)) hj hs)
      (fun j hj => becke_weight hL (sz_of (by omega) hn (by norm_num)) hj hs) (by norm_num) (by norm_num) e2 l1 l2 hp
    exact ⟨q, c, e1, e2, f1, f2, l1, rfl, by show n + 2 < sizeMod; unfold sizeMod; omega, .becke _ _, .becke _ _, f3,
      pow_small hn (by positivity) 2 (by norm_num), pow_small hn (by positivity) 2 (by norm_num)⟩
  | mhl n R hn hR h1 h2 =>
    obtain ⟨q, c, e1, e2, l1, l2, hp⟩ := C75_mhl_double hL b 2 (by norm_num) (by norm_num) n hn R hR h1 h2
    have hs : RelP (F64.fin R : F64 L) R 0 50 := relP_exact hR h1 h2
    obtain ⟨f1, f2, f3⟩ := rad_entries b (q := q) (r := .mhl 2 n R) (t := .mhl 2 n (F64.fin R)) (n := n) rfl
      (by unfold sizeMod; omega)
      (fun j => by simp [RadialTraits.transform, RadialTraits.nodeXR, RadialTraits.inclusive, RadialTraits.npts])
      (fun j => by
        simp only [RadialTraits.jacobian, RadialTraits.nodeXR, RadialTraits.nodeWR, RadialTraits.inclusive,
          RadialTraits.npts, if_true, Arith.real_lit, Arith.real_ofNat, Arith.real_pow, rpow_natCast, Rat.cast_one])
      (fun j hj => mhl_point hL (M := 2) (by norm_num) (sz_of (by omega) hn (by norm_num)) hj hs)
      (fun j hj => mhl_weight hL (M := 2) (by norm_num) (by norm_num) (sz_of (by omega) hn (by norm_num)) hj hs)
      (by norm_num) (by norm_num) e2 l1 l2 hp
    exact ⟨q, c, e1, e2, f1, f2, l1, rfl, by show n + 2 < sizeMod; unfold sizeMod; omega, .mhl _ _, .mhl _ _, f3,
      pow_small hn (by positivity) 2 (by norm_num), pow_small hn (by positivity) 2 (by norm_num)⟩
  | mk n R hn hR h1 h2 =>
    obtain ⟨q, c, e1, e2, l1, l2, hp⟩ := C75_mk_double hL b n hn R hR h1 h2
    have hs : RelP (F64.fin R : F64 L) R 0 50 := relP_exact hR h1 h2
    obtain ⟨f1, f2, f3⟩ := rad_entries b (q := q) (r := .mk n R) (t := .mk n (F64.fin R)) (n := n) rfl
      (by unfold sizeMod; omega)
      (fun j => by simp [RadialTraits.transform, RadialTraits.nodeXR, RadialTraits.inclusive, RadialTraits.npts])
      (fun j => by simp [RadialTraits.jacobian, RadialTraits.nodeXR, RadialTraits.nodeWR, RadialTraits.inclusive,
        RadialTraits.npts])
      (fun j hj => mk_point hL (sz_of (by omega) hn (by norm_num)) (by norm_num) hj hs)
      (fun j hj => mk_weight (sz_of (by omega) hn (by norm_num)) (by norm_num) hj hs)
      (by norm_num) (by norm_num) e2 l1 l2 hp
    refine ⟨q, c, e1, e2, f1, f2, l1, rfl, by show n + 2 < sizeMod; unfold sizeMod; omega, .mk _ _, .mk _ _, f3,
      pow_small hn (by positivity) 3 (by norm_num), ?_⟩
    have := pow_small hn (c := 2⁻¹ ^ 48) (by positivity) 1 (by norm_num)
    rwa [pow_one] at this
  | ta n R α hn hR h1 h2 hα h3 h4 =>
    obtain ⟨q, c, e1, e2, l1, l2, hp⟩ := C75_ta_double hL b n hn R hR h1 h2 α hα h3 h4
    have hs : RelP (F64.fin R : F64 L) R 0 50 := relP_exact hR h1 h2
    have ha : RelP (F64.fin α : F64 L) α 0 30 := relP_exact hα h3 (h4.trans (by norm_num))
    obtain ⟨f1, f2, f3⟩ := rad_entries b (q := q) (r := .ta n R α) (t := .ta n (F64.fin R) (F64.fin α)) (n := n) rfl
      (by unfold sizeMod; omega)
      (fun j => by
        simp only [RadialTraits.transform, RadialTraits.nodeXR, RadialTraits.inclusive, RadialTraits.npts,
          RadialTraits.taA, Arith.real_lit, Arith.real_pow, Arith.real_log, Rat.cast_one]
        norm_num)
      (fun j => by
        simp only [RadialTraits.jacobian, RadialTraits.nodeXR, RadialTraits.nodeWR, RadialTraits.inclusive,
          RadialTraits.npts, RadialTraits.taA, Arith.real_lit, Arith.real_pow, Arith.real_log, Rat.cast_one]
        norm_num)
      (fun j hj => ta_point hL (sz_of (by omega) hn (by norm_num)) le_rfl hj hs hα ha.pos.le h4)
      (fun j hj => ta_weight hL (sz_of (by omega) hn (by norm_num)) le_rfl hj hs ha hα h4)
      (by norm_num) (by norm_num) e2 l1 l2 hp
    exact ⟨q, c, e1, e2, f1, f2, l1, rfl, by show n + 2 < sizeMod; unfold sizeMod; omega, .ta _ _ _, .ta _ _ _, f3,
      pow_small hn (by positivity) 2 (by norm_num), pow_small hn (by positivity) 2 (by norm_num)⟩

/-- **C86.**  An unpruned grid of the factory in `double`: relative errors of at most `p + 2^-50` in every coordinate and
`1.1 (w + 2 p) + 2^-49` in every weight against the grid in exact arithmetic, `p` and `w` being the errors of radii and
weights of the radial rule (C75). -/
theorem C86_unpruned_double (hL : L.Accurate) (b : Build) {rq : RadialQuad} {t : RadialTraits (F64 L)}
    {r : RadialTraits ℝ} {p w : ℝ} (hs : SameScheme L rq t r p w) (fam : AngFam) (nang : Nat)
    (h : fam.orderByNpts nang ≠ -1) :
    ∃ s s', generateGridUnpruned b (angData (F64 L)) ⟨rq, some t, .fam fam, nang⟩ = .ok s ∧
      generateGridUnpruned b (angData ℝ) ⟨rq, some r, .fam fam, nang⟩ = .ok s' ∧
      CloseGrid (p + 2⁻¹ ^ 50) (11 / 10 * (w + 2 * p) + 2⁻¹ ^ 49) s.quad s'.quad ∧ Consistent s'.quad := by
  obtain ⟨q, c, q1, q2, q3, q4, q5, q6, q7, q8, q9, q10, ⟨p0, p1⟩, w0, w1⟩ := radial_entries hL b hs
  obtain ⟨A, a, a1, a2, a3, a4, a5⟩ := ang_entries (L := L) b fam nang h
  have e1 := sphConstruct_eq b (q.points.zip q.weights) (A.points.zip A.weights) (origin (F64 L))
  have e2 := sphConstruct_eq b (c.points.zip c.weights) (a.points.zip a.weights) (origin ℝ)
  rw [← Quad.eq_ofPairs q q3, ← Quad.eq_ofPairs A a3] at e1
  rw [← Quad.eq_ofPairs c q4, ← Quad.eq_ofPairs a a4] at e2
  have hc := shift_close (sphEntries_close q10 a5 p0 p1 w0 w1)
  refine ⟨⟨_, origin (F64 L)⟩, ⟨_, origin ℝ⟩, ?_, ?_, hc, by simp [Consistent]⟩
  · simp only [generateGridUnpruned, generateUnprunedGrid, a1, Outcome.ok_bind, radialGenerate_matches b q8, q1]
    exact e1
  · simp only [generateGridUnpruned, generateUnprunedGrid, a2, Outcome.ok_bind, radialGenerate_matches b q9, q2]
    exact e2

/-- A pruned grid of the factory written out, in any arithmetic. -/
theorem pruned_grid_closed {F : Type} [Arith F] [Add F] [Sub F] [Mul F] [Div F] [Neg F] (b : Build) (d : AngData F)
    {rq : RadialQuad} {t : RadialTraits F} (hm : Matches rq t) {q : Quad F F} (hq : construct b t.generate = .ok q)
    (hqc : Consistent q) (hqn : q.npts = t.npts) (hsz : t.npts < sizeMod) (fam : AngFam) (rs : List PruningRegion)
    (hst : StartsOk (rs.map (fun r => (r.idxSt, r.angularSize)))) (hlt : ∀ r ∈ rs, r.idxSt < t.npts)
    (hdebug : b.asserts = true → ∀ r ∈ rs.tail, r.idxSt < t.npts - 1) (hfam : ∀ r ∈ rs, r.angularQuad = .fam fam)
    (A : Nat → Quad (Pt F) F) (hA : ∀ r ∈ rs, angConstruct b d fam r.angularSize = .ok (A r.angularSize))
    (hAc : ∀ r ∈ rs, Consistent (A r.angularSize)) :
    generatePrunedGrid b d rq t rs = .ok ⟨Quad.ofPairs (((tiles t.npts (rs.map fun r => (r.idxSt, A r.angularSize))).flatMap
      (regionEntries (q.points.zip q.weights))).map (shiftEntry (origin F))), origin F⟩ := by
  obtain ⟨r0, rest, rfl⟩ : ∃ r0 rest, rs = r0 :: rest := by
    cases rs with
    | nil => simp [StartsOk] at hst
    | cons r0 rest => exact ⟨_, _, rfl⟩
  generalize hrs : r0 :: rest = rs at *
  have hr0 : r0 ∈ rs := by rw [← hrs]; simp
  obtain ⟨regions, hreg⟩ : ∃ regions, regions = rs.map (fun r => (r.idxSt, A r.angularSize)) := ⟨_, rfl⟩
  have hmem : ∀ e ∈ regions, ∃ r ∈ rs, e = (r.idxSt, A r.angularSize) := by
    intro e he
    rw [hreg] at he
    obtain ⟨r, hr, h⟩ := List.mem_map.1 he
    exact ⟨r, hr, h.symm⟩
  have hs : StartsOk regions := by
    unfold StartsOk at hst ⊢
    rw [hreg]
    simpa [List.map_map, Function.comp_def] using hst
  have hlt' : ∀ e ∈ regions, e.1 < t.npts := by
    intro e he
    obtain ⟨r, hr, rfl⟩ := hmem e he
    exact hlt r hr
  have hne : regions ≠ [] := by rw [hreg, ← hrs]; simp
  have hpos : 1 ≤ t.npts := by have := hlt r0 hr0; omega
  obtain ⟨P, hP, hvis⟩ := make_total b t.npts hpos hsz regions hne hs hlt' (by
    intro hb e he
    have hd := hdebug hb
    rw [hreg] at he
    rw [← List.map_tail] at he
    obtain ⟨r, hr, rfl⟩ := List.mem_map.1 he
    exact hd r hr)
  have hgen : generatePrunedGrid b d rq t rs = prunedConstruct b q P (origin F) := by
    unfold generatePrunedGrid
    rw [radialGenerate_matches b hm, hq, Outcome.ok_bind]
    have : makePrunedGrid b d q rs = makePrunedGridImpl b d fam q rs := by
      unfold makePrunedGrid
      rw [← hrs]
      dsimp only
      rw [hrs, if_neg, hfam r0 hr0]
      simp only [List.any_eq_true, not_exists, not_and, bne_iff_ne, ne_eq, not_not]
      intro r hr
      rw [hfam r hr, hfam r0 hr0]
    rw [this]
    unfold makePrunedGridImpl
    rw [hqn, addRegions_eq b _ fam _ A rs hA, ← hreg]
    unfold Partition.make at hP
    rw [Outcome.bind_eq_ok] at hP
    obtain ⟨P1, h1, h2⟩ := hP
    rw [h1, Outcome.ok_bind, h2, Outcome.ok_bind]
  have hclosed := pruned_closed b q P (origin F) hqc (tiles t.npts regions) hvis (by
    rw [hqn]
    have hcov := (C32_tiles_cover t.npts regions hs hlt').2
    intro e he
    obtain ⟨h1, h2⟩ := hcov.1 e he
    refine ⟨h1, h2, ?_⟩
    have hm : (e.1.1, e.2) ∈ regions := by
      rw [← hcov.2]
      exact List.mem_map.2 ⟨e, he, rfl⟩
    obtain ⟨r, hr, e'⟩ := hmem _ hm
    injection e' with _ e'
    rw [e']
    exact hAc r hr)
  rw [hgen, hclosed, hreg]

private theorem tiles_forall₂ {A B : Type} {S : A → B → Prop} (n : Nat) {l : List (Nat × A)} {m : List (Nat × B)}
    (h : List.Forall₂ (fun a b => a.1 = b.1 ∧ S a.2 b.2) l m) :
    List.Forall₂ (fun a b => a.1 = b.1 ∧ S a.2 b.2) (tiles n l) (tiles n m) := by
  induction h with
  | nil => exact .nil
  | @cons x y l m h1 h2 ih =>
    obtain ⟨x1, x2⟩ := x
    obtain ⟨y1, y2⟩ := y
    obtain ⟨e, e'⟩ := h1
    dsimp only at e e'
    subst e
    cases h2 with
    | nil => exact .cons ⟨rfl, e'⟩ .nil
    | @cons x' y' l m h1 h2 =>
      obtain ⟨x1', x2'⟩ := x'
      obtain ⟨y1', y2'⟩ := y'
      obtain ⟨g, g'⟩ := h1
      dsimp only at g g'
      subst g
      exact .cons ⟨rfl, e'⟩ ih

/-- The same for pruned grids. -/
theorem C86_pruned_double (hL : L.Accurate) (b : Build) {rq : RadialQuad} {t : RadialTraits (F64 L)}
    {r : RadialTraits ℝ} {p w : ℝ} (hs : SameScheme L rq t r p w) (fam : AngFam) (rs : List PruningRegion)
    (hst : StartsOk (rs.map (fun r => (r.idxSt, r.angularSize)))) (hlt : ∀ g ∈ rs, g.idxSt < r.npts)
    (hdebug : b.asserts = true → ∀ g ∈ rs.tail, g.idxSt < r.npts - 1)
    (hang : ∀ g ∈ rs, g.angularQuad = .fam fam ∧ fam.orderByNpts g.angularSize ≠ -1) :
    ∃ s s', generateGridPruned b (angData (F64 L)) ⟨rq, some t, rs⟩ = .ok s ∧
      generateGridPruned b (angData ℝ) ⟨rq, some r, rs⟩ = .ok s' ∧
      CloseGrid (p + 2⁻¹ ^ 50) (11 / 10 * (w + 2 * p) + 2⁻¹ ^ 49) s.quad s'.quad ∧ Consistent s'.quad := by
  obtain ⟨q, c, q1, q2, q3, q4, q5, q6, q7, q8, q9, q10, ⟨p0, p1⟩, w0, w1⟩ := radial_entries hL b hs
  have hA : ∀ g ∈ rs, ∃ (q : Quad (Pt (F64 L)) (F64 L)) (a : Quad (Pt ℝ) ℝ),
      angConstruct b (angData (F64 L)) fam g.angularSize = .ok q ∧
      angConstruct b (angData ℝ) fam g.angularSize = .ok a ∧
      Consistent q ∧ Consistent a ∧ List.Forall₂ AngE (q.points.zip q.weights) (a.points.zip a.weights) :=
    fun g hg => ang_entries b fam _ (hang g hg).2
  have hex : ∃ (Q : Nat → Quad (Pt (F64 L)) (F64 L)) (A : Nat → Quad (Pt ℝ) ℝ), ∀ g ∈ rs,
      angConstruct b (angData (F64 L)) fam g.angularSize = .ok (Q g.angularSize) ∧
      angConstruct b (angData ℝ) fam g.angularSize = .ok (A g.angularSize) ∧
      Consistent (Q g.angularSize) ∧ Consistent (A g.angularSize) ∧
      List.Forall₂ AngE ((Q g.angularSize).points.zip (Q g.angularSize).weights)
        ((A g.angularSize).points.zip (A g.angularSize).weights) := by
    refine ⟨fun n => match angConstruct b (angData (F64 L)) fam n with | .ok q => q | _ => ⟨[], []⟩,
      fun n => match angConstruct b (angData ℝ) fam n with | .ok q => q | _ => ⟨[], []⟩, fun g hg => ?_⟩
    obtain ⟨q, a, h1, h2, h3⟩ := hA g hg
    dsimp only
    rw [h1, h2]
    exact ⟨rfl, rfl, h3⟩
  obtain ⟨Q, A, hQA⟩ := hex
  have hcn : c.npts = r.npts := by
    have l1 := q10.length_eq
    have l2 : q.points.length = q.weights.length := q3
    have l3 : c.points.length = c.weights.length := q4
    simp only [List.length_zip] at l1
    unfold Quad.npts at q5 ⊢
    omega
  have e1 := pruned_grid_closed b (angData (F64 L)) q8 q1 q3 q5 (by omega) fam rs hst (by rw [q6]; exact hlt)
    (by rw [q6]; exact hdebug) (fun g hg => (hang g hg).1) Q (fun g hg => (hQA g hg).1) (fun g hg => (hQA g hg).2.2.1)
  have e2 := pruned_grid_closed b (angData ℝ) q9 q2 q4 hcn (by omega) fam rs hst hlt
    hdebug (fun g hg => (hang g hg).1) A (fun g hg => (hQA g hg).2.1) (fun g hg => (hQA g hg).2.2.2.1)
  refine ⟨_, _, e1, e2, shift_close ?_, by simp [Consistent, Quad.ofPairs]⟩
  rw [q6]
  have hreg : List.Forall₂ (fun (x : Nat × Quad (Pt (F64 L)) (F64 L)) (y : Nat × Quad (Pt ℝ) ℝ) => x.1 = y.1 ∧
      List.Forall₂ AngE (x.2.points.zip x.2.weights) (y.2.points.zip y.2.weights))
      (rs.map fun g => (g.idxSt, Q g.angularSize)) (rs.map fun g => (g.idxSt, A g.angularSize)) := by
    rw [List.forall₂_map_left_iff, List.forall₂_map_right_iff, List.forall₂_same]
    exact fun g hg => ⟨rfl, (hQA g hg).2.2.2.2⟩
  refine forall₂_flatMap (tiles_forall₂ (S := fun (x : Quad (Pt (F64 L)) (F64 L)) (y : Quad (Pt ℝ) ℝ) =>
    List.Forall₂ AngE (x.points.zip x.weights) (y.points.zip y.weights)) r.npts hreg) ?_
  rintro x y ⟨h1, h2⟩
  unfold regionEntries
  rw [h1]
  exact sphEntries_close (List.forall₂_drop _ (List.forall₂_take _ q10)) h2 p0 p1 w0 w1

/-- A pruned Becke grid over three Lebedev grids in `double`. -/
example : ∃ (t : RadialTraits (F64 L)) (r : RadialTraits ℝ) (p w : ℝ) (rs : List PruningRegion),
    SameScheme L .becke t r p w ∧ r.npts = 75 ∧ rs.length = 3 ∧
    StartsOk (rs.map (fun r => (r.idxSt, r.angularSize))) ∧ (∀ g ∈ rs, g.idxSt < r.npts) ∧
    (∀ g ∈ rs.tail, g.idxSt < r.npts - 1) ∧
    ∀ g ∈ rs, g.angularQuad = .fam .lebedevLaikov ∧ AngFam.lebedevLaikov.orderByNpts g.angularSize ≠ -1 :=
  ⟨_, _, _, _, [⟨0, 25, .fam .lebedevLaikov, 26⟩, ⟨25, 40, .fam .lebedevLaikov, 50⟩, ⟨40, 75, .fam .lebedevLaikov, 302⟩],
    .becke 75 1 (by norm_num) isF64_one (by norm_num) (by norm_num), rfl, rfl,
    by simp [StartsOk], by simp [RadialTraits.npts], by simp [RadialTraits.npts], by decide +kernel⟩

/-! ## C87 -/

private theorem value_error {L : Libm} {P W : ℝ} (hW : 0 ≤ W) {f H : Pt ℝ → ℝ} :
    ∀ (qp : List (Pt (F64 L))) (qw : List (F64 L)) (ap : List (Pt ℝ)) (aw : List ℝ),
      List.Forall₂ (ClosePt P) qp ap → List.Forall₂ (Close W) qw aw → ap.length = aw.length →
      (∀ u ∈ ap, ∀ v : Pt ℝ, |v.x - u.x| ≤ P * |u.x| → |v.y - u.y| ≤ P * |u.y| → |v.z - u.z| ≤ P * |u.z| →
        |f v - f u| ≤ H u) →
      ∃ ps ws, Stores ⟨qp, qw⟩ ps ws ∧
        |ruleSum ps ws f - ruleSum ap aw f| ≤ ruleSum ap (aw.map abs) (fun u => W * |f u| + (1 + W) * H u) := by
  intro qp qw ap aw h1
  induction h1 generalizing qw aw with
  | nil =>
    intro h2 hl _
    cases h2 with
    | nil => exact ⟨[], [], ⟨rfl, rfl⟩, by simp [ruleSum]⟩
    | cons _ _ => simp at hl
  | @cons a u l m g1 g2 ih =>
    intro h2 hl hf
    cases h2 with
    | nil => simp at hl
    | @cons c w l' m' k1 k2 =>
      obtain ⟨ps, ws, hs, he⟩ := ih l' m' k2 (by simpa using hl) (fun u hu => hf u (List.mem_cons_of_mem _ hu))
      obtain ⟨⟨vx, x1, -, x3⟩, ⟨vy, y1, -, y3⟩, ⟨vz, z1, -, z3⟩⟩ := g1
      obtain ⟨vw, w1, -, w3⟩ := k1
      refine ⟨⟨vx, vy, vz⟩ :: ps, vw :: ws, ⟨?_, ?_⟩, ?_⟩
      · obtain ⟨ax, ay, az⟩ := a
        dsimp only at x1 y1 z1
        rw [List.map_cons, ← hs.1, finPt, x1, y1, z1]
      · rw [List.map_cons, ← hs.2, w1]
      · have hfu := hf u (by simp) ⟨vx, vy, vz⟩ x3 y3 z3
        obtain ⟨y, hy⟩ : ∃ y, y = f ⟨vx, vy, vz⟩ := ⟨_, rfl⟩
        rw [← hy] at hfu
        have step : |vw * y - w * f u| ≤ |w| * (W * |f u| + (1 + W) * H u) := by
          have e : vw * y - w * f u = (vw - w) * f u + (w + (vw - w)) * (y - f u) := by ring
          rw [e]
          calc |(vw - w) * f u + (w + (vw - w)) * (y - f u)|
              ≤ |vw - w| * |f u| + (|w| + |vw - w|) * |y - f u| := by
                refine (abs_add_le _ _).trans ?_
                rw [abs_mul, abs_mul]
                gcongr
                exact abs_add_le _ _
            _ ≤ W * |w| * |f u| + (|w| + W * |w|) * H u := by gcongr
            _ = _ := by ring
        simp only [ruleSum, List.zip_cons_cons, List.map_cons, List.sum_cons] at he ⊢
        rw [← hy]
        have e : vw * y + ((ps.zip ws).map fun e => e.2 * f e.1).sum -
            (w * f u + ((m.zip m').map fun e => e.2 * f e.1).sum) = (vw * y - w * f u) +
            (((ps.zip ws).map fun e => e.2 * f e.1).sum - ((m.zip m').map fun e => e.2 * f e.1).sum) := by ring
        rw [e]
        exact (abs_add_le _ _).trans (add_le_add step he)

/-- **C87.**  A quadrature whose numbers are relatively close to those of another one: the two values for an integrand `f`
differ by at most the sum written here, if `f` changes by at most `H u` between a point `u` and any point whose
coordinates are relatively that close. -/
theorem C87_value_error {P W : ℝ} (hW : 0 ≤ W) {q : Quad (Pt (F64 L)) (F64 L)} {a : Quad (Pt ℝ) ℝ}
    (h : CloseGrid P W q a) (hc : Consistent a) {f H : Pt ℝ → ℝ}
    (hf : ∀ u ∈ a.points, ∀ v : Pt ℝ, |v.x - u.x| ≤ P * |u.x| → |v.y - u.y| ≤ P * |u.y| → |v.z - u.z| ≤ P * |u.z| →
      |f v - f u| ≤ H u) :
    ∃ ps ws, Stores q ps ws ∧ |ruleSum ps ws f - ruleSum a.points a.weights f| ≤
      ruleSum a.points (a.weights.map abs) (fun u => W * |f u| + (1 + W) * H u) :=
  value_error hW _ _ _ _ h.1 h.2 hc hf

/-- The hypothesis on `f` and `H` holds for Gaussians. -/
example {P : ℝ} (hP : 0 ≤ P) (h1 : P ≤ 1) (u v : Pt ℝ) (hx : |v.x - u.x| ≤ P * |u.x|) (hy : |v.y - u.y| ≤ P * |u.y|)
    (hz : |v.z - u.z| ≤ P * |u.z|) : |exp (-normSq v) - exp (-normSq u)| ≤ 3 * P * normSq u := by
  have lip : ∀ s t : ℝ, 0 ≤ s → s ≤ t → |exp (-s) - exp (-t)| ≤ t - s := by
    intro s t hs hst
    have e1 : exp (-t) = exp (-s) * exp (s - t) := by rw [← exp_add]; ring_nf
    have e2 : exp (-s) ≤ 1 := exp_le_one_iff.2 (by linarith)
    have e3 := add_one_le_exp (s - t)
    have e4 : exp (s - t) ≤ 1 := exp_le_one_iff.2 (by linarith)
    rw [e1, abs_of_nonneg (by nlinarith [exp_pos (-s)])]
    nlinarith [exp_pos (-s)]
  have lip' : ∀ s t : ℝ, 0 ≤ s → 0 ≤ t → |exp (-s) - exp (-t)| ≤ |s - t| := by
    intro s t hs ht
    rcases le_total s t with h | h
    · rw [abs_of_nonpos (by linarith : s - t ≤ 0)]
      linarith [lip s t hs h]
    · rw [abs_of_nonneg (by linarith : 0 ≤ s - t), abs_sub_comm]
      exact lip t s ht h
  have sq : ∀ x y : ℝ, |y - x| ≤ P * |x| → |y * y - x * x| ≤ 3 * P * (x * x) := by
    intro x y h
    have e : y * y - x * x = (y - x) * (y - x) + 2 * x * (y - x) := by ring
    rw [e]
    refine (abs_add_le _ _).trans ?_
    rw [abs_mul, abs_mul, abs_mul, abs_two, ← abs_mul_abs_self x]
    have g0 := abs_nonneg x
    have g1 := abs_nonneg (y - x)
    have g2 : |y - x| * |y - x| ≤ (P * |x|) * (1 * |x|) := by
      refine mul_le_mul h (h.trans ?_) g1 (by positivity)
      gcongr
    have g3 : |x| * |y - x| ≤ |x| * (P * |x|) := by gcongr
    nlinarith
  have n0 : ∀ u : Pt ℝ, 0 ≤ normSq u := fun u => by unfold normSq; positivity
  refine (lip' _ _ (n0 v) (n0 u)).trans ?_
  have := sq _ _ hx
  have := sq _ _ hy
  have := sq _ _ hz
  unfold normSq
  rw [abs_le] at *
  constructor <;> nlinarith

private theorem SameScheme.valid {rq : RadialQuad} {t : RadialTraits (F64 L)} {r : RadialTraits ℝ} {p w : ℝ}
    (hs : SameScheme L rq t r p w) : radialValid r := by
  have pos : ∀ {x : ℝ} {k : ℕ}, (2⁻¹ : ℝ) ^ k ≤ x → 0 < x := fun h => lt_of_lt_of_le (by positivity) h
  cases hs with
  | becke n R hn hR h1 h2 => exact pos h1
  | mhl n R hn hR h1 h2 => exact ⟨pos h1, by norm_num⟩
  | mk n R hn hR h1 h2 => exact pos h1
  | ta n R α hn hR h1 h2 hα h3 h4 => exact ⟨pos h1, (pos h3).le⟩

/-- The error of a pruned grid computed in `double`, for the integrand `F(|x|) p(x)`: the three terms of C82 and one for
the rounding of all coordinates and weights. -/
theorem C87_pruned_double_error (hL : L.Accurate) (b : Build) {rq : RadialQuad} {t : RadialTraits (F64 L)}
    {r : RadialTraits ℝ} {ep ew : ℝ} (hs : SameScheme L rq t r ep ew) (fam : AngFam) (rs : List PruningRegion)
    (hst : StartsOk (rs.map (fun r => (r.idxSt, r.angularSize)))) (hlt : ∀ g ∈ rs, g.idxSt < r.npts)
    (hdebug : b.asserts = true → ∀ g ∈ rs.tail, g.idxSt < r.npts - 1)
    {p : MvPolynomial (Fin 3) ℝ} {l : ℕ} (hp : p.IsHomogeneous l)
    (hang : ∀ r ∈ rs, r.angularQuad = .fam fam ∧ fam.orderByNpts r.angularSize ≠ -1 ∧
      ¬ (fam = .ahrensBeylkin ∧ r.angularSize = 552) ∧ (l : Int) ≤ fam.orderByNpts r.angularSize)
    {F H : ℝ → ℝ} {K : Pt ℝ → ℝ} {f : Pt ℝ → ℝ}
    (hH : ∀ ρ > 0, ∀ s, |s - 1| ≤ 1 / 10 ^ 14 → |ρ ^ (2 + l) * (F (ρ * s) - F ρ)| ≤ H ρ)
    (hf : ∀ u, f u = F (√(normSq u)) * polyAt p u) {P W : ℝ} (hP : P = ep + 2⁻¹ ^ 50)
    (hW : W = 11 / 10 * (ew + 2 * ep) + 2⁻¹ ^ 49)
    (hK : ∀ u v : Pt ℝ, |v.x - u.x| ≤ P * |u.x| → |v.y - u.y| ≤ P * |u.y| → |v.z - u.z| ≤ P * |u.z| →
      |f v - f u| ≤ K u) :
    ∃ (s : SphQuad (F64 L)) (ps : List (Pt ℝ)) (ws : List ℝ) (s' : SphQuad ℝ) (q : Quad ℝ ℝ),
      generateGridPruned b (angData (F64 L)) ⟨rq, some t, rs⟩ = .ok s ∧ Stores s.quad ps ws ∧
      generateGridPruned b (angData ℝ) ⟨rq, some r, rs⟩ = .ok s' ∧ construct b r.generate = .ok q ∧
      |ruleSum ps ws f - ∫ x : E3, F ‖x‖ * polyAt p ⟨x 0, x 1, x 2⟩| ≤
        |sphereInt (polyAt p)| * |ruleSum q.points q.weights (fun ρ => ρ ^ (2 + l) * F ρ) -
          ∫ ρ in Set.Ioi 0, ρ ^ (2 + l) * F ρ| +
        tableErr fam l * coeffSum p * ruleSum q.points q.weights (fun ρ => |ρ ^ (2 + l) * F ρ|) +
        16 * π * coeffSum p * ruleSum q.points q.weights H +
        ruleSum s'.quad.points (s'.quad.weights.map abs) (fun u => W * |f u| + (1 + W) * K u) := by
  obtain ⟨-, -, -, -, -, -, -, hnn, hsz, -, hm, -, ⟨p0, -⟩, w0, -⟩ := radial_entries hL b hs
  obtain ⟨s, s', h1, h2, h3, hcons⟩ := C86_pruned_double hL b hs fam rs hst hlt hdebug (fun g hg => ⟨(hang g hg).1, (hang g hg).2.1⟩)
  obtain ⟨q, hq, s'', hs'', he⟩ := C82_pruned_grid_error b hm hs.valid hsz fam rs hst hlt hdebug hp hang hH
  have hss : s' = s'' := by
    have h2' : generatePrunedGrid b (angData ℝ) rq r rs = .ok s' := h2
    rw [h2'] at hs''
    injection hs''
  subst hss
  obtain ⟨ps, ws, hst', hval⟩ := C87_value_error (by rw [hW]; positivity) (hP ▸ hW ▸ h3) hcons (f := f) (H := K)
    (fun u _ v a b c => hK u v a b c)
  refine ⟨s, ps, ws, s', q, h1, hst', h2, hq, ?_⟩
  have hfe : f = fun u => F (√(normSq u)) * polyAt p u := funext hf
  rw [← hfe] at he
  have := abs_sub_le (ruleSum ps ws f) (ruleSum s'.quad.points s'.quad.weights f)
    (∫ x : E3, F ‖x‖ * polyAt p ⟨x 0, x 1, x 2⟩)
  linarith

end IntegratorXX
