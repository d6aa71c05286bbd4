import Verif.Lemmas.CompositeForms
import Verif.Spec.Composite
import Mathlib.Tactic.Linarith
import Mathlib.Tactic.Ring

/-!
# C26-C30, C62: product and spherical quadratures
-/

namespace IntegratorXX

open Spec Arith

/-! ## C62 -/

theorem C62_checked_access {P W : Type} (q : Quad P W) (i : Nat) :
    (∀ h : i < q.points.length, q.pointAt i = .ok q.points[i]) ∧
    (q.points.length ≤ i → q.pointAt i = .throws .outOfRange) ∧
    (∀ h : i < q.weights.length, q.weightAt i = .ok q.weights[i]) ∧
    (q.weights.length ≤ i → q.weightAt i = .throws .outOfRange) := by
  refine ⟨fun h => ?_, fun h => ?_, fun h => ?_, fun h => ?_⟩
  · simp [Quad.pointAt, vat, h]
  · simp [Quad.pointAt, vat, List.getElem?_eq_none h]
  · simp [Quad.weightAt, vat, h]
  · simp [Quad.weightAt, vat, List.getElem?_eq_none h]

theorem C62_copy_move {P W : Type} (q : Quad P W) :
    q.copy = q ∧ q.move.1 = q ∧ q.move.2.npts = 0 ∧ q.move.2.weights = [] :=
  ⟨rfl, rfl, rfl, rfl⟩

/-- A quadrature can only be built from vectors of equal length in a debug build, and stores what
the generator returned. -/
theorem C62_constructor {P W : Type} (x : List P) (w : List W) :
    (x.length = w.length → ∀ b, construct b (.ok (x, w)) = .ok ⟨x, w⟩) ∧
    (x.length ≠ w.length → construct ⟨true⟩ (.ok (x, w)) = .assertFail ∧
      construct ⟨false⟩ (.ok (x, w)) = .ok ⟨x, w⟩) := by
  refine ⟨fun h b => ?_, fun h => ⟨?_, ?_⟩⟩
  · simp [construct, Quad.make, h]
  · simp [construct, Quad.make, h]
  · simp [construct, Quad.make]

example : (⟨[1, 2], [3, 4]⟩ : Quad Nat Nat).pointAt 1 = .ok 2 ∧
    (⟨[1, 2], [3, 4]⟩ : Quad Nat Nat).pointAt 2 = .throws .outOfRange := ⟨rfl, rfl⟩

/-! ## C26 -/

private theorem getElem?_flatMap_const {α β : Type} (n : Nat) (f : α → List β)
    (hf : ∀ a, (f a).length = n) : ∀ (l : List α) (i j : Nat), i < n → (hj : j < l.length) →
      (l.flatMap f)[i + j * n]? = (f l[j])[i]?
  | [], _, _, _, hj => by simp at hj
  | a :: l, i, 0, hi, _ => by
    rw [List.flatMap_cons, List.getElem?_append_left (by simp [hf, hi])]
    simp
  | a :: l, i, j + 1, hi, hj => by
    rw [List.flatMap_cons, List.getElem?_append_right (by rw [hf, Nat.add_mul]; omega), hf,
      show i + (j + 1) * n - n = i + j * n by rw [Nat.add_mul]; omega,
      getElem?_flatMap_const n f hf l i j hi (by simpa using hj)]
    simp

private theorem length_flatMap_const {α β : Type} (n : Nat) (f : α → List β)
    (hf : ∀ a, (f a).length = n) : ∀ (l : List α), (l.flatMap f).length = n * l.length
  | [] => by simp
  | a :: l => by
    rw [List.flatMap_cons, List.length_append, hf, length_flatMap_const n f hf l,
      List.length_cons, Nat.mul_add]
    omega

/-- For any element types, combination and arithmetic. -/
theorem C26_product_indexing {P₁ P₂ P W₁ W₂ W : Type} (opP : P₁ → P₂ → P) (opW : W₁ → W₂ → W)
    (p0 : P) (w0 : W) (q1 : Quad P₁ W₁) (q2 : Quad P₂ W₂) (h1 : Consistent q1)
    (h2 : Consistent q2) :
    Returns (productGenerate opP opW p0 w0 q1 q2) (fun g =>
      g.1.length = q1.npts * q2.npts ∧ g.2.length = q1.npts * q2.npts ∧
      ∀ i j, (hi : i < q1.points.length) → (hj : j < q2.points.length) →
        g.1[i + j * q1.npts]? = some (opP q1.points[i] q2.points[j]) ∧
        g.2[i + j * q1.npts]? = some (opW (q1.weights[i]'(h1 ▸ hi)) (q2.weights[j]'(h2 ▸ hj)))) := by
  have e1 := Quad.eq_ofPairs q1 h1
  have e2 := Quad.eq_ofPairs q2 h2
  refine ⟨_, by rw [e1, e2]; exact product_pairs opP opW _ _ p0 w0, ?_⟩
  have hl1 : (q1.points.zip q1.weights).length = q1.points.length := by
    have : q1.points.length = q1.weights.length := h1
    simp [this]
  have hl2 : (q2.points.zip q2.weights).length = q2.points.length := by
    have : q2.points.length = q2.weights.length := h2
    simp [this]
  have hc : ∀ b, (column opP opW (q1.points.zip q1.weights) b).length = q1.npts := by
    intro b; simp only [column, List.length_map, hl1]; rfl
  refine ⟨?_, ?_, ?_⟩
  · rw [List.length_map, length_flatMap_const _ _ hc, hl2]; rfl
  · rw [List.length_map, length_flatMap_const _ _ hc, hl2]; rfl
  · intro i j hi hj
    have := getElem?_flatMap_const q1.npts _ hc (q2.points.zip q2.weights) i j hi
      (by rw [hl2]; exact hj)
    have h3 : (column opP opW (q1.points.zip q1.weights)
        ((q2.points.zip q2.weights)[j]'(by rw [hl2]; exact hj)))[i]? =
        some (opP q1.points[i] q2.points[j],
          opW (q1.weights[i]'(h1 ▸ hi)) (q2.weights[j]'(h2 ▸ hj))) := by
      unfold column
      rw [List.getElem?_map, List.getElem?_eq_getElem (by rw [hl1]; exact hi)]
      simp [List.getElem_zip]
    simp only [List.getElem?_map]
    rw [this, h3]
    exact ⟨rfl, rfl⟩

example : Consistent (⟨[1, 2, 3], [3, 4, 5]⟩ : Quad Nat Nat) := rfl

/-! ## C27 -/

private theorem ruleSum_pairs {P : Type} (l : List (P × ℝ)) (f : P → ℝ) :
    ruleSum (l.map Prod.fst) (l.map Prod.snd) f = (l.map (fun e => e.2 * f e.1)).sum := by
  unfold ruleSum
  rw [List.zip_map']; simp

private theorem sum_flatMap {α β : Type} (l : List α) (g : α → List β) (h : β → ℝ) :
    ((l.flatMap g).map h).sum = (l.map (fun a => ((g a).map h).sum)).sum := by
  induction l with
  | nil => simp
  | cons a l ih => simp [List.flatMap_cons, ih]

private theorem sum_map_mul_left' {α : Type} (l : List α) (c : ℝ) (f : α → ℝ) :
    (l.map (fun a => c * f a)).sum = c * (l.map f).sum := by
  induction l with
  | nil => simp
  | cons a l ih => simp [ih]; ring

theorem C27_separable {P₁ P₂ P : Type} (opP : P₁ → P₂ → P) (p0 : P) (w0 : ℝ)
    (q1 : Quad P₁ ℝ) (q2 : Quad P₂ ℝ) (h1 : Consistent q1) (h2 : Consistent q2)
    (f : P₁ → ℝ) (g : P₂ → ℝ) (h : P → ℝ) (hfg : ∀ x y, h (opP x y) = f x * g y) :
    Returns (productGenerate opP (· * ·) p0 w0 q1 q2) (fun r =>
      ruleSum r.1 r.2 h =
        ruleSum q1.points q1.weights f * ruleSum q2.points q2.weights g) := by
  have e1 := Quad.eq_ofPairs q1 h1
  have e2 := Quad.eq_ofPairs q2 h2
  refine ⟨_, by rw [e1, e2]; exact product_pairs opP _ _ _ p0 w0, ?_⟩
  dsimp only
  rw [ruleSum_pairs, sum_flatMap]
  unfold ruleSum
  generalize q1.points.zip q1.weights = l1
  generalize q2.points.zip q2.weights = l2
  rw [← sum_map_mul_left']
  congr 1
  apply List.map_congr_left
  intro b _
  unfold column
  rw [List.map_map, mul_comm _ (b.2 * g b.1), ← sum_map_mul_left']
  congr 1
  apply List.map_congr_left
  intro a _
  simp only [Function.comp, hfg]
  ring

/-- The pair-valued combination of a two-dimensional product rule satisfies the hypothesis. -/
example (f g : ℝ → ℝ) : ∀ x y : ℝ, (fun p : ℝ × ℝ => f p.1 * g p.2) (Prod.mk x y) = f x * g y :=
  fun _ _ => rfl

/-! ## C28 -/

/-- In any arithmetic: entry `i + j npr` of a spherical grid. -/
theorem C28_spherical_entries {F : Type} [Add F] [Sub F] [Mul F] [Arith F] (b : Build)
    (r : Quad F F) (a : Quad (Pt F) F) (cen : Pt F) (hr : Consistent r) (ha : Consistent a) :
    Returns (sphConstruct b r a cen) (fun s =>
      s.center = cen ∧ s.quad.points.length = r.npts * a.npts ∧
      s.quad.weights.length = r.npts * a.npts ∧
      ∀ i j, (hi : i < r.points.length) → (hj : j < a.points.length) →
        s.quad.points[i + j * r.npts]? = some
          ⟨r.points[i] * a.points[j].x + cen.x, r.points[i] * a.points[j].y + cen.y,
           r.points[i] * a.points[j].z + cen.z⟩ ∧
        s.quad.weights[i + j * r.npts]? = some
          ((r.weights[i]'(hr ▸ hi) * a.weights[j]'(ha ▸ hj)) * (r.points[i] * r.points[i]))) := by
  have e1 := Quad.eq_ofPairs r hr
  have e2 := Quad.eq_ofPairs a ha
  refine ⟨_, by rw [e1, e2]; exact sphConstruct_eq b _ _ cen, rfl, ?_⟩
  have hl1 : (r.points.zip r.weights).length = r.points.length := by
    have : r.points.length = r.weights.length := hr
    simp [this]
  have hl2 : (a.points.zip a.weights).length = a.points.length := by
    have : a.points.length = a.weights.length := ha
    simp [this]
  have hc : ∀ u, ((r.points.zip r.weights).map (fun x => sphEntry x u)).length = r.npts := by
    intro u; simp only [List.length_map, hl1]; rfl
  have hlen := length_flatMap_const _ _ hc (a.points.zip a.weights)
  refine ⟨?_, ?_, ?_⟩
  · simp only [Quad.ofPairs, List.length_map, sphEntries]
    rw [hlen, hl2]; rfl
  · simp only [Quad.ofPairs, List.length_map, sphEntries]
    rw [hlen, hl2]; rfl
  · intro i j hi hj
    have := getElem?_flatMap_const r.npts _ hc (a.points.zip a.weights) i j hi
      (by rw [hl2]; exact hj)
    have h3 : ((r.points.zip r.weights).map (fun x => sphEntry x
        ((a.points.zip a.weights)[j]'(by rw [hl2]; exact hj))))[i]? =
        some (sphEntry (r.points[i], r.weights[i]'(hr ▸ hi))
          (a.points[j], a.weights[j]'(ha ▸ hj))) := by
      rw [List.getElem?_map, List.getElem?_eq_getElem (by rw [hl1]; exact hi)]
      simp [List.getElem_zip]
    rw [h3] at this
    simp only [Quad.ofPairs, List.getElem?_map, sphEntries, this]
    exact ⟨rfl, rfl⟩

/-! ## C29 -/

private theorem sph_ruleSum (cen : Pt ℝ) (rl : List (ℝ × ℝ)) (al : List (Pt ℝ × ℝ))
    (g : Pt ℝ → ℝ) :
    ruleSum (Quad.ofPairs ((sphEntries rl al).map (shiftEntry cen))).points
      (Quad.ofPairs ((sphEntries rl al).map (shiftEntry cen))).weights g =
    (al.map (fun a => (rl.map (fun r =>
      r.2 * a.2 * r.1 ^ 2 * g (onRay cen r.1 a.1))).sum)).sum := by
  unfold Quad.ofPairs
  rw [ruleSum_pairs, List.map_map]
  unfold sphEntries
  rw [sum_flatMap]
  congr 1
  apply List.map_congr_left
  intro a _
  rw [List.map_map]
  congr 1
  apply List.map_congr_left
  intro r _
  simp only [Function.comp, shiftEntry, sphEntry, combineWt, shiftPt, combinePt, onRay]
  have : ∀ u v w : ℝ, (⟨u + cen.x, v + cen.y, w + cen.z⟩ : Pt ℝ) =
      ⟨cen.x + u, cen.y + v, cen.z + w⟩ := by
    intro u v w; congr 1 <;> ring
  rw [this]
  ring

/-- The value of a spherical rule on a function which about the centre is `F(r) Y(u)`.  Only
`r > 0` matters: nodes at `r = 0` have weight zero. -/
theorem C29_spherical_separable (b : Build) (r : Quad ℝ ℝ) (a : Quad (Pt ℝ) ℝ) (cen : Pt ℝ)
    (hr : Consistent r) (ha : Consistent a) (hpos : ∀ x ∈ r.points, 0 ≤ x)
    (hunit : ∀ u ∈ a.points, normSq u = 1) (g : Pt ℝ → ℝ) (F : ℝ → ℝ) (Y : Pt ℝ → ℝ)
    (hg : ∀ ρ > 0, ∀ u, normSq u = 1 → g (onRay cen ρ u) = F ρ * Y u) :
    Returns (sphConstruct b r a cen) (fun s =>
      ruleSum s.quad.points s.quad.weights g =
        ruleSum r.points r.weights (fun ρ => ρ ^ 2 * F ρ) * ruleSum a.points a.weights Y) := by
  have e1 := Quad.eq_ofPairs r hr
  have e2 := Quad.eq_ofPairs a ha
  refine ⟨_, by rw [e1, e2]; exact sphConstruct_eq b _ _ cen, ?_⟩
  dsimp only
  rw [sph_ruleSum]
  unfold ruleSum
  rw [← sum_map_mul_left']
  congr 1
  apply List.map_congr_left
  intro u hu
  rw [mul_comm _ (u.2 * Y u.1), ← sum_map_mul_left']
  congr 1
  apply List.map_congr_left
  intro ρ hρ
  have hu1 : normSq u.1 = 1 := hunit _ (List.of_mem_zip hu).1
  have hρ1 : 0 ≤ ρ.1 := hpos _ (List.of_mem_zip hρ).1
  rcases hρ1.eq_or_lt with h0 | h0
  · rw [← h0]; ring
  · rw [hg _ h0 _ hu1]; ring

theorem C29_weight_sum (b : Build) (r : Quad ℝ ℝ) (a : Quad (Pt ℝ) ℝ) (cen : Pt ℝ)
    (hr : Consistent r) (ha : Consistent a) :
    Returns (sphConstruct b r a cen) (fun s =>
      s.quad.weights.sum = ruleSum r.points r.weights (fun ρ => ρ ^ 2) * a.weights.sum) := by
  have e1 := Quad.eq_ofPairs r hr
  have e2 := Quad.eq_ofPairs a ha
  refine ⟨_, by rw [e1, e2]; exact sphConstruct_eq b _ _ cen, ?_⟩
  dsimp only
  have h1 := sph_ruleSum cen (r.points.zip r.weights) (a.points.zip a.weights) (fun _ => 1)
  have h2 : ∀ l : List (Pt ℝ × ℝ), ruleSum (Quad.ofPairs l).points (Quad.ofPairs l).weights
      (fun _ => 1) = (Quad.ofPairs l).weights.sum := by
    intro l; unfold Quad.ofPairs; rw [ruleSum_pairs]; simp
  rw [h2] at h1
  rw [h1]
  have h3 : a.weights.sum = ((a.points.zip a.weights).map (fun e => e.2)).sum := by
    rw [List.map_snd_zip (by rw [show a.points.length = a.weights.length from ha])]
  rw [h3]
  unfold ruleSum
  rw [← sum_map_mul_left']
  congr 1
  apply List.map_congr_left
  intro u hu
  rw [mul_comm _ u.2, ← sum_map_mul_left']
  congr 1
  apply List.map_congr_left
  intro ρ _
  ring

/-- `F(r) = exp(-r)`-like radial functions times a constant satisfy the hypothesis. -/
example (F : ℝ → ℝ) : ∀ ρ > 0, ∀ u, normSq u = 1 →
    (fun p : Pt ℝ => F (√(normSq ⟨p.x - 1, p.y - 2, p.z - 3⟩)) * 1) (onRay ⟨1, 2, 3⟩ ρ u) =
      F ρ * 1 := by
  intro ρ hρ u hu
  have : normSq ⟨(onRay ⟨1, 2, 3⟩ ρ u).x - 1, (onRay ⟨1, 2, 3⟩ ρ u).y - 2,
      (onRay ⟨1, 2, 3⟩ ρ u).z - 3⟩ = ρ ^ 2 := by
    simp only [normSq, onRay] at *
    have h : ρ ^ 2 = ρ ^ 2 * (u.x ^ 2 + u.y ^ 2 + u.z ^ 2) := by rw [hu, mul_one]
    rw [h]; ring
  simp only [this, Real.sqrt_sq hρ.le]

/-! ## C30 -/

/-- In any arithmetic a `recenter` returns normally, keeps weights and size, and either
translates every point by `c - center` and stores `c`, or, when `c == center`, changes
nothing. -/
theorem C30_recenter_step {F : Type} [Add F] [Sub F] [Mul F] [Arith F] (c : Pt F)
    (s : SphQuad F) :
    Returns (recenter c s) (fun s' =>
      s'.quad.weights = s.quad.weights ∧ s'.quad.npts = s.quad.npts ∧
      (ptEq c s.center = true → s' = s) ∧
      (ptEq c s.center = false → s'.center = c ∧
        s'.quad.points = s.quad.points.map (fun p =>
          ⟨p.x + (c.x - s.center.x), p.y + (c.y - s.center.y), p.z + (c.z - s.center.z)⟩))) := by
  unfold recenter
  cases h : ptEq c s.center
  · refine ⟨⟨⟨s.quad.points.map (shiftPt ⟨c.x - s.center.x, c.y - s.center.y,
      c.z - s.center.z⟩), s.quad.weights⟩, c⟩,
      by simp only [Bool.not_false, if_true]; rw [shiftGrid_eq]; rfl, rfl, ?_, ?_, ?_⟩
    · simp [Quad.npts]
    · simp
    · intro _; exact ⟨rfl, rfl⟩
  · exact ⟨s, by simp, rfl, rfl, fun _ => rfl, by simp⟩

/-- In any arithmetic a whole history keeps weights and size. -/
theorem C30_history_invariant {F : Type} [Add F] [Sub F] [Mul F] [Arith F] (cs : List (Pt F))
    (s : SphQuad F) :
    Returns (recenterAll cs s) (fun s' =>
      s'.quad.weights = s.quad.weights ∧ s'.quad.npts = s.quad.npts) := by
  induction cs generalizing s with
  | nil => exact ⟨s, rfl, rfl, rfl⟩
  | cons c cs ih =>
    obtain ⟨s1, h1, h2, h3, -, -⟩ := C30_recenter_step c s
    obtain ⟨s2, h4, h5, h6⟩ := ih s1
    exact ⟨s2, by unfold recenterAll; rw [h1]; exact h4, h5.trans h2, h6.trans h3⟩

private theorem ptEq_real (p q : Pt ℝ) : ptEq p q = true ↔ p = q := by
  cases p; cases q
  simp [ptEq, and_assoc]

private theorem recenter_real (L : List (Pt ℝ × ℝ)) (c0 c : Pt ℝ) :
    recenter c ⟨Quad.ofPairs (L.map (shiftEntry c0)), c0⟩ =
      .ok ⟨Quad.ofPairs (L.map (shiftEntry c)), c⟩ := by
  obtain ⟨s', h1, h2, -, h3, h4⟩ := C30_recenter_step c ⟨Quad.ofPairs (L.map (shiftEntry c0)), c0⟩
  rw [h1]
  congr 1
  cases h : ptEq c c0
  · obtain ⟨h5, h6⟩ := h4 h
    obtain ⟨⟨p, w⟩, cc⟩ := s'
    simp only [] at h2 h5 h6
    subst h5 h2 h6
    simp only [Quad.ofPairs, List.map_map]
    congr 2
    apply List.map_congr_left
    rintro ⟨p, w⟩ _
    simp only [Function.comp, shiftEntry, shiftPt]
    congr 1 <;> ring
  · have := (ptEq_real c c0).mp h
    subst this
    exact h3 h

private theorem history_real (L : List (Pt ℝ × ℝ)) (cs : List (Pt ℝ)) (c0 : Pt ℝ) :
    recenterAll cs ⟨Quad.ofPairs (L.map (shiftEntry c0)), c0⟩ =
      .ok ⟨Quad.ofPairs (L.map (shiftEntry (cs.getLastD c0))), cs.getLastD c0⟩ := by
  induction cs generalizing c0 with
  | nil => rfl
  | cons c cs ih =>
    unfold recenterAll
    rw [recenter_real, Outcome.ok_bind, ih, List.getLastD_cons]

/-- In exact arithmetic, after any history the object equals the one constructed directly at
the last requested centre (in particular `center()` is that centre). -/
theorem C30_recenter_history (b : Build) (r : Quad ℝ ℝ) (a : Quad (Pt ℝ) ℝ) (c0 : Pt ℝ)
    (hr : Consistent r) (ha : Consistent a) (cs : List (Pt ℝ)) :
    ∃ s0 s, sphConstruct b r a c0 = .ok s0 ∧ recenterAll cs s0 = .ok s ∧
      sphConstruct b r a (cs.getLastD c0) = .ok s ∧ s.center = cs.getLastD c0 := by
  have e1 := Quad.eq_ofPairs r hr
  have e2 := Quad.eq_ofPairs a ha
  refine ⟨_, _, by rw [e1, e2]; exact sphConstruct_eq b _ _ c0, history_real _ cs c0, ?_, rfl⟩
  rw [e1, e2, sphConstruct_eq]
  rw [← e1, ← e2]

/-- The same for pruned grids. -/
theorem C30_recenter_history_pruned (b : Build) (r : Quad ℝ ℝ)
    (p : Partition (Quad (Pt ℝ) ℝ)) (c0 : Pt ℝ) (hr : Consistent r)
    (hp : p.idx.length = p.quads.length + 1)
    (hes : ∀ es, p.visited = .ok es → ∀ e ∈ es,
      e.1.1 < e.1.2 ∧ e.1.2 ≤ r.npts ∧ Consistent e.2) (cs : List (Pt ℝ)) :
    ∃ s0 s, prunedConstruct b r p c0 = .ok s0 ∧ recenterAll cs s0 = .ok s ∧
      prunedConstruct b r p (cs.getLastD c0) = .ok s ∧ s.center = cs.getLastD c0 := by
  have e1 := Quad.eq_ofPairs r hr
  have h : ∀ e ∈ Partition.ranges p.idx p.quads,
      RegionOk (r.points.zip r.weights).length e := by
    intro e he
    have := hes _ (Partition.visited_eq p hp) e he
    have hl : (r.points.zip r.weights).length = r.npts := by
      have : r.points.length = r.weights.length := hr
      simp [Quad.npts, this]
    exact ⟨this.1, hl ▸ this.2.1, this.2.2⟩
  refine ⟨_, _, by rw [e1]; exact prunedConstruct_eq b _ p hp h c0, history_real _ cs c0, ?_, rfl⟩
  conv_lhs => rw [e1]
  exact prunedConstruct_eq b _ p hp h _

example : Consistent (⟨[0.5, 1.5], [1, 2]⟩ : Quad ℝ ℝ) ∧
    [(⟨1, 2, 3⟩ : Pt ℝ), ⟨4, 5, 6⟩].getLastD ⟨0, 0, 0⟩ = ⟨4, 5, 6⟩ := ⟨rfl, rfl⟩

end IntegratorXX
