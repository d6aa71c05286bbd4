import Verif.Spec.Symmetry
import Verif.Spec.Rule
import Verif.Lemmas.AngularGrids

/-!
# Symmetries of the tabulated grids
-/

namespace IntegratorXX

open Arith Spec Tables

theorem zip_flatMap {α β γ : Type} (l : List α) (f : α → List β) (g : α → List γ)
    (h : ∀ a ∈ l, (f a).length = (g a).length) :
    (l.flatMap f).zip (l.flatMap g) = l.flatMap (fun a => (f a).zip (g a)) := by
  induction l with
  | nil => rfl
  | cons a l ih =>
    simp only [List.flatMap_cons]
    rw [List.zip_append (h a (by simp)), ih (fun b hb => h b (by simp [hb]))]

theorem zip_map_same {α β γ : Type} (l : List α) (f : α → β) (g : α → γ) :
    (l.map f).zip (l.map g) = l.map (fun a => (f a, g a)) := by
  induction l with
  | nil => rfl
  | cons a l ih => simp [ih]

theorem invariant_iff {F : Type} (g : Pt F → Pt F) (q : Quad (Pt F) F) :
    Invariant g q ↔ ((q.points.zip q.weights).map (fun e => (g e.1, e.2))).Perm (q.points.zip q.weights) := by
  unfold Invariant
  rw [List.zip_map_left]
  rfl

theorem invariant_comp {F : Type} {g h : Pt F → Pt F} {q : Quad (Pt F) F} (hg : Invariant g q)
    (hh : Invariant h q) : Invariant (fun u => g (h u)) q := by
  rw [invariant_iff] at *
  have := (hh.map (fun e : Pt F × F => (g e.1, e.2))).trans hg
  rw [List.map_map] at this
  exact this

theorem invariant_id {F : Type} (q : Quad (Pt F) F) : Invariant id q := by
  unfold Invariant
  rw [List.map_id]

theorem invariant_octahedral {F : Type} [Neg F] {q : Quad (Pt F) F} (h1 : Invariant flipX q)
    (h2 : Invariant swapXY q) (h3 : Invariant cycleXYZ q) {g : Pt F → Pt F} (hg : Octahedral g) :
    Invariant g q := by
  induction hg with
  | one => exact invariant_id q
  | flip _ ih => exact invariant_comp h1 ih
  | swap _ ih => exact invariant_comp h2 ih
  | cycle _ ih => exact invariant_comp h3 ih

theorem invariant_tetrahedral {F : Type} [Neg F] {q : Quad (Pt F) F} (h1 : Invariant turnX q)
    (h3 : Invariant cycleXYZ q) {g : Pt F → Pt F} (hg : Tetrahedral g) : Invariant g q := by
  induction hg with
  | one => exact invariant_id q
  | turn _ ih => exact invariant_comp h1 ih
  | cycle _ ih => exact invariant_comp h3 ih

/-! ## Octahedral tables -/

theorem octa_coord_neg (r : OctaRow) (s : Int) : r.coord (-s) = -r.coord s := by
  unfold OctaRow.coord
  split <;> split <;> simp_all <;> omega

section
variable {F : Type} [Arith F]

/-- The entries of an orbit. -/
def octaEntries (pattern : OctaKind → List (Int × Int × Int)) (s : F → F) (r : OctaRow) :
    List (Pt F × F) :=
  (pattern r.kind).map (fun t =>
    (⟨lit (r.coord t.1), lit (r.coord t.2.1), lit (r.coord t.2.2)⟩, s (lit ((r.w : Rat) / 10 ^ 21))))

theorem octa_zip (pattern : OctaKind → List (Int × Int × Int)) (s : F → F) (rows : List OctaRow) :
    (octaGrid pattern rows : StaticGrid F).points.zip ((octaGrid pattern rows : StaticGrid F).weights.map s) =
      rows.flatMap (octaEntries pattern s) := by
  unfold octaGrid
  dsimp only
  rw [List.map_flatMap, zip_flatMap _ _ _ (fun r _ => by simp [octaPoints, octaWeights])]
  congr 1
  funext r
  unfold octaPoints octaWeights octaEntries
  rw [List.map_map, zip_map_same]
  rfl

/-- Signed places under the three generators. -/
theorem llPattern_sym : ∀ k : OctaKind,
    ((OctaKind.llPattern k).map (fun t => (-t.1, t.2.1, t.2.2))).Perm (OctaKind.llPattern k) ∧
    ((OctaKind.llPattern k).map (fun t => (t.2.1, t.1, t.2.2))).Perm (OctaKind.llPattern k) ∧
    ((OctaKind.llPattern k).map (fun t => (t.2.1, t.2.2, t.1))).Perm (OctaKind.llPattern k) := by
  intro k
  cases k <;> decide +kernel

theorem dePattern_sym : ∀ k : OctaKind,
    ((OctaKind.dePattern k).map (fun t => (-t.1, t.2.1, t.2.2))).Perm (OctaKind.dePattern k) ∧
    ((OctaKind.dePattern k).map (fun t => (t.2.1, t.1, t.2.2))).Perm (OctaKind.dePattern k) ∧
    ((OctaKind.dePattern k).map (fun t => (t.2.1, t.2.2, t.1))).Perm (OctaKind.dePattern k) := by
  intro k
  cases k <;> decide +kernel

theorem octa_invariant {pattern : OctaKind → List (Int × Int × Int)} (s : F → F) (rows : List OctaRow)
    {g : Pt F → Pt F} {t : Int × Int × Int → Int × Int × Int}
    (hp : ∀ k, ((pattern k).map t).Perm (pattern k))
    (hg : ∀ (r : OctaRow) (p : Int × Int × Int),
      g ⟨lit (r.coord p.1), lit (r.coord p.2.1), lit (r.coord p.2.2)⟩ =
        ⟨lit (r.coord (t p).1), lit (r.coord (t p).2.1), lit (r.coord (t p).2.2)⟩) :
    Invariant g ⟨(octaGrid pattern rows : StaticGrid F).points,
      (octaGrid pattern rows : StaticGrid F).weights.map s⟩ := by
  rw [invariant_iff]
  dsimp only
  rw [octa_zip, List.map_flatMap]
  refine List.Perm.flatMap_left _ (fun r _ => ?_)
  unfold octaEntries
  have := (hp r.kind).map (fun p => ((⟨lit (r.coord p.1), lit (r.coord p.2.1), lit (r.coord p.2.2)⟩ : Pt F),
    s (lit ((r.w : Rat) / 10 ^ 21))))
  rw [List.map_map] at this ⊢
  refine (List.Perm.of_eq (List.map_congr_left (fun p _ => ?_))).trans this
  simp only [Function.comp_apply, hg]

variable [Neg F]

theorem octa_octahedral (hneg : ∀ q : Rat, (lit (-q) : F) = -lit q)
    {pattern : OctaKind → List (Int × Int × Int)}
    (hp : ∀ k, ((pattern k).map (fun t => (-t.1, t.2.1, t.2.2))).Perm (pattern k) ∧
      ((pattern k).map (fun t => (t.2.1, t.1, t.2.2))).Perm (pattern k) ∧
      ((pattern k).map (fun t => (t.2.1, t.2.2, t.1))).Perm (pattern k))
    (s : F → F) (rows : List OctaRow) {g : Pt F → Pt F} (hg : Octahedral g) :
    Invariant g ⟨(octaGrid pattern rows : StaticGrid F).points,
      (octaGrid pattern rows : StaticGrid F).weights.map s⟩ := by
  refine invariant_octahedral ?_ ?_ ?_ hg
  · exact octa_invariant s rows (fun k => (hp k).1) (fun r p => by
      simp only [flipX, octa_coord_neg, hneg])
  · exact octa_invariant s rows (fun k => (hp k).2.1) (fun r p => rfl)
  · exact octa_invariant s rows (fun k => (hp k).2.2) (fun r p => rfl)

/-! ## Icosahedral tables -/

omit [Neg F]

theorem tripleAt_neg (t : Int × Int × Int) (s : Int) : tripleAt t (-s) = -tripleAt t s := by
  unfold tripleAt
  split <;> split <;> simp_all <;> omega

/-- The entries of a block. -/
def icosaEntries (r : IcosaRow) : List (Pt F × F) :=
  icosaPattern.map (fun e => (triplePoint (r.triple e.1) e.2, decimal 20 r.w))

/-- The entries of the first 12 points. -/
def vertexEntries (w : Int) : List (Pt F × F) :=
  icosaVertexPattern.map (fun e => (triplePoint icosaVertex e, decimal 20 w))

theorem icosa_zip (g : IcosaGrid) :
    (icosaGrid g : StaticGrid F).points.zip (icosaGrid g : StaticGrid F).weights =
      vertexEntries g.w0 ++ g.rows.flatMap icosaEntries := by
  unfold icosaGrid
  dsimp only
  rw [List.zip_append (by simp), zip_flatMap _ _ _ (fun r _ => by simp [icosaPoints, icosaWeights]),
    zip_map_same]
  refine congrArg _ (congrArg (fun f => List.flatMap f g.rows) (funext fun r => ?_))
  exact zip_map_same _ _ _

theorem icosaPattern_sym :
    (icosaPattern.map (fun e => (e.1, e.2.1, -e.2.2.1, -e.2.2.2))).Perm icosaPattern ∧
    (icosaPattern.map (fun e => (e.1, e.2.2.1, e.2.2.2, e.2.1))).Perm icosaPattern := by
  decide +kernel

/-- The coordinates of the first 12 points. -/
def vertexInts : List (Int × Int × Int) :=
  icosaVertexPattern.map (fun e => (tripleAt icosaVertex e.1, tripleAt icosaVertex e.2.1,
    tripleAt icosaVertex e.2.2))

theorem vertexInts_sym :
    (vertexInts.map (fun e => (e.1, -e.2.1, -e.2.2))).Perm vertexInts ∧
    (vertexInts.map (fun e => (e.2.1, e.2.2, e.1))).Perm vertexInts := by
  decide +kernel

theorem vertexEntries_eq (w : Int) : (vertexEntries w : List (Pt F × F)) =
    vertexInts.map (fun e => (⟨decimal 21 e.1, decimal 21 e.2.1, decimal 21 e.2.2⟩, decimal 20 w)) := by
  unfold vertexEntries vertexInts
  rw [List.map_map]
  rfl

theorem decimal_neg [Neg F] (hneg : ∀ q : Rat, (lit (-q) : F) = -lit q) (d : Nat) (v : Int) :
    (decimal d (-v) : F) = -decimal d v := by
  unfold decimal
  rw [← hneg, Int.cast_neg, neg_div]

theorem icosa_invariant (gr : IcosaGrid) {g : Pt F → Pt F} {t : Int × Int × Int → Int × Int × Int}
    (hp : (icosaPattern.map (fun e => (e.1, t e.2))).Perm icosaPattern)
    (hv : (vertexInts.map t).Perm vertexInts)
    (hg : ∀ (p : Int × Int × Int), g ⟨decimal 21 p.1, decimal 21 p.2.1, decimal 21 p.2.2⟩ =
      (⟨decimal 21 (t p).1, decimal 21 (t p).2.1, decimal 21 (t p).2.2⟩ : Pt F))
    (ht : ∀ (a p : Int × Int × Int), t (tripleAt a p.1, tripleAt a p.2.1, tripleAt a p.2.2) =
      (tripleAt a (t p).1, tripleAt a (t p).2.1, tripleAt a (t p).2.2)) :
    Invariant g ⟨(icosaGrid gr : StaticGrid F).points, (icosaGrid gr : StaticGrid F).weights⟩ := by
  rw [invariant_iff]
  dsimp only
  rw [icosa_zip, List.map_append, List.map_flatMap]
  refine List.Perm.append ?_ (List.Perm.flatMap_left _ (fun r _ => ?_))
  · rw [vertexEntries_eq, List.map_map]
    have := hv.map (fun e : Int × Int × Int => ((⟨decimal 21 e.1, decimal 21 e.2.1, decimal 21 e.2.2⟩ : Pt F),
      (decimal 20 gr.w0 : F)))
    rw [List.map_map] at this
    refine (List.Perm.of_eq (List.map_congr_left (fun p _ => ?_))).trans this
    simp only [Function.comp_apply, hg]
  · unfold icosaEntries
    have := hp.map (fun e => ((triplePoint (r.triple e.1) e.2 : Pt F), (decimal 20 r.w : F)))
    rw [List.map_map] at this ⊢
    refine (List.Perm.of_eq (List.map_congr_left (fun e _ => ?_))).trans this
    have h1 := hg (tripleAt (r.triple e.1) e.2.1, tripleAt (r.triple e.1) e.2.2.1, tripleAt (r.triple e.1) e.2.2.2)
    rw [ht] at h1
    exact Prod.ext h1 rfl

theorem icosa_tetrahedral [Neg F] (hneg : ∀ q : Rat, (lit (-q) : F) = -lit q) (gr : IcosaGrid)
    {g : Pt F → Pt F} (hg : Tetrahedral g) :
    Invariant g ⟨(icosaGrid gr : StaticGrid F).points, (icosaGrid gr : StaticGrid F).weights⟩ := by
  refine invariant_tetrahedral ?_ ?_ hg
  · refine icosa_invariant gr (t := fun e => (e.1, -e.2.1, -e.2.2)) icosaPattern_sym.1 vertexInts_sym.1 ?_ ?_
    · intro p
      simp only [turnX, decimal_neg hneg]
    · intro a p
      simp only [tripleAt_neg]
  · exact icosa_invariant gr (t := fun e => (e.2.1, e.2.2, e.1)) icosaPattern_sym.2 vertexInts_sym.2
      (fun _ => rfl) (fun _ _ => rfl)

end

end IntegratorXX
