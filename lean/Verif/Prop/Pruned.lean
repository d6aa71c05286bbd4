import Verif.Lemmas.CompositeForms
import Verif.Spec.Composite
import Mathlib.Data.Multiset.Bind
import Mathlib.Data.List.Forall2
import Mathlib.Tactic.Ring

set_option linter.unusedSectionVars false

/-!
# C31-C37: sub-quadratures, radial partitions and pruned grids
-/

namespace IntegratorXX

open Spec Arith Partition

/-! ## C31 -/

theorem C31_sub_slice {P W : Type} (b : Build) (q : Quad P W) (hq : Consistent q) (i j : Nat)
    (hij : i < j) (hj : j ≤ q.npts) :
    Returns (subConstruct b (i, j) q) (fun s =>
      s.points.length = j - i ∧ s.weights.length = j - i ∧
      ∀ k, k < j - i → s.points[k]? = q.points[i + k]? ∧ s.weights[k]? = q.weights[i + k]?) := by
  have e := Quad.eq_ofPairs q hq
  have hl : (q.points.zip q.weights).length = q.npts := by
    have : q.points.length = q.weights.length := hq
    simp [Quad.npts, this]
  have hp : q.points = (q.points.zip q.weights).map Prod.fst := by
    conv_lhs => rw [e]
    rfl
  have hw : q.weights = (q.points.zip q.weights).map Prod.snd := by
    conv_lhs => rw [e]
    rfl
  refine ⟨Quad.ofPairs (((q.points.zip q.weights).take j).drop i), ?_, ?_, ?_, ?_⟩
  · conv_lhs => rw [e]
    exact subConstruct_eq b i j _ hij (by omega)
  · simp only [Quad.ofPairs, List.length_map, List.length_drop, List.length_take]; omega
  · simp only [Quad.ofPairs, List.length_map, List.length_drop, List.length_take]; omega
  · intro k hk
    have : (((q.points.zip q.weights).take j).drop i)[k]? = (q.points.zip q.weights)[i + k]? := by
      rw [List.getElem?_drop, List.getElem?_take_of_lt (by omega)]
    constructor
    · conv_rhs => rw [hp]
      simp only [Quad.ofPairs, List.getElem?_map, this]
    · conv_rhs => rw [hw]
      simp only [Quad.ofPairs, List.getElem?_map, this]

/-- A debug build rejects every other range. -/
theorem C31_sub_debug {P W : Type} (q : Quad P W) (i j : Nat) (h : ¬(i < j ∧ j ≤ q.npts)) :
    subConstruct ⟨true⟩ (i, j) q = .assertFail := by
  unfold subConstruct subGenerate construct cassert
  by_cases h1 : i ≤ q.npts <;> by_cases h2 : j ≤ q.npts <;> by_cases h3 : i < j <;>
    simp_all

/-- With `NDEBUG` a reversed range or one past the end is undefined behaviour; an empty range
gives an empty quadrature. -/
theorem C31_sub_release {P W : Type} (q : Quad P W) (i j : Nat) :
    (j < i ∨ q.npts < j → subConstruct ⟨false⟩ (i, j) q = .ub) ∧
    (Consistent q → i ≤ q.npts → subConstruct ⟨false⟩ (i, i) q = .ok ⟨[], []⟩) := by
  constructor
  · intro h
    unfold subConstruct subGenerate construct cassert
    simp only [Bool.false_and, Bool.false_eq_true, if_false, Outcome.ok_bind]
    unfold vrange
    rw [if_neg (by unfold Quad.npts at h; omega)]
    rfl
  · intro hc hi
    unfold Consistent at hc
    unfold Quad.npts at hi
    unfold subConstruct subGenerate construct cassert
    simp only [Bool.false_and, Bool.false_eq_true, if_false, Outcome.ok_bind]
    unfold vrange
    rw [if_pos ⟨le_refl _, hi⟩, if_pos ⟨le_refl _, by omega⟩]
    simp [Quad.make]

example : Consistent (⟨[1, 2, 3], [4, 5, 6]⟩ : Quad Nat Nat) ∧
    subConstruct ⟨true⟩ (1, 3) (⟨[1, 2, 3], [4, 5, 6]⟩ : Quad Nat Nat) =
      .ok ⟨[2, 3], [5, 6]⟩ := ⟨rfl, rfl⟩

/-! ## C32 -/

private theorem addQuad_ok {A : Type} {b : Build} {npts i : Nat} {q : A} {p p' : Partition A}
    (h : addQuad b npts i q p = .ok p') : p' = ⟨p.idx ++ [i], p.quads ++ [q]⟩ := by
  unfold addQuad at h
  rw [Outcome.bind_eq_ok] at h
  obtain ⟨_, -, h⟩ := h
  simpa using h.symm

private theorem addAll_ok {A : Type} {b : Build} {npts : Nat} :
    ∀ {regions : List (Nat × A)} {p p' : Partition A}, addAll b npts regions p = .ok p' →
      p' = ⟨p.idx ++ regions.map Prod.fst, p.quads ++ regions.map Prod.snd⟩
  | [], p, p', h => by
    simp only [addAll, Outcome.ok.injEq] at h
    simp [h]
  | (i, q) :: rest, p, p', h => by
    unfold addAll at h
    rw [Outcome.bind_eq_ok] at h
    obtain ⟨p1, h1, h2⟩ := h
    rw [addAll_ok h2, addQuad_ok h1]
    simp

private theorem addAll_release {A : Type} (npts : Nat) (regions : List (Nat × A))
    (p : Partition A) :
    addAll ⟨false⟩ npts regions p =
      .ok ⟨p.idx ++ regions.map Prod.fst, p.quads ++ regions.map Prod.snd⟩ := by
  induction regions generalizing p with
  | nil => simp [addAll]
  | cons r rest ih => simp [addAll, addQuad, cassert, ih]

/-- Debug check along a sequence, given the index added before it. -/
private theorem addAll_debug_from {A : Type} (npts : Nat) (h1 : 1 ≤ npts) (h2 : npts < sizeMod) :
    ∀ (regions : List (Nat × A)) (p : Partition A) (l : Nat), p.idx.getLast? = some l →
      ((List.IsChain (· < ·) (l :: regions.map Prod.fst) ∧ ∀ e ∈ regions, e.1 < npts - 1) →
        ∃ p', addAll ⟨true⟩ npts regions p = .ok p') ∧
      (¬(List.IsChain (· < ·) (l :: regions.map Prod.fst) ∧ ∀ e ∈ regions, e.1 < npts - 1) →
        addAll ⟨true⟩ npts regions p = .assertFail)
  | [], p, l, _ => by simp [addAll]
  | (i, q) :: rest, p, l, hl => by
    have hw : subWrap npts 1 = npts - 1 := subWrap_of_le h1 h2
    have ih := addAll_debug_from npts h1 h2 rest ⟨p.idx ++ [i], p.quads ++ [q]⟩ i (by simp)
    have hstep : addQuad ⟨true⟩ npts i q p =
        if l < i ∧ i < npts - 1 then .ok ⟨p.idx ++ [i], p.quads ++ [q]⟩ else .assertFail := by
      unfold addQuad cassert
      simp only [hl, hw]
      by_cases ha : l < i <;> by_cases hb : i < npts - 1 <;> simp [ha, hb]
    unfold addAll
    rw [hstep]
    simp only [List.map_cons, List.isChain_cons_cons, List.mem_cons, forall_eq_or_imp]
    constructor
    · rintro ⟨⟨ha, hc⟩, hb, hd⟩
      rw [if_pos ⟨ha, hb⟩, Outcome.ok_bind]
      exact ih.1 ⟨hc, hd⟩
    · intro hn
      by_cases hab : l < i ∧ i < npts - 1
      · rw [if_pos hab, Outcome.ok_bind]
        exact ih.2 (fun h => hn ⟨⟨hab.1, h.1⟩, hab.2, h.2⟩)
      · rw [if_neg hab]; rfl

/-- A debug build accepts a non-empty sequence of `add_quad` calls exactly when the first index
is 0 and the others increase strictly and stay below `npts - 1`; otherwise it fails an
assertion. -/
theorem C32_debug_check {A : Type} (npts : Nat) (h1 : 1 ≤ npts) (h2 : npts < sizeMod)
    (regions : List (Nat × A)) (hne : regions ≠ []) :
    ((StartsOk regions ∧ ∀ e ∈ regions.tail, e.1 < npts - 1) →
      Returns (addAll ⟨true⟩ npts regions Partition.empty) (fun p =>
        p.idx = regions.map Prod.fst ∧ p.quads = regions.map Prod.snd)) ∧
    (¬(StartsOk regions ∧ ∀ e ∈ regions.tail, e.1 < npts - 1) →
      addAll ⟨true⟩ npts regions Partition.empty = .assertFail) := by
  obtain ⟨⟨i, q⟩, rest, rfl⟩ := List.exists_cons_of_ne_nil hne
  have hstep : addQuad ⟨true⟩ npts i q (Partition.empty : Partition A) =
      if i = 0 then .ok ⟨[i], [q]⟩ else .assertFail := by
    unfold addQuad cassert Partition.empty
    by_cases ha : i = 0 <;> simp [ha]
  have hfrom := addAll_debug_from npts h1 h2 rest ⟨[i], [q]⟩ i (by simp)
  have hS : StartsOk ((i, q) :: rest) ↔
      i = 0 ∧ List.IsChain (· < ·) (i :: rest.map Prod.fst) := by
    unfold StartsOk
    rw [List.isChain_iff_pairwise]
    simp
  rw [hS]
  constructor
  · rintro ⟨⟨h0, hc⟩, ht⟩
    obtain ⟨p', hp'⟩ := hfrom.1 ⟨hc, ht⟩
    refine ⟨p', ?_, ?_⟩
    · unfold addAll
      rw [hstep, if_pos h0, Outcome.ok_bind]; exact hp'
    · have := addAll_ok hp'
      simp [this]
  · intro hn
    unfold addAll
    rw [hstep]
    by_cases h0 : i = 0
    · rw [if_pos h0, Outcome.ok_bind]
      exact hfrom.2 (fun h => hn ⟨⟨h0, h.1⟩, h.2⟩)
    · rw [if_neg h0]; rfl

private theorem ranges_tiles {A : Type} (npts : Nat) : ∀ (regions : List (Nat × A)),
    ranges (regions.map Prod.fst ++ [npts]) (regions.map Prod.snd) = tiles npts regions
  | [] => by simp [ranges, tiles]
  | [(i, a)] => by simp [ranges, tiles]
  | (i, a) :: (j, a') :: rest => by
    have := ranges_tiles npts ((j, a') :: rest)
    simp only [List.map_cons, List.cons_append] at this
    simp only [List.map_cons, List.cons_append, ranges, this, tiles]

private theorem getLast_mem_map {A : Type} {regions : List (Nat × A)} {back : Nat}
    (h : (regions.map Prod.fst).getLast? = some back) : ∃ e ∈ regions, e.1 = back := by
  have := List.mem_of_getLast? h
  simpa using this

private theorem make_ok {A : Type} {b : Build} {npts : Nat} {regions : List (Nat × A)}
    {p : Partition A} (hlt : ∀ e ∈ regions, e.1 < npts) (h : make b npts regions = .ok p) :
    regions ≠ [] ∧ p = ⟨regions.map Prod.fst ++ [npts], regions.map Prod.snd⟩ := by
  unfold make at h
  rw [Outcome.bind_eq_ok] at h
  obtain ⟨p1, h1, h2⟩ := h
  have := addAll_ok h1
  simp only [Partition.empty, List.nil_append] at this
  subst this
  unfold finalize at h2
  dsimp only at h2
  cases hl : (regions.map Prod.fst).getLast? with
  | none => rw [hl] at h2; cases h2
  | some back =>
    obtain ⟨e, he, rfl⟩ := getLast_mem_map hl
    have := hlt e he
    rw [hl] at h2
    simp only [ne_eq, show ¬ e.1 = npts by omega, not_false_iff, if_true, Outcome.ok.injEq] at h2
    exact ⟨by rintro rfl; simp at he, h2.symm⟩

/-- Iteration over a partition visits exactly the tiles `[iₖ, iₖ₊₁)` in order, with their
angular rules. -/
theorem C32_iteration {A : Type} (b : Build) (npts : Nat) (regions : List (Nat × A))
    (hlt : ∀ e ∈ regions, e.1 < npts) (p : Partition A) (h : make b npts regions = .ok p) :
    p.visited = .ok (tiles npts regions) := by
  obtain ⟨-, rfl⟩ := make_ok hlt h
  rw [visited_eq _ (by simp), ranges_tiles]

/-- In a release build any non-empty sequence of regions starting below `npts` can be built. -/
theorem C32_release {A : Type} (npts : Nat) (regions : List (Nat × A)) (hne : regions ≠ [])
    (hlt : ∀ e ∈ regions, e.1 < npts) :
    Returns (make ⟨false⟩ npts regions) (fun p => p.visited = .ok (tiles npts regions)) := by
  have : make ⟨false⟩ npts regions =
      .ok ⟨regions.map Prod.fst ++ [npts], regions.map Prod.snd⟩ := by
    unfold make
    rw [addAll_release]
    simp only [Partition.empty, List.nil_append, Outcome.ok_bind]
    unfold finalize
    dsimp only
    cases hl : (regions.map Prod.fst).getLast? with
    | none => simp at hl; exact absurd hl hne
    | some back =>
      obtain ⟨e, he, rfl⟩ := getLast_mem_map hl
      have := hlt e he
      simp [show ¬ e.1 = npts by omega]
  exact ⟨_, this, C32_iteration _ _ _ hlt _ this⟩

/-- Tiles cover `[0, npts)` consecutively and without overlap. -/
theorem C32_tiles_cover {A : Type} (npts : Nat) (regions : List (Nat × A)) (hs : StartsOk regions)
    (hlt : ∀ e ∈ regions, e.1 < npts) :
    (tiles npts regions).flatMap (fun e => List.range' e.1.1 (e.1.2 - e.1.1)) = List.range npts ∧
    (∀ e ∈ tiles npts regions, e.1.1 < e.1.2 ∧ e.1.2 ≤ npts) ∧
    (tiles npts regions).map (fun e => (e.1.1, e.2)) = regions := by
  have main : ∀ (regions : List (Nat × A)) (i : Nat), (regions.map Prod.fst).head? = some i →
      (regions.map Prod.fst).Pairwise (· < ·) → (∀ e ∈ regions, e.1 < npts) →
      (tiles npts regions).flatMap (fun e => List.range' e.1.1 (e.1.2 - e.1.1)) =
        List.range' i (npts - i) ∧
      (∀ e ∈ tiles npts regions, e.1.1 < e.1.2 ∧ e.1.2 ≤ npts) ∧
      (tiles npts regions).map (fun e => (e.1.1, e.2)) = regions := by
    intro regions
    induction regions with
    | nil => simp
    | cons r rest ih =>
      intro i h0 hp hlt
      obtain ⟨k, a⟩ := r
      obtain rfl : k = i := by simpa using h0
      cases rest with
      | nil =>
        have := hlt (k, a) (by simp)
        simp only [tiles, List.flatMap_cons, List.flatMap_nil, List.append_nil,
          List.mem_singleton, forall_eq, List.map_cons, List.map_nil, le_refl, and_true]
        exact ⟨trivial, this⟩
      | cons r' rest =>
        obtain ⟨j, a'⟩ := r'
        have hkj : k < j := by simp at hp; exact hp.1.1
        have hj := hlt (j, a') (by simp)
        obtain ⟨i1, i2, i3⟩ := ih j (by simp) (by simp at hp ⊢; exact hp.2)
          (fun e he => hlt e (by simp at he ⊢; exact .inr he))
        refine ⟨?_, ?_, ?_⟩
        · simp only [tiles, List.flatMap_cons, i1]
          rw [show npts - k = (j - k) + (npts - j) by simp at hj; omega, ← List.range'_append,
            Nat.one_mul, show k + (j - k) = j by omega]
        · simp only [tiles, List.mem_cons, forall_eq_or_imp]
          exact ⟨⟨hkj, by simp at hj; omega⟩, i2⟩
        · simp only [tiles, List.map_cons, i3]
  obtain ⟨h1, h2, h3⟩ := main regions 0 hs.1 hs.2 hlt
  exact ⟨by rw [h1, List.range_eq_range']; rfl, h2, h3⟩

example : StartsOk [(0, "a"), (3, "b"), (7, "c")] ∧
    ∀ e ∈ [(0, "a"), (3, "b"), (7, "c")], e.1 < 10 := by
  simp [StartsOk]

/-! ## C33 -/

theorem C33_finalize_empty {A : Type} (npts : Nat) :
    finalize npts (Partition.empty : Partition A) = .ub ∧
    (Partition.empty : Partition A).visited = .ub := ⟨rfl, rfl⟩

private theorem loopFrom_not_ok {A σ : Type} (p : Partition A)
    (h : p.idx.length ≠ p.quads.length + 1) (h0 : p.idx.length ≠ 0)
    (body : (Nat × Nat) × A → σ → Outcome σ) (d : Nat) :
    ∀ (i : Nat) (s r : σ), p.idx.length - i = d → loopFrom p body i i s ≠ .ok r := by
  induction d with
  | zero =>
    intro i s r hi
    unfold loopFrom
    rw [if_neg (by omega), dif_neg (by omega)]
    simp
  | succ d ih =>
    intro i s r hi
    unfold loopFrom
    rw [if_neg (by omega)]
    split_ifs with hc
    · intro hcon
      rw [Outcome.bind_eq_ok] at hcon
      obtain ⟨s', -, h2⟩ := hcon
      exact ih (i + 1) s' r (by omega) h2
    · simp

/-- Iterating over a partition whose index vector is not one longer than its vector of angular
rules never completes normally, whatever the loop body. -/
theorem C33_bad_partition {A σ : Type} (p : Partition A)
    (h : p.idx.length ≠ p.quads.length + 1) (body : (Nat × Nat) × A → σ → Outcome σ) (s r : σ) :
    p.forEach body s ≠ .ok r := by
  unfold forEach
  split_ifs with h0
  · simp
  · exact loopFrom_not_ok p h h0 body _ 0 s r rfl

private theorem loopFrom_ub {A σ : Type} (p : Partition A)
    (h : p.idx.length = p.quads.length) (h0 : p.idx.length ≠ 0)
    (body : (Nat × Nat) × A → σ → Outcome σ) (hb : ∀ e s, ∃ s', body e s = .ok s') (d : Nat) :
    ∀ (i : Nat) (s : σ), p.idx.length - i = d → loopFrom p body i i s = .ub := by
  induction d with
  | zero =>
    intro i s hi
    unfold loopFrom
    rw [if_neg (by omega), dif_neg (by omega)]
  | succ d ih =>
    intro i s hi
    unfold loopFrom
    rw [if_neg (by omega)]
    split_ifs with hc
    · obtain ⟨s', hs'⟩ := hb ((p.idx[i], p.idx[i + 1]'hc.1), p.quads[i]'hc.2) s
      rw [hs', Outcome.ok_bind]
      exact ih (i + 1) s' (by omega)
    · rfl

/-- Release build, last region starting exactly at `npts`: `finalize` appends nothing and the
iteration runs off the end of the index vector; no pruned grid can be built from it. -/
theorem C33_last_at_npts {A : Type} (npts : Nat) (regions : List (Nat × A)) (a : A) :
    ∃ p, make ⟨false⟩ npts (regions ++ [(npts, a)]) = .ok p ∧
      p.idx.length = p.quads.length ∧ p.visited = .ub := by
  refine ⟨⟨(regions ++ [(npts, a)]).map Prod.fst, (regions ++ [(npts, a)]).map Prod.snd⟩, ?_, ?_,
    ?_⟩
  · unfold make
    rw [addAll_release]
    simp [Partition.empty, finalize]
  · simp
  · unfold visited forEach
    rw [if_neg (by simp)]
    exact loopFrom_ub _ (by simp) (by simp) _ (fun e s => ⟨_, rfl⟩) _ 0 _ rfl

theorem C33_no_grid {F : Type} [Add F] [Sub F] [Mul F] [Arith F] (b : Build) (r : Quad F F)
    (p : Partition (Quad (Pt F) F)) (cen : Pt F) (h : p.idx.length ≠ p.quads.length + 1)
    (s : SphQuad F) : prunedConstruct b r p cen ≠ .ok s := by
  intro hcon
  unfold prunedConstruct construct prunedGenerate at hcon
  rw [Outcome.bind_eq_ok] at hcon
  obtain ⟨q, h1, -⟩ := hcon
  rw [Outcome.bind_eq_ok] at h1
  obtain ⟨pw, h1, -⟩ := h1
  rw [Outcome.bind_eq_ok] at h1
  obtain ⟨s', h1, -⟩ := h1
  exact C33_bad_partition p h _ _ _ h1

example : (⟨[0, 5], [1, 2]⟩ : Partition Nat).visited = .ub := by
  simp [visited, forEach, loopFrom]

/-! ## C34 -/

/-- The partition can be iterated, and describes slices of a radial grid of `npts` points with
consistent angular rules. -/
def RegionsOk {F : Type} (npts : Nat) (es : List ((Nat × Nat) × Quad (Pt F) F)) : Prop :=
  ∀ e ∈ es, e.1.1 < e.1.2 ∧ e.1.2 ≤ npts ∧ Consistent e.2

section
variable {F : Type} [Add F] [Sub F] [Mul F] [Arith F]

private theorem visited_length {A : Type} {p : Partition A} {es : List ((Nat × Nat) × A)}
    (h : p.visited = .ok es) :
    p.idx.length = p.quads.length + 1 ∧ ranges p.idx p.quads = es := by
  by_cases hl : p.idx.length = p.quads.length + 1
  · rw [visited_eq p hl] at h
    exact ⟨hl, by simpa using h⟩
  · exact absurd h (C33_bad_partition p hl _ _ _)

theorem pruned_closed (b : Build) (r : Quad F F) (p : Partition (Quad (Pt F) F))
    (cen : Pt F) (hr : Consistent r) (es : List ((Nat × Nat) × Quad (Pt F) F))
    (hv : p.visited = .ok es) (hes : RegionsOk r.npts es) :
    prunedConstruct b r p cen = .ok ⟨Quad.ofPairs
      ((es.flatMap (regionEntries (r.points.zip r.weights))).map (shiftEntry cen)), cen⟩ := by
  obtain ⟨hl, rfl⟩ := visited_length hv
  have e1 := Quad.eq_ofPairs r hr
  have hlen : (r.points.zip r.weights).length = r.npts := by
    have : r.points.length = r.weights.length := hr
    simp [Quad.npts, this]
  conv_lhs => rw [e1]
  exact prunedConstruct_eq b _ p hl (fun e he => ⟨(hes e he).1, hlen ▸ (hes e he).2.1,
    (hes e he).2.2⟩) cen

private theorem region_grid (b : Build) (r : Quad F F) (cen : Pt F) (hr : Consistent r)
    (e : (Nat × Nat) × Quad (Pt F) F) (h1 : e.1.1 < e.1.2) (h2 : e.1.2 ≤ r.npts)
    (h3 : Consistent e.2) :
    ∃ sub, subConstruct b e.1 r = .ok sub ∧ sphConstruct b sub e.2 cen =
      .ok ⟨Quad.ofPairs ((regionEntries (r.points.zip r.weights) e).map (shiftEntry cen)), cen⟩ := by
  have e1 := Quad.eq_ofPairs r hr
  have hlen : (r.points.zip r.weights).length = r.npts := by
    have : r.points.length = r.weights.length := hr
    simp [Quad.npts, this]
  refine ⟨_, by conv_lhs => rw [e1]
                exact subConstruct_eq b e.1.1 e.1.2 _ h1 (by omega), ?_⟩
  conv_lhs => rw [Quad.eq_ofPairs e.2 h3]
  exact sphConstruct_eq b _ _ cen

/-- The pruned grid is the concatenation of the spherical grids of its regions, each built from
the `SubQuadrature` of the region and its angular rule; any arithmetic, any number of
regions. -/
theorem C34_pruned_concat (b : Build) (r : Quad F F) (p : Partition (Quad (Pt F) F))
    (cen : Pt F) (hr : Consistent r) (es : List ((Nat × Nat) × Quad (Pt F) F))
    (hv : p.visited = .ok es) (hes : RegionsOk r.npts es) :
    ∃ grids : List (SphQuad F),
      List.Forall₂ (fun e g => ∃ sub, subConstruct b e.1 r = .ok sub ∧
        sphConstruct b sub e.2 cen = .ok g) es grids ∧
      Returns (prunedConstruct b r p cen) (fun s =>
        s.center = cen ∧
        s.quad.points = grids.flatMap (fun g => g.quad.points) ∧
        s.quad.weights = grids.flatMap (fun g => g.quad.weights) ∧
        s.quad.npts = (es.map (fun e => (e.1.2 - e.1.1) * e.2.npts)).sum) := by
  refine ⟨es.map (fun e => ⟨Quad.ofPairs
    ((regionEntries (r.points.zip r.weights) e).map (shiftEntry cen)), cen⟩), ?_, ?_⟩
  · rw [List.forall₂_map_right_iff, List.forall₂_same]
    intro e he
    obtain ⟨h1, h2, h3⟩ := hes e he
    exact region_grid b r cen hr e h1 h2 h3
  · refine ⟨_, pruned_closed b r p cen hr es hv hes, rfl, ?_, ?_, ?_⟩
    · simp [Quad.ofPairs, List.map_flatMap, List.flatMap_map]
    · simp [Quad.ofPairs, List.map_flatMap, List.flatMap_map]
    · have hlen : (r.points.zip r.weights).length = r.npts := by
        have : r.points.length = r.weights.length := hr
        simp [Quad.npts, this]
      simp only [Quad.npts, Quad.ofPairs, List.length_map, List.length_flatMap]
      congr 1
      apply List.map_congr_left
      intro e he
      obtain ⟨h1, h2, h3⟩ := hes e he
      have hlen2 : (e.2.points.zip e.2.weights).length = e.2.points.length := by
        have : e.2.points.length = e.2.weights.length := h3
        simp [this]
      unfold regionEntries sphEntries
      rw [List.length_flatMap]
      simp only [List.length_map, List.map_const', List.sum_replicate_nat, hlen2,
        List.length_drop, List.length_take, hlen]
      rw [Nat.mul_comm, Nat.min_eq_left h2]

example : RegionsOk 4 [((0, 1), (⟨[⟨1, 0, 0⟩], [2]⟩ : Quad (Pt ℝ) ℝ)), ((1, 4), ⟨[], []⟩)] := by
  simp [RegionsOk, Consistent]

/-! ## C35 -/

private theorem take_all_zip (r : Quad F F) (hr : Consistent r) :
    ((r.points.zip r.weights).take r.npts).drop 0 = r.points.zip r.weights := by
  have hlen : (r.points.zip r.weights).length = r.npts := by
    have : r.points.length = r.weights.length := hr
    simp [Quad.npts, this]
  rw [List.drop_zero, List.take_of_length_le (by omega)]

/-- One region from 0: the pruned and the unpruned grid are the same object. -/
theorem C35_single_region (b : Build) (r : Quad F F) (a : Quad (Pt F) F) (cen : Pt F)
    (hr : Consistent r) (ha : Consistent a) (hn : 1 ≤ r.npts) :
    ∃ p s, Partition.make b r.npts [(0, a)] = .ok p ∧ prunedConstruct b r p cen = .ok s ∧
      sphConstruct b r a cen = .ok s := by
  have hmk : Partition.make b r.npts [(0, a)] = .ok ⟨[0, r.npts], [a]⟩ := by
    simp [make, addAll, addQuad, cassert, Partition.empty, finalize,
      show ¬ 0 = r.npts by omega]
  have hv := C32_iteration b r.npts [(0, a)] (by simp; omega) _ hmk
  refine ⟨_, _, hmk, pruned_closed b r _ cen hr _ hv ?_, ?_⟩
  · simp only [tiles, RegionsOk, List.mem_singleton, forall_eq]
    exact ⟨by omega, le_refl _, ha⟩
  · conv_lhs => rw [Quad.eq_ofPairs r hr, Quad.eq_ofPairs a ha]
    rw [sphConstruct_eq]
    simp only [tiles, List.flatMap_cons, List.flatMap_nil, List.append_nil, regionEntries]
    rw [take_all_zip r hr]

/-! ## C36 -/

private theorem sphEntries_append_perm (rl rl' : List (F × F)) (al : List (Pt F × F)) :
    (sphEntries rl al ++ sphEntries rl' al).Perm (sphEntries (rl ++ rl') al) := by
  unfold sphEntries
  induction al with
  | nil => simp
  | cons a al ih =>
    simp only [List.flatMap_cons, List.map_append]
    calc _ = rl.map (fun r => sphEntry r a) ++ ((al.flatMap fun a => rl.map fun r => sphEntry r a)
          ++ (rl'.map (fun r => sphEntry r a)
          ++ al.flatMap fun a => rl'.map fun r => sphEntry r a)) := by simp
      _ |>.Perm (rl.map (fun r => sphEntry r a) ++ (rl'.map (fun r => sphEntry r a) ++
          ((al.flatMap fun a => rl.map fun r => sphEntry r a)
          ++ al.flatMap fun a => rl'.map fun r => sphEntry r a))) := by
        refine List.Perm.append_left _ ?_
        rw [← List.append_assoc, ← List.append_assoc]
        exact List.Perm.append_right _ List.perm_append_comm
      _ |>.Perm _ := by
        rw [List.append_assoc]
        refine List.Perm.append_left _ (List.Perm.append_left _ ?_)
        refine ih.trans (List.Perm.of_eq ?_)
        simp only [List.map_append]

private theorem regions_perm (rl : List (F × F)) (a : Quad (Pt F) F) :
    ∀ (es : List ((Nat × Nat) × Quad (Pt F) F)), (∀ e ∈ es, e.2 = a) →
      (es.flatMap (regionEntries rl)).Perm
        (sphEntries (es.flatMap (fun e => (rl.take e.1.2).drop e.1.1)) (a.points.zip a.weights))
  | [], _ => by
    simp only [List.flatMap_nil]
    unfold sphEntries
    simp
  | e :: es, h => by
    have ih := regions_perm rl a es (fun e he => h e (by simp [he]))
    rw [List.flatMap_cons, List.flatMap_cons]
    have he : regionEntries rl e =
        sphEntries ((rl.take e.1.2).drop e.1.1) (a.points.zip a.weights) := by
      unfold regionEntries; rw [h e (by simp)]
    rw [he]
    exact (List.Perm.append_left _ ih).trans (sphEntries_append_perm _ _ _)

private theorem slice_range {α : Type} [Inhabited α] (l : List α) (i j : Nat) (hj : j ≤ l.length) :
    (l.take j).drop i = (List.range' i (j - i)).map (fun k => l.getD k default) := by
  apply List.ext_getElem?
  intro k
  rw [List.getElem?_drop, List.getElem?_map]
  by_cases hk : i + k < j
  · rw [List.getElem?_take_of_lt hk, List.getElem?_range' (by omega)]
    have : i + k < l.length := by omega
    simp [this]
  · rw [List.getElem?_eq_none (by simp; omega), List.getElem?_eq_none (by simp; omega)]
    rfl

private theorem slices_tile {A α : Type} (npts : Nat) (l : List α) (hl : l.length = npts)
    (regions : List (Nat × A)) (hs : StartsOk regions) (hlt : ∀ e ∈ regions, e.1 < npts) :
    (tiles npts regions).flatMap (fun e => (l.take e.1.2).drop e.1.1) = l := by
  obtain ⟨h1, h2, -⟩ := C32_tiles_cover npts regions hs hlt
  cases l with
  | nil =>
    simp
  | cons x l =>
    have : Inhabited α := ⟨x⟩
    have : (tiles npts regions).flatMap (fun e => ((x :: l).take e.1.2).drop e.1.1) =
        ((tiles npts regions).flatMap (fun e => List.range' e.1.1 (e.1.2 - e.1.1))).map
          (fun k => (x :: l).getD k default) := by
      rw [List.map_flatMap]
      apply List.flatMap_congr
      intro e he
      exact slice_range _ _ _ (by have := (h2 e he).2; omega)
    rw [this, h1]
    refine (eq_map_range hl fun j hj => ?_).symm
    rw [List.getD_eq_getElem?_getD, List.getElem?_eq_getElem (by omega), Option.getD_some]

/-- If all regions carry the same angular rule, pruning only permutes the grid. -/
theorem C36_same_angular_perm (b : Build) (r : Quad F F) (a : Quad (Pt F) F) (cen : Pt F)
    (hr : Consistent r) (ha : Consistent a) (regions : List (Nat × Quad (Pt F) F))
    (hs : StartsOk regions) (hlt : ∀ e ∈ regions, e.1 < r.npts) (hsame : ∀ e ∈ regions, e.2 = a)
    (p : Partition (Quad (Pt F) F)) (hp : Partition.make b r.npts regions = .ok p) :
    ∃ s s', prunedConstruct b r p cen = .ok s ∧ sphConstruct b r a cen = .ok s' ∧
      (s.quad.points.zip s.quad.weights).Perm (s'.quad.points.zip s'.quad.weights) ∧
      Consistent s.quad ∧ Consistent s'.quad ∧ s'.quad.npts = a.npts * r.npts := by
  have hv := C32_iteration b r.npts regions hlt p hp
  obtain ⟨-, h2, h3⟩ := C32_tiles_cover r.npts regions hs hlt
  have hsame' : ∀ e ∈ tiles r.npts regions, e.2 = a := by
    intro e he
    have : (e.1.1, e.2) ∈ regions := by
      rw [← h3]; exact List.mem_map.mpr ⟨e, he, rfl⟩
    exact hsame _ this
  refine ⟨_, ⟨Quad.ofPairs ((sphEntries (r.points.zip r.weights)
    (a.points.zip a.weights)).map (shiftEntry cen)), cen⟩, pruned_closed b r p cen hr _ hv ?_, ?_, ?_, ?_, ?_, ?_⟩
  · intro e he
    exact ⟨(h2 e he).1, (h2 e he).2, by rw [hsame' e he]; exact ha⟩
  · conv_lhs => rw [Quad.eq_ofPairs r hr, Quad.eq_ofPairs a ha]
    exact sphConstruct_eq b _ _ cen
  · dsimp only
    rw [Quad.zip_ofPairs, Quad.zip_ofPairs]
    refine List.Perm.map _ ?_
    have hlen : (r.points.zip r.weights).length = r.npts := by
      have : r.points.length = r.weights.length := hr
      simp [Quad.npts, this]
    have := regions_perm (r.points.zip r.weights) a (tiles r.npts regions) hsame'
    rwa [slices_tile r.npts _ hlen regions hs hlt] at this
  · simp [Consistent, Quad.ofPairs]
  · simp [Consistent, Quad.ofPairs]
  · have h1 : r.points.length = r.weights.length := hr
    have h2 : a.points.length = a.weights.length := ha
    simp [Quad.npts, Quad.ofPairs, sphEntries, List.length_flatMap, ← h1, ← h2]

end

example : ∃ (r : Quad ℝ ℝ) (a : Quad (Pt ℝ) ℝ), Consistent r ∧ Consistent a ∧ r.npts = 3 ∧ a.npts = 2 ∧
    StartsOk [(0, a), (2, a)] ∧ ∀ e ∈ [(0, a), (2, a)], e.1 < r.npts :=
  ⟨⟨[1, 2, 3], [1, 1, 1]⟩, ⟨[⟨0, 0, 1⟩, ⟨0, 0, -1⟩], [1, 1]⟩, rfl, rfl, rfl, rfl, by simp [StartsOk],
    by simp [Quad.npts]⟩

/-! ## C37 -/

private theorem sum_flatMap' {α β : Type} (l : List α) (g : α → List β) (h : β → ℝ) :
    ((l.flatMap g).map h).sum = (l.map (fun a => ((g a).map h).sum)).sum := by
  induction l with
  | nil => simp
  | cons a l ih => simp [List.flatMap_cons, ih]

/-- The pruned rule value is the sum over regions of the spherical rule with the region's
angular rule over the radial nodes of the region, and the regions use each radial node exactly
once. -/
theorem C37_pruned_integral (b : Build) (r : Quad ℝ ℝ) (cen : Pt ℝ) (hr : Consistent r)
    (regions : List (Nat × Quad (Pt ℝ) ℝ)) (hs : StartsOk regions)
    (hlt : ∀ e ∈ regions, e.1 < r.npts) (hc : ∀ e ∈ regions, Consistent e.2)
    (p : Partition (Quad (Pt ℝ) ℝ)) (hp : Partition.make b r.npts regions = .ok p)
    (f : Pt ℝ → ℝ) :
    Returns (prunedConstruct b r p cen) (fun s =>
      ruleSum s.quad.points s.quad.weights f =
        ((tiles r.npts regions).map (fun e =>
          ((List.range' e.1.1 (e.1.2 - e.1.1)).map (fun i =>
            r.weights.getD i 0 * r.points.getD i 0 ^ 2 *
              ruleSum e.2.points e.2.weights (fun u => f (onRay cen (r.points.getD i 0) u)))).sum)).sum) ∧
    (tiles r.npts regions).flatMap (fun e => List.range' e.1.1 (e.1.2 - e.1.1)) =
      List.range r.npts := by
  have hv := C32_iteration b r.npts regions hlt p hp
  obtain ⟨h1, h2, h3⟩ := C32_tiles_cover r.npts regions hs hlt
  have hc' : ∀ e ∈ tiles r.npts regions, Consistent e.2 := by
    intro e he
    have : (e.1.1, e.2) ∈ regions := by
      rw [← h3]; exact List.mem_map.mpr ⟨e, he, rfl⟩
    exact hc _ this
  refine ⟨⟨_, pruned_closed b r p cen hr _ hv (fun e he => ⟨(h2 e he).1, (h2 e he).2, hc' e he⟩),
    ?_⟩, h1⟩
  dsimp only
  have hlen : (r.points.zip r.weights).length = r.npts := by
    have : r.points.length = r.weights.length := hr
    simp [Quad.npts, this]
  unfold ruleSum
  rw [Quad.zip_ofPairs, List.map_map, sum_flatMap']
  congr 1
  apply List.map_congr_left
  intro e he
  have hslice := slice_range (α := ℝ × ℝ) (r.points.zip r.weights) e.1.1 e.1.2
    (by rw [hlen]; exact (h2 e he).2)
  unfold regionEntries sphEntries
  rw [sum_flatMap', hslice]
  generalize hal : e.2.points.zip e.2.weights = al
  simp only [List.map_map]
  generalize hks : List.range' e.1.1 (e.1.2 - e.1.1) = ks
  have hks' : ∀ k ∈ ks, k < r.npts := by
    intro k hk
    rw [← hks] at hk
    have := List.mem_range'_1.mp hk
    have := (h2 e he).2
    omega
  clear hks hslice hal
  -- exchange the two finite sums
  induction ks with
  | nil => simp
  | cons k ks ih =>
    simp only [List.map_cons, List.sum_cons, List.sum_map_add]
    rw [ih (fun k hk => hks' k (by simp [hk]))]
    congr 1
    rw [← List.sum_map_mul_left]
    congr 1
    apply List.map_congr_left
    intro u _
    have hk := hks' k (by simp)
    have hkp : k < r.points.length := hk
    have hkw : k < r.weights.length := by
      have : r.points.length = r.weights.length := hr
      omega
    have hz : (r.points.zip r.weights).getD k default = (r.points.getD k 0, r.weights.getD k 0) := by
      simp [hkp, hkw, List.getElem_zip]
    simp only [Function.comp, hz, shiftEntry, sphEntry, combineWt, shiftPt, combinePt, onRay]
    have : ∀ u v w : ℝ, (⟨u + cen.x, v + cen.y, w + cen.z⟩ : Pt ℝ) =
        ⟨cen.x + u, cen.y + v, cen.z + w⟩ := by
      intro u v w; congr 1 <;> ring
    rw [this]
    ring

end IntegratorXX
