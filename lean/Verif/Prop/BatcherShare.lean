import Verif.Spec.BatcherShare
import Verif.Prop.Batcher
import Verif.Prop.Product

/-!
# C83: programs with several batchers

The class `SphericalMicroBatcher` reorders the quadrature object it is given.  When the object is shared with other
batchers their index vectors were computed for another order.
-/

namespace IntegratorXX

open Spec Arith

private def Entries (q : SphQuad ℝ) : List (Pt ℝ × ℝ) := q.quad.points.zip q.quad.weights

/-- An object descending from `q0`. -/
private structure From (q0 q : SphQuad ℝ) : Prop where
  cons : Consistent q.quad
  perm : (Entries q).Perm (movedTo q0 q.center)

private theorem From.len {q0 q : SphQuad ℝ} (h : From q0 q) (h0 : Consistent q0.quad) :
    q.quad.npts = q0.quad.npts := by
  have h1 := h.perm.length_eq
  have h2 := h.cons
  unfold Consistent at h0 h2
  simp only [Entries, movedTo, List.length_zip, List.length_map, Quad.npts] at *
  omega

private theorem From.refl {q : SphQuad ℝ} (h : Consistent q.quad) : From q q := by
  refine ⟨h, ?_⟩
  unfold movedTo Entries
  rw [List.map_congr_left (g := id)]
  · simp
  · rintro ⟨⟨x, y, z⟩, w⟩ -
    simp

private theorem From.recenter {q0 q q' : SphQuad ℝ} (h : From q0 q) (c : Pt ℝ) (hc : recenter c q = .ok q') :
    From q0 q' := by
  obtain ⟨s, h1, h2, h3, h4, h5⟩ := C30_recenter_step c q
  rw [hc] at h1
  cases h1
  cases hb : ptEq c q.center with
  | true => rw [h4 hb]; exact h
  | false =>
    obtain ⟨e1, e2⟩ := h5 hb
    have hq := h.cons
    unfold Consistent at hq
    refine ⟨by unfold Consistent; rw [h2, e2]; simpa using hq, ?_⟩
    unfold Entries
    rw [e2, h2, e1]
    have : (q.quad.points.map (fun p : Pt ℝ => (⟨p.x + (c.x - q.center.x), p.y + (c.y - q.center.y),
        p.z + (c.z - q.center.z)⟩ : Pt ℝ))).zip q.quad.weights = movedTo q c := by
      unfold movedTo
      rw [List.zip_map_left]
      rfl
    rw [this]
    have hp := h.perm.map (fun e : Pt ℝ × ℝ => ((⟨e.1.x + (c.x - q.center.x), e.1.y + (c.y - q.center.y),
      e.1.z + (c.z - q.center.z)⟩ : Pt ℝ), e.2))
    refine List.Perm.trans hp (List.Perm.of_eq ?_)
    unfold movedTo
    rw [List.map_map]
    apply List.map_congr_left
    rintro ⟨⟨x, y, z⟩, w⟩ -
    simp only [Function.comp_apply, Prod.mk.injEq, Pt.mk.injEq, and_true]
    refine ⟨by ring, by ring, by ring⟩

/-- A batcher with generated indices. -/
private def Good (n m : Nat) (idx : List Nat) : Prop :=
  (1 ≤ n ∧ n < sizeMod) ∧ SplitsRange idx n ∧ ∀ i, (hi : i + 1 < idx.length) → 1 ≤ idx[i + 1] - idx[i] ∧ idx[i + 1] - idx[i] ≤ m

private theorem From.make {q0 q : SphQuad ℝ} (h : From q0 q) (h0 : Consistent q0.quad) (hlt : q0.quad.npts < sizeMod)
    (hne : q0.quad.points ≠ []) (part : PartitionFn ℝ) (hp : StdPartition part) (m fuel : Nat) (b : Batcher ℝ)
    (hb : Batcher.make part fuel m q = some (.ok b)) :
    From q0 b.quad ∧ Good q0.quad.npts m b.partIdx := by
  obtain ⟨p1, p2, p3, p4, p5⟩ := C55_batches_permute part hp m fuel q h.cons b hb
  have hl := h.len h0
  have hne' : q.quad.points ≠ [] := by
    intro e
    apply hne
    apply List.length_eq_zero_iff.1
    have : q.quad.points.length = q0.quad.points.length := hl
    rw [← this, e]; rfl
  obtain ⟨b', e, s1, s2, s3⟩ := C56_batches_tile real_splitArith.toBoxArith part hp m fuel q h.cons hne'
    (fun _ _ => ⟨trivial, trivial, trivial⟩) (by omega) _ hb
  cases e
  refine ⟨⟨p2, ?_⟩, ⟨List.length_pos_of_ne_nil hne, hlt⟩, ?_, s3⟩
  · rw [p4]
    exact p1.trans h.perm
  · rw [← hl, ← p3]; exact s1

private structure Inv (Q : List (SphQuad ℝ)) (w : BWorld ℝ) (s : Lineage) : Prop where
  lenq : w.quads.length = s.origin.length
  lenh : w.handles.length = s.handle.length
  live : ∀ (a o : Nat), s.origin[a]? = some (some o) → ∃ q0 q, Q[o]? = some q0 ∧ w.quads[a]? = some q ∧ From q0 q
  dead : ∀ a : Nat, s.origin[a]? = some none → ∃ q, w.quads[a]? = some q ∧ q.quad.points = [] ∧ q.quad.weights = []
  hdl : ∀ (h : Nat) b, w.handles[h]? = some b →
    (b.quad = none ∧ s.handle[h]? = some none) ∨ ∃ a g, b.quad = some a ∧ s.handle[h]? = some (some (a, g)) ∧
      a < s.origin.length ∧ (g = true → ∃ n, Good n b.maxBatch b.partIdx ∧
        ∀ o q0, s.origin[a]? = some (some o) → Q[o]? = some q0 → n = q0.quad.npts)

private theorem Inv.lt {Q : List (SphQuad ℝ)} {w : BWorld ℝ} {s : Lineage} (hi : Inv Q w s) {a : Nat} {q : SphQuad ℝ}
    (h : w.quads[a]? = some q) : a < s.origin.length := by
  rw [← hi.lenq]
  exact (List.getElem?_eq_some_iff.1 h).1

/-- What is known about an existing object. -/
private theorem Inv.obj {Q : List (SphQuad ℝ)} {w : BWorld ℝ} {s : Lineage} (hi : Inv Q w s) {a : Nat} {q : SphQuad ℝ}
    (h : w.quads[a]? = some q) :
    (s.origin[a]? = some none ∧ q.quad.points = [] ∧ q.quad.weights = []) ∨
    ∃ o q0, s.origin[a]? = some (some o) ∧ Q[o]? = some q0 ∧ From q0 q := by
  have hl := hi.lt h
  cases ho : s.origin[a]? with
  | none => rw [List.getElem?_eq_none_iff] at ho; omega
  | some x =>
    cases x with
    | none =>
      obtain ⟨q', h1, h2, h3⟩ := hi.dead a ho
      rw [h] at h1; cases h1
      exact .inl ⟨rfl, h2, h3⟩
    | some o =>
      obtain ⟨q0, q', h1, h2, h3⟩ := hi.live a o ho
      rw [h] at h2; cases h2
      exact .inr ⟨o, q0, rfl, h1, h3⟩

/-- Changing an object while it keeps its origin. -/
private theorem Inv.set {Q : List (SphQuad ℝ)} {w : BWorld ℝ} {s : Lineage} (hi : Inv Q w s) {a : Nat} {q : SphQuad ℝ}
    (ha : a < s.origin.length)
    (hl : ∀ o q0, s.origin[a]? = some (some o) → Q[o]? = some q0 → From q0 q)
    (hd : s.origin[a]? = some none → q.quad.points = [] ∧ q.quad.weights = []) :
    Inv Q ⟨w.quads.set a q, w.handles⟩ s := by
  obtain ⟨h1, h2, h3, h4, h5⟩ := hi
  refine ⟨by simpa using h1, h2, ?_, ?_, h5⟩
  · intro a' o ho
    obtain ⟨q0, q', e1, e2, e3⟩ := h3 a' o ho
    by_cases e : a = a'
    · subst e
      exact ⟨q0, q, e1, by simp [h1, ha], hl o q0 ho e1⟩
    · exact ⟨q0, q', e1, by simp [List.getElem?_set_ne e, e2], e3⟩
  · intro a' ho
    obtain ⟨q', e1, e2⟩ := h4 a' ho
    by_cases e : a = a'
    · subst e
      exact ⟨q, by simp [h1, ha], hd ho⟩
    · exact ⟨q', by simp [List.getElem?_set_ne e, e1], e2⟩

/-- Moving out of an object. -/
private theorem Inv.kill {Q : List (SphQuad ℝ)} {w : BWorld ℝ} {s : Lineage} (hi : Inv Q w s) {a : Nat} {q : SphQuad ℝ}
    (ha : a < s.origin.length) : Inv Q ⟨w.quads.set a (movedFrom q), w.handles⟩ ⟨s.origin.set a none, s.handle⟩ := by
  obtain ⟨h1, h2, h3, h4, h5⟩ := hi
  have hne : ∀ a' o, (s.origin.set a none)[a']? = some (some o) → a ≠ a' ∧ s.origin[a']? = some (some o) := by
    intro a' o ho
    by_cases e : a = a'
    · subst e
      simp [ha] at ho
    · rw [List.getElem?_set_ne e] at ho
      exact ⟨e, ho⟩
  refine ⟨by simpa using h1, h2, ?_, ?_, ?_⟩
  · intro a' o ho
    obtain ⟨e, ho⟩ := hne a' o ho
    obtain ⟨q0, q', e1, e2, e3⟩ := h3 a' o ho
    exact ⟨q0, q', e1, by simp [List.getElem?_set_ne e, e2], e3⟩
  · intro a' ho
    by_cases e : a = a'
    · subst e
      exact ⟨movedFrom q, by simp [h1, ha], rfl, rfl⟩
    · dsimp only at ho
      rw [List.getElem?_set_ne e] at ho
      obtain ⟨q', e1, e2⟩ := h4 a' ho
      exact ⟨q', by simp [List.getElem?_set_ne e, e1], e2⟩
  · intro h b hb
    rcases h5 h b hb with e | ⟨x, g, e1, e2, e3, e4⟩
    · exact .inl e
    · refine .inr ⟨x, g, e1, e2, by simpa using e3, fun hg => ?_⟩
      obtain ⟨n, f1, f2⟩ := e4 hg
      exact ⟨n, f1, fun o q0 ho => f2 o q0 (hne x o ho).2⟩

/-- A new object. -/
private theorem Inv.append {Q : List (SphQuad ℝ)} {w : BWorld ℝ} {s : Lineage} (hi : Inv Q w s) {q : SphQuad ℝ}
    (x : Option Nat) (hl : ∀ o, x = some o → ∃ q0, Q[o]? = some q0 ∧ From q0 q)
    (hd : x = none → q.quad.points = [] ∧ q.quad.weights = []) :
    Inv Q ⟨w.quads ++ [q], w.handles⟩ ⟨s.origin ++ [x], s.handle⟩ := by
  obtain ⟨h1, h2, h3, h4, h5⟩ := hi
  have hget : ∀ (a : Nat) y, (s.origin ++ [x])[a]? = some y → (a < s.origin.length ∧ s.origin[a]? = some y) ∨
      (a = s.origin.length ∧ x = y) := by
    intro a y h
    rw [List.getElem?_append] at h
    split_ifs at h with hlt
    · exact .inl ⟨hlt, h⟩
    · have : a - s.origin.length = 0 := by
        by_contra hc
        obtain ⟨k, hk⟩ := Nat.exists_eq_succ_of_ne_zero hc
        rw [hk] at h
        simp at h
      rw [this] at h
      exact .inr ⟨by omega, by simpa using h⟩
  refine ⟨by simpa using h1, h2, ?_, ?_, ?_⟩
  · intro a o ho
    rcases hget a _ ho with ⟨hlt, h⟩ | ⟨rfl, h⟩
    · obtain ⟨q0, q', e1, e2, e3⟩ := h3 a o h
      exact ⟨q0, q', e1, by dsimp only; rw [List.getElem?_append_left (by omega), e2], e3⟩
    · obtain ⟨q0, e1, e2⟩ := hl o h
      exact ⟨q0, q, e1, by simp [← h1], e2⟩
  · intro a ho
    rcases hget a _ ho with ⟨hlt, h⟩ | ⟨rfl, h⟩
    · obtain ⟨q', e1, e2⟩ := h4 a h
      exact ⟨q', by dsimp only; rw [List.getElem?_append_left (by omega), e1], e2⟩
    · exact ⟨q, by simp [← h1], hd h⟩
  · intro h b hb
    rcases h5 h b hb with e | ⟨y, g, e1, e2, e3, e4⟩
    · exact .inl e
    · refine .inr ⟨y, g, e1, e2, by simp; omega, fun hg => ?_⟩
      obtain ⟨n, f1, f2⟩ := e4 hg
      refine ⟨n, f1, fun o q0 ho => f2 o q0 ?_⟩
      dsimp only at ho
      rwa [List.getElem?_append_left e3] at ho

/-- A new batcher. -/
private theorem Inv.handle {Q : List (SphQuad ℝ)} {w : BWorld ℝ} {s : Lineage} (hi : Inv Q w s) (b : BHandle)
    (x : Option (Nat × Bool)) (hb : (b.quad = none ∧ x = none) ∨ ∃ a g, b.quad = some a ∧ x = some (a, g) ∧
      a < s.origin.length ∧ (g = true → ∃ n, Good n b.maxBatch b.partIdx ∧
        ∀ o q0, s.origin[a]? = some (some o) → Q[o]? = some q0 → n = q0.quad.npts)) :
    Inv Q ⟨w.quads, w.handles ++ [b]⟩ ⟨s.origin, s.handle ++ [x]⟩ := by
  obtain ⟨h1, h2, h3, h4, h5⟩ := hi
  refine ⟨h1, by simpa using h2, h3, h4, ?_⟩
  intro h b' hb'
  dsimp only at hb' ⊢
  rw [List.getElem?_append] at hb'
  split_ifs at hb' with hlt
  · rcases h5 h b' hb' with ⟨e1, e2⟩ | ⟨y, g, e1, e2, e3⟩
    · exact .inl ⟨e1, by rw [List.getElem?_append_left (by omega), e2]⟩
    · exact .inr ⟨y, g, e1, by rw [List.getElem?_append_left (by omega), e2], e3⟩
  · have : h - w.handles.length = 0 := by
      by_contra hc
      obtain ⟨k, hk⟩ := Nat.exists_eq_succ_of_ne_zero hc
      rw [hk] at hb'
      simp at hb'
    rw [this] at hb'
    have e : b = b' := by simpa using hb'
    subst e
    have hh : h = s.handle.length := by omega
    subst hh
    rcases hb with ⟨e1, rfl⟩ | ⟨a, g, e1, rfl, e3⟩
    · exact .inl ⟨e1, by simp⟩
    · exact .inr ⟨a, g, e1, by simp, e3⟩

private theorem vget_some {α : Type} {l : List α} {i : Nat} {x : α} (h : vget l i = .ok x) : l[i]? = some x := by
  unfold vget at h
  split at h
  · cases h; assumption
  · cases h

private theorem make_live {q : SphQuad ℝ} {part : PartitionFn ℝ} {fuel m : Nat} {b : Batcher ℝ}
    (h : Batcher.make part fuel m q = some (.ok b)) (hq : q.quad.points = []) : False := by
  rw [C58_empty part m fuel q hq] at h
  cases h

private theorem inv_recenter {Q : List (SphQuad ℝ)} {w : BWorld ℝ} {s : Lineage} (hi : Inv Q w s) {a : Nat}
    {q q' : SphQuad ℝ} {c : Pt ℝ} (hq : w.quads[a]? = some q) (hr : recenter c q = .ok q') :
    Inv Q ⟨w.quads.set a q', w.handles⟩ s := by
  refine hi.set (hi.lt hq) ?_ ?_
  · intro o q0 ho h0
    rcases hi.obj hq with ⟨e, -⟩ | ⟨o', q0', e1, e2, e3⟩
    · rw [e] at ho; cases ho
    · rw [e1] at ho; cases ho
      rw [e2] at h0; cases h0
      exact e3.recenter c hr
  · intro hd
    rcases hi.obj hq with ⟨-, e1, e2⟩ | ⟨o', q0', e1, -⟩
    · obtain ⟨q1, h1, h2, h3, -, -⟩ := C30_recenter_step c q
      rw [hr] at h1; cases h1
      refine ⟨?_, by rw [h2, e2]⟩
      apply List.length_eq_zero_iff.1
      have : q'.quad.points.length = q.quad.points.length := h3
      rw [this, e1]; rfl
    · rw [e1] at hd; cases hd

private theorem inv_step {Q : List (SphQuad ℝ)} (hQ : ∀ q ∈ Q, Consistent q.quad ∧ q.quad.points ≠ [] ∧
    q.quad.npts < sizeMod) (part : PartitionFn ℝ) (hp : StdPartition part) (fuel : Nat) {w w' : BWorld ℝ} {s : Lineage}
    (hi : Inv Q w s) (o : SOp ℝ) (h : w.sstep part fuel o = some (.ok w')) : Inv Q w' (s.step o) := by
  have gen : ∀ {a m : Nat} {q : SphQuad ℝ} {b : Batcher ℝ}, w.quads[a]? = some q →
      Batcher.make part fuel m q = some (.ok b) → ∃ o q0, s.origin[a]? = some (some o) ∧ Q[o]? = some q0 ∧
        From q0 q ∧ From q0 b.quad ∧ Good q0.quad.npts m b.partIdx := by
    intro a m q b hq hb
    rcases hi.obj hq with ⟨-, e, -⟩ | ⟨o, q0, e1, e2, e3⟩
    · exact (make_live hb e).elim
    · obtain ⟨f1, f2, f3⟩ := hQ q0 (List.mem_of_getElem? e2)
      have := e3.make f1 f3 f2 part hp m fuel b hb
      exact ⟨o, q0, e1, e2, e3, this.1, this.2⟩
  cases o with
  | share a m =>
    simp only [BWorld.sstep] at h
    cases hq : w.quads[a]? with
    | none => rw [hq] at h; cases h
    | some q =>
      simp only [hq, Option.map_eq_some_iff, Outcome.bind_eq_ok] at h
      obtain ⟨r, hr, b, rfl, h⟩ := h
      cases h
      obtain ⟨o, q0, e1, e2, e3, e4, e5⟩ := gen hq hr
      have ha := hi.lt hq
      have h1 := hi.set (q := b.quad) ha (by
        intro o' q0' f1 f2
        rw [e1] at f1; cases f1
        rw [e2] at f2; cases f2
        exact e4) (by rw [e1]; intro f; cases f)
      exact h1.handle ⟨m, some a, b.partIdx⟩ (some (a, true)) (.inr ⟨a, true, rfl, rfl, ha, fun _ => ⟨_, e5, by
        intro o' q0' f1 f2
        rw [e1] at f1; cases f1
        rw [e2] at f2; cases f2
        rfl⟩⟩)
  | shareIdx a m idx =>
    simp only [BWorld.sstep] at h
    cases hq : w.quads[a]? with
    | none => rw [hq] at h; cases h
    | some q =>
      simp only [hq, Option.some.injEq, Outcome.ok.injEq] at h
      subst h
      exact hi.handle ⟨m, some a, idx⟩ (some (a, false)) (.inr ⟨a, false, rfl, rfl, hi.lt hq, by simp⟩)
  | fromCopy a m =>
    simp only [BWorld.sstep] at h
    cases hq : w.quads[a]? with
    | none => rw [hq] at h; cases h
    | some q =>
      simp only [hq, Option.map_eq_some_iff, Outcome.bind_eq_ok] at h
      obtain ⟨r, hr, b, rfl, h⟩ := h
      cases h
      obtain ⟨o, q0, e1, e2, e3, e4, e5⟩ := gen hq hr
      have h1 := hi.append (q := b.quad) (some o) (by
        intro o' f; cases f; exact ⟨q0, e2, e4⟩) (by simp)
      have h2 := h1.handle ⟨m, some w.quads.length, b.partIdx⟩ (some (s.origin.length, true))
        (.inr ⟨_, true, rfl, by rw [hi.lenq], by simp [hi.lenq], fun _ => ⟨_, e5, by
          intro o' q0' f1 f2
          simp only [hi.lenq, List.getElem?_concat_length, Option.some.injEq] at f1
          subst f1
          rw [e2] at f2; cases f2
          rfl⟩⟩)
      simpa only [Lineage.step, e1, Option.join_some] using h2
  | fromCopyIdx a m idx =>
    simp only [BWorld.sstep] at h
    cases hq : w.quads[a]? with
    | none => rw [hq] at h; cases h
    | some q =>
      simp only [hq, Option.some.injEq, Outcome.ok.injEq] at h
      subst h
      have h1 : Inv Q ⟨w.quads ++ [q], w.handles⟩ ⟨s.origin ++ [s.origin[a]?.join], s.handle⟩ := by
        rcases hi.obj hq with ⟨e, e'⟩ | ⟨o, q0, e1, e2, e3⟩
        · rw [e]; exact hi.append none (by simp) (fun _ => e')
        · rw [e1]; exact hi.append (some o) (by intro o' f; cases f; exact ⟨q0, e2, e3⟩) (by simp)
      exact h1.handle ⟨m, some w.quads.length, idx⟩ (some (s.origin.length, false))
        (.inr ⟨_, false, rfl, by rw [hi.lenq], by simp [hi.lenq], by simp⟩)
  | fromMove a m =>
    simp only [BWorld.sstep] at h
    cases hq : w.quads[a]? with
    | none => rw [hq] at h; cases h
    | some q =>
      simp only [hq, Option.map_eq_some_iff, Outcome.bind_eq_ok] at h
      obtain ⟨r, hr, b, rfl, h⟩ := h
      cases h
      obtain ⟨o, q0, e1, e2, e3, e4, e5⟩ := gen hq hr
      have h0 := hi.kill (q := q) (hi.lt hq)
      have h1 := h0.append (q := b.quad) (some o) (by
        intro o' f; cases f; exact ⟨q0, e2, e4⟩) (by simp)
      have h2 := h1.handle ⟨m, some w.quads.length, b.partIdx⟩ (some (s.origin.length, true))
        (.inr ⟨_, true, rfl, by rw [hi.lenq], by simp [hi.lenq], fun _ => ⟨_, e5, by
          intro o' q0' f1 f2
          have : w.quads.length = (s.origin.set a none).length := by simp [hi.lenq]
          simp only [this, List.getElem?_concat_length, Option.some.injEq] at f1
          subst f1
          rw [e2] at f2; cases f2
          rfl⟩⟩)
      simpa only [Lineage.step, e1, Option.join_some] using h2
  | fromMoveIdx a m idx =>
    simp only [BWorld.sstep] at h
    cases hq : w.quads[a]? with
    | none => rw [hq] at h; cases h
    | some q =>
      simp only [hq, Option.some.injEq, Outcome.ok.injEq] at h
      subst h
      have h0 := hi.kill (q := q) (hi.lt hq)
      have h1 : Inv Q ⟨w.quads.set a (movedFrom q) ++ [q], w.handles⟩
          ⟨s.origin.set a none ++ [s.origin[a]?.join], s.handle⟩ := by
        rcases hi.obj hq with ⟨e, e'⟩ | ⟨o, q0, e1, e2, e3⟩
        · rw [e]; exact h0.append none (by simp) (fun _ => e')
        · rw [e1]; exact h0.append (some o) (by intro o' f; cases f; exact ⟨q0, e2, e3⟩) (by simp)
      exact h1.handle ⟨m, some w.quads.length, idx⟩ (some (s.origin.length, false))
        (.inr ⟨_, false, rfl, by rw [hi.lenq], by simp [hi.lenq], by simp⟩)
  | recenterQuad a c =>
    simp only [BWorld.sstep] at h
    cases hq : w.quads[a]? with
    | none => rw [hq] at h; cases h
    | some q =>
      simp only [hq, Option.some.injEq, Outcome.bind_eq_ok] at h
      obtain ⟨q', hr, h⟩ := h
      cases h
      exact inv_recenter hi hq hr
  | batcher o =>
    simp only [BWorld.sstep, Option.some.injEq] at h
    cases o with
    | copy i =>
      simp only [BWorld.step, Outcome.bind_eq_ok] at h
      obtain ⟨b, hb, h⟩ := h
      cases h
      have hb := vget_some hb
      refine hi.handle b _ ?_
      rcases hi.hdl i b hb with ⟨e1, e2⟩ | ⟨a, g, e1, e2, e3⟩
      · exact .inl ⟨e1, by rw [e2]; rfl⟩
      · exact .inr ⟨a, g, e1, by rw [e2]; rfl, e3⟩
    | move i =>
      simp only [BWorld.step, Outcome.bind_eq_ok] at h
      obtain ⟨b, hb, h⟩ := h
      cases h
      have hb := vget_some hb
      have hlt : i < w.handles.length := (List.getElem?_eq_some_iff.1 hb).1
      have h1 : Inv Q ⟨w.quads, w.handles.set i ⟨b.maxBatch, none, []⟩⟩ ⟨s.origin, s.handle.set i none⟩ := by
        obtain ⟨i1, i2, i3, i4, i5⟩ := hi
        refine ⟨i1, by simpa using i2, i3, i4, ?_⟩
        intro h b' hb'
        dsimp only at hb' ⊢
        by_cases e : i = h
        · subst e
          rw [List.getElem?_set_self hlt] at hb'
          cases hb'
          exact .inl ⟨rfl, by rw [List.getElem?_set_self (by omega)]⟩
        · rw [List.getElem?_set_ne e] at hb' ⊢
          exact i5 h b' hb'
      refine h1.handle b _ ?_
      rcases hi.hdl i b hb with ⟨e1, e2⟩ | ⟨a, g, e1, e2, e3⟩
      · exact .inl ⟨e1, by rw [e2]; rfl⟩
      · exact .inr ⟨a, g, e1, by rw [e2]; rfl, e3⟩
    | clone i =>
      simp only [BWorld.step, Outcome.bind_eq_ok] at h
      obtain ⟨b, hb, h⟩ := h
      have hb := vget_some hb
      rcases hi.hdl i b hb with ⟨e1, e2⟩ | ⟨a, g, e1, e2, e3, e4⟩
      · simp only [e1] at h; cases h
      · simp only [e1, Outcome.bind_eq_ok] at h
        obtain ⟨q, hq, h⟩ := h
        cases h
        have hq := vget_some hq
        have h1 : Inv Q ⟨w.quads ++ [q], w.handles⟩ ⟨s.origin ++ [s.origin[a]?.join], s.handle⟩ := by
          rcases hi.obj hq with ⟨e, e'⟩ | ⟨o, q0, e1, e2, e3⟩
          · rw [e]; exact hi.append none (by simp) (fun _ => e')
          · rw [e1]; exact hi.append (some o) (by intro o' f; cases f; exact ⟨q0, e2, e3⟩) (by simp)
        have h2 := h1.handle ⟨b.maxBatch, some w.quads.length, b.partIdx⟩ (some (s.origin.length, g))
          (.inr ⟨_, g, rfl, by rw [hi.lenq], by simp [hi.lenq], fun hg => by
            obtain ⟨n, f1, f2⟩ := e4 hg
            refine ⟨n, f1, fun o q0 ho => f2 o q0 ?_⟩
            simp only [hi.lenq, List.getElem?_concat_length, Option.some.injEq] at ho
            rwa [Option.join_eq_some_iff] at ho⟩)
        simpa only [Lineage.step, e2, Option.join_some] using h2
    | recenter i c =>
      simp only [BWorld.step, Outcome.bind_eq_ok] at h
      obtain ⟨b, hb, h⟩ := h
      have hb := vget_some hb
      rcases hi.hdl i b hb with ⟨e1, e2⟩ | ⟨a, g, e1, e2, e3, e4⟩
      · simp only [e1] at h; cases h
      · simp only [e1, Outcome.bind_eq_ok] at h
        obtain ⟨q, hq, q', hr, h⟩ := h
        cases h
        exact inv_recenter hi (vget_some hq) hr

private theorem inv_run {Q : List (SphQuad ℝ)} (hQ : ∀ q ∈ Q, Consistent q.quad ∧ q.quad.points ≠ [] ∧
    q.quad.npts < sizeMod) (part : PartitionFn ℝ) (hp : StdPartition part) (fuel : Nat) (ops : List (SOp ℝ)) :
    ∀ {w w' : BWorld ℝ} {s : Lineage}, Inv Q w s → w.srun part fuel ops = some (.ok w') →
      Inv Q w' (ops.foldl Lineage.step s) := by
  induction ops with
  | nil => intro w w' s hi h; cases h; exact hi
  | cons o ops ih =>
    intro w w' s hi h
    simp only [BWorld.srun] at h
    split at h
    · rename_i w1 h1
      exact ih (inv_step hQ part hp fuel hi o h1) h
    · rename_i hne
      exact (hne _ h).elim

private theorem length_le_flatMap (es : List (Batch ℝ)) (h : ∀ e ∈ es, e.points ≠ []) :
    es.length ≤ (es.flatMap Batch.points).length := by
  induction es with
  | nil => simp
  | cons e es ih =>
    have h1 := List.length_pos_of_ne_nil (h e (by simp))
    have h2 := ih (fun d hd => h d (by simp [hd]))
    rw [List.length_cons, List.flatMap_cons, List.length_append]
    omega

private theorem zip_flatMap (es : List (Batch ℝ)) (h : ∀ e ∈ es, e.points.length = e.weights.length) :
    es.flatMap (fun e => e.points.zip e.weights) = (es.flatMap Batch.points).zip (es.flatMap Batch.weights) := by
  induction es with
  | nil => rfl
  | cons e es ih =>
    rw [List.flatMap_cons, List.flatMap_cons, List.flatMap_cons, List.zip_append (h e (by simp)),
      ih (fun d hd => h d (by simp [hd]))]

private theorem deref_length {b : Batcher ℝ} {i : Nat} {e : Batch ℝ} (h : b.deref i = .ok e) :
    ∃ hi : i + 1 < b.partIdx.length, e.points.length = b.partIdx[i + 1] - b.partIdx[i] := by
  unfold Batcher.deref at h
  simp only [Outcome.bind_eq_ok] at h
  obtain ⟨x, hx, y, hy, ps, hps, ws, -, ⟨lo, up⟩, hb, h⟩ := h
  cases h
  obtain ⟨hx1, hx2⟩ := List.getElem?_eq_some_iff.1 (vget_some hx)
  obtain ⟨hy1, hy2⟩ := List.getElem?_eq_some_iff.1 (vget_some hy)
  refine ⟨hy1, ?_⟩
  unfold vrange at hps
  split_ifs at hps with hc
  cases hps
  rw [hx2, hy2]
  simp
  omega

private theorem inv_history (Q : List (SphQuad ℝ)) (hQ : ∀ q ∈ Q, Consistent q.quad ∧ q.quad.points ≠ [] ∧
    q.quad.npts < 2147483648) (part : PartitionFn ℝ) (hp : StdPartition part) (fuel : Nat) (ops : List (SOp ℝ))
    (w : BWorld ℝ) (hrun : BWorld.srun part fuel ops ⟨Q, []⟩ = some (.ok w)) : Inv Q w (lineage Q.length ops) := by
  have hmod : 2147483648 < sizeMod := by decide
  have h0 : Inv Q ⟨Q, []⟩ ⟨(List.range Q.length).map some, []⟩ := by
    refine ⟨by simp, rfl, ?_, ?_, ?_⟩
    · intro a o ho
      rw [List.getElem?_map, Option.map_eq_some_iff] at ho
      obtain ⟨x, hx, e⟩ := ho
      cases e
      obtain ⟨hlt, hx⟩ := List.getElem?_eq_some_iff.1 hx
      rw [List.getElem_range] at hx
      subst hx
      rw [List.length_range] at hlt
      refine ⟨Q[a], Q[a], List.getElem?_eq_getElem hlt, List.getElem?_eq_getElem hlt, From.refl ?_⟩
      exact (hQ _ (List.getElem_mem hlt)).1
    · intro a ho
      simp at ho
    · intro h b hb
      simp at hb
  exact inv_run (fun q hq => ⟨(hQ q hq).1, (hQ q hq).2.1, (hQ q hq).2.2.trans hmod⟩) part hp fuel ops h0 hrun

/-- **C83.**  Start with any quadrature objects and run any history of batcher constructions (from shared pointers,
copies or temporaries, several from the same object), copies, moves, clones and recentrings.  Every batcher whose
batches were generated by the library and whose quadrature object was not moved away still works afterwards, also when
its object has been reordered by other constructors: iterating visits `nbatches()` batches of 1 to `max_batch_size`
points, `at(i)` returns the `i`-th, and together they are the entries of the quadrature the object descends from, moved
to the present centre. -/
theorem C83_history (Q : List (SphQuad ℝ)) (hQ : ∀ q ∈ Q, Consistent q.quad ∧ q.quad.points ≠ [] ∧
    q.quad.npts < 2147483648) (part : PartitionFn ℝ) (hp : StdPartition part) (fuel : Nat) (ops : List (SOp ℝ))
    (w : BWorld ℝ) (hrun : BWorld.srun part fuel ops ⟨Q, []⟩ = some (.ok w)) (h a o : Nat)
    (hh : (lineage Q.length ops).handle[h]? = some (some (a, true)))
    (ho : (lineage Q.length ops).origin[a]? = some (some o)) :
    ∃ q0 b, Q[o]? = some q0 ∧ w.view h = some b ∧
      Returns b.batches (fun es => es.length = b.nbatches ∧
        (∀ i, (hi : i < es.length) → b.at i = .ok es[i]) ∧
        (∀ e ∈ es, 1 ≤ e.points.length ∧ e.points.length ≤ b.maxBatch ∧ e.weights.length = e.points.length) ∧
        (es.flatMap (fun e => e.points.zip e.weights)).Perm (movedTo q0 b.quad.center)) := by
  have hi := inv_history Q hQ part hp fuel ops w hrun
  obtain ⟨q0, q, e1, e2, e3⟩ := hi.live a o ho
  have hlt : h < w.handles.length := by
    rw [hi.lenh]
    exact (List.getElem?_eq_some_iff.1 hh).1
  have hb := List.getElem?_eq_getElem hlt
  rcases hi.hdl h _ hb with ⟨-, f⟩ | ⟨a', g, f1, f2, f3, f4⟩
  · rw [hh] at f; cases f
  · rw [hh] at f2
    cases f2
    obtain ⟨n, f5, f6⟩ := f4 rfl
    have hn := f6 o q0 ho e1
    subst hn
    obtain ⟨k1, k2, k3⟩ := hQ q0 (List.mem_of_getElem? e1)
    have hlen := e3.len k1
    obtain ⟨b, hbd⟩ : ∃ b : Batcher ℝ, b = ⟨w.handles[h].maxBatch, q, w.handles[h].partIdx⟩ := ⟨_, rfl⟩
    have b1 : b.quad = q := by rw [hbd]
    have b2 : b.partIdx = w.handles[h].partIdx := by rw [hbd]
    have b3 : b.maxBatch = w.handles[h].maxBatch := by rw [hbd]
    refine ⟨q0, b, e1, by simp [BWorld.view, hb, f1, e2, hbd], ?_⟩
    rw [← b2, ← b3] at f5
    rw [← b1] at hlen e3
    obtain ⟨es, g1, g2, -, g4, g5, g6, g7⟩ := C60_at_iteration b e3.cons (by rw [hlen]; exact f5.2.1) (by omega)
    refine ⟨es, g1, g2, g4, ?_, ?_⟩
    · intro e he
      obtain ⟨i, hi', rfl⟩ := List.getElem_of_mem he
      have hle : es.length ≤ b.quad.quad.points.length := by
        rw [← g5]
        exact length_le_flatMap es (fun e he => (g7 e he).1)
      have hp' : b.quad.quad.points.length = b.quad.quad.npts := rfl
      have hd := g4 i hi'
      unfold Batcher.at at hd
      rw [if_neg (by omega)] at hd
      have hoff : toInt32 i = (i : Int) := by
        unfold toInt32
        rw [if_pos (by omega)]
        omega
      dsimp only at hd
      rw [hoff] at hd
      split_ifs at hd with hc
      rw [Int.toNat_natCast] at hd
      obtain ⟨hl1, hl2⟩ := deref_length hd
      obtain ⟨s1, s2⟩ := f5.2.2 i hl1
      rw [hl2]
      exact ⟨s1, s2, by rw [← hl2, (g7 _ he).2]⟩
    · rw [zip_flatMap es (fun e he => (g7 e he).2), g5, g6]
      exact e3.perm

private theorem length_of_increasing (n : Nat) (l : List Nat) : ∀ x, (x :: l).Pairwise (· < ·) →
    (x :: l).getLast? = some n → l.length + x ≤ n := by
  induction l with
  | nil => intro x _ h; simp at h; simp; omega
  | cons y l ih =>
    intro x h1 h2
    rw [List.pairwise_cons] at h1
    have := h1.1 y (by simp)
    have := ih y h1.2 (by simpa using h2)
    simp only [List.length_cons]
    omega

/-- When the object was moved into another batcher, a batcher sharing it is left with indices into empty vectors:
accessing its first batch is undefined. -/
theorem C83_moved_object (Q : List (SphQuad ℝ)) (hQ : ∀ q ∈ Q, Consistent q.quad ∧ q.quad.points ≠ [] ∧
    q.quad.npts < 2147483648) (part : PartitionFn ℝ) (hp : StdPartition part) (fuel : Nat) (ops : List (SOp ℝ))
    (w : BWorld ℝ) (hrun : BWorld.srun part fuel ops ⟨Q, []⟩ = some (.ok w)) (h a : Nat)
    (hh : (lineage Q.length ops).handle[h]? = some (some (a, true)))
    (ho : (lineage Q.length ops).origin[a]? = some none) :
    ∃ b, w.view h = some b ∧ 1 ≤ b.nbatches ∧ b.at 0 = .ub := by
  have hi := inv_history Q hQ part hp fuel ops w hrun
  obtain ⟨q, e1, e2, e3⟩ := hi.dead a ho
  have hlt : h < w.handles.length := by
    rw [hi.lenh]
    exact (List.getElem?_eq_some_iff.1 hh).1
  have hb := List.getElem?_eq_getElem hlt
  rcases hi.hdl h _ hb with ⟨-, f⟩ | ⟨a', g, f1, f2, f3, f4⟩
  · rw [hh] at f; cases f
  · rw [hh] at f2
    cases f2
    obtain ⟨n, ⟨⟨n1, n2⟩, ⟨s1, s2, s3⟩, -⟩, -⟩ := f4 rfl
    obtain ⟨b, hbd⟩ : ∃ b : Batcher ℝ, b = ⟨w.handles[h].maxBatch, q, w.handles[h].partIdx⟩ := ⟨_, rfl⟩
    have b2 : b.partIdx = w.handles[h].partIdx := by rw [hbd]
    refine ⟨b, by simp [BWorld.view, hb, f1, e1, hbd], ?_⟩
    rw [← b2] at s1 s2 s3
    cases hx : b.partIdx with
    | nil => rw [hx] at s1; cases s1
    | cons x rest =>
      rw [hx] at s1 s2 s3
      simp only [List.head?_cons, Option.some.injEq] at s1
      subst s1
      cases rest with
      | nil => simp at s2; omega
      | cons y rest =>
        have hy : 0 < y := (List.pairwise_cons.1 s3).1 y (by simp)
        have hnb : 1 ≤ b.nbatches := by
          have hlen := length_of_increasing n (y :: rest) 0 s3 s2
          have : sizeMod = 18446744073709551616 := rfl
          unfold Batcher.nbatches subWrap
          rw [hx]
          simp only [List.length_cons] at hlen ⊢
          rw [show rest.length + 1 + 1 + (sizeMod - 1) = rest.length + 1 + sizeMod by omega, Nat.add_mod_right,
            Nat.mod_eq_of_lt (by omega)]
          omega
        refine ⟨hnb, ?_⟩
        unfold Batcher.at
        rw [if_neg (by omega)]
        have h0 : toInt32 0 = 0 := rfl
        dsimp only
        rw [h0, if_pos (by constructor <;> omega)]
        unfold Batcher.deref
        rw [hx, hbd]
        simp [vget, vrange, e2, Outcome.ok_bind, hy.ne']

/-! ## Example -/

private noncomputable def exQ : SphQuad ℝ :=
  ⟨⟨[⟨0, 0, 0⟩, ⟨1, 0, 0⟩, ⟨0, 0, 0⟩], [1, 2, 3]⟩, ⟨0, 0, 0⟩⟩

private theorem make_ex (q : SphQuad ℝ) (h : Consistent q.quad) (hn : q.quad.npts = 3) :
    ∃ b, Batcher.make (fun (p : PW ℝ → Bool) l =>
        (l.filter p ++ l.filter (fun e => !p e), (l.filter p).length)) 4 3 q = some (.ok b) ∧
      Consistent b.quad.quad ∧ b.quad.quad.npts = 3 := by
  classical
  obtain ⟨b, hb⟩ := C58_terminates real_splitArith _ stdPartition_exists 3 q h (by
    intro e
    unfold Quad.npts at hn
    rw [e] at hn
    cases hn) (fun _ _ => ⟨trivial, trivial, trivial⟩) (by rw [hn]; decide) (by
    intro p
    have : q.quad.points.count p ≤ q.quad.points.length := List.count_le_length
    unfold Quad.npts at hn
    omega)
  rw [hn] at hb
  obtain ⟨h1, h2, h3, -⟩ := C55_batches_permute _ stdPartition_exists 3 4 q h b hb
  exact ⟨b, hb, h2, by rw [h3, hn]⟩

/-- Two batchers share an object, a third copies it and a clone of the first is recentred: the history runs, and the
first batcher (handle 0) satisfies the hypotheses of `C83_history`. -/
example : ∃ (part : PartitionFn ℝ) (w : BWorld ℝ), StdPartition part ∧
    BWorld.srun part 4 [.share 0 3, .share 0 3, .fromCopy 0 3, .batcher (.clone 0)] ⟨[exQ], []⟩ = some (.ok w) ∧
    (∀ q ∈ [exQ], Consistent q.quad ∧ q.quad.points ≠ [] ∧ q.quad.npts < 2147483648) ∧
    (lineage (F := ℝ) 1 [.share 0 3, .share 0 3, .fromCopy 0 3, .batcher (.clone 0)]).handle[0]? =
      some (some (0, true)) ∧
    (lineage (F := ℝ) 1 [.share 0 3, .share 0 3, .fromCopy 0 3, .batcher (.clone 0)]).origin[0]? = some (some 0) := by
  obtain ⟨b1, h1, h2, h3⟩ := make_ex exQ rfl rfl
  obtain ⟨b2, h4, h5, h6⟩ := make_ex b1.quad h2 h3
  obtain ⟨b3, h7, h8, h9⟩ := make_ex b2.quad h5 h6
  refine ⟨_, ⟨[b2.quad, b3.quad, b2.quad], [⟨3, some 0, b1.partIdx⟩, ⟨3, some 0, b2.partIdx⟩, ⟨3, some 1, b3.partIdx⟩,
    ⟨3, some 2, b1.partIdx⟩]⟩, stdPartition_exists, ?_, ?_, rfl, rfl⟩
  · simp [BWorld.srun, BWorld.sstep, BWorld.step, h1, h4, h7, vget, Outcome.ok_bind]
  · intro q hq
    rw [List.mem_singleton] at hq
    subst hq
    exact ⟨rfl, by simp [exQ], by show 3 < 2147483648; decide⟩

/-- After `fromMove` of a shared object the hypotheses of `C83_moved_object` hold. -/
example : (lineage (F := ℝ) 1 [.share 0 3, .fromMove 0 3]).handle[0]? = some (some (0, true)) ∧
    (lineage (F := ℝ) 1 [.share 0 3, .fromMove 0 3]).origin[0]? = some none := ⟨rfl, rfl⟩

end IntegratorXX
