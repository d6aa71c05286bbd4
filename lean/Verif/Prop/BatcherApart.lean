import Verif.Lemmas.BatcherApart
import Verif.Prop.BatcherDetermined

/-!
# C107: batches do not overlap in space

The boxes of any two batches of a batcher are separated by a coordinate plane: in one of the three coordinates the box
of the earlier batch ends no later than the box of the later one begins.
-/

set_option linter.unusedSectionVars false

namespace IntegratorXX

open Spec Arith

section
variable {F : Type} [Add F] [Sub F] [Mul F] [Div F] [Arith F] {S : F → Prop}

/-- **C107.**  Whatever conforming `std::partition` is used: batches `m < n` of a constructed batcher are separated by a
coordinate plane, with the earlier one below. -/
theorem C107_boxes_apart (hA : CutArith F S) (part : PartitionFn F) (hp : StdPartition part) (maxBatch fuel : Nat)
    (q : SphQuad F) (hq : Consistent q.quad) (hne : q.quad.points ≠ []) (hS : ∀ p ∈ q.quad.points, PtIn S p)
    (hlt : q.quad.npts < sizeMod) (b : Batcher F) (h : Batcher.make part fuel maxBatch q = some (.ok b)) (m n : Nat)
    (hmn : m < n) (e e' : Batch F) (he : b.deref m = .ok e) (he' : b.deref n = .ok e') : Before e.up e'.lo := by
  obtain ⟨bs, hB, hord, hr⟩ := make_ahead hA part hp maxBatch fuel q hq hne hS hlt _ h
  cases hr
  have hzS : ∀ e ∈ q.quad.points.zip q.quad.weights, PtIn S e.1 := fun e he => hS e.1 (List.of_mem_zip he).1
  rw [deref_blocks] at he he'
  split at he
  swap
  · cases he
  split at he'
  swap
  · cases he'
  rename_i hm hn
  have hahead := List.pairwise_iff_getElem.1 hord m n hm hn hmn
  obtain ⟨lo, up, h1, -, -, -, -, -, -, ⟨a, ha, ax⟩, ⟨b, hb, by_⟩, ⟨c, hc, cz⟩⟩ := bounds_of hA.toWeakOrder _
    (hB.ne _ (List.getElem_mem hm)) (hB.inS hzS _ (List.getElem_mem hm))
  obtain ⟨lo', up', h1', -, -, -, ⟨a', ha', ax'⟩, ⟨b', hb', by'⟩, ⟨c', hc', cz'⟩, -⟩ := bounds_of hA.toWeakOrder _
    (hB.ne _ (List.getElem_mem hn)) (hB.inS hzS _ (List.getElem_mem hn))
  rw [h1] at he
  rw [h1'] at he'
  cases he
  cases he'
  rcases hahead with h | h | h
  · refine .inl ?_
    rw [← ax, ← ax']
    exact h a ha a' ha'
  · refine .inr (.inl ?_)
    rw [← by_, ← by']
    exact h b hb b' hb'
  · refine .inr (.inr ?_)
    rw [← cz, ← cz']
    exact h c hc c' hc'

end

/-- Exact arithmetic. -/
theorem real_cutArith : CutArith ℝ (fun _ => True) where
  toBoxArith := real_splitArith.toBoxArith
  cuts lo up x y _ _ _ _ h n i j hn hij hj h1 h2 := by
    have key : ∀ a b : ℝ, lt a b = false ↔ b ≤ a := fun a b => by
      rw [← not_lt, ← real_lt, Bool.not_eq_true]
    rw [key] at *
    unfold cut at h1 h2
    rw [if_pos (by omega)] at h1 h2
    rw [real_ofNat, real_ofNat] at h1 h2
    have hn0 : (0 : ℝ) < n := by rcases hn with rfl | rfl <;> norm_num
    have hm : ((i + 1 : ℕ) : ℝ) * ((up - lo) / n) ≤ j * ((up - lo) / n) :=
      mul_le_mul_of_nonneg_right (by exact_mod_cast hij) (div_nonneg (by linarith) hn0.le)
    linarith

/-- **C107.**  In exact arithmetic: no point of space lies strictly inside the boxes of two batches, and no point of a
batch lies strictly inside the box of another one. -/
theorem C107_interiors_disjoint (part : PartitionFn ℝ) (hp : StdPartition part) (maxBatch fuel : Nat)
    (q : SphQuad ℝ) (hq : Consistent q.quad) (hne : q.quad.points ≠ []) (hlt : q.quad.npts < sizeMod) (b : Batcher ℝ)
    (h : Batcher.make part fuel maxBatch q = some (.ok b)) (m n : Nat) (hmn : m ≠ n) (e e' : Batch ℝ)
    (he : b.deref m = .ok e) (he' : b.deref n = .ok e') (p : Pt ℝ)
    (hin : (e'.lo.x < p.x ∧ p.x < e'.up.x) ∧ (e'.lo.y < p.y ∧ p.y < e'.up.y) ∧ (e'.lo.z < p.z ∧ p.z < e'.up.z)) :
    ¬((e.lo.x ≤ p.x ∧ p.x ≤ e.up.x) ∧ (e.lo.y ≤ p.y ∧ p.y ≤ e.up.y) ∧ (e.lo.z ≤ p.z ∧ p.z ≤ e.up.z)) ∧
      p ∉ e.points := by
  have key : ∀ a b : ℝ, lt a b = false ↔ b ≤ a := fun a b => by
    rw [← not_lt, ← real_lt, Bool.not_eq_true]
  have main : ¬((e.lo.x ≤ p.x ∧ p.x ≤ e.up.x) ∧ (e.lo.y ≤ p.y ∧ p.y ≤ e.up.y) ∧ (e.lo.z ≤ p.z ∧ p.z ≤ e.up.z)) := by
    have hS : ∀ p ∈ q.quad.points, PtIn (fun _ : ℝ => True) p := fun _ _ => ⟨trivial, trivial, trivial⟩
    obtain ⟨⟨x1, x2⟩, ⟨y1, y2⟩, ⟨z1, z2⟩⟩ := hin
    rintro ⟨⟨u1, u2⟩, ⟨v1, v2⟩, ⟨w1, w2⟩⟩
    rcases Nat.lt_or_gt_of_ne hmn with hl | hl
    · have := C107_boxes_apart real_cutArith part hp maxBatch fuel q hq hne hS hlt b h m n hl e e' he he'
      unfold Before at this
      rw [key, key, key] at this
      rcases this with t | t | t <;> linarith
    · have := C107_boxes_apart real_cutArith part hp maxBatch fuel q hq hne hS hlt b h n m hl e' e he' he
      unfold Before at this
      rw [key, key, key] at this
      rcases this with t | t | t <;> linarith
  refine ⟨main, fun hpe => main ?_⟩
  obtain ⟨-, hbox, -⟩ := C57_tight_boxes real_cutArith.toWeakOrder b m e he (fun _ _ => ⟨trivial, trivial, trivial⟩)
  have := hbox p hpe
  unfold InBox at this
  simp only [key] at this
  exact ⟨⟨this.1.2, this.1.1⟩, ⟨this.2.1.2, this.2.1.1⟩, ⟨this.2.2.2, this.2.2.1⟩⟩

/-- **C107.**  In `double`, for finite coordinates, including the rounding of the cuts and the overflow of the extent of
the box. -/
theorem C107_double {L : Libm} (part : PartitionFn (F64 L)) (hp : StdPartition part) (maxBatch fuel : Nat)
    (q : SphQuad (F64 L)) (hq : Consistent q.quad) (hne : q.quad.points ≠ [])
    (hS : ∀ p ∈ q.quad.points, PtIn Finite64 p) (hlt : q.quad.npts < sizeMod) (b : Batcher (F64 L))
    (h : Batcher.make part fuel maxBatch q = some (.ok b)) (m n : Nat) (hmn : m < n) (e e' : Batch (F64 L))
    (he : b.deref m = .ok e) (he' : b.deref n = .ok e') : Before e.up e'.lo :=
  C107_boxes_apart f64_cutArith part hp maxBatch fuel q hq hne hS hlt b h m n hmn e e' he he'

/-- Three points in batches of one, with the first two batches. -/
example : ∃ (q : SphQuad ℝ) (part : PartitionFn ℝ) (b : Batcher ℝ) (e e' : Batch ℝ), StdPartition part ∧
    Consistent q.quad ∧ q.quad.points ≠ [] ∧ q.quad.npts < sizeMod ∧
    Batcher.make part (q.quad.npts + 1) 1 q = some (.ok b) ∧ b.deref 0 = .ok e ∧ b.deref 1 = .ok e' := by
  set q : SphQuad ℝ := ⟨⟨[⟨0, 0, 0⟩, ⟨1, 0, 0⟩, ⟨0, 1, 0⟩], [1, 2, 3]⟩, ⟨0, 0, 0⟩⟩ with hq
  have hlt : q.quad.npts < sizeMod := by simp [hq, Quad.npts, sizeMod]
  have hS : ∀ p ∈ q.quad.points, PtIn (fun _ : ℝ => True) p := fun _ _ => ⟨trivial, trivial, trivial⟩
  have hne : q.quad.points ≠ [] := by simp [hq]
  classical
  obtain ⟨b, hb⟩ := C58_terminates real_splitArith _ stdPartition_exists 1 q rfl hne hS hlt (by
    intro p
    refine List.nodup_iff_count_le_one.1 ?_ p
    simp [hq])
  obtain ⟨bs, hB, hle, hr⟩ := make_blocks real_splitArith.toBoxArith _ stdPartition_exists 1 _ q rfl hne hS hlt _ hb
  cases hr
  have hlen : bs.flatten.length = 3 := by rw [hB.perm.length_eq]; simp [hq]
  have h2 : 1 < bs.length := by
    by_contra hc
    have h3 : bs.flatten.length ≤ bs.length * 1 := by
      rw [List.length_flatten]
      refine (List.sum_le_card_nsmul (bs.map List.length) 1 ?_).trans (by simp)
      simpa using hle
    omega
  have key : ∀ n, (hn : n < bs.length) → ∃ e, Batcher.deref ⟨1, ⟨⟨bs.flatten.map Prod.fst, bs.flatten.map Prod.snd⟩,
      q.center⟩, offsets 0 bs⟩ n = .ok e := by
    intro n hn
    obtain ⟨lo, up, h1, -⟩ := bounds_of real_splitArith.toWeakOrder bs[n] (hB.ne _ (List.getElem_mem hn))
      (fun _ _ => ⟨trivial, trivial, trivial⟩)
    rw [deref_blocks, dif_pos hn, h1]
    exact ⟨_, rfl⟩
  obtain ⟨e, he⟩ := key 0 (by omega)
  obtain ⟨e', he'⟩ := key 1 h2
  exact ⟨q, _, _, e, e', stdPartition_exists, rfl, hne, hlt, hb, he, he'⟩

end IntegratorXX
