import Verif.Lemmas.BatcherLoop

/-!
# Blocks that are never split (helper lemmas)
-/

set_option linter.unusedSectionVars false

namespace IntegratorXX

open Spec Arith

section
variable {F : Type} [Add F] [Sub F] [Mul F] [Div F] [Arith F] {S : F → Prop} {v : List (PW F)}

theorem part_take_perm {part : PartitionFn F} (hp : StdPartition part) (p : PW F → Bool) (l : List (PW F)) :
    ((part p l).1.take (part p l).2).Perm (l.filter p) := by
  have h := ((hp.perm p l).filter p)
  rw [← List.take_append_drop (part p l).2 (part p l).1, List.filter_append,
    List.filter_eq_self.2 (hp.pos p l), List.filter_eq_nil_iff.2 (fun e he => by simp [hp.neg p l e he]),
    List.append_nil] at h
  exact h

/-- The predicate of the first cell. -/
def firstCell (n : Nat) (lo up : Pt F) : PW F → Bool := fun pw =>
  pointInBox (gridPt n lo up 0 0 0) (gridPt n lo up 1 1 1) pw.1

/-- The points in the first cell form a block. -/
theorem boxBlocks_first {part : PartitionFn F} (hp : StdPartition part) (n : Nat) (hn : 1 ≤ n) (lo up : Pt F)
    (b : List (PW F)) (hne : b.filter (firstCell n lo up) ≠ []) :
    ∃ c ∈ boxBlocks part n lo up b, c.Perm (b.filter (firstCell n lo up)) := by
  obtain ⟨m, rfl⟩ : ∃ m, n = m + 1 := ⟨n - 1, by omega⟩
  obtain ⟨ps, hps⟩ : ∃ ps, cellPreds (m + 1) lo up = firstCell (m + 1) lo up :: ps := by
    unfold cellPreds
    rw [List.range_succ_eq_map]
    simp only [List.flatMap_cons, List.map_cons, List.cons_append]
    exact ⟨_, rfl⟩
  unfold boxBlocks
  rw [hps]
  have h := part_take_perm hp (firstCell (m + 1) lo up) b
  refine ⟨_, List.mem_filter.2 ⟨List.mem_cons_self, ?_⟩, h⟩
  have : (part (firstCell (m + 1) lo up) b).1.take (part (firstCell (m + 1) lo up) b).2 ≠ [] := by
    intro h0
    rw [h0] at h
    exact hne (List.nil_perm.1 h)
  simpa using this

/-- When some block is too large in every iteration, the loop does not end. -/
theorem refineLoop_stuck (h : BoxArith F S) {part : PartitionFn F} (hp : StdPartition part)
    (maxBatch : Nat) (hS : ∀ e ∈ v, PtIn S e.1) (hlt : v.length < sizeMod) (Q : List (PW F) → Prop)
    (hQ : ∀ b, Q b → maxBatch < b.length ∧ ∃ c ∈ subBlocks part b, Q c) (fuel : Nat) :
    ∀ bs, Blocked v bs → (∃ b ∈ bs, Q b) →
      refineLoop part maxBatch fuel (bs.flatten, offsets 0 bs) = none := by
  induction fuel with
  | zero => intros; rfl
  | succ fuel ih =>
    intro bs hB hb
    obtain ⟨b, hb, hq⟩ := hb
    have hl : bs.flatten.length < sizeMod := by rw [hB.perm.length_eq]; exact hlt
    obtain ⟨h1, c, hc, h2⟩ := hQ b hq
    unfold refineLoop
    dsimp only
    rw [if_pos ((tooLarge_offsets maxBatch bs hl).2 ⟨b, hb, h1⟩),
      refine_eq h hp maxBatch bs hB.ne (hB.inS hS) hl]
    refine ih _ (hB.step h hp maxBatch hS) ⟨c, List.mem_flatMap.2 ⟨b, hb, ?_⟩, h2⟩
    unfold refBlocks
    rw [if_pos h1]
    exact hc

/-- The construction of the batches does not return when the first partition has such a block. -/
theorem make_stuck (h : BoxArith F S) {part : PartitionFn F} (hp : StdPartition part)
    (maxBatch : Nat) (q : SphQuad F) (hq : Consistent q.quad) (hne : q.quad.points ≠ [])
    (hS : ∀ p ∈ q.quad.points, PtIn S p) (hlt : q.quad.npts < sizeMod) (Q : List (PW F) → Prop)
    (hQ : ∀ b, Q b → maxBatch < b.length ∧ ∃ c ∈ subBlocks part b, Q c)
    (h0 : ∀ lo up, boxBounds q.quad.points = .ok (lo, up) →
      ∃ b ∈ boxBlocks part 3 lo up (q.quad.points.zip q.quad.weights), Q b) (fuel : Nat) :
    Batcher.make part fuel maxBatch q = none := by
  unfold Consistent at hq
  set v := q.quad.points.zip q.quad.weights with hv
  have hS' : ∀ e ∈ v, PtIn S e.1 := fun e he => hS e.1 (List.of_mem_zip he).1
  have hfst : v.map Prod.fst = q.quad.points := by rw [hv, List.map_fst_zip (by omega)]
  have hvl : v.length = q.quad.points.length := by rw [← hfst, List.length_map]
  have hvne : v ≠ [] := by
    intro h1
    rw [h1] at hfst
    exact hne hfst.symm
  obtain ⟨lo, up, h1, h2, h3, h4, -⟩ := bounds_of h.toWeakOrder v hvne hS'
  have hrest := boxRest_nil h hp 3 (by omega) lo up h2 h3 v h4
  have hB : Blocked v (boxBlocks part 3 lo up v) := by
    refine ⟨?_, boxBlocks_ne part 3 lo up v, boxBlocks_together hp 3 lo up v⟩
    have := boxBlocks_perm hp 3 lo up v
    rwa [hrest, List.append_nil] at this
  have hf : firstPartition part v = .ok ((boxBlocks part 3 lo up v).flatten,
      offsets 0 (boxBlocks part 3 lo up v)) := by
    unfold firstPartition
    rw [h1, Outcome.ok_bind]
    have := partitionBox_eq hp 3 lo up [] v [] v.length (by simp)
    simpa [hrest] using this
  rw [hfst] at h1
  unfold Batcher.make generateBatches
  rw [gather_eq q.quad hq, Outcome.ok_bind, ← hv, hf]
  dsimp only
  rw [refineLoop_stuck h hp maxBatch hS' (by rw [hvl]; exact hlt) Q hQ fuel _ hB (h0 lo up h1)]
  rfl

end

end IntegratorXX
