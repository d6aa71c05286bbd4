import Verif.Lemmas.BatcherLoop

/-!
# The batcher only permutes (helper lemmas, no assumption on the arithmetic)
-/

namespace IntegratorXX

open Spec Arith

theorem forN_ok_inv {σ : Type} {body : Nat → σ → Outcome σ} (P : σ → Prop)
    (hb : ∀ i s s', P s → body i s = .ok s' → P s') :
    ∀ (n lo : Nat) (s s' : σ), P s → forN n lo body s = .ok s' → P s' := by
  intro n
  induction n with
  | zero => intro lo s s' h0 h; cases h; exact h0
  | succ n ih =>
    intro lo s s' h0 h
    simp only [forN, Outcome.bind_eq_ok] at h
    obtain ⟨s1, h1, h2⟩ := h
    exact ih _ _ _ (hb _ _ _ h0 h1) h2

theorem forRange_ok_inv {σ : Type} {body : Nat → σ → Outcome σ} (P : σ → Prop)
    (hb : ∀ i s s', P s → body i s = .ok s' → P s') {lo hi : Nat} {s s' : σ} (h0 : P s)
    (h : forRange lo hi body s = .ok s') : P s' := forN_ok_inv P hb _ _ _ _ h0 h

theorem foldlM_ok_inv {σ β : Type} {f : σ → β → Outcome σ} (P : σ → Prop)
    (hb : ∀ s b s', P s → f s b = .ok s' → P s') (l : List β) :
    ∀ (s s' : σ), P s → l.foldlM f s = .ok s' → P s' := by
  induction l with
  | nil => intro s s' h0 h; cases h; exact h0
  | cons b l ih =>
    intro s s' h0 h
    rw [List.foldlM_cons, Outcome.bind_eq_ok] at h
    obtain ⟨s1, h1, h2⟩ := h
    exact ih _ _ (hb _ _ _ h0 h1) h2

section
variable {F : Type} [Add F] [Sub F] [Mul F] [Div F] [Arith F] {part : PartitionFn F}

omit [Add F] [Sub F] [Mul F] [Div F] [Arith F] in
theorem partitionRange_perm (hp : StdPartition part) (p : PW F → Bool) (q q' : List (PW F))
    (st en it : Nat) (h : partitionRange part p q st en = .ok (q', it)) : q'.Perm q := by
  unfold partitionRange at h
  split at h
  · rename_i hr
    cases h
    have h1 : (q.take st ++ (q.take en).drop st) ++ q.drop en = q := by
      conv_rhs => rw [← List.take_append_drop en q]
      congr 1
      conv_rhs => rw [← List.take_append_drop st (q.take en)]
      rw [List.take_take, Nat.min_eq_left hr.1]
    conv_rhs => rw [← h1]
    exact ((hp.perm p _).append_left _).append_right _
  · cases h

theorem partitionBox_perm (hp : StdPartition part) (n : Nat) (lo up : Pt F)
    (q : List (PW F)) (st en : Nat) (r : List (PW F) × List Nat)
    (h : partitionBox part n lo up q st en = .ok r) : r.1.Perm q := by
  rw [partitionBox_fold, Outcome.bind_eq_ok] at h
  obtain ⟨s, h1, h2⟩ := h
  cases h2
  show s.1.Perm q
  refine foldlM_ok_inv (fun s : List (PW F) × List Nat => s.1.Perm q) ?_ _ (q, [st]) s
    (List.Perm.refl q) h1
  intro s p s' hs hstep
  unfold runPred at hstep
  split at hstep
  · cases hstep
  · rw [Outcome.bind_eq_ok] at hstep
    obtain ⟨⟨q1, it⟩, h3, h4⟩ := hstep
    cases h4
    exact (partitionRange_perm hp p _ _ _ _ _ h3).trans hs

theorem refine_perm (hp : StdPartition part) (maxBatch : Nat)
    (s s' : List (PW F) × List Nat) (h : refine part maxBatch s = .ok s') : s'.1.Perm s.1 := by
  unfold refine at h
  dsimp only at h
  rw [Outcome.bind_eq_ok] at h
  obtain ⟨⟨q, new⟩, h1, h2⟩ := h
  cases h2
  show q.Perm s.1
  refine forRange_ok_inv (s := (s.1, [])) (s' := (q, new))
    (fun t : List (PW F) × List Nat => t.1.Perm s.1) ?_ (List.Perm.refl s.1) h1
  intro i t t' ht hstep
  unfold refinePart at hstep
  rw [Outcome.bind_eq_ok] at hstep
  obtain ⟨c, -, hstep⟩ := hstep
  split at hstep
  · simp only [Outcome.bind_eq_ok] at hstep
    obtain ⟨st, -, en, -, ⟨lo, up⟩, -, r, h3, h4⟩ := hstep
    cases h4
    exact (partitionBox_perm hp _ _ _ _ _ _ _ h3).trans ht
  · cases hstep; exact ht

theorem refineLoop_perm (hp : StdPartition part) (maxBatch fuel : Nat) :
    ∀ s s', refineLoop part maxBatch fuel s = some (.ok s') → s'.1.Perm s.1 := by
  induction fuel with
  | zero => intro s s' h; cases h
  | succ fuel ih =>
    intro s s' h
    unfold refineLoop at h
    split at h
    · split at h
      · rename_i s1 hs1
        exact (ih _ _ h).trans (refine_perm hp maxBatch s s1 hs1)
      all_goals cases h
    · cases h; exact List.Perm.refl _

/-- Whatever `generate_batches` returns is a permutation of the quadrature. -/
theorem generateBatches_perm (hp : StdPartition part) (maxBatch fuel : Nat)
    (q : Quad (Pt F) F) (hq : Consistent q) (q' : Quad (Pt F) F) (its : List Nat)
    (h : generateBatches part maxBatch fuel q = some (.ok (q', its))) :
    ∃ v : List (PW F), v.Perm (q.points.zip q.weights) ∧
      q' = ⟨v.map Prod.fst, v.map Prod.snd⟩ := by
  unfold generateBatches at h
  rw [gather_eq q hq, Outcome.ok_bind] at h
  split at h
  · rename_i s hs
    unfold firstPartition at hs
    rw [Outcome.bind_eq_ok] at hs
    obtain ⟨⟨lo, up⟩, -, hs⟩ := hs
    have h1 := partitionBox_perm hp _ _ _ _ _ _ _ hs
    rw [Option.map_eq_some_iff] at h
    obtain ⟨r, hr, h⟩ := h
    rw [Outcome.bind_eq_ok] at h
    obtain ⟨⟨v, its'⟩, rfl, h⟩ := h
    have h2 := refineLoop_perm hp _ _ _ _ hr
    have h3 := h2.trans h1
    dsimp only at h3 h
    rw [scatter_eq v q hq (by
      rw [h3.length_eq]; unfold Consistent at hq; simp [hq]), Outcome.ok_bind] at h
    cases h
    exact ⟨v, h3, rfl⟩
  all_goals cases h

/-- Total description of `generate_batches` on a non-empty quadrature. -/
theorem generateBatches_eq {S : F → Prop} (h : BoxArith F S) (hp : StdPartition part)
    (maxBatch fuel : Nat) (q : Quad (Pt F) F) (hq : Consistent q) (hne : q.points ≠ [])
    (hS : ∀ p ∈ q.points, PtIn S p) :
    ∃ bs, Blocked (q.points.zip q.weights) bs ∧ generateBatches part maxBatch fuel q =
      (refineLoop part maxBatch fuel (bs.flatten, offsets 0 bs)).map (fun r => do
        let (v, its) ← r
        let q ← scatter v q
        pure (q, its)) := by
  unfold Consistent at hq
  obtain ⟨bs, h1, h2⟩ := firstPartition_eq h hp (q.points.zip q.weights)
    (by
      intro h0
      have := congrArg List.length h0
      simp [hq] at this
      exact hne (by rw [← List.length_eq_zero_iff, hq]; simpa using this))
    (fun e he => hS e.1 (List.of_mem_zip he).1)
  refine ⟨bs, h2, ?_⟩
  unfold generateBatches
  rw [gather_eq q hq, Outcome.ok_bind, h1]

end

/-! ## Batches of a vector -/

theorem batchesAt_offsets {α : Type} (A D : List α) (bs : List (List α)) :
    batchesAt (offsets A.length bs) (A ++ bs.flatten ++ D) = bs := by
  induction bs generalizing A with
  | nil => rfl
  | cons b bs ih =>
    obtain ⟨l, hl⟩ := offsets_cons_head (A.length + b.length) bs
    have h := ih (A ++ b)
    rw [List.length_append] at h
    simp only [offsets]
    rw [hl] at h ⊢
    have e : A ++ (b :: bs).flatten ++ D = A ++ b ++ bs.flatten ++ D := by simp
    rw [batchesAt, e, h]
    congr 1
    rw [List.append_assoc (A ++ b), List.take_append_of_le_length (by simp),
      List.take_of_length_le (by simp), List.drop_append_of_le_length (by simp),
      List.drop_of_length_le (by simp)]
    rfl

theorem offsets_splits {α : Type} (bs : List (List α)) (hne : ∀ b ∈ bs, b ≠ []) :
    SplitsRange (offsets 0 bs) bs.flatten.length := by
  obtain ⟨l, hl⟩ := offsets_cons_head 0 bs
  exact ⟨by rw [hl]; rfl, by rw [offsets_getLast?, Nat.zero_add], offsets_pairwise 0 bs hne⟩

end IntegratorXX
