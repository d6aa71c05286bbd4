import Verif.Lemmas.BatcherPerm
import Verif.Lemmas.BatcherStuck

/-!
# The blocks of the batcher as multisets (helper lemmas)

Lists of blocks that agree up to the order inside every block.
-/

set_option linter.unusedSectionVars false

namespace IntegratorXX

open Spec Arith

section
variable {α : Type}

theorem offsets_congr (a : Nat) {bs bs' : List (List α)} (h : List.Forall₂ List.Perm bs bs') :
    offsets a bs = offsets a bs' := by
  induction h generalizing a with
  | nil => rfl
  | cons h _ ih => simp only [offsets, h.length_eq, ih]

theorem flatten_perm_congr {bs bs' : List (List α)} (h : List.Forall₂ List.Perm bs bs') :
    bs.flatten.Perm bs'.flatten := by
  induction h with
  | nil => simp
  | cons h _ ih => simpa using h.append ih

theorem flatMap_congr_perm (g g' : List α → List (List α)) {bs bs' : List (List α)}
    (h : List.Forall₂ List.Perm bs bs')
    (hg : ∀ b ∈ bs, ∀ b', b.Perm b' → List.Forall₂ List.Perm (g b) (g' b')) :
    List.Forall₂ List.Perm (bs.flatMap g) (bs'.flatMap g') := by
  induction h with
  | nil => simp
  | cons h _ ih =>
    simp only [List.flatMap_cons]
    exact List.rel_append (hg _ (by simp) _ h) (ih (fun b hb => hg b (by simp [hb])))

theorem filter_nonempty_congr {bs bs' : List (List α)} (h : List.Forall₂ List.Perm bs bs') :
    List.Forall₂ List.Perm (bs.filter (fun b => !b.isEmpty)) (bs'.filter (fun b => !b.isEmpty)) := by
  induction h with
  | nil => simp
  | @cons b b' bs bs' h _ ih =>
    by_cases hb : b = []
    · subst hb
      rw [List.nil_perm.1 h]
      simpa using ih
    · have hb' : b' ≠ [] := fun h0 => hb (by rw [h0] at h; exact List.perm_nil.1 h)
      rw [List.filter_cons_of_pos (by simp [hb]), List.filter_cons_of_pos (by simp [hb'])]
      exact .cons h ih

end

section
variable {F : Type} [Arith F] {S : F → Prop}

theorem boxBounds_perm (h : WeakOrder F S)
    (tri : ∀ a b : F, S a → S b → lt a b = false → lt b a = false → a = b)
    {ps qs : List (Pt F)} (hp : ps.Perm qs) (hne : ps ≠ []) (hS : ∀ p ∈ ps, PtIn S p) :
    boxBounds ps = boxBounds qs := by
  have hne' : qs ≠ [] := fun h0 => hne (by rw [h0] at hp; exact List.perm_nil.1 hp)
  have hS' : ∀ p ∈ qs, PtIn S p := fun p h => hS p (hp.symm.subset h)
  obtain ⟨lo, up, e, l, u, hb, ⟨x1, m1, f1⟩, ⟨x2, m2, f2⟩, ⟨x3, m3, f3⟩, ⟨x4, m4, f4⟩, ⟨x5, m5, f5⟩, ⟨x6, m6, f6⟩⟩ :=
    boxBounds_spec h ps hne hS
  obtain ⟨lo', up', e', l', u', hb', ⟨y1, n1, g1⟩, ⟨y2, n2, g2⟩, ⟨y3, n3, g3⟩, ⟨y4, n4, g4⟩, ⟨y5, n5, g5⟩,
    ⟨y6, n6, g6⟩⟩ := boxBounds_spec h qs hne' hS'
  have hb2 : ∀ p ∈ ps, InBox lo' up' p := fun p h => hb' p (hp.subset h)
  have hb1 : ∀ p ∈ qs, InBox lo up p := fun p h => hb p (hp.symm.subset h)
  have a1 : lo.x = lo'.x := tri _ _ l.1 l'.1 (by rw [← f1]; exact (hb2 x1 m1).1.2) (by rw [← g1]; exact (hb1 y1 n1).1.2)
  have a2 : lo.y = lo'.y := tri _ _ l.2.1 l'.2.1 (by rw [← f2]; exact (hb2 x2 m2).2.1.2)
    (by rw [← g2]; exact (hb1 y2 n2).2.1.2)
  have a3 : lo.z = lo'.z := tri _ _ l.2.2 l'.2.2 (by rw [← f3]; exact (hb2 x3 m3).2.2.2)
    (by rw [← g3]; exact (hb1 y3 n3).2.2.2)
  have a4 : up.x = up'.x := tri _ _ u.1 u'.1 (by rw [← g4]; exact (hb1 y4 n4).1.1) (by rw [← f4]; exact (hb2 x4 m4).1.1)
  have a5 : up.y = up'.y := tri _ _ u.2.1 u'.2.1 (by rw [← g5]; exact (hb1 y5 n5).2.1.1)
    (by rw [← f5]; exact (hb2 x5 m5).2.1.1)
  have a6 : up.z = up'.z := tri _ _ u.2.2 u'.2.2 (by rw [← g6]; exact (hb1 y6 n6).2.2.1)
    (by rw [← f6]; exact (hb2 x6 m6).2.2.1)
  rw [e, e']
  cases lo; cases up; cases lo'; cases up'
  simp only at a1 a2 a3 a4 a5 a6
  subst a1 a2 a3 a4 a5 a6
  rfl

end

section
variable {F : Type} [Add F] [Sub F] [Mul F] [Div F] [Arith F] {S : F → Prop}

theorem part_drop_perm {part : PartitionFn F} (hp : StdPartition part) (p : PW F → Bool) (l : List (PW F)) :
    ((part p l).1.drop (part p l).2).Perm (l.filter (fun e => !p e)) := by
  have h := ((hp.perm p l).filter (fun e => !p e))
  rw [← List.take_append_drop (part p l).2 (part p l).1, List.filter_append,
    List.filter_eq_nil_iff.2 (fun e he => by simp [hp.pos p l e he]),
    List.filter_eq_self.2 (fun e he => by simp [hp.neg p l e he]), List.nil_append] at h
  exact h

theorem splitBlocks_congr {part part' : PartitionFn F} (hp : StdPartition part) (hp' : StdPartition part')
    (ps : List (PW F → Bool)) (m m' : List (PW F)) (h : m.Perm m') :
    List.Forall₂ List.Perm (splitBlocks part ps m).1 (splitBlocks part' ps m').1 := by
  induction ps generalizing m m' with
  | nil => simp [splitBlocks]
  | cons p ps ih =>
    simp only [splitBlocks]
    exact .cons ((part_take_perm hp p m).trans ((h.filter p).trans (part_take_perm hp' p m').symm))
      (ih _ _ ((part_drop_perm hp p m).trans ((h.filter _).trans (part_drop_perm hp' p m').symm)))

theorem boxBlocks_congr {part part' : PartitionFn F} (hp : StdPartition part) (hp' : StdPartition part')
    (n : Nat) (lo up : Pt F) {m m' : List (PW F)} (h : m.Perm m') :
    List.Forall₂ List.Perm (boxBlocks part n lo up m) (boxBlocks part' n lo up m') :=
  filter_nonempty_congr (splitBlocks_congr hp hp' _ m m' h)

variable (h : BoxArith F S) (tri : ∀ a b : F, S a → S b → lt a b = false → lt b a = false → a = b)
  {part part' : PartitionFn F} (hp : StdPartition part) (hp' : StdPartition part')

include h tri hp hp'

theorem refBlocks_congr (maxBatch : Nat) (b b' : List (PW F)) (hb : b ≠ []) (hS : ∀ e ∈ b, PtIn S e.1)
    (hbb : b.Perm b') :
    List.Forall₂ List.Perm (refBlocks part maxBatch b) (refBlocks part' maxBatch b') := by
  unfold refBlocks
  rw [← hbb.length_eq]
  split
  · unfold subBlocks
    rw [← boxBounds_perm h.toWeakOrder tri (hbb.map Prod.fst) (by simpa using hb)
      (by simpa using fun p w hpw => hS (p, w) hpw)]
    obtain ⟨lo, up, e, -⟩ := bounds_of h.toWeakOrder b hb hS
    rw [e]
    exact boxBlocks_congr hp hp' _ lo up hbb
  · exact .cons hbb .nil

theorem refineLoop_congr {v v' : List (PW F)} (hvv : v.Perm v') (maxBatch : Nat) (hS : ∀ e ∈ v, PtIn S e.1)
    (hlt : v.length < sizeMod) (fuel : Nat) :
    ∀ bs bs', Blocked v bs → Blocked v' bs' → List.Forall₂ List.Perm bs bs' →
      (refineLoop part maxBatch fuel (bs.flatten, offsets 0 bs) = none ∧
        refineLoop part' maxBatch fuel (bs'.flatten, offsets 0 bs') = none) ∨
      ∃ cs cs', refineLoop part maxBatch fuel (bs.flatten, offsets 0 bs) = some (.ok (cs.flatten, offsets 0 cs)) ∧
        refineLoop part' maxBatch fuel (bs'.flatten, offsets 0 bs') = some (.ok (cs'.flatten, offsets 0 cs')) ∧
        Blocked v cs ∧ Blocked v' cs' ∧ List.Forall₂ List.Perm cs cs' ∧ ∀ b ∈ cs, b.length ≤ maxBatch := by
  have hS' : ∀ e ∈ v', PtIn S e.1 := fun e he => hS e (hvv.symm.subset he)
  induction fuel with
  | zero => intros; exact .inl ⟨rfl, rfl⟩
  | succ fuel ih =>
    intro bs bs' hB hB' hbb
    have hl : bs.flatten.length < sizeMod := by rw [hB.perm.length_eq]; exact hlt
    have hl' : bs'.flatten.length < sizeMod := by rw [hB'.perm.length_eq, ← hvv.length_eq]; exact hlt
    unfold refineLoop
    dsimp only
    rw [← offsets_congr 0 hbb]
    split
    · rw [refine_eq h hp maxBatch bs hB.ne (hB.inS hS) hl, offsets_congr 0 hbb,
        refine_eq h hp' maxBatch bs' hB'.ne (hB'.inS hS') hl']
      exact ih _ _ (hB.step h hp maxBatch hS) (hB'.step h hp' maxBatch hS') (flatMap_congr_perm _ _ hbb
        (fun b hb b' hbb' => refBlocks_congr h tri hp hp' maxBatch b b' (hB.ne b hb) (hB.inS hS b hb) hbb'))
    · rename_i hn
      rw [tooLarge_offsets maxBatch bs hl] at hn
      refine .inr ⟨bs, bs', rfl, by rw [offsets_congr 0 hbb], hB, hB', hbb, ?_⟩
      intro b hb
      by_contra hc
      exact hn ⟨b, hb, by omega⟩

theorem firstPartition_congr {v v' : List (PW F)} (hvv : v.Perm v') (hv : v ≠ []) (hS : ∀ e ∈ v, PtIn S e.1) :
    ∃ bs bs', firstPartition part v = .ok (bs.flatten, offsets 0 bs) ∧
      firstPartition part' v' = .ok (bs'.flatten, offsets 0 bs') ∧ Blocked v bs ∧ Blocked v' bs' ∧
      List.Forall₂ List.Perm bs bs' := by
  have hS' : ∀ e ∈ v', PtIn S e.1 := fun e he => hS e (hvv.symm.subset he)
  have hv' : v' ≠ [] := fun h0 => hv (by rw [h0] at hvv; exact List.perm_nil.1 hvv)
  have key : ∀ {part : PartitionFn F} (_ : StdPartition part) (v : List (PW F)) (_ : v ≠ []) (_ : ∀ e ∈ v, PtIn S e.1),
      ∀ lo up, boxBounds (v.map Prod.fst) = .ok (lo, up) →
      firstPartition part v = .ok ((boxBlocks part 3 lo up v).flatten, offsets 0 (boxBlocks part 3 lo up v)) ∧
      Blocked v (boxBlocks part 3 lo up v) := by
    intro part hp v hv hS lo up hlu
    obtain ⟨lo', up', h1, h2, h3, h4, -⟩ := bounds_of h.toWeakOrder v hv hS
    rw [hlu] at h1
    cases h1
    have hrest := boxRest_nil h hp 3 (by omega) lo up h2 h3 v h4
    refine ⟨?_, ?_, boxBlocks_ne part 3 lo up v, boxBlocks_together hp 3 lo up v⟩
    · unfold firstPartition
      rw [hlu, Outcome.ok_bind]
      have := partitionBox_eq hp 3 lo up [] v [] v.length (by simp)
      simpa [hrest] using this
    · have := boxBlocks_perm hp 3 lo up v
      rwa [hrest, List.append_nil] at this
  obtain ⟨lo, up, h1, -⟩ := bounds_of h.toWeakOrder v hv hS
  have h1' := h1
  rw [boxBounds_perm h.toWeakOrder tri (hvv.map Prod.fst) (by simpa using hv)
      (by simpa using fun p w hpw => hS (p, w) hpw)] at h1'
  obtain ⟨k1, k2⟩ := key hp v hv hS lo up h1
  obtain ⟨k3, k4⟩ := key hp' v' hv' hS' lo up h1'
  exact ⟨_, _, k1, k3, k2, k4, boxBlocks_congr hp hp' 3 lo up hvv⟩

/-- Both constructions, described by blocks that agree up to the order inside them. -/
theorem make_congr (maxBatch fuel : Nat) (q q' : SphQuad F) (hq : Consistent q.quad) (hq' : Consistent q'.quad)
    (hqq : (q.quad.points.zip q.quad.weights).Perm (q'.quad.points.zip q'.quad.weights)) (hne : q.quad.points ≠ [])
    (hS : ∀ p ∈ q.quad.points, PtIn S p) (hlt : q.quad.npts < sizeMod) :
    (Batcher.make part fuel maxBatch q = none ∧ Batcher.make part' fuel maxBatch q' = none) ∨
    ∃ cs cs', Blocked (q.quad.points.zip q.quad.weights) cs ∧ Blocked (q'.quad.points.zip q'.quad.weights) cs' ∧
      List.Forall₂ List.Perm cs cs' ∧ (∀ b ∈ cs, b.length ≤ maxBatch) ∧
      Batcher.make part fuel maxBatch q = some (.ok ⟨maxBatch,
        ⟨⟨cs.flatten.map Prod.fst, cs.flatten.map Prod.snd⟩, q.center⟩, offsets 0 cs⟩) ∧
      Batcher.make part' fuel maxBatch q' = some (.ok ⟨maxBatch,
        ⟨⟨cs'.flatten.map Prod.fst, cs'.flatten.map Prod.snd⟩, q'.center⟩, offsets 0 cs'⟩) := by
  have hzl : (q.quad.points.zip q.quad.weights).length = q.quad.points.length := by
    unfold Consistent at hq; simp [hq]
  have hzl' : (q'.quad.points.zip q'.quad.weights).length = q'.quad.points.length := by
    unfold Consistent at hq'; simp [hq']
  have hS1 : ∀ e ∈ q.quad.points.zip q.quad.weights, PtIn S e.1 := fun e he => hS e.1 (List.of_mem_zip he).1
  obtain ⟨bs, bs', f1, f2, B, B', hbb⟩ := firstPartition_congr h tri hp hp' hqq (by
    intro h0
    rw [h0] at hzl
    exact hne (List.length_eq_zero_iff.1 hzl.symm)) hS1
  unfold Batcher.make generateBatches
  rw [gather_eq _ hq, gather_eq _ hq', Outcome.ok_bind, Outcome.ok_bind, f1, f2]
  rcases refineLoop_congr h tri hp hp' hqq maxBatch hS1 (by rw [hzl]; exact hlt) fuel bs bs' B B' hbb with
    ⟨e1, e2⟩ | ⟨cs, cs', e1, e2, C, C', hcc, hle⟩
  · left
    dsimp only
    rw [e1, e2]
    exact ⟨rfl, rfl⟩
  · right
    refine ⟨cs, cs', C, C', hcc, hle, ?_, ?_⟩
    · dsimp only
      rw [e1]
      simp only [Option.map_some, Outcome.ok_bind]
      rw [scatter_eq _ _ hq (by rw [C.perm.length_eq, hzl]), Outcome.ok_bind]
      rfl
    · dsimp only
      rw [e2]
      simp only [Option.map_some, Outcome.ok_bind]
      rw [scatter_eq _ _ hq' (by rw [C'.perm.length_eq, hzl']), Outcome.ok_bind]
      rfl

end

end IntegratorXX
