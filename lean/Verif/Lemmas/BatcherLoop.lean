import Verif.Lemmas.BatcherForms

/-!
# The refinement loop of the batcher (helper lemmas)
-/

set_option linter.unusedSectionVars false

namespace IntegratorXX

open Spec Arith

section
variable {α : Type}

theorem flatMap_flatten_perm (g : List α → List (List α)) (bs : List (List α))
    (h : ∀ b ∈ bs, (g b).flatten.Perm b) : (bs.flatMap g).flatten.Perm bs.flatten := by
  induction bs with
  | nil => simp
  | cons b bs ih =>
    simp only [List.flatMap_cons, List.flatten_append, List.flatten_cons]
    exact (h b (by simp)).append (ih (fun c hc => h c (by simp [hc])))

theorem mem_offsets_append (a x : Nat) (xs ys : List (List α)) :
    x ∈ offsets a (xs ++ ys) ↔ x ∈ offsets a xs ∨ x ∈ offsets (a + xs.flatten.length) ys := by
  induction xs generalizing a with
  | nil =>
    obtain ⟨l, hl⟩ := offsets_cons_head a ys
    simp only [List.nil_append, List.flatten_nil, List.length_nil, Nat.add_zero, offsets,
      hl, List.mem_cons]
    tauto
  | cons b xs ih =>
    simp only [List.cons_append, offsets, List.mem_cons, ih, List.flatten_cons,
      List.length_append, Nat.add_assoc]
    tauto

theorem mem_offsets_flatMap (g : List α → List (List α)) (big : List α → Prop) (a x : Nat)
    (bs : List (List α)) (h : ∀ b ∈ bs, (g b).flatten.length = b.length)
    (hs : ∀ b ∈ bs, ¬big b → g b = [b]) :
    x ∈ offsets a (bs.flatMap g) ↔ x ∈ offsets a bs ∨
      ∃ bs1 b bs2, bs = bs1 ++ b :: bs2 ∧ big b ∧ x ∈ offsets (a + bs1.flatten.length) (g b) := by
  induction bs generalizing a with
  | nil => simp
  | cons b bs ih =>
    rw [List.flatMap_cons, mem_offsets_append, h b (by simp),
      ih (a + b.length) (fun c hc => h c (by simp [hc])) (fun c hc => hs c (by simp [hc]))]
    simp only [offsets, List.mem_cons]
    constructor
    · rintro (hx | hx | ⟨bs1, c, bs2, rfl, hc, hx⟩)
      · by_cases hb : big b
        · exact .inr ⟨[], b, bs, rfl, hb, by simpa using hx⟩
        · rw [hs b (by simp) hb] at hx
          simp only [offsets, List.mem_cons, List.not_mem_nil, or_false] at hx
          rcases hx with rfl | rfl
          · exact .inl (.inl rfl)
          · obtain ⟨l, hl⟩ := offsets_cons_head (a + b.length) bs
            exact .inl (.inr (by simp [hl]))
      · exact .inl (.inr hx)
      · exact .inr ⟨b :: bs1, c, bs2, rfl, hc, by simpa [Nat.add_assoc] using hx⟩
    · rintro ((rfl | hx) | ⟨bs1, c, bs2, he, hc, hx⟩)
      · left
        obtain ⟨l, hl⟩ := offsets_cons_head x (g b)
        simp [hl]
      · exact .inr (.inl hx)
      · cases bs1 with
        | nil =>
          simp only [List.nil_append, List.cons.injEq] at he
          obtain ⟨rfl, rfl⟩ := he
          exact .inl (by simpa using hx)
        | cons b' bs1 =>
          simp only [List.cons_append, List.cons.injEq] at he
          obtain ⟨rfl, rfl⟩ := he
          exact .inr (.inr ⟨bs1, c, bs2, rfl, hc, by
            simpa [Nat.add_assoc] using hx⟩)

end

section
variable {F : Type} [Add F] [Sub F] [Mul F] [Div F] [Arith F] {S : F → Prop}

/-- The number of cells per direction chosen for a box (3 when it contains the origin). -/
def cellCount (lo up : Pt F) : Nat :=
  if pointInBox lo up ⟨lit 0, lit 0, lit 0⟩ then 3 else 2

theorem cellCount_cases (lo up : Pt F) : cellCount lo up = 2 ∨ cellCount lo up = 3 := by
  unfold cellCount; split <;> simp

/-- The blocks a large block is split into. -/
def subBlocks (part : PartitionFn F) (b : List (PW F)) : List (List (PW F)) :=
  match boxBounds (b.map Prod.fst) with
  | .ok (lo, up) => boxBlocks part (cellCount lo up) lo up b
  | _ => []

/-- What happens to a block in one iteration. -/
def refBlocks (part : PartitionFn F) (maxBatch : Nat) (b : List (PW F)) : List (List (PW F)) :=
  if b.length > maxBatch then subBlocks part b else [b]

/-- Blocks containing a common point are the same. -/
def Together (bs : List (List (PW F))) : Prop :=
  bs.Pairwise (fun b b' => ∀ e ∈ b, ∀ e' ∈ b', e.1 ≠ e'.1)

theorem bounds_of (h : WeakOrder F S) (b : List (PW F)) (hb : b ≠ [])
    (hS : ∀ e ∈ b, PtIn S e.1) :
    ∃ lo up, boxBounds (b.map Prod.fst) = .ok (lo, up) ∧ PtIn S lo ∧ PtIn S up ∧
      (∀ e ∈ b, PtIn S e.1 ∧ InBox lo up e.1) ∧
      (∃ e ∈ b, e.1.x = lo.x) ∧ (∃ e ∈ b, e.1.y = lo.y) ∧ (∃ e ∈ b, e.1.z = lo.z) ∧
      (∃ e ∈ b, e.1.x = up.x) ∧ (∃ e ∈ b, e.1.y = up.y) ∧ (∃ e ∈ b, e.1.z = up.z) := by
  obtain ⟨lo, up, h1, h2, h3, h4, h5⟩ := boxBounds_spec h (b.map Prod.fst) (by simpa using hb)
    (by simpa using fun p w hpw => hS (p, w) hpw)
  refine ⟨lo, up, h1, h2, h3, fun e he => ⟨hS e he, h4 e.1 (List.mem_map_of_mem he)⟩, ?_⟩
  simpa using h5

theorem subBlocks_spec (h : BoxArith F S) {part : PartitionFn F} (hp : StdPartition part)
    (b : List (PW F)) (hb : b ≠ []) (hS : ∀ e ∈ b, PtIn S e.1) :
    ∃ lo up, boxBounds (b.map Prod.fst) = .ok (lo, up) ∧
      subBlocks part b = boxBlocks part (cellCount lo up) lo up b ∧
      boxRest part (cellCount lo up) lo up b = [] ∧ (subBlocks part b).flatten.Perm b ∧
      (∀ c ∈ subBlocks part b, c ≠ []) ∧ Together (subBlocks part b) := by
  obtain ⟨lo, up, h1, h2, h3, h4, -⟩ := bounds_of h.toWeakOrder b hb hS
  have hsub : subBlocks part b = boxBlocks part (cellCount lo up) lo up b := by
    unfold subBlocks; rw [h1]
  have hc : 1 ≤ cellCount lo up := by rcases cellCount_cases lo up with e | e <;> omega
  have hrest := boxRest_nil h hp (cellCount lo up) hc lo up h2 h3 b h4
  refine ⟨lo, up, h1, hsub, hrest, ?_, ?_, ?_⟩
  · have := boxBlocks_perm hp (cellCount lo up) lo up b
    rwa [hrest, List.append_nil, ← hsub] at this
  · rw [hsub]; exact boxBlocks_ne part _ lo up b
  · rw [hsub]; exact boxBlocks_together hp _ lo up b

theorem refBlocks_perm (h : BoxArith F S) {part : PartitionFn F} (hp : StdPartition part)
    (maxBatch : Nat) (b : List (PW F)) (hb : b ≠ []) (hS : ∀ e ∈ b, PtIn S e.1) :
    (refBlocks part maxBatch b).flatten.Perm b ∧ (∀ c ∈ refBlocks part maxBatch b, c ≠ []) ∧
      Together (refBlocks part maxBatch b) := by
  unfold refBlocks
  split
  · obtain ⟨_, _, -, -, -, h1, h2, h3⟩ := subBlocks_spec h hp b hb hS
    exact ⟨h1, h2, h3⟩
  · simp [hb, Together]

theorem refinePart_eq (h : BoxArith F S) {part : PartitionFn F} (hp : StdPartition part)
    (maxBatch : Nat) (its counts : List Nat) (ip : Nat) (P b D : List (PW F)) (hb : b ≠ [])
    (hS : ∀ e ∈ b, PtIn S e.1) (hc : counts[ip]? = some b.length)
    (h1 : its[ip]? = some P.length) (h2 : its[ip + 1]? = some (P.length + b.length))
    (new : List Nat) :
    refinePart part maxBatch its counts ip (P ++ b ++ D, new) =
      .ok (P ++ (refBlocks part maxBatch b).flatten ++ D,
        if b.length > maxBatch then new ++ offsets P.length (subBlocks part b) else new) := by
  unfold refinePart refBlocks
  rw [vget_ok hc, Outcome.ok_bind]
  by_cases hl : b.length > maxBatch
  · rw [if_pos hl, if_pos hl, if_pos hl, vget_ok h1, Outcome.ok_bind, vget_ok h2,
      Outcome.ok_bind]
    have hsl : slice (P ++ b ++ D) P.length (P.length + b.length) = b := by
      unfold slice
      rw [List.take_append_of_le_length (by simp), List.take_of_length_le (by simp),
        List.drop_append_of_le_length (by simp), List.drop_of_length_le (by simp)]
      rfl
    obtain ⟨lo, up, e1, e2, e3, -⟩ := subBlocks_spec h hp b hb hS
    dsimp only
    rw [hsl, e1, Outcome.ok_bind]
    show (partitionBox part (cellCount lo up) lo up (P ++ b ++ D) P.length _ >>= _) = _
    rw [partitionBox_eq hp _ lo up P b D _ rfl, e3, Outcome.ok_bind, e2]
    simp
  · rw [if_neg hl, if_neg hl, if_neg hl]
    simp

theorem refine_eq (h : BoxArith F S) {part : PartitionFn F} (hp : StdPartition part)
    (maxBatch : Nat) (bs : List (List (PW F))) (hne : ∀ b ∈ bs, b ≠ [])
    (hS : ∀ b ∈ bs, ∀ e ∈ b, PtIn S e.1) (hlt : bs.flatten.length < sizeMod) :
    refine part maxBatch (bs.flatten, offsets 0 bs) =
      .ok ((bs.flatMap (refBlocks part maxBatch)).flatten,
        offsets 0 (bs.flatMap (refBlocks part maxBatch))) := by
  set g := refBlocks part maxBatch with hg
  have hgp : ∀ b ∈ bs, (g b).flatten.Perm b := fun b hb =>
    (refBlocks_perm h hp maxBatch b (hne b hb) (hS b hb)).1
  have hgl : ∀ b ∈ bs, (g b).flatten.length = b.length := fun b hb => (hgp b hb).length_eq
  unfold refine
  dsimp only
  rw [partCounts_offsets 0 bs (by omega), List.length_map]
  obtain ⟨⟨q, new⟩, e1, e2, e3⟩ := forRange_inv
    (body := refinePart part maxBatch (offsets 0 bs) (bs.map List.length))
    (fun ip (s : List (PW F) × List Nat) =>
      s.1 = ((bs.take ip).flatMap g).flatten ++ (bs.drop ip).flatten ∧
      ∀ x, x ∈ s.2 ↔ ∃ i b, bs[i]? = some b ∧ i < ip ∧ b.length > maxBatch ∧
        x ∈ offsets (bs.take i).flatten.length (g b))
    (Nat.zero_le bs.length) (s := (bs.flatten, [])) ⟨by simp, by simp⟩ (by
      rintro i ⟨q, new⟩ - hi ⟨hq, hnew⟩
      dsimp only at hq hnew
      have hbm : bs[i] ∈ bs := List.getElem_mem hi
      have hlen : ((bs.take i).flatMap g).flatten.length = (bs.take i).flatten.length :=
        (flatMap_flatten_perm g (bs.take i)
          (fun b hb => hgp b (List.mem_of_mem_take hb))).length_eq
      have hq' : q = ((bs.take i).flatMap g).flatten ++ bs[i] ++ (bs.drop (i + 1)).flatten := by
        rw [hq, List.drop_eq_getElem_cons hi, List.flatten_cons, List.append_assoc]
      refine ⟨_, by
        rw [hq']
        exact refinePart_eq h hp maxBatch (offsets 0 bs) (bs.map List.length) i _ bs[i] _
          (hne _ hbm) (hS _ hbm) (by simp [hi])
          (by rw [offsets_getElem? 0 i bs (by omega), hlen, Nat.zero_add])
          (by rw [offsets_getElem? 0 (i + 1) bs (by omega), hlen, Nat.zero_add,
                List.take_succ_eq_append_getElem hi, List.flatten_append, List.length_append,
                List.flatten_cons, List.flatten_nil, List.append_nil]) new, ?_, ?_⟩
      · dsimp only
        rw [List.take_succ_eq_append_getElem hi]
        simp only [List.flatMap_append, List.flatMap_cons, List.flatMap_nil, List.append_nil,
          List.flatten_append, hg]
      · intro x
        dsimp only
        by_cases hl : bs[i].length > maxBatch
        · rw [if_pos hl, List.mem_append, hnew x, hlen]
          have hgi : g bs[i] = subBlocks part bs[i] := by rw [hg]; unfold refBlocks; rw [if_pos hl]
          constructor
          · rintro (⟨j, b, hj, hji, hbl, hx⟩ | hx)
            · exact ⟨j, b, hj, by omega, hbl, hx⟩
            · exact ⟨i, bs[i], by simp [hi], by omega, hl, by rw [hgi]; exact hx⟩
          · rintro ⟨j, b, hj, hji, hbl, hx⟩
            by_cases hjl : j < i
            · exact .inl ⟨j, b, hj, hjl, hbl, hx⟩
            · have : j = i := by omega
              subst this
              rw [List.getElem?_eq_getElem hi] at hj
              cases hj
              right; rw [← hgi]; exact hx
        · rw [if_neg hl, hnew x]
          constructor
          · rintro ⟨j, b, hj, hji, hbl, hx⟩
            exact ⟨j, b, hj, by omega, hbl, hx⟩
          · rintro ⟨j, b, hj, hji, hbl, hx⟩
            refine ⟨j, b, hj, ?_, hbl, hx⟩
            by_contra hjl
            have : j = i := by omega
            subst this
            rw [List.getElem?_eq_getElem hi] at hj
            cases hj
            exact hl hbl)
  dsimp only at e2 e3
  rw [e1, Outcome.ok_bind]
  simp only [List.take_length, List.drop_length, List.flatten_nil, List.append_nil] at e2
  rw [Outcome.pure_eq, e2]
  congr 2
  apply eq_of_mem_iff
  · apply setUnion_pairwise _ _ (offsets_pairwise 0 bs hne)
    apply uniq_pairwise
    have := List.pairwise_mergeSort (le := fun a b : Nat => decide (a ≤ b))
      (by intro a b c; simp; omega) (by intro a b; simp; omega) new
    exact this.imp (by simp)
  · apply offsets_pairwise
    intro c hc
    obtain ⟨b, hb, hc⟩ := List.mem_flatMap.1 hc
    exact (refBlocks_perm h hp maxBatch b (hne b hb) (hS b hb)).2.1 c hc
  · intro x
    rw [mem_setUnion, mem_uniq, List.mem_mergeSort, e3 x,
      mem_offsets_flatMap g (fun b => b.length > maxBatch) 0 x bs hgl
        (fun b _ hl => by rw [hg]; unfold refBlocks; rw [if_neg hl])]
    constructor
    · rintro (hx | ⟨i, b, hi, hil, hbl, hx⟩)
      · exact .inl hx
      · refine .inr ⟨bs.take i, b, bs.drop (i + 1), ?_, hbl, by simpa using hx⟩
        obtain ⟨hi', rfl⟩ := List.getElem?_eq_some_iff.1 hi
        rw [← List.drop_eq_getElem_cons hi', List.take_append_drop]
    · rintro (hx | ⟨bs1, b, bs2, rfl, hbl, hx⟩)
      · exact .inl hx
      · exact .inr ⟨bs1.length, b, by simp, by simp, hbl, by simpa using hx⟩

theorem tooLarge_offsets (maxBatch : Nat) (bs : List (List (PW F)))
    (hlt : bs.flatten.length < sizeMod) :
    tooLarge maxBatch (offsets 0 bs) = true ↔ ∃ b ∈ bs, maxBatch < b.length := by
  unfold tooLarge
  rw [partCounts_offsets 0 bs (by omega)]
  simp

/-- The block structure maintained by the loop over the vector `v`. -/
structure Blocked (v : List (PW F)) (bs : List (List (PW F))) : Prop where
  perm : bs.flatten.Perm v
  ne : ∀ b ∈ bs, b ≠ []
  tog : Together bs

theorem together_flatMap (g : List (PW F) → List (List (PW F))) (bs : List (List (PW F)))
    (hb : Together bs) (hg : ∀ b ∈ bs, Together (g b)) (hp : ∀ b ∈ bs, (g b).flatten.Perm b) :
    Together (bs.flatMap g) := by
  unfold Together at *
  induction bs with
  | nil => simp
  | cons b bs ih =>
    rw [List.flatMap_cons, List.pairwise_append]
    rw [List.pairwise_cons] at hb
    refine ⟨hg b (by simp), ih hb.2 (fun c hc => hg c (by simp [hc]))
      (fun c hc => hp c (by simp [hc])), ?_⟩
    intro c hc c' hc' e he e' he'
    obtain ⟨d, hd, hc'⟩ := List.mem_flatMap.1 hc'
    exact hb.1 d hd e ((hp b (by simp)).subset (List.mem_flatten.2 ⟨c, hc, he⟩)) e'
      ((hp d (by simp [hd])).subset (List.mem_flatten.2 ⟨c', hc', he'⟩))

section
variable {v : List (PW F)} {bs : List (List (PW F))}

theorem Blocked.inS (hB : Blocked v bs) (hS : ∀ e ∈ v, PtIn S e.1) :
    ∀ b ∈ bs, ∀ e ∈ b, PtIn S e.1 := fun b hb e he =>
  hS e (hB.perm.subset (List.mem_flatten.2 ⟨b, hb, he⟩))

theorem Blocked.step (h : BoxArith F S) {part : PartitionFn F} (hp : StdPartition part)
    (maxBatch : Nat) (hS : ∀ e ∈ v, PtIn S e.1) (hB : Blocked v bs) :
    Blocked v (bs.flatMap (refBlocks part maxBatch)) := by
  have hr := fun b hb => refBlocks_perm h hp maxBatch b (hB.ne b hb) (hB.inS hS b hb)
  refine ⟨(flatMap_flatten_perm _ _ (fun b hb => (hr b hb).1)).trans hB.perm, ?_,
    together_flatMap _ _ hB.tog (fun b hb => (hr b hb).2.2) (fun b hb => (hr b hb).1)⟩
  intro c hc
  obtain ⟨b, hb, hc⟩ := List.mem_flatMap.1 hc
  exact (hr b hb).2.1 c hc

/-- Partial correctness of the loop. -/
theorem refineLoop_some (h : BoxArith F S) {part : PartitionFn F} (hp : StdPartition part)
    (maxBatch : Nat) (hS : ∀ e ∈ v, PtIn S e.1) (hlt : v.length < sizeMod) (fuel : Nat) :
    ∀ bs, Blocked v bs → ∀ r, refineLoop part maxBatch fuel (bs.flatten, offsets 0 bs) = some r →
      ∃ bs', r = .ok (bs'.flatten, offsets 0 bs') ∧ Blocked v bs' ∧
        ∀ b ∈ bs', b.length ≤ maxBatch := by
  induction fuel with
  | zero => intro bs _ r hr; cases hr
  | succ fuel ih =>
    intro bs hB r hr
    have hl : bs.flatten.length < sizeMod := by rw [hB.perm.length_eq]; exact hlt
    unfold refineLoop at hr
    dsimp only at hr
    split at hr
    · rw [refine_eq h hp maxBatch bs hB.ne (hB.inS hS) hl] at hr
      exact ih _ (hB.step h hp maxBatch hS) r hr
    · rename_i hn
      rw [tooLarge_offsets maxBatch bs hl] at hn
      refine ⟨bs, (Option.some.inj hr).symm, hB, ?_⟩
      intro b hb
      by_contra hc
      exact hn ⟨b, hb, by omega⟩

/-- A point occurring too often keeps the loop running forever. -/
theorem refineLoop_none [DecidableEq (Pt F)] (h : BoxArith F S) {part : PartitionFn F}
    (hp : StdPartition part) (maxBatch : Nat) (hS : ∀ e ∈ v, PtIn S e.1)
    (hlt : v.length < sizeMod) (p : Pt F) (hc : maxBatch < (v.map Prod.fst).count p)
    (fuel : Nat) :
    ∀ bs, Blocked v bs → refineLoop part maxBatch fuel (bs.flatten, offsets 0 bs) = none := by
  induction fuel with
  | zero => intros; rfl
  | succ fuel ih =>
    intro bs hB
    have hl : bs.flatten.length < sizeMod := by rw [hB.perm.length_eq]; exact hlt
    have hbig : ∃ b ∈ bs, maxBatch < b.length := by
      have hcount : maxBatch < (bs.flatten.map Prod.fst).count p := by
        rw [(hB.perm.map Prod.fst).count_eq]; exact hc
      clear ih hl
      have htog := hB.tog
      clear hB hc
      unfold Together at htog
      induction bs with
      | nil => simp at hcount
      | cons b bs ih2 =>
        rw [List.pairwise_cons] at htog
        rw [List.flatten_cons, List.map_append, List.count_append] at hcount
        by_cases hb : p ∈ b.map Prod.fst
        · have h0 : (bs.flatten.map Prod.fst).count p = 0 := by
            rw [List.count_eq_zero]
            intro hm
            obtain ⟨e, he, rfl⟩ := List.mem_map.1 hb
            obtain ⟨e', he', heq⟩ := List.mem_map.1 hm
            obtain ⟨c, hc, he'⟩ := List.mem_flatten.1 he'
            exact htog.1 c hc e he e' he' heq.symm
          have := List.count_le_length (a := p) (l := b.map Prod.fst)
          rw [List.length_map] at this
          exact ⟨b, by simp, by omega⟩
        · rw [List.count_eq_zero.2 hb, Nat.zero_add] at hcount
          obtain ⟨c, hc, h2⟩ := ih2 hcount htog.2
          exact ⟨c, by simp [hc], h2⟩
    unfold refineLoop
    dsimp only
    rw [if_pos ((tooLarge_offsets maxBatch bs hl).2 hbig),
      refine_eq h hp maxBatch bs hB.ne (hB.inS hS) hl]
    exact ih _ (hB.step h hp maxBatch hS)

/-- A block with two points parted by subdivision is split. -/
theorem subBlocks_two (h : BoxArith F S) {part : PartitionFn F} (hp : StdPartition part)
    (b : List (PW F)) (hS : ∀ e ∈ b, PtIn S e.1) (e e' : PW F) (he : e ∈ b) (he' : e' ∈ b)
    (hne : PtParted S e.1 e'.1) : 2 ≤ (subBlocks part b).length := by
  have hb : b ≠ [] := List.ne_nil_of_mem he
  obtain ⟨lo, up, h1, h2, h3, h4, ⟨lx, hlx, elx⟩, ⟨ly, hly, ely⟩, ⟨lz, hlz, elz⟩,
    ⟨ux, hux, eux⟩, ⟨uy, huy, euy⟩, ⟨uz, huz, euz⟩⟩ := bounds_of h.toWeakOrder b hb hS
  obtain ⟨lo', up', h1', hsub, hrest, hperm, -, -⟩ := subBlocks_spec h hp b hb hS
  rw [h1] at h1'
  cases h1'
  have hn := cellCount_cases lo up
  -- two elements that no cell contains
  have key : ∀ (c : Pt F → F) (a u : PW F), a ∈ b → u ∈ b →
      (∀ i j k, i < cellCount lo up → j < cellCount lo up → k < cellCount lo up →
        ¬(InBox (gridPt (cellCount lo up) lo up i j k)
            (gridPt (cellCount lo up) lo up (i + 1) (j + 1) (k + 1)) a.1 ∧
          InBox (gridPt (cellCount lo up) lo up i j k)
            (gridPt (cellCount lo up) lo up (i + 1) (j + 1) (k + 1)) u.1)) →
      2 ≤ (subBlocks part b).length := by
    intro c a u ha hu hno
    obtain ⟨ba, hba, haba⟩ := List.mem_flatten.1 (hperm.symm.subset ha)
    obtain ⟨bu, hbu, hubu⟩ := List.mem_flatten.1 (hperm.symm.subset hu)
    have hdiff : ba ≠ bu := by
      rintro rfl
      rw [hsub] at hba
      obtain ⟨i, j, k, hi, hj, hk, hcell⟩ := boxBlocks_cell hp _ lo up b ba hba
      exact hno i j k hi hj hk ⟨hcell a haba, hcell u hubu⟩
    match hl : subBlocks part b, hba, hbu with
    | [], hba, _ => simp at hba
    | [x], hba, hbu =>
      simp only [List.mem_singleton] at hba hbu
      exact absurd (hba.trans hbu.symm) hdiff
    | x :: y :: l, _, _ => simp
  obtain ⟨hSe, ⟨x1, x2⟩, ⟨y1, y2⟩, ⟨z1, z2⟩⟩ := h4 e he
  obtain ⟨hSe', ⟨x1', x2'⟩, ⟨y1', y2'⟩, ⟨z1', z2'⟩⟩ := h4 e' he'
  rcases hne with hx | hy | hz
  · refine key Pt.x lx ux hlx hux ?_
    rintro i j k hi hj hk ⟨⟨⟨-, ha⟩, -⟩, ⟨⟨hu, -⟩, -⟩⟩
    rw [elx] at ha
    rw [eux] at hu
    exact hx _ _ h2.1 h3.1 x2 x2' x1 x1' _ hn i hi ⟨ha, hu⟩
  · refine key Pt.y ly uy hly huy ?_
    rintro i j k hi hj hk ⟨⟨-, ⟨-, ha⟩, -⟩, ⟨-, ⟨hu, -⟩, -⟩⟩
    rw [ely] at ha
    rw [euy] at hu
    exact hy _ _ h2.2.1 h3.2.1 y2 y2' y1 y1' _ hn j hj ⟨ha, hu⟩
  · refine key Pt.z lz uz hlz huz ?_
    rintro i j k hi hj hk ⟨⟨-, -, -, ha⟩, ⟨-, -, hu, -⟩⟩
    rw [elz] at ha
    rw [euz] at hu
    exact hz _ _ h2.2.2 h3.2.2 z2 z2' z1 z1' _ hn k hk ⟨ha, hu⟩

/-- Different points are parted when subdivision separates the ends of every interval. -/
theorem splitArith_parted (h : SplitArith F S) {p q : Pt F} (hSp : PtIn S p) (hSq : PtIn S q) (hne : p ≠ q) :
    PtParted S p q := by
  have strict : ∀ a a' : F, S a → S a' → a ≠ a' → Parted S a a' := by
    intro a a' ha ha' hne l u hl hu h1 h2 h3 h4
    refine h.split l u hl hu ?_
    by_contra hlu
    have hlu : lt l u = false := by simpa using hlu
    apply hne
    apply h.tri a a' ha ha'
    · exact h.negTrans _ _ _ ha hl ha' h1 (h.negTrans _ _ _ hl hu ha' hlu h4)
    · exact h.negTrans _ _ _ ha' hl ha h2 (h.negTrans _ _ _ hl hu ha hlu h3)
  by_cases hx : p.x = q.x
  · by_cases hy : p.y = q.y
    · refine .inr (.inr (strict _ _ hSp.2.2 hSq.2.2 fun hz => hne ?_))
      cases p; cases q
      simp only [Pt.mk.injEq]
      exact ⟨hx, hy, hz⟩
    · exact .inr (.inl (strict _ _ hSp.2.1 hSq.2.1 hy))
  · exact .inl (strict _ _ hSp.1 hSq.1 hx)

/-- With multiplicities within the limit the loop returns. -/
theorem refineLoop_terminates [DecidableEq (Pt F)] (h : BoxArith F S) {part : PartitionFn F}
    (hp : StdPartition part) (maxBatch : Nat) (hS : ∀ e ∈ v, PtIn S e.1)
    (hpt : ∀ e ∈ v, ∀ e' ∈ v, e.1 ≠ e'.1 → PtParted S e.1 e'.1)
    (hlt : v.length < sizeMod) (hc : ∀ p, (v.map Prod.fst).count p ≤ maxBatch) (fuel : Nat) :
    ∀ bs, Blocked v bs → v.length < bs.length + fuel →
      ∃ r, refineLoop part maxBatch fuel (bs.flatten, offsets 0 bs) = some r := by
  induction fuel with
  | zero =>
    intro bs hB hf
    exfalso
    have h1 : bs.length ≤ bs.flatten.length := by
      have := hB.ne
      clear hf hB
      induction bs with
      | nil => simp
      | cons b bs ih =>
        have := List.length_pos_of_ne_nil (this b (by simp))
        have := ih (fun c hc => ‹∀ b' ∈ b :: bs, b' ≠ []› c (by simp [hc]))
        simp only [List.length_cons, List.flatten_cons, List.length_append]
        omega
    rw [hB.perm.length_eq] at h1
    omega
  | succ fuel ih =>
    intro bs hB hf
    have hl : bs.flatten.length < sizeMod := by rw [hB.perm.length_eq]; exact hlt
    unfold refineLoop
    dsimp only
    split
    · rename_i hbig
      rw [tooLarge_offsets maxBatch bs hl] at hbig
      rw [refine_eq h hp maxBatch bs hB.ne (hB.inS hS) hl]
      refine ih _ (hB.step h hp maxBatch hS) ?_
      have hge : ∀ b ∈ bs, 1 ≤ (refBlocks part maxBatch b).length := by
        intro b hb
        have h1 := (refBlocks_perm h hp maxBatch b (hB.ne b hb) (hB.inS hS b hb)).1
        rcases Nat.eq_zero_or_pos (refBlocks part maxBatch b).length with h0 | h0
        · rw [List.length_eq_zero_iff] at h0
          rw [h0] at h1
          exact absurd (List.Perm.eq_nil (by simpa using h1.symm)) (hB.ne b hb)
        · exact h0
      have htwo : ∀ b ∈ bs, maxBatch < b.length → 2 ≤ (refBlocks part maxBatch b).length := by
        intro b hb hbl
        unfold refBlocks
        rw [if_pos hbl]
        by_contra hlt2
        have hall : ∀ e ∈ b, ∀ e' ∈ b, e.1 = e'.1 := by
          intro e he e' he'
          by_contra hne
          exact hlt2 (subBlocks_two h hp b (hB.inS hS b hb) e e' he he' (hpt e
            (hB.perm.subset (List.mem_flatten.2 ⟨b, hb, he⟩)) e' (hB.perm.subset (List.mem_flatten.2 ⟨b, hb, he'⟩)) hne))
        cases b with
        | nil => exact hB.ne _ hb rfl
        | cons e b =>
          have h1 : ((e :: b).map Prod.fst).count e.1 = (e :: b).length := by
            rw [List.count_eq_length.2, List.length_map]
            intro p hp'
            obtain ⟨e', he', rfl⟩ := List.mem_map.1 hp'
            exact hall e (by simp) e' he'
          have h2 : ((e :: b).map Prod.fst).count e.1 ≤ (v.map Prod.fst).count e.1 := by
            rw [← (hB.perm.map Prod.fst).count_eq]
            exact ((List.sublist_flatten_of_mem hb).map Prod.fst).count_le e.1
          have := hc e.1
          omega
      have hgrow : bs.length < (bs.flatMap (refBlocks part maxBatch)).length := by
        clear ih hf hl hB
        have mono : ∀ l : List (List (PW F)), (∀ b ∈ l, 1 ≤ (refBlocks part maxBatch b).length) →
            l.length ≤ (l.flatMap (refBlocks part maxBatch)).length := by
          intro l hl
          induction l with
          | nil => simp
          | cons b l ih =>
            have := hl b (by simp)
            have := ih (fun c hc => hl c (by simp [hc]))
            simp only [List.flatMap_cons, List.length_append, List.length_cons]
            omega
        obtain ⟨b, hb, hbl⟩ := hbig
        obtain ⟨l1, l2, rfl⟩ := List.append_of_mem hb
        have m1 := mono l1 (fun c hc => hge c (by simp [hc]))
        have m2 := mono l2 (fun c hc => hge c (by simp [hc]))
        have m3 := htwo b (by simp) hbl
        simp only [List.flatMap_append, List.flatMap_cons, List.length_append, List.length_cons]
        omega
      omega
    · exact ⟨_, rfl⟩

/-- The first partition of a non-empty vector. -/
theorem firstPartition_eq (h : BoxArith F S) {part : PartitionFn F} (hp : StdPartition part)
    (v : List (PW F)) (hv : v ≠ []) (hS : ∀ e ∈ v, PtIn S e.1) :
    ∃ bs, firstPartition part v = .ok (bs.flatten, offsets 0 bs) ∧ Blocked v bs := by
  obtain ⟨lo, up, h1, h2, h3, h4, -⟩ := bounds_of h.toWeakOrder v hv hS
  have hrest := boxRest_nil h hp 3 (by omega) lo up h2 h3 v h4
  refine ⟨boxBlocks part 3 lo up v, ?_, ?_, boxBlocks_ne part 3 lo up v,
    boxBlocks_together hp 3 lo up v⟩
  · unfold firstPartition
    rw [h1, Outcome.ok_bind]
    have := partitionBox_eq hp 3 lo up [] v [] v.length (by simp)
    simpa [hrest] using this
  · have := boxBlocks_perm hp 3 lo up v
    rwa [hrest, List.append_nil] at this

theorem gather_eq (q : Quad (Pt F) F) (hq : Consistent q) :
    gather q = .ok (q.points.zip q.weights) := by
  unfold Consistent at hq
  unfold gather Quad.npts
  have e : q.points.zip q.weights = (List.range q.points.length).map
      (fun i => (q.points[i]?.getD ⟨lit 0, lit 0, lit 0⟩, q.weights[i]?.getD (lit 0))) := by
    apply eq_map_range (by simp [hq])
    intro j hj
    have hj' : j < q.weights.length := by omega
    simp [hj, hj']
  rw [e, ← forRange_fill _ (List.replicate q.points.length _) (by simp)]
  apply forRange_congr
  intro i s _ hi
  rw [vget_lt hi, Outcome.ok_bind, vget_lt (by omega), Outcome.ok_bind]
  have hi' : i < q.weights.length := by omega
  simp [hi, hi']

theorem scatter_eq (s : List (PW F)) (q : Quad (Pt F) F) (hq : Consistent q)
    (hs : s.length = q.points.length) :
    scatter s q = .ok ⟨s.map Prod.fst, s.map Prod.snd⟩ := by
  unfold Consistent at hq
  unfold scatter Quad.npts
  have e1 : ∀ {β : Type} (f : PW F → β) (d : β), s.map f = (List.range q.points.length).map
      (fun i => (s[i]?.map f).getD d) := by
    intro β f d
    apply eq_map_range (by simp [hs])
    intro j hj
    have hj' : j < s.length := by omega
    simp [hj']
  have := forRange_fill2 (n := q.points.length)
    (fun i => (s[i]?.map Prod.fst).getD ⟨lit 0, lit 0, lit 0⟩)
    (fun i => (s[i]?.map Prod.snd).getD (lit 0)) (fun i (pw : List (Pt F) × List F) => do
      let p ← vset pw.1 i ((s[i]?.map Prod.fst).getD ⟨lit 0, lit 0, lit 0⟩)
      let w ← vset pw.2 i ((s[i]?.map Prod.snd).getD (lit 0))
      pure (p, w)) (fun _ _ => rfl) q.points q.weights rfl hq.symm
  rw [e1 Prod.fst ⟨lit 0, lit 0, lit 0⟩, e1 Prod.snd (lit 0)]
  have h2 : forRange 0 q.points.length (fun i (pw : List (Pt F) × List F) => do
      let e ← vget s i
      let p ← vset pw.1 i e.1
      let w ← vset pw.2 i e.2
      pure (p, w)) (q.points, q.weights) = _ := (forRange_congr _ (by
        intro i pw _ hi
        have hi' : i < s.length := by omega
        rw [vget_lt hi', Outcome.ok_bind]
        simp [hi'])).trans this
  rw [h2]
  rfl

end

end

end IntegratorXX
