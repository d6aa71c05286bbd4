import Verif.Lemmas.BatcherDetermined
import Verif.Prop.Batcher
import Verif.Prop.Pruned
import Verif.Lemmas.FloatBatcher

/-!
# C99: what the batches depend on

The batches, as multisets of points with weights, are determined by the multiset of points with weights of the
quadrature and by the batch size.  Neither the order in which the quadrature stores its points nor the order in which
`std::partition` leaves the two groups matters.
-/

set_option linter.unusedSectionVars false

namespace IntegratorXX

open Spec Arith

section
variable {F : Type} [Add F] [Sub F] [Mul F] [Div F] [Arith F]

private theorem zip_unzip (v : List (PW F)) : (v.map Prod.fst).zip (v.map Prod.snd) = v := by
  rw [List.zip_map', List.map_id'']
  intro x; rfl

theorem deref_blocks (mb : Nat) (c : Pt F) (cs : List (List (PW F))) (n : Nat) :
    Batcher.deref ⟨mb, ⟨⟨cs.flatten.map Prod.fst, cs.flatten.map Prod.snd⟩, c⟩, offsets 0 cs⟩ n =
      if h : n < cs.length then
        boxBounds (cs[n].map Prod.fst) >>= fun r => .ok ⟨r.1, r.2, cs[n].map Prod.fst, cs[n].map Prod.snd⟩
      else .ub := by
  unfold Batcher.deref
  dsimp only
  split
  · rename_i h
    rw [vget_ok (offsets_getElem? 0 n cs (by omega)), Outcome.ok_bind,
      vget_ok (offsets_getElem? 0 (n + 1) cs (by omega)), Outcome.ok_bind]
    have hlen : (cs.take (n + 1)).flatten.length = (cs.take n).flatten.length + cs[n].length := by
      rw [List.take_succ_eq_append_getElem h, List.flatten_append, List.length_append, List.flatten_cons,
        List.flatten_nil, List.append_nil]
    have hsplit : cs.flatten = (cs.take n).flatten ++ cs[n] ++ (cs.drop (n + 1)).flatten := by
      have : cs = cs.take n ++ cs[n] :: cs.drop (n + 1) := by
        rw [← List.drop_eq_getElem_cons h, List.take_append_drop]
      conv_lhs => rw [this]
      rw [List.flatten_append, List.flatten_cons, List.append_assoc]
    have key : ∀ {β : Type} (f : PW F → β), vrange (cs.flatten.map f) (0 + (cs.take n).flatten.length)
        (0 + (cs.take (n + 1)).flatten.length) = .ok (cs[n].map f) := by
      intro β f
      rw [hlen, hsplit]
      generalize (cs.take n).flatten = A
      generalize cs[n] = B
      generalize (cs.drop (n + 1)).flatten = D
      unfold vrange
      rw [Nat.zero_add, Nat.zero_add, if_pos ⟨by omega, by simp⟩, List.map_append, List.map_append,
        List.take_append_of_le_length (by simp), List.take_of_length_le (by simp),
        List.drop_append_of_le_length (by simp), List.drop_of_length_le (by simp)]
      rfl
    rw [key, Outcome.ok_bind, key, Outcome.ok_bind]
    rfl
  · rename_i h
    by_cases hn : n < (offsets 0 cs).length
    · rw [vget_lt hn, Outcome.ok_bind, vget_ub (by rw [length_offsets]; omega)]
      rfl
    · rw [vget_ub (by omega)]
      rfl

/-- **C99.**  Two quadratures with the same points and weights in any two orders, and any two implementations of
`std::partition`: either both constructions are still running after `fuel` rounds, or both have returned, with the same
partition indices; the batches at the same position have the same box and, up to order, the same points with the same
weights. -/
theorem C99_batches_determined {S : F → Prop} (hA : BoxArith F S)
    (tri : ∀ a b : F, S a → S b → lt a b = false → lt b a = false → a = b) (part part' : PartitionFn F)
    (hp : StdPartition part) (hp' : StdPartition part') (maxBatch fuel : Nat) (q q' : SphQuad F)
    (hq : Consistent q.quad) (hq' : Consistent q'.quad)
    (hqq : (q.quad.points.zip q.quad.weights).Perm (q'.quad.points.zip q'.quad.weights)) (hne : q.quad.points ≠ [])
    (hS : ∀ p ∈ q.quad.points, PtIn S p) (hlt : q.quad.npts < sizeMod) :
    (Batcher.make part fuel maxBatch q = none ∧ Batcher.make part' fuel maxBatch q' = none) ∨
    ∃ b b', Batcher.make part fuel maxBatch q = some (.ok b) ∧ Batcher.make part' fuel maxBatch q' = some (.ok b') ∧
      b.partIdx = b'.partIdx ∧
      List.Forall₂ List.Perm (batchesAt b.partIdx (b.quad.quad.points.zip b.quad.quad.weights))
        (batchesAt b'.partIdx (b'.quad.quad.points.zip b'.quad.quad.weights)) ∧
      ∀ n e, b.deref n = .ok e → ∃ e', b'.deref n = .ok e' ∧ e'.lo = e.lo ∧ e'.up = e.up ∧
        (e'.points.zip e'.weights).Perm (e.points.zip e.weights) := by
  rcases make_congr hA tri hp hp' maxBatch fuel q q' hq hq' hqq hne hS hlt with h | ⟨cs, cs', C, C', hcc, -, e1, e2⟩
  · exact .inl h
  · refine .inr ⟨_, _, e1, e2, offsets_congr 0 hcc, ?_, ?_⟩
    · dsimp only
      rw [zip_unzip, zip_unzip]
      have h1 := batchesAt_offsets [] [] cs
      have h2 := batchesAt_offsets [] [] cs'
      simp only [List.nil_append, List.append_nil, List.length_nil] at h1 h2
      rw [h1, h2]
      exact hcc
    · intro n e he
      rw [deref_blocks] at he ⊢
      split at he
      · rename_i hn
        have hn' : n < cs'.length := by rw [← hcc.length_eq]; exact hn
        have hpn : cs[n].Perm cs'[n] := by
          have := (List.forall₂_iff_get.1 hcc).2 n hn hn'
          simpa using this
        rw [dif_pos hn']
        rw [boxBounds_perm hA.toWeakOrder tri (hpn.map Prod.fst)
          (by simpa using C.ne _ (List.getElem_mem hn)) (by
            intro p hp
            obtain ⟨x, hx, rfl⟩ := List.mem_map.1 hp
            exact C.inS (fun e he => hS e.1 (List.of_mem_zip he).1) _ (List.getElem_mem hn) x hx)] at he
        rw [Outcome.bind_eq_ok] at he
        obtain ⟨r, hr, he⟩ := he
        cases he
        rw [hr, Outcome.ok_bind]
        refine ⟨_, rfl, rfl, rfl, ?_⟩
        dsimp only
        rw [zip_unzip, zip_unzip]
        exact hpn.symm
      · cases he

/-- **C99.**  In particular a batcher built over a grid that an earlier batcher has rearranged, with the same batch
size, has the same partition indices and the same batches. -/
theorem C99_rebatch {S : F → Prop} (hA : BoxArith F S)
    (tri : ∀ a b : F, S a → S b → lt a b = false → lt b a = false → a = b) (part part' : PartitionFn F)
    (hp : StdPartition part) (hp' : StdPartition part') (maxBatch fuel : Nat) (q : SphQuad F)
    (hq : Consistent q.quad) (hne : q.quad.points ≠ []) (hS : ∀ p ∈ q.quad.points, PtIn S p)
    (hlt : q.quad.npts < sizeMod) (b : Batcher F) (h : Batcher.make part fuel maxBatch q = some (.ok b)) :
    ∃ b', Batcher.make part' fuel maxBatch b.quad = some (.ok b') ∧ b'.partIdx = b.partIdx ∧
      List.Forall₂ List.Perm (batchesAt b.partIdx (b.quad.quad.points.zip b.quad.quad.weights))
        (batchesAt b'.partIdx (b'.quad.quad.points.zip b'.quad.quad.weights)) := by
  obtain ⟨h1, h2, -⟩ := C55_batches_permute part hp maxBatch fuel q hq b h
  rcases C99_batches_determined hA tri part part' hp hp' maxBatch fuel q b.quad hq h2 h1.symm hne hS hlt with
    ⟨h3, -⟩ | ⟨b₁, b', h3, h4, h5, h6, -⟩
  · rw [h] at h3; cases h3
  · rw [h] at h3
    cases h3
    exact ⟨b', h4, h5.symm, h6⟩

/-- **C99.**  The pruned construction with one angular rule for all regions stores the points in another order than the
unpruned one (C36); the batches are the same. -/
theorem C99_pruned_same_batches {S : F → Prop} (hA : BoxArith F S)
    (tri : ∀ a b : F, S a → S b → lt a b = false → lt b a = false → a = b) (bd : Build) (r : Quad F F)
    (a : Quad (Pt F) F) (cen : Pt F) (hr : Consistent r) (ha : Consistent a) (regions : List (Nat × Quad (Pt F) F))
    (hs : StartsOk regions) (hlt : ∀ e ∈ regions, e.1 < r.npts) (hsame : ∀ e ∈ regions, e.2 = a)
    (p : Partition (Quad (Pt F) F)) (hp : Partition.make bd r.npts regions = .ok p) (part : PartitionFn F)
    (hpart : StdPartition part) (maxBatch fuel : Nat) (ha1 : 1 ≤ a.npts) (hr1 : 1 ≤ r.npts)
    (hl : a.npts * r.npts < sizeMod) :
    ∃ s s', prunedConstruct bd r p cen = .ok s ∧ sphConstruct bd r a cen = .ok s' ∧
      ((∀ p ∈ s.quad.points, PtIn S p) →
        (Batcher.make part fuel maxBatch s = none ∧ Batcher.make part fuel maxBatch s' = none) ∨
        ∃ b b', Batcher.make part fuel maxBatch s = some (.ok b) ∧
          Batcher.make part fuel maxBatch s' = some (.ok b') ∧ b.partIdx = b'.partIdx ∧
          List.Forall₂ List.Perm (batchesAt b.partIdx (b.quad.quad.points.zip b.quad.quad.weights))
            (batchesAt b'.partIdx (b'.quad.quad.points.zip b'.quad.quad.weights))) := by
  obtain ⟨s, s', h1, h2, h3, hq, hq', hn⟩ := C36_same_angular_perm bd r a cen hr ha regions hs hlt hsame p hp
  have hn' : s.quad.npts = a.npts * r.npts := by
    rw [← hn]
    have := h3.length_eq
    unfold Consistent at hq hq'
    simpa [Quad.npts, hq, hq'] using this
  have hpos : 1 ≤ a.npts * r.npts := Nat.mul_pos ha1 hr1
  refine ⟨s, s', h1, h2, fun hS => ?_⟩
  rcases C99_batches_determined hA tri part part hpart hpart maxBatch fuel s s' hq hq' h3 (by
      intro h0
      rw [Quad.npts, h0, List.length_nil] at hn'
      omega) hS (by omega) with
    h | ⟨b, b', h4, h5, h6, h7, -⟩
  · exact .inl h
  · exact .inr ⟨b, b', h4, h5, h6, h7⟩

private theorem length_bounds (mb : Nat) (bs : List (List (PW F))) (h1 : ∀ b ∈ bs, b ≠ [])
    (h2 : ∀ b ∈ bs, b.length ≤ mb) : bs.length ≤ bs.flatten.length ∧ bs.flatten.length ≤ bs.length * mb := by
  induction bs with
  | nil => simp
  | cons c bs ih =>
    have := List.length_pos_of_ne_nil (h1 c (by simp))
    have := h2 c (by simp)
    have := ih (fun d hd => h1 d (by simp [hd])) (fun d hd => h2 d (by simp [hd]))
    rw [List.length_cons, List.flatten_cons, List.length_append, Nat.add_mul]
    omega

/-- **C99.**  There are at most as many batches as points, and at least `npts / max_batch_size`. -/
theorem C99_number_of_batches {S : F → Prop} (hA : BoxArith F S) (part : PartitionFn F)
    (hp : StdPartition part) (maxBatch fuel : Nat) (q : SphQuad F) (hq : Consistent q.quad)
    (hne : q.quad.points ≠ []) (hS : ∀ p ∈ q.quad.points, PtIn S p) (hlt : q.quad.npts + 1 < sizeMod) (b : Batcher F)
    (h : Batcher.make part fuel maxBatch q = some (.ok b)) :
    1 ≤ b.nbatches ∧ b.nbatches ≤ q.quad.npts ∧ q.quad.npts ≤ b.nbatches * maxBatch := by
  obtain ⟨cs, C, hle, e1⟩ := make_blocks hA part hp maxBatch fuel q hq hne hS (by omega) _ h
  cases e1
  have hl : cs.flatten.length = q.quad.npts := by
    rw [C.perm.length_eq]
    unfold Consistent at hq
    simp [Quad.npts, hq]
  obtain ⟨l1, l2⟩ := length_bounds maxBatch cs C.ne hle
  unfold Batcher.nbatches
  dsimp only
  have hnp : 1 ≤ q.quad.npts := List.length_pos_of_ne_nil hne
  have hc : 1 ≤ cs.length := by
    rcases Nat.eq_zero_or_pos cs.length with h0 | h0
    · rw [h0, Nat.zero_mul] at l2
      omega
    · exact h0
  rw [length_offsets, subWrap_of_le (by omega) (by omega), Nat.add_sub_cancel]
  omega

end

/-- **C99.**  In exact arithmetic, whatever the points. -/
theorem C99_exact (part part' : PartitionFn ℝ) (hp : StdPartition part) (hp' : StdPartition part')
    (maxBatch fuel : Nat) (q q' : SphQuad ℝ) (hq : Consistent q.quad) (hq' : Consistent q'.quad)
    (hqq : (q.quad.points.zip q.quad.weights).Perm (q'.quad.points.zip q'.quad.weights)) (hne : q.quad.points ≠ [])
    (hlt : q.quad.npts < sizeMod) (b b' : Batcher ℝ) (h : Batcher.make part fuel maxBatch q = some (.ok b))
    (h' : Batcher.make part' fuel maxBatch q' = some (.ok b')) :
    b.partIdx = b'.partIdx ∧
    List.Forall₂ List.Perm (batchesAt b.partIdx (b.quad.quad.points.zip b.quad.quad.weights))
      (batchesAt b'.partIdx (b'.quad.quad.points.zip b'.quad.quad.weights)) := by
  rcases C99_batches_determined real_splitArith.toBoxArith real_splitArith.tri part part' hp hp' maxBatch fuel q q' hq hq'
    hqq hne (fun _ _ => ⟨trivial, trivial, trivial⟩) hlt with ⟨h4, -⟩ | ⟨b₁, b₂, h4, h5, h6, h7, -⟩
  · rw [h] at h4; cases h4
  · rw [h] at h4
    rw [h'] at h5
    cases h4
    cases h5
    exact ⟨h6, h7⟩

/-- **C99.**  In `double`, when no coordinate is NaN. -/
theorem C99_double {L : Libm} (part part' : PartitionFn (F64 L)) (hp : StdPartition part) (hp' : StdPartition part')
    (maxBatch fuel : Nat) (q q' : SphQuad (F64 L)) (hq : Consistent q.quad) (hq' : Consistent q'.quad)
    (hqq : (q.quad.points.zip q.quad.weights).Perm (q'.quad.points.zip q'.quad.weights)) (hne : q.quad.points ≠ [])
    (hS : ∀ p ∈ q.quad.points, PtIn NotNaN p) (hlt : q.quad.npts < sizeMod) :
    (Batcher.make part fuel maxBatch q = none ∧ Batcher.make part' fuel maxBatch q' = none) ∨
    ∃ b b', Batcher.make part fuel maxBatch q = some (.ok b) ∧ Batcher.make part' fuel maxBatch q' = some (.ok b') ∧
      b.partIdx = b'.partIdx ∧
      List.Forall₂ List.Perm (batchesAt b.partIdx (b.quad.quad.points.zip b.quad.quad.weights))
        (batchesAt b'.partIdx (b'.quad.quad.points.zip b'.quad.quad.weights)) := by
  have tri : ∀ a b : F64 L, NotNaN a → NotNaN b → lt a b = false → lt b a = false → a = b := by
    intro a b ha hb h1 h2
    rw [f64lt_false] at h1 h2
    rcases ha with ⟨x, rfl, -⟩ | rfl | rfl <;> rcases hb with ⟨y, rfl, -⟩ | rfl | rfl <;>
      simp_all [XReal.Lt, F64.fin]
    · exact congrArg XReal.fin (le_antisymm h2 h1)
    · rfl
    · rfl
  rcases C99_batches_determined f64_boxArith tri part part' hp hp' maxBatch fuel q q' hq hq' hqq hne hS hlt with
    h | ⟨b, b', h1, h2, h3, h4, -⟩
  · exact .inl h
  · exact .inr ⟨b, b', h1, h2, h3, h4⟩

/-- Without NaN the order matters only inside batches; with NaN coordinates the box itself depends on the order in which
the points are stored (`std::min_element` keeps the first of incomparable elements). -/
theorem C99_nan_order_matters :
    boxBounds [(⟨.nan, .fin 0, .fin 0⟩ : Pt XReal), ⟨.fin 1, .fin 0, .fin 0⟩] ≠
      boxBounds [(⟨.fin 1, .fin 0, .fin 0⟩ : Pt XReal), ⟨.nan, .fin 0, .fin 0⟩] := by
  intro h
  have hl : ∀ a : XReal, lt a XReal.nan = false ∧ lt XReal.nan a = false := by
    intro a
    constructor <;> rw [← Bool.not_eq_true, XReal.lt_iff] <;> cases a <;> simp [XReal.Lt]
  simp only [boxBounds, minCoord, maxCoord, hl, Outcome.ok.injEq, Prod.mk.injEq, Pt.mk.injEq] at h
  simp at h

/-- Two different orders of three points with weights, and a conforming `std::partition`. -/
example : ∃ (q q' : SphQuad ℝ) (part : PartitionFn ℝ), StdPartition part ∧ Consistent q.quad ∧ Consistent q'.quad ∧
    (q.quad.points.zip q.quad.weights).Perm (q'.quad.points.zip q'.quad.weights) ∧ q.quad.points ≠ [] ∧
    q.quad.npts < sizeMod ∧ q.quad.points ≠ q'.quad.points ∧
    ∃ b, Batcher.make part (q.quad.npts + 1) 1 q = some (.ok b) := by
  refine ⟨⟨⟨[⟨0, 0, 0⟩, ⟨1, 0, 0⟩, ⟨0, 1, 0⟩], [1, 2, 3]⟩, ⟨0, 0, 0⟩⟩,
    ⟨⟨[⟨1, 0, 0⟩, ⟨0, 0, 0⟩, ⟨0, 1, 0⟩], [2, 1, 3]⟩, ⟨0, 0, 0⟩⟩, _, stdPartition_exists, rfl, rfl, ?_, by simp,
    by simp [Quad.npts, sizeMod], by simp, ?_⟩
  · simpa using List.Perm.swap _ _ _
  · classical
    refine C58_terminates real_splitArith _ stdPartition_exists 1 _ rfl (by simp)
      (fun _ _ => ⟨trivial, trivial, trivial⟩) (by simp [Quad.npts, sizeMod]) ?_
    intro p
    refine List.nodup_iff_count_le_one.1 ?_ p
    simp

/-- Three shells in two regions with the same two directions. -/
example : ∃ (r : Quad ℝ ℝ) (a : Quad (Pt ℝ) ℝ) (p : Partition (Quad (Pt ℝ) ℝ)), Consistent r ∧ Consistent a ∧
    StartsOk [(0, a), (1, a)] ∧ (∀ e ∈ [(0, a), (1, a)], e.1 < r.npts) ∧
    Partition.make ⟨true⟩ r.npts [(0, a), (1, a)] = .ok p ∧ 1 ≤ a.npts ∧ a.npts * r.npts < sizeMod := by
  refine ⟨⟨[1, 2, 3], [4, 5, 6]⟩, ⟨[⟨0, 0, 1⟩, ⟨0, 0, -1⟩], [1, 1]⟩, _, rfl, rfl, ?_, ?_, rfl, ?_, ?_⟩
  · simp [StartsOk]
  · simp [Quad.npts]
  · simp [Quad.npts]
  · simp [Quad.npts, sizeMod]

/-- Two points in `double`, one of them at infinity. -/
example (L : Libm) : ∃ q : SphQuad (F64 L), Consistent q.quad ∧ q.quad.points ≠ [] ∧
    (∀ p ∈ q.quad.points, PtIn NotNaN p) ∧ q.quad.npts < sizeMod := by
  have h0 : NotNaN (L := L) (F64.fin 0) := .inl ⟨0, rfl, ⟨rnd_zero, by rw [abs_zero]; unfold f64Big; positivity⟩⟩
  have hi : NotNaN (L := L) XReal.pinf := .inr (.inl rfl)
  refine ⟨⟨⟨[⟨F64.fin 0, F64.fin 0, F64.fin 0⟩, ⟨F64.fin 0, F64.fin 0, XReal.pinf⟩], [F64.fin 0, F64.fin 0]⟩,
    ⟨F64.fin 0, F64.fin 0, F64.fin 0⟩⟩, rfl, by simp, ?_, by simp [Quad.npts, sizeMod]⟩
  intro p hp
  rcases List.mem_cons.1 hp with rfl | hp
  · exact ⟨h0, h0, h0⟩
  · rw [List.mem_singleton.1 hp]
    exact ⟨h0, h0, hi⟩

end IntegratorXX
