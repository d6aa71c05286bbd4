import Verif.Lemmas.BatcherPerm
import Verif.Prop.Product
import Verif.XReal
import Mathlib.Tactic.Linarith
import Mathlib.Tactic.NormNum

/-!
# C55-C61: the micro-batcher
-/

set_option linter.unusedSectionVars false

namespace IntegratorXX

open Spec Arith

/-! ## Arithmetics satisfying the assumptions -/

/-- A conforming `std::partition` exists (the stable one). -/
theorem stdPartition_exists {F : Type} :
    StdPartition (fun (p : PW F → Bool) l =>
      (l.filter p ++ l.filter (fun e => !p e), (l.filter p).length)) where
  perm p l := List.filter_append_perm p l
  le p l := List.length_filter_le p l
  pos p l e he := by
    dsimp only at he
    rw [List.take_left] at he
    exact (List.mem_filter.1 he).2
  neg p l e he := by
    dsimp only at he
    rw [List.drop_left] at he
    simpa using (List.mem_filter.1 he).2

private theorem real_lt_false (a b : ℝ) : lt a b = false ↔ b ≤ a := by
  rw [← not_lt, ← real_lt, Bool.not_eq_true]

/-- Exact arithmetic. -/
theorem real_splitArith : SplitArith ℝ (fun _ => True) where
  asymm a b h := by rw [real_lt] at h; rw [real_lt_false]; exact h.le
  negTrans a b c _ _ _ h1 h2 := by rw [real_lt_false] at *; exact h2.trans h1
  zeroStep lo up x n _ _ _ h := by
    rw [real_lt_false] at *
    simpa using h
  tri a b _ _ h1 h2 := by rw [real_lt_false] at *; exact le_antisymm h2 h1
  split lo up _ _ h n hn i hi := by
    rw [real_lt] at h
    rw [real_lt_false, real_lt_false]
    rintro ⟨h1, h2⟩
    rcases hn with rfl | rfl
    · have : i = 0 ∨ i = 1 := by omega
      rcases this with rfl | rfl
      · norm_num [cut] at h2
        linarith
      · norm_num [cut] at h1
        linarith
    · have : i = 0 ∨ i = 1 ∨ i = 2 := by omega
      rcases this with rfl | rfl | rfl
      · norm_num [cut] at h2
        linarith
      · norm_num [cut] at h1
        linarith
      · norm_num [cut] at h1
        linarith

private theorem xlt_false (a b : XReal) : lt a b = false ↔ ¬XReal.Lt a b := by
  rw [← XReal.lt_iff, Bool.not_eq_true]

/-- Exact arithmetic with infinities and NaN, for coordinates that are not NaN. -/
theorem xreal_boxArith : BoxArith XReal (fun a => a ≠ .nan) where
  asymm a b h := by
    rw [XReal.lt_iff] at h
    rw [xlt_false]
    cases a <;> cases b <;> simp_all [XReal.Lt]
    exact h.le
  negTrans a b c ha hb hc h1 h2 := by
    rw [xlt_false] at *
    cases a <;> cases b <;> cases c <;> simp_all [XReal.Lt]
    exact h2.trans h1
  zeroStep lo up x n hlo hup hx h := by
    rw [xlt_false] at *
    rw [XReal.ofNat_eq, XReal.ofNat_eq]
    generalize hd : (up - lo) / XReal.fin n = d
    cases d with
    | fin d =>
      rw [XReal.fin_mul, Nat.cast_zero, zero_mul]
      have : lo + XReal.fin 0 = lo := by
        cases lo with
        | fin l => rw [XReal.fin_add, add_zero]
        | pinf => rfl
        | ninf => rfl
        | nan => rfl
      rwa [this]
    | pinf =>
      have : XReal.fin ((0 : ℕ) : ℝ) * XReal.pinf = XReal.nan := by
        show XReal.infMul _ = _
        simp [XReal.infMul]
      rw [this]
      cases lo <;> cases x <;> exact fun h => h
    | ninf =>
      have : XReal.fin ((0 : ℕ) : ℝ) * XReal.ninf = XReal.nan := by
        show XReal.infMul _ = _
        simp [XReal.infMul]
      rw [this]
      cases lo <;> cases x <;> exact fun h => h
    | nan => cases lo <;> cases x <;> exact fun h => h

section
variable {F : Type} [Add F] [Sub F] [Mul F] [Div F] [Arith F]

/-! ## C55 -/

/-- Whatever arithmetic is used and however `std::partition` orders its groups: when the
construction of the batches returns, the stored pairs are a permutation of the original ones. -/
theorem C55_batches_permute (part : PartitionFn F) (hp : StdPartition part) (maxBatch fuel : Nat)
    (q : SphQuad F) (hq : Consistent q.quad) (b : Batcher F)
    (h : Batcher.make part fuel maxBatch q = some (.ok b)) :
    (b.quad.quad.points.zip b.quad.quad.weights).Perm (q.quad.points.zip q.quad.weights) ∧
    Consistent b.quad.quad ∧ b.quad.quad.npts = q.quad.npts ∧ b.quad.center = q.center ∧
    b.maxBatch = maxBatch := by
  unfold Batcher.make at h
  rw [Option.map_eq_some_iff] at h
  obtain ⟨r, hr, h⟩ := h
  rw [Outcome.bind_eq_ok] at h
  obtain ⟨⟨q', its⟩, rfl, h⟩ := h
  obtain ⟨v, hv, rfl⟩ := generateBatches_perm hp maxBatch fuel q.quad hq q' its hr
  cases h
  dsimp only
  unfold Consistent at hq ⊢
  refine ⟨?_, by simp, ?_, rfl, rfl⟩
  · have : (v.map Prod.fst).zip (v.map Prod.snd) = v := by
      rw [List.zip_map', List.map_id'']
      intro x; rfl
    rwa [this]
  · simp [Quad.npts, hv.length_eq, hq]

/-- Hence every rule value is unchanged. -/
theorem C55_rule_value (part : PartitionFn ℝ) (hp : StdPartition part) (maxBatch fuel : Nat)
    (q : SphQuad ℝ) (hq : Consistent q.quad) (b : Batcher ℝ)
    (h : Batcher.make part fuel maxBatch q = some (.ok b)) (f : Pt ℝ → ℝ) :
    ruleSum b.quad.quad.points b.quad.quad.weights f =
      ruleSum q.quad.points q.quad.weights f := by
  have h1 := (C55_batches_permute part hp maxBatch fuel q hq b h).1
  unfold ruleSum
  exact (h1.map _).sum_eq

/-! ## C56 -/

theorem make_blocks {S : F → Prop} (hA : BoxArith F S) (part : PartitionFn F)
    (hp : StdPartition part) (maxBatch fuel : Nat) (q : SphQuad F) (hq : Consistent q.quad)
    (hne : q.quad.points ≠ []) (hS : ∀ p ∈ q.quad.points, PtIn S p)
    (hlt : q.quad.npts < sizeMod) (r : Outcome (Batcher F))
    (h : Batcher.make part fuel maxBatch q = some r) :
    ∃ bs, Blocked (q.quad.points.zip q.quad.weights) bs ∧ (∀ b ∈ bs, b.length ≤ maxBatch) ∧
      r = .ok ⟨maxBatch, ⟨⟨bs.flatten.map Prod.fst, bs.flatten.map Prod.snd⟩, q.center⟩,
        offsets 0 bs⟩ := by
  have hzl : (q.quad.points.zip q.quad.weights).length = q.quad.points.length := by
    unfold Consistent at hq; simp [hq]
  unfold Batcher.make at h
  rw [Option.map_eq_some_iff] at h
  obtain ⟨r1, hr1, h⟩ := h
  obtain ⟨bs, hB, hgen⟩ := generateBatches_eq hA hp maxBatch fuel q.quad hq hne hS
  rw [hgen, Option.map_eq_some_iff] at hr1
  obtain ⟨r2, hr2, rfl⟩ := hr1
  obtain ⟨bs', rfl, hB', hle⟩ := refineLoop_some hA hp maxBatch
    (fun e he => hS e.1 (List.of_mem_zip he).1) (by rw [hzl]; exact hlt) fuel bs hB r2 hr2
  refine ⟨bs', hB', hle, ?_⟩
  rw [← h]
  simp only [Outcome.ok_bind]
  rw [scatter_eq _ _ hq (by rw [hB'.perm.length_eq, hzl]), Outcome.ok_bind]
  rfl

/-- When the construction returns, it returns normally; the partition indices split `0..npts`
into non-empty batches of at most `max_batch_size` points.  The coordinates are assumed to be
comparable (not NaN). -/
theorem C56_batches_tile {S : F → Prop} (hA : BoxArith F S) (part : PartitionFn F)
    (hp : StdPartition part) (maxBatch fuel : Nat) (q : SphQuad F) (hq : Consistent q.quad)
    (hne : q.quad.points ≠ []) (hS : ∀ p ∈ q.quad.points, PtIn S p)
    (hlt : q.quad.npts < sizeMod) (r : Outcome (Batcher F))
    (h : Batcher.make part fuel maxBatch q = some r) :
    Returns r (fun b => SplitsRange b.partIdx b.quad.quad.npts ∧
      b.quad.quad.npts = q.quad.npts ∧
      ∀ i, (hi : i + 1 < b.partIdx.length) →
        1 ≤ b.partIdx[i + 1] - b.partIdx[i] ∧ b.partIdx[i + 1] - b.partIdx[i] ≤ maxBatch) := by
  obtain ⟨bs, hB, hle, rfl⟩ := make_blocks hA part hp maxBatch fuel q hq hne hS hlt r h
  refine ⟨_, rfl, ?_, ?_, ?_⟩
  · dsimp only [Quad.npts]
    rw [List.length_map]
    exact offsets_splits bs hB.ne
  · dsimp only [Quad.npts]
    rw [List.length_map, hB.perm.length_eq]
    unfold Consistent at hq; simp [hq]
  · intro i hi
    dsimp only at hi ⊢
    rw [length_offsets] at hi
    have hil : i < bs.length := by omega
    have e1 := offsets_getElem? 0 i bs (by omega)
    have e2 := offsets_getElem? 0 (i + 1) bs (by omega)
    rw [List.getElem?_eq_getElem (by rw [length_offsets]; omega)] at e1 e2
    have e1 := Option.some.inj e1
    have e2 := Option.some.inj e2
    rw [e1, e2, List.take_succ_eq_append_getElem hil, List.flatten_append, List.length_append,
      List.flatten_cons, List.flatten_nil, List.append_nil]
    have h1 := List.length_pos_of_ne_nil (hB.ne _ (List.getElem_mem hil))
    have h2 := hle _ (List.getElem_mem hil)
    omega

/-! ## C57 -/

/-- The box of a batch contains all its points, and each of its six faces touches a point. -/
theorem C57_tight_boxes {S : F → Prop} (hW : WeakOrder F S) (b : Batcher F) (n : Nat)
    (e : Batch F) (h : b.deref n = .ok e) (hS : ∀ p ∈ b.quad.quad.points, PtIn S p) :
    e.points ≠ [] ∧ (∀ p ∈ e.points, InBox e.lo e.up p) ∧
    (∃ p ∈ e.points, p.x = e.lo.x) ∧ (∃ p ∈ e.points, p.x = e.up.x) ∧
    (∃ p ∈ e.points, p.y = e.lo.y) ∧ (∃ p ∈ e.points, p.y = e.up.y) ∧
    (∃ p ∈ e.points, p.z = e.lo.z) ∧ (∃ p ∈ e.points, p.z = e.up.z) := by
  unfold Batcher.deref at h
  simp only [Outcome.bind_eq_ok] at h
  obtain ⟨i, -, j, -, ps, hps, ws, -, ⟨lo, up⟩, hb, h⟩ := h
  cases h
  dsimp only
  have hne : ps ≠ [] := by rintro rfl; cases hb
  have hsub : ∀ p ∈ ps, PtIn S p := by
    unfold vrange at hps
    split at hps
    · cases hps
      intro p hp
      exact hS p (List.mem_of_mem_take (List.mem_of_mem_drop hp))
    · cases hps
  obtain ⟨lo', up', hb', -, -, h1, h2, h3, h4, h5, h6, h7⟩ := boxBounds_spec hW ps hne hsub
  rw [hb] at hb'
  cases hb'
  exact ⟨hne, h1, h2, h5, h3, h6, h4, h7⟩

/-! ## C58 -/

/-- Too many coincident points, in any arithmetic: the construction never returns. -/
theorem C58_hangs [DecidableEq (Pt F)] {S : F → Prop} (hA : BoxArith F S) (part : PartitionFn F)
    (hp : StdPartition part) (maxBatch : Nat) (q : SphQuad F) (hq : Consistent q.quad)
    (hne : q.quad.points ≠ []) (hS : ∀ p ∈ q.quad.points, PtIn S p)
    (hlt : q.quad.npts < sizeMod) (p : Pt F) (hc : maxBatch < q.quad.points.count p)
    (fuel : Nat) : Batcher.make part fuel maxBatch q = none := by
  unfold Consistent at hq
  obtain ⟨bs, hB, hgen⟩ := generateBatches_eq hA hp maxBatch fuel q.quad hq hne hS
  unfold Batcher.make
  have hfst : (q.quad.points.zip q.quad.weights).map Prod.fst = q.quad.points := by
    rw [List.map_fst_zip (by omega)]
  rw [hgen, refineLoop_none hA hp maxBatch (fun e he => hS e.1 (List.of_mem_zip he).1)
    (by have : (q.quad.points.zip q.quad.weights).length = q.quad.points.length := by simp [hq]
        rw [this]; exact hlt) p (by rw [hfst]; exact hc) fuel bs hB]
  rfl

/-- In particular a batch size of zero never works. -/
theorem C58_zero_batch_size {S : F → Prop} (hA : BoxArith F S) (part : PartitionFn F)
    (hp : StdPartition part) (q : SphQuad F) (hq : Consistent q.quad)
    (hne : q.quad.points ≠ []) (hS : ∀ p ∈ q.quad.points, PtIn S p)
    (hlt : q.quad.npts < sizeMod) (fuel : Nat) : Batcher.make part fuel 0 q = none := by
  classical
  obtain ⟨p, hp'⟩ := List.exists_mem_of_ne_nil _ hne
  exact C58_hangs hA part hp 0 q hq hne hS hlt p (List.count_pos_iff.2 hp') fuel

/-- Multiplicities within the limit, and different points are parted by subdivision: the construction returns, after at
most `npts` refinements. -/
theorem C58_terminates_parted [DecidableEq (Pt F)] {S : F → Prop} (hA : BoxArith F S)
    (part : PartitionFn F) (hp : StdPartition part) (maxBatch : Nat) (q : SphQuad F)
    (hq : Consistent q.quad) (hne : q.quad.points ≠ []) (hS : ∀ p ∈ q.quad.points, PtIn S p)
    (hpt : ∀ u ∈ q.quad.points, ∀ v ∈ q.quad.points, u ≠ v → PtParted S u v)
    (hlt : q.quad.npts < sizeMod) (hc : ∀ p, q.quad.points.count p ≤ maxBatch) :
    ∃ b, Batcher.make part (q.quad.npts + 1) maxBatch q = some (.ok b) := by
  have hq' := hq
  unfold Consistent at hq'
  obtain ⟨bs, hB, hgen⟩ := generateBatches_eq hA hp maxBatch (q.quad.npts + 1) q.quad
    hq hne hS
  have hfst : (q.quad.points.zip q.quad.weights).map Prod.fst = q.quad.points := by
    rw [List.map_fst_zip (by omega)]
  have hzl : (q.quad.points.zip q.quad.weights).length = q.quad.points.length := by simp [hq']
  obtain ⟨r, hr⟩ := refineLoop_terminates hA hp maxBatch
    (fun e he => hS e.1 (List.of_mem_zip he).1)
    (fun e he e' he' => hpt e.1 (List.of_mem_zip he).1 e'.1 (List.of_mem_zip he').1) (by rw [hzl]; exact hlt)
    (by rw [hfst]; exact hc) (q.quad.npts + 1) bs hB (by rw [hzl]; unfold Quad.npts; omega)
  have hmake : ∃ r, Batcher.make part (q.quad.npts + 1) maxBatch q = some r := by
    unfold Batcher.make
    rw [hgen, hr]
    exact ⟨_, rfl⟩
  obtain ⟨r, hr⟩ := hmake
  obtain ⟨bs', -, -, rfl⟩ := make_blocks hA part hp maxBatch _ q hq hne hS hlt r hr
  exact ⟨_, hr⟩

/-- In particular in an arithmetic in which subdividing an interval separates its ends. -/
theorem C58_terminates [DecidableEq (Pt F)] {S : F → Prop} (hA : SplitArith F S)
    (part : PartitionFn F) (hp : StdPartition part) (maxBatch : Nat) (q : SphQuad F)
    (hq : Consistent q.quad) (hne : q.quad.points ≠ []) (hS : ∀ p ∈ q.quad.points, PtIn S p)
    (hlt : q.quad.npts < sizeMod) (hc : ∀ p, q.quad.points.count p ≤ maxBatch) :
    ∃ b, Batcher.make part (q.quad.npts + 1) maxBatch q = some (.ok b) :=
  C58_terminates_parted hA.toBoxArith part hp maxBatch q hq hne hS
    (fun u hu v hv h => splitArith_parted hA (hS u hu) (hS v hv) h) hlt hc

open Classical in
/-- In exact arithmetic: the construction returns exactly when no point occurs more often than
the batch size. -/
theorem C58_terminates_iff (part : PartitionFn ℝ) (hp : StdPartition part) (maxBatch : Nat)
    (q : SphQuad ℝ) (hq : Consistent q.quad) (hne : q.quad.points ≠ [])
    (hlt : q.quad.npts < sizeMod) :
    (∃ fuel r, Batcher.make part fuel maxBatch q = some r) ↔
      ∀ p, q.quad.points.count p ≤ maxBatch := by
  have hS : ∀ p ∈ q.quad.points, PtIn (fun _ : ℝ => True) p := fun _ _ => ⟨trivial, trivial, trivial⟩
  constructor
  · rintro ⟨fuel, r, hr⟩ p
    by_contra hc
    rw [C58_hangs real_splitArith.toBoxArith part hp maxBatch q hq hne hS hlt p (by omega)
      fuel] at hr
    cases hr
  · intro hc
    obtain ⟨b, hb⟩ := C58_terminates real_splitArith part hp maxBatch q hq hne hS hlt hc
    exact ⟨_, _, hb⟩

/-- An empty quadrature is undefined behaviour (an end iterator is dereferenced). -/
theorem C58_empty (part : PartitionFn F) (maxBatch fuel : Nat) (q : SphQuad F)
    (h : q.quad.points = []) : Batcher.make part fuel maxBatch q = some .ub := by
  unfold Batcher.make generateBatches
  have : gather q.quad = .ok [] := by
    unfold gather Quad.npts
    rw [h]
    rfl
  rw [this, Outcome.ok_bind]
  rfl

/-! ## C59 -/

/-- `partition_box` with the bounding box of the range. -/
theorem C59_partition_box {S : F → Prop} (hA : BoxArith F S) (part : PartitionFn F)
    (hp : StdPartition part) (npart : Nat) (hn : 1 ≤ npart) (q : List (PW F)) (st en : Nat)
    (hr : st ≤ en ∧ en ≤ q.length) (lo up : Pt F) (hlo : PtIn S lo) (hup : PtIn S up)
    (hbox : ∀ e ∈ (q.take en).drop st, PtIn S e.1 ∧ InBox lo up e.1) :
    Returns (partitionBox part npart lo up q st en) (fun r =>
      r.1.take st = q.take st ∧ r.1.drop en = q.drop en ∧
      ((r.1.take en).drop st).Perm ((q.take en).drop st) ∧
      r.2.head? = some st ∧ r.2.getLast? = some en ∧ r.2.Pairwise (· < ·) ∧
      ∀ b ∈ batchesAt r.2 r.1, ∃ i j k, i < npart ∧ j < npart ∧ k < npart ∧
        ∀ e ∈ b, InBox (gridPt npart lo up i j k)
          (gridPt npart lo up (i + 1) (j + 1) (k + 1)) e.1) := by
  set A := q.take st with hA'
  set m := (q.take en).drop st with hm
  set D := q.drop en with hD
  have hAl : A.length = st := by rw [hA', List.length_take]; omega
  have hml : m.length = en - st := by rw [hm, List.length_drop, List.length_take]; omega
  have hq : q = A ++ m ++ D := by
    conv_lhs => rw [← List.take_append_drop en q]
    congr 1
    conv_lhs => rw [← List.take_append_drop st (q.take en)]
    rw [List.take_take, Nat.min_eq_left hr.1]
  have hrest := boxRest_nil hA hp npart hn lo up hlo hup m hbox
  have hperm := boxBlocks_perm hp npart lo up m
  rw [hrest, List.append_nil] at hperm
  have heq := partitionBox_eq hp npart lo up A m D en (by omega)
  rw [hrest, List.append_nil, hAl, ← hq] at heq
  set bs := boxBlocks part npart lo up m with hbs
  have hbl : bs.flatten.length = m.length := hperm.length_eq
  refine ⟨_, heq, ?_, ?_, ?_, ?_, ?_, ?_, ?_⟩
  · dsimp only
    rw [List.append_assoc, List.take_append_of_le_length (by omega),
      List.take_of_length_le (by omega)]
  · dsimp only
    rw [List.drop_append, List.drop_of_length_le (by rw [List.length_append]; omega),
      show en - (A ++ bs.flatten).length = 0 by rw [List.length_append]; omega]
    rfl
  · dsimp only
    rw [List.take_append_of_le_length (by rw [List.length_append]; omega),
      List.take_of_length_le (by rw [List.length_append]; omega),
      List.drop_append_of_le_length (by omega), List.drop_of_length_le (by omega)]
    exact hperm
  · obtain ⟨l, hl⟩ := offsets_cons_head st bs
    dsimp only; rw [hl]; rfl
  · dsimp only; rw [offsets_getLast?]; congr 1; omega
  · exact offsets_pairwise st bs (boxBlocks_ne part npart lo up m)
  · dsimp only
    rw [← hAl, batchesAt_offsets]
    exact boxBlocks_cell hp npart lo up m

/-- The overload that computes the box itself: on a non-empty range it succeeds with the same
guarantees, on an empty one it is undefined (shown for the whole vector, as it is used). -/
theorem C59_first_partition {S : F → Prop} (hA : BoxArith F S) (part : PartitionFn F)
    (hp : StdPartition part) (v : List (PW F)) (hS : ∀ e ∈ v, PtIn S e.1) :
    (v ≠ [] → Returns (firstPartition part v) (fun r => r.1.Perm v ∧
      SplitsRange r.2 v.length)) ∧ (v = [] → firstPartition part v = .ub) := by
  constructor
  · intro hv
    obtain ⟨bs, h1, h2⟩ := firstPartition_eq hA hp v hv hS
    refine ⟨_, h1, h2.perm, ?_⟩
    dsimp only
    rw [← h2.perm.length_eq]
    exact offsets_splits bs h2.ne
  · rintro rfl; rfl

/-! ## C60 -/

private theorem splits_offsets {α : Type} (its : List Nat) :
    ∀ (a n : Nat) (l : List α), its.head? = some a → its.getLast? = some n →
      its.Pairwise (· < ·) → l.length = n →
      its = offsets a (batchesAt its l) ∧ (batchesAt its l).flatten = l.drop a ∧
      ∀ b ∈ batchesAt its l, b ≠ [] := by
  induction its with
  | nil => intro a n l h; cases h
  | cons x its ih =>
    intro a n l h1 h2 h3 h4
    cases its with
    | nil =>
      simp only [List.head?_cons, Option.some.injEq, List.getLast?_singleton] at h1 h2
      subst h1 h2
      refine ⟨rfl, ?_, by simp [batchesAt]⟩
      rw [List.drop_of_length_le (by omega)]; rfl
    | cons y its =>
      simp only [List.head?_cons, Option.some.injEq] at h1
      subst h1
      rw [List.getLast?_cons_cons] at h2
      rw [List.pairwise_cons] at h3
      obtain ⟨e1, e2, e3⟩ := ih y n l rfl h2 h3.2 h4
      have hxy := h3.1 y (by simp)
      have hyn : y ≤ n := by
        rw [e1] at h2
        rw [offsets_getLast?] at h2
        have := Option.some.inj h2
        omega
      have hlen : ((l.take y).drop x).length = y - x := by
        rw [List.length_drop, List.length_take]; omega
      refine ⟨?_, ?_, ?_⟩
      · rw [batchesAt, offsets, hlen, show x + (y - x) = y by omega, ← e1]
      · rw [batchesAt, List.flatten_cons, e2]
        conv_rhs => rw [← List.take_append_drop y l]
        rw [List.drop_append_of_le_length (by rw [List.length_take]; omega)]
      · intro b hb
        rw [batchesAt] at hb
        rcases List.mem_cons.1 hb with rfl | hb
        · intro h0
          rw [h0] at hlen
          simp at hlen
          omega
        · exact e3 b hb

private theorem batchesAt_getElem {α : Type} (its : List Nat) (l : List α) (i : Nat)
    (h : i + 1 < its.length) :
    (batchesAt its l)[i]? = some ((l.take its[i + 1]).drop its[i]) := by
  induction its generalizing i with
  | nil => simp at h
  | cons x its ih =>
    cases its with
    | nil => simp at h
    | cons y its =>
      rw [batchesAt]
      cases i with
      | zero => rfl
      | succ i =>
        rw [List.getElem?_cons_succ, ih i (by simpa using h)]
        rfl

private theorem length_le_flatten {α : Type} (bs : List (List α)) (h : ∀ b ∈ bs, b ≠ []) :
    bs.length ≤ bs.flatten.length := by
  induction bs with
  | nil => simp
  | cons c bs ih =>
    have := List.length_pos_of_ne_nil (h c (by simp))
    have := ih (fun d hd => h d (by simp [hd]))
    rw [List.length_cons, List.flatten_cons, List.length_append]
    omega

/-- Iterating over a batcher visits the batches given by the partition indices; `at(i)` returns
the `i`-th of them, and throws for larger indices; together the batches are the whole grid. -/
theorem C60_at_iteration (b : Batcher F) (hq : Consistent b.quad.quad)
    (hs : SplitsRange b.partIdx b.quad.quad.npts) (hlt : b.quad.quad.npts < 2147483648) :
    Returns b.batches (fun es => es.length = b.nbatches ∧
      (∀ i, i ≥ es.length → b.at i = .throws (.runtimeError "Index out of bounds")) ∧
      (∀ i, (hi : i < es.length) → b.at i = .ok es[i]) ∧
      es.flatMap Batch.points = b.quad.quad.points ∧
      es.flatMap Batch.weights = b.quad.quad.weights ∧
      ∀ e ∈ es, e.points ≠ [] ∧ e.points.length = e.weights.length) := by
  obtain ⟨h1, h2, h3⟩ := hs
  unfold Consistent at hq
  obtain ⟨p1, p2, p3⟩ := splits_offsets b.partIdx 0 b.quad.quad.npts b.quad.quad.points h1 h2 h3 rfl
  obtain ⟨w1, w2, w3⟩ := splits_offsets b.partIdx 0 b.quad.quad.npts b.quad.quad.weights h1 h2 h3
    hq.symm
  set bp := batchesAt b.partIdx b.quad.quad.points with hbp
  set bw := batchesAt b.partIdx b.quad.quad.weights with hbw
  have hlp : b.partIdx.length = bp.length + 1 := by
    have := congrArg List.length p1
    rwa [length_offsets] at this
  have hlw : b.partIdx.length = bw.length + 1 := by
    have := congrArg List.length w1
    rwa [length_offsets] at this
  have hcount : bp.length ≤ b.quad.quad.npts := by
    have hf : bp.flatten.length = b.quad.quad.npts := by rw [p2]; rfl
    rw [← hf]
    exact length_le_flatten bp p3
  have hnb : b.nbatches = bp.length := by
    unfold Batcher.nbatches
    rw [subWrap_of_le (by omega) (by rw [hlp]; unfold sizeMod; omega)]
    omega
  have hbound : ∀ i, (hi : i < b.partIdx.length) → b.partIdx[i] ≤ b.quad.quad.npts := by
    intro i hi
    have hmem : b.partIdx[i] ∈ b.partIdx := List.getElem_mem hi
    have hf : bp.flatten.length = b.quad.quad.npts := by rw [p2]; rfl
    obtain ⟨x, hx⟩ : ∃ x, x = b.partIdx[i] := ⟨_, rfl⟩
    rw [← hx] at hmem ⊢
    rw [p1] at hmem
    obtain ⟨l1, l2, e, hx'⟩ := (mem_offsets _ _ _).1 hmem
    rw [hx', ← hf, e]
    simp only [List.flatten_append, List.length_append]
    omega
  have hderef : ∀ i, i < bp.length → ∃ e, b.deref i = .ok e ∧ bp[i]? = some e.points ∧
      bw[i]? = some e.weights := by
    intro i hi
    have hi1 : i + 1 < b.partIdx.length := by omega
    have hlt' : b.partIdx[i] < b.partIdx[i + 1] :=
      List.pairwise_iff_getElem.1 h3 i (i + 1) (by omega) hi1 (by omega)
    have hle := hbound (i + 1) hi1
    have g1 := batchesAt_getElem b.partIdx b.quad.quad.points i hi1
    have g2 := batchesAt_getElem b.partIdx b.quad.quad.weights i hi1
    unfold Quad.npts at hle
    unfold Batcher.deref
    rw [vget_lt (by omega), Outcome.ok_bind, vget_lt hi1, Outcome.ok_bind]
    unfold vrange
    rw [if_pos ⟨by omega, hle⟩, Outcome.ok_bind, if_pos ⟨by omega, by omega⟩, Outcome.ok_bind]
    have hne : (b.quad.quad.points.take b.partIdx[i + 1]).drop b.partIdx[i] ≠ [] := by
      apply p3
      exact List.mem_of_getElem? g1
    obtain ⟨p, ps, hps⟩ := List.exists_cons_of_ne_nil hne
    rw [← hbp] at g1
    rw [← hbw] at g2
    rw [hps] at g1 ⊢
    refine ⟨_, rfl, ?_, ?_⟩
    · exact g1
    · exact g2
  have hiter : ∀ d n, n + d = bp.length → ∃ es, b.iterFrom n = .ok es ∧ es.length = d ∧
      (∀ i, (hi : i < es.length) → b.deref (n + i) = .ok es[i]) ∧
      es.map Batch.points = bp.drop n ∧ es.map Batch.weights = bw.drop n := by
    intro d
    induction d with
    | zero =>
      intro n hn
      unfold Batcher.iterFrom
      rw [if_pos (by omega)]
      refine ⟨[], rfl, rfl, by simp, ?_, ?_⟩
      · rw [List.drop_of_length_le (by omega)]; rfl
      · rw [List.drop_of_length_le (by omega)]; rfl
    | succ d ih =>
      intro n hn
      obtain ⟨e, he, e1, e2⟩ := hderef n (by omega)
      obtain ⟨es, hes, hl, ha, hp', hw'⟩ := ih (n + 1) (by omega)
      unfold Batcher.iterFrom
      rw [if_neg (by omega), if_pos (by omega), he, Outcome.ok_bind, hes, Outcome.ok_bind]
      refine ⟨_, rfl, by simp [hl], ?_, ?_, ?_⟩
      · intro i hi
        cases i with
        | zero => simpa using he
        | succ i =>
          have := ha i (by simpa using hi)
          rw [show n + (i + 1) = n + 1 + i by omega]
          simpa using this
      · obtain ⟨hlt1, hget⟩ := List.getElem?_eq_some_iff.1 e1
        rw [List.map_cons, hp', List.drop_eq_getElem_cons hlt1, hget]
      · obtain ⟨hlt1, hget⟩ := List.getElem?_eq_some_iff.1 e2
        rw [List.map_cons, hw', List.drop_eq_getElem_cons hlt1, hget]
  obtain ⟨es, hes, hl, ha, hp', hw'⟩ := hiter bp.length 0 (by omega)
  rw [List.drop_zero] at hp' hw'
  refine ⟨es, ?_, ?_, ?_, ?_, ?_, ?_, ?_⟩
  · unfold Batcher.batches
    rw [if_neg (by omega)]
    exact hes
  · rw [hl, hnb]
  · intro i hi
    unfold Batcher.at
    rw [if_pos (by omega)]
  · intro i hi
    unfold Batcher.at
    rw [if_neg (by omega)]
    have h32 : toInt32 i = (i : Int) := by
      unfold toInt32
      rw [Nat.mod_eq_of_lt (by omega), if_pos (by omega)]
    dsimp only
    rw [h32, if_pos (by omega), Int.toNat_natCast]
    have := ha i hi
    rwa [Nat.zero_add] at this
  · rw [List.flatMap_def, hp', p2, List.drop_zero]
  · rw [List.flatMap_def, hw', w2, List.drop_zero]
  · intro e he
    obtain ⟨i, hi, rfl⟩ := List.getElem_of_mem he
    have hd := ha i hi
    obtain ⟨e', he', e1, e2⟩ := hderef i (by omega)
    rw [Nat.zero_add, he'] at hd
    cases hd
    refine ⟨p3 _ (List.mem_of_getElem? e1), ?_⟩
    have hi1 : i + 1 < b.partIdx.length := by omega
    have g1 := batchesAt_getElem b.partIdx b.quad.quad.points i hi1
    have g2 := batchesAt_getElem b.partIdx b.quad.quad.weights i hi1
    rw [← hbp, e1] at g1
    rw [← hbw, e2] at g2
    rw [Option.some.inj g1, Option.some.inj g2]
    simp [hq]

/-- The index is converted to `int`: beyond `2^31` batches `at` is undefined. -/
theorem C60_int_conversion (b : Batcher F) (h : 2147483648 < b.nbatches) :
    b.at 2147483648 = .ub := by
  unfold Batcher.at
  rw [if_neg (by omega)]
  rfl

/-- A batcher given an empty index vector reports `2^64 - 1` batches, and any access is
undefined. -/
theorem C60_empty_index (b : Batcher F) (h : b.partIdx = []) :
    b.nbatches = 18446744073709551615 ∧ b.at 0 = .ub ∧ b.batches = .ub := by
  refine ⟨?_, ?_, ?_⟩
  · unfold Batcher.nbatches
    rw [h]; rfl
  · unfold Batcher.at Batcher.nbatches
    rw [h]
    rw [if_neg (by decide)]
    show b.deref 0 = .ub
    unfold Batcher.deref
    rw [h]
    rfl
  · unfold Batcher.batches
    rw [h]; rfl

/-! ## C61 -/

private structure Tracks (w : BWorld F) (s : Nat × List (Option Nat)) : Prop where
  len : w.quads.length = s.1
  quad : w.handles.map BHandle.quad = s.2
  lt : ∀ a, some a ∈ s.2 → a < s.1

private theorem tracks_step (w w' : BWorld F) (s : Nat × List (Option Nat)) (o : BOp F)
    (ht : Tracks w s) (h : w.step o = .ok w') : Tracks w' (familyStep s o) := by
  obtain ⟨h1, h2, h3⟩ := ht
  have hget : ∀ (i : Nat) (b : BHandle), vget w.handles i = .ok b →
      w.handles[i]? = some b ∧ s.2[i]? = some b.quad := by
    intro i b hv
    unfold vget at hv
    split at hv
    · rename_i x hx
      cases hv
      exact ⟨hx, by rw [← h2, List.getElem?_map, hx]; rfl⟩
    · cases hv
  cases o with
  | copy i =>
    simp only [BWorld.step, Outcome.bind_eq_ok] at h
    obtain ⟨b, hb, h⟩ := h
    cases h
    obtain ⟨hb1, hb2⟩ := hget i b hb
    refine ⟨h1, ?_, ?_⟩
    · simp [familyStep, h2, hb2]
    · intro a ha
      simp only [familyStep, List.mem_append, List.mem_singleton] at ha
      rcases ha with ha | ha
      · exact h3 a ha
      · rw [hb2] at ha
        exact h3 a (List.mem_of_getElem? (by rw [hb2]; exact congrArg some ha.symm))
  | move i =>
    simp only [BWorld.step, Outcome.bind_eq_ok] at h
    obtain ⟨b, hb, h⟩ := h
    cases h
    obtain ⟨hb1, hb2⟩ := hget i b hb
    refine ⟨h1, ?_, ?_⟩
    · simp only [familyStep, hb2, List.map_append, List.map_cons, List.map_nil, List.map_set, h2,
        Option.join_some]
    · intro a ha
      simp only [familyStep, List.mem_append, List.mem_singleton] at ha
      rcases ha with ha | ha
      · rcases List.mem_or_eq_of_mem_set ha with ha | ha
        · exact h3 a ha
        · cases ha
      · rw [hb2] at ha
        exact h3 a (List.mem_of_getElem? (by rw [hb2]; exact congrArg some ha.symm))
  | clone i =>
    simp only [BWorld.step, Outcome.bind_eq_ok] at h
    obtain ⟨b, hb, h⟩ := h
    split at h
    · cases h
    · simp only [Outcome.bind_eq_ok] at h
      obtain ⟨q, hq, h⟩ := h
      cases h
      refine ⟨by simp [familyStep, h1], by simp [familyStep, h2, h1], ?_⟩
      intro a ha
      simp only [familyStep, List.mem_append, List.mem_singleton] at ha ⊢
      rcases ha with ha | ha
      · have := h3 a ha; omega
      · cases ha; omega
  | recenter i c =>
    simp only [BWorld.step, Outcome.bind_eq_ok] at h
    obtain ⟨b, hb, h⟩ := h
    split at h
    · cases h
    · simp only [Outcome.bind_eq_ok] at h
      obtain ⟨q, hq, q', hq', h⟩ := h
      cases h
      exact ⟨by simpa [familyStep] using h1, h2, h3⟩

private theorem tracks_run (ops : List (BOp F)) : ∀ (w w' : BWorld F) (s : Nat × List (Option Nat)),
    Tracks w s → w.run ops = .ok w' → Tracks w' (ops.foldl familyStep s) := by
  induction ops with
  | nil => intro w w' s ht h; cases h; exact ht
  | cons o ops ih =>
    intro w w' s ht h
    simp only [BWorld.run, Outcome.bind_eq_ok] at h
    obtain ⟨w1, h1, h2⟩ := h
    exact ih w1 w' _ (tracks_step w w1 s o ht h1) h2

private theorem tracks_fresh (n : Nat) (w : BWorld F) (h : FreshWorld n w) :
    Tracks w (n, (List.range n).map some) :=
  ⟨h.1, h.2, by intro a ha; simpa using ha⟩

private theorem view_of (w : BWorld F) (s : Nat × List (Option Nat)) (ht : Tracks w s) (h f : Nat)
    (hf : s.2[h]? = some (some f)) : ∃ b q, w.handles[h]? = some b ∧ b.quad = some f ∧
      w.quads[f]? = some q ∧ w.view h = some ⟨b.maxBatch, q, b.partIdx⟩ := by
  rw [← ht.quad, List.getElem?_map, Option.map_eq_some_iff] at hf
  obtain ⟨b, hb, hbq⟩ := hf
  have hlt : f < w.quads.length := by
    rw [ht.len]
    apply ht.lt
    rw [← ht.quad]
    exact List.mem_map.2 ⟨b, List.mem_of_getElem? hb, hbq⟩
  refine ⟨b, w.quads[f], hb, hbq, List.getElem?_eq_getElem hlt, ?_⟩
  simp [BWorld.view, hb, hbq, hlt]

/-- Start with any number of batchers with separate quadratures, perform any history of copies,
moves, clones and recentrings, and recentre one batcher: every batcher of the same family is
recentred in the same way (partition indices unchanged), and every batcher of another family is
unaffected. -/
theorem C61_recenter_families (n : Nat) (w₀ w w' : BWorld F) (hw : FreshWorld n w₀)
    (ops : List (BOp F)) (hrun : w₀.run ops = .ok w) (h : Nat) (c : Pt F)
    (hstep : w.step (.recenter h c) = .ok w') :
    ∃ f, (families n ops)[h]? = some (some f) ∧
      ∀ h' g, (families n ops)[h']? = some (some g) →
        (g = f → ∃ b b', w.view h' = some b ∧ b.recenter c = .ok b' ∧ w'.view h' = some b' ∧
          b'.partIdx = b.partIdx) ∧
        (g ≠ f → w'.view h' = w.view h' ∧ w.view h' ≠ none) := by
  have ht := tracks_run ops w₀ w _ (tracks_fresh n w₀ hw) hrun
  simp only [BWorld.step, Outcome.bind_eq_ok] at hstep
  obtain ⟨b, hb, hstep⟩ := hstep
  have hb' : w.handles[h]? = some b := by
    unfold vget at hb
    split at hb
    · cases hb; assumption
    · cases hb
  split at hstep
  · cases hstep
  · rename_i f hf
    simp only [Outcome.bind_eq_ok] at hstep
    obtain ⟨q, hq, q', hq', hstep⟩ := hstep
    cases hstep
    have hqf : w.quads[f]? = some q := by
      unfold vget at hq
      split at hq
      · cases hq; assumption
      · cases hq
    have hflt : f < w.quads.length := (List.getElem?_eq_some_iff.1 hqf).1
    refine ⟨f, ?_, ?_⟩
    · show (ops.foldl familyStep _).2[h]? = _
      rw [← ht.quad, List.getElem?_map, hb']
      simp [hf]
    · intro h' g hg
      obtain ⟨b1, q1, e1, e2, e3, e4⟩ := view_of w _ ht h' g hg
      constructor
      · rintro rfl
        rw [hqf] at e3
        cases e3
        refine ⟨_, ⟨b1.maxBatch, q', b1.partIdx⟩, e4, ?_, ?_, rfl⟩
        · unfold Batcher.recenter
          dsimp only
          rw [hq']; rfl
        · simp [BWorld.view, e1, e2, hflt]
      · intro hne
        refine ⟨?_, by rw [e4]; simp⟩
        rw [e4]
        simp [BWorld.view, e1, e2, List.getElem?_set_ne (Ne.symm hne), e3]

/-- A fresh copy or clone shows exactly what its source shows, and making it changes no other
batcher. -/
theorem C61_copy_clone_view (n : Nat) (w₀ w w' : BWorld F) (hw : FreshWorld n w₀)
    (ops : List (BOp F)) (hrun : w₀.run ops = .ok w) (h : Nat)
    (hstep : w.step (.copy h) = .ok w' ∨ w.step (.clone h) = .ok w') :
    w'.view w.handles.length = w.view h ∧ w'.handles.length = w.handles.length + 1 ∧
    ∀ h', h' < w.handles.length → w'.view h' = w.view h' := by
  have ht := tracks_run ops w₀ w _ (tracks_fresh n w₀ hw) hrun
  have hv : ∀ {b}, vget w.handles h = .ok b → w.handles[h]? = some b := by
    intro b hb
    unfold vget at hb
    split at hb
    · cases hb; assumption
    · cases hb
  rcases hstep with hstep | hstep
  · simp only [BWorld.step, Outcome.bind_eq_ok] at hstep
    obtain ⟨b, hb, hstep⟩ := hstep
    cases hstep
    refine ⟨?_, by simp, ?_⟩
    · simp [BWorld.view, hv hb]
    · intro h' hlt
      simp [BWorld.view, List.getElem?_append_left hlt]
  · simp only [BWorld.step, Outcome.bind_eq_ok] at hstep
    obtain ⟨b, hb, hstep⟩ := hstep
    split at hstep
    · cases hstep
    · rename_i a ha
      simp only [Outcome.bind_eq_ok] at hstep
      obtain ⟨q, hq, hstep⟩ := hstep
      cases hstep
      have hqa : w.quads[a]? = some q := by
        unfold vget at hq
        split at hq
        · cases hq; assumption
        · cases hq
      refine ⟨?_, by simp, ?_⟩
      · simp [BWorld.view, hv hb, ha, hqa]
      · intro h' hlt
        simp only [BWorld.view, List.getElem?_append_left hlt]
        cases hb1 : w.handles[h']? with
        | none => rfl
        | some b1 =>
          cases hb2 : b1.quad with
          | none => simp [hb2]
          | some a1 =>
            have : a1 < w.quads.length := by
              rw [ht.len]
              apply ht.lt
              rw [← ht.quad]
              exact List.mem_map.2 ⟨b1, List.mem_of_getElem? hb1, hb2⟩
            simp [hb2, List.getElem?_append_left this]

/-- Using a moved-from batcher is undefined. -/
theorem C61_moved_from (w w' : BWorld F) (h : Nat) (c : Pt F)
    (hstep : w.step (.move h) = .ok w') :
    w'.step (.recenter h c) = .ub ∧ w'.step (.clone h) = .ub ∧
    w'.view w.handles.length = w.view h := by
  simp only [BWorld.step, Outcome.bind_eq_ok] at hstep
  obtain ⟨b, hb, hstep⟩ := hstep
  cases hstep
  have hv : w.handles[h]? = some b := by
    unfold vget at hb
    split at hb
    · cases hb; assumption
    · cases hb
  have hlt : h < w.handles.length := (List.getElem?_eq_some_iff.1 hv).1
  have hg : vget (w.handles.set h ⟨b.maxBatch, none, []⟩ ++ [b]) h =
      .ok ⟨b.maxBatch, none, []⟩ := by
    apply vget_ok
    rw [List.getElem?_append_left (by simpa using hlt)]
    simp [hlt]
  refine ⟨?_, ?_, ?_⟩
  · simp only [BWorld.step, hg, Outcome.ok_bind]
  · simp only [BWorld.step, hg, Outcome.ok_bind]
  · simp [BWorld.view, hv]

end

/-! ## Examples -/

/-- Two distinct points, the first twice. -/
private noncomputable def exQuad : SphQuad ℝ :=
  ⟨⟨[⟨0, 0, 0⟩, ⟨1, 0, 0⟩, ⟨0, 0, 0⟩], [1, 2, 3]⟩, ⟨0, 0, 0⟩⟩

/-- C55-C58: the batcher over this quadrature exists for batch size 2 and hangs for 1. -/
example : Consistent exQuad.quad ∧ exQuad.quad.points ≠ [] ∧ exQuad.quad.npts < sizeMod ∧
    (∃ (part : PartitionFn ℝ) (b : Batcher ℝ), StdPartition part ∧
      Batcher.make part 4 2 exQuad = some (.ok b)) ∧
    ∃ part : PartitionFn ℝ, StdPartition part ∧ ∀ fuel, Batcher.make part fuel 1 exQuad = none := by
  classical
  have hc : Consistent exQuad.quad := rfl
  have hne : exQuad.quad.points ≠ [] := by simp [exQuad]
  have hlt : exQuad.quad.npts < sizeMod := by
    show 3 < sizeMod
    decide
  have hS : ∀ p ∈ exQuad.quad.points, PtIn (fun _ : ℝ => True) p :=
    fun _ _ => ⟨trivial, trivial, trivial⟩
  refine ⟨hc, hne, hlt, ?_, ?_⟩
  · obtain ⟨b, hb⟩ := C58_terminates real_splitArith _ stdPartition_exists 2 exQuad hc hne hS hlt
      (by
        intro p
        simp only [exQuad, List.count_cons, List.count_nil, beq_iff_eq]
        by_cases h0 : (⟨0, 0, 0⟩ : Pt ℝ) = p
        · subst h0
          simp
        · simp only [h0, if_false]
          split <;> omega)
    exact ⟨_, b, stdPartition_exists, hb⟩
  · refine ⟨_, stdPartition_exists, fun fuel => ?_⟩
    exact C58_hangs real_splitArith.toBoxArith _ stdPartition_exists 1 exQuad hc hne hS hlt
      ⟨0, 0, 0⟩ (by simp [exQuad]) fuel

/-- C60: a batcher with two batches. -/
example : SplitsRange [0, 1, 3] exQuad.quad.npts ∧ exQuad.quad.npts < 2147483648 := by
  refine ⟨⟨rfl, rfl, by decide⟩, ?_⟩
  show 3 < 2147483648
  decide

/-- C57: both batches of a batcher can be read, and the real coordinates are weakly ordered. -/
example : WeakOrder ℝ (fun _ => True) ∧
    (∃ e, (⟨2, exQuad, [0, 2, 3]⟩ : Batcher ℝ).deref 0 = .ok e) ∧
    ∃ e, (⟨2, exQuad, [0, 2, 3]⟩ : Batcher ℝ).deref 1 = .ok e :=
  ⟨real_splitArith.toBoxArith.toWeakOrder, ⟨_, rfl⟩, ⟨_, rfl⟩⟩

/-- C59: the second and third of three pairs, their box cut into 8 cells. -/
example : ∃ (part : PartitionFn ℝ) (q : List (PW ℝ)), StdPartition part ∧ (1 ≤ 3 ∧ 3 ≤ q.length) ∧
    ∀ e ∈ (q.take 3).drop 1, InBox ⟨0, 0, 0⟩ ⟨1, 1, 1⟩ e.1 := by
  refine ⟨_, [(⟨5, 0, 0⟩, 1), (⟨0, 1, 0⟩, 2), (⟨1, 0, 1⟩, 3)], stdPartition_exists, ⟨by decide, le_rfl⟩, ?_⟩
  intro e he
  simp only [List.take, List.drop, List.mem_cons, List.not_mem_nil, or_false] at he
  rcases he with rfl | rfl <;> simp [InBox, Arith.lt]

/-- C60: batchers with an empty index vector, and with more batches than an `int` can count. -/
example : (∃ b : Batcher ℝ, b.partIdx = []) ∧ ∃ b : Batcher ℝ, 2147483648 < b.nbatches := by
  refine ⟨⟨⟨2, exQuad, []⟩, rfl⟩, ⟨2, exQuad, List.range 2147483650⟩, ?_⟩
  unfold Batcher.nbatches
  rw [List.length_range]
  decide

/-- C61: a batcher, a copy and a clone of the copy. -/
example : FreshWorld 1 (⟨[exQuad], [⟨2, some 0, [0, 2, 3]⟩]⟩ : BWorld ℝ) ∧
    families 1 ([.copy 0, .clone 1, .recenter 0 ⟨1, 1, 1⟩] : List (BOp ℝ)) =
      [some 0, some 0, some 1] := ⟨⟨rfl, rfl⟩, rfl⟩

/-- C61: copying, cloning, recentring and moving such batchers succeeds. -/
example : ∃ w w' w'' : BWorld ℝ,
    (⟨[exQuad], [⟨2, some 0, [0, 2, 3]⟩]⟩ : BWorld ℝ).run [.copy 0, .clone 1] = .ok w ∧ w.handles.length = 3 ∧
      w.step (.recenter 0 ⟨1, 1, 1⟩) = .ok w' ∧ w'.step (.move 2) = .ok w'' := by
  obtain ⟨s, hs, -⟩ := C30_recenter_step (⟨1, 1, 1⟩ : Pt ℝ) exQuad
  refine ⟨⟨[exQuad, exQuad], [⟨2, some 0, [0, 2, 3]⟩, ⟨2, some 0, [0, 2, 3]⟩, ⟨2, some 1, [0, 2, 3]⟩]⟩,
    ⟨[s, exQuad], [⟨2, some 0, [0, 2, 3]⟩, ⟨2, some 0, [0, 2, 3]⟩, ⟨2, some 1, [0, 2, 3]⟩]⟩, _, rfl, rfl, ?_, rfl⟩
  show (recenter (⟨1, 1, 1⟩ : Pt ℝ) exQuad >>= fun q => .ok _) = _
  rw [hs]
  rfl

end IntegratorXX
