import Verif.Spec.Batcher
import Verif.Lemmas.Loop

/-!
# Closed forms of the batcher's loops (helper lemmas)

The scratch vector and its split positions are described by the list of blocks between
consecutive positions.
-/

namespace IntegratorXX

open Spec Arith

/-! ## Positions of blocks -/

section
variable {α : Type}

/-- The positions at which the blocks `bs` start, and the end of the last one. -/
def offsets : Nat → List (List α) → List Nat
  | a, [] => [a]
  | a, b :: bs => a :: offsets (a + b.length) bs

theorem offsets_cons_head (a : Nat) (bs : List (List α)) :
    ∃ l, offsets a bs = a :: l := by cases bs <;> exact ⟨_, rfl⟩

theorem length_offsets (a : Nat) (bs : List (List α)) :
    (offsets a bs).length = bs.length + 1 := by
  induction bs generalizing a with
  | nil => rfl
  | cons b bs ih => simp [offsets, ih]

theorem offsets_append (a : Nat) (bs cs : List (List α)) :
    offsets a (bs ++ cs) =
      (offsets a bs).dropLast ++ offsets (a + bs.flatten.length) cs := by
  induction bs generalizing a with
  | nil => simp [offsets]
  | cons b bs ih =>
    obtain ⟨l, hl⟩ := offsets_cons_head (a + b.length) bs
    simp only [List.cons_append, offsets, List.flatten_cons, List.length_append]
    rw [ih, ← Nat.add_assoc, hl, List.dropLast_cons_cons, List.cons_append]

theorem offsets_getLast? (a : Nat) (bs : List (List α)) :
    (offsets a bs).getLast? = some (a + bs.flatten.length) := by
  induction bs generalizing a with
  | nil => simp [offsets]
  | cons b bs ih =>
    obtain ⟨l, hl⟩ := offsets_cons_head (a + b.length) bs
    have := ih (a + b.length)
    simp only [offsets]
    rw [hl] at this ⊢
    rw [List.getLast?_cons_cons, this]
    simp [Nat.add_assoc]

theorem offsets_snoc (a : Nat) (bs : List (List α)) (b : List α) :
    offsets a (bs ++ [b]) = offsets a bs ++ [a + bs.flatten.length + b.length] := by
  rw [offsets_append]
  have h := offsets_getLast? a bs
  have hne : offsets a bs ≠ [] := by
    obtain ⟨l, hl⟩ := offsets_cons_head a bs
    simp [hl]
  rw [List.getLast?_eq_some_getLast hne] at h
  have h2 := List.dropLast_append_getLast hne
  rw [Option.some.inj h] at h2
  conv_rhs => rw [← h2]
  simp [offsets]

theorem mem_offsets (a x : Nat) (bs : List (List α)) :
    x ∈ offsets a bs ↔ ∃ bs1 bs2, bs = bs1 ++ bs2 ∧ x = a + bs1.flatten.length := by
  induction bs generalizing a with
  | nil =>
    simp only [offsets, List.mem_singleton]
    constructor
    · rintro rfl; exact ⟨[], [], rfl, by simp⟩
    · rintro ⟨bs1, bs2, h, rfl⟩
      have : bs1 = [] := by
        cases bs1 with
        | nil => rfl
        | cons => simp at h
      simp [this]
  | cons b bs ih =>
    simp only [offsets, List.mem_cons, ih]
    constructor
    · rintro (rfl | ⟨bs1, bs2, rfl, rfl⟩)
      · exact ⟨[], b :: bs, rfl, by simp⟩
      · exact ⟨b :: bs1, bs2, rfl, by simp [Nat.add_assoc]⟩
    · rintro ⟨bs1, bs2, h, rfl⟩
      cases bs1 with
      | nil => left; simp
      | cons c bs1 =>
        simp only [List.cons_append, List.cons.injEq] at h
        right
        exact ⟨bs1, bs2, h.2, by simp [h.1, Nat.add_assoc]⟩

theorem offsets_le (a x : Nat) (bs : List (List α)) (h : x ∈ offsets a bs) : a ≤ x := by
  obtain ⟨_, _, _, rfl⟩ := (mem_offsets a x bs).1 h
  omega

theorem offsets_pairwise (a : Nat) (bs : List (List α)) (h : ∀ b ∈ bs, b ≠ []) :
    (offsets a bs).Pairwise (· < ·) := by
  induction bs generalizing a with
  | nil => simp [offsets]
  | cons b bs ih =>
    simp only [offsets, List.pairwise_cons]
    refine ⟨?_, ih _ (fun c hc => h c (by simp [hc]))⟩
    intro x hx
    have := offsets_le _ _ _ hx
    have := List.length_pos_of_ne_nil (h b (by simp))
    omega

theorem offsets_getElem? (a i : Nat) (bs : List (List α)) (h : i ≤ bs.length) :
    (offsets a bs)[i]? = some (a + (bs.take i).flatten.length) := by
  induction bs generalizing a i with
  | nil => simp at h; simp [offsets, h]
  | cons b bs ih =>
    cases i with
    | zero => simp [offsets]
    | succ i =>
      simp only [List.length_cons] at h
      simp only [offsets, List.getElem?_cons_succ, List.take_succ_cons, List.flatten_cons,
        List.length_append]
      rw [ih _ i (by omega), Nat.add_assoc]

theorem uniq_offsets (a : Nat) (bs : List (List α)) :
    uniq (offsets a bs) = offsets a (bs.filter (fun b => !b.isEmpty)) := by
  induction bs generalizing a with
  | nil => rfl
  | cons b bs ih =>
    obtain ⟨l, hl⟩ := offsets_cons_head (a + b.length) bs
    have h := ih (a + b.length)
    simp only [offsets]
    rw [hl] at h ⊢
    unfold uniq
    by_cases hb : b = []
    · subst hb
      simp only [List.length_nil, Nat.add_zero] at h ⊢
      simp [h]
    · have := List.length_pos_of_ne_nil hb
      rw [if_neg (by omega), h]
      have hb' : (!b.isEmpty) = true := by simp [hb]
      rw [List.filter_cons_of_pos (p := fun b : List α => !b.isEmpty) hb', offsets]

theorem partCounts_offsets (a : Nat) (bs : List (List α))
    (h : a + bs.flatten.length < sizeMod) :
    partCounts (offsets a bs) = bs.map List.length := by
  induction bs generalizing a with
  | nil => rfl
  | cons b bs ih =>
    have hlen : a + b.length + bs.flatten.length < sizeMod := by
      simp only [List.flatten_cons, List.length_append] at h; omega
    obtain ⟨l, hl⟩ := offsets_cons_head (a + b.length) bs
    have := ih (a + b.length) hlen
    unfold partCounts at this ⊢
    simp only [offsets, List.map_cons]
    rw [hl] at this ⊢
    simp only [List.tail_cons, List.zipWith_cons_cons] at this ⊢
    rw [this, subWrap_of_le (by omega) (by omega)]
    congr 1
    omega

end

/-! ## Sets of positions -/

theorem mem_uniq (x : Nat) (l : List Nat) : x ∈ uniq l ↔ x ∈ l := by
  induction l with
  | nil => simp [uniq]
  | cons a l ih =>
    cases l with
    | nil => simp [uniq]
    | cons b l =>
      unfold uniq
      split
      · rename_i h
        rw [ih]
        subst h
        simp
      · simp [ih]

theorem uniq_pairwise (l : List Nat) (h : l.Pairwise (· ≤ ·)) : (uniq l).Pairwise (· < ·) := by
  induction l with
  | nil => simp [uniq]
  | cons a l ih =>
    cases l with
    | nil => simp [uniq]
    | cons b l =>
      have h2 := List.pairwise_cons.1 h
      unfold uniq
      split
      · exact ih h2.2
      · rename_i hne
        rw [List.pairwise_cons]
        refine ⟨?_, ih h2.2⟩
        intro x hx
        rw [mem_uniq] at hx
        have h3 := h2.1 b (by simp)
        rcases List.mem_cons.1 hx with rfl | hx'
        · omega
        · have := (List.pairwise_cons.1 h2.2).1 x hx'
          omega

theorem mem_setUnion (x : Nat) (l m : List Nat) : x ∈ setUnion l m ↔ x ∈ l ∨ x ∈ m := by
  induction l, m using setUnion.induct with
  | case1 l => simp [setUnion]
  | case2 l h => cases l <;> simp [setUnion]
  | case3 a l b m h ih =>
    rw [setUnion, if_pos h]
    simp only [List.mem_cons, ih]; tauto
  | case4 a l b m h h' ih =>
    rw [setUnion, if_neg h, if_pos h']
    simp only [List.mem_cons, ih]; tauto
  | case5 a l b m h h' ih =>
    rw [setUnion, if_neg h, if_neg h']
    have : a = b := by omega
    subst this
    simp only [List.mem_cons, ih]; tauto

theorem setUnion_pairwise (l m : List Nat) (hl : l.Pairwise (· < ·)) (hm : m.Pairwise (· < ·)) :
    (setUnion l m).Pairwise (· < ·) := by
  induction l, m using setUnion.induct with
  | case1 l => simpa [setUnion] using hm
  | case2 l h => cases l with
    | nil => simp [setUnion]
    | cons => simpa [setUnion] using hl
  | case3 a l b m h ih =>
    rw [setUnion, if_pos h, List.pairwise_cons]
    rw [List.pairwise_cons] at hl
    refine ⟨?_, ih hl.2 hm⟩
    intro x hx
    rw [mem_setUnion] at hx
    rw [List.pairwise_cons] at hm
    rcases hx with hx | hx
    · exact hl.1 x hx
    · rcases List.mem_cons.1 hx with rfl | hx
      · exact h
      · have := hm.1 x hx; omega
  | case4 a l b m h h' ih =>
    rw [setUnion, if_neg h, if_pos h', List.pairwise_cons]
    have hm2 := List.pairwise_cons.1 hm
    refine ⟨?_, ih hl hm2.2⟩
    intro x hx
    rw [mem_setUnion] at hx
    rw [List.pairwise_cons] at hl
    rcases hx with hx | hx
    · rcases List.mem_cons.1 hx with rfl | hx
      · exact h'
      · have := hl.1 x hx; omega
    · exact hm2.1 x hx
  | case5 a l b m h h' ih =>
    rw [setUnion, if_neg h, if_neg h', List.pairwise_cons]
    rw [List.pairwise_cons] at hl hm
    refine ⟨?_, ih hl.2 hm.2⟩
    intro x hx
    rw [mem_setUnion] at hx
    rcases hx with hx | hx
    · exact hl.1 x hx
    · have := hm.1 x hx; omega

/-- A strictly increasing list is determined by its members. -/
theorem eq_of_mem_iff {l m : List Nat} (hl : l.Pairwise (· < ·)) (hm : m.Pairwise (· < ·))
    (h : ∀ x, x ∈ l ↔ x ∈ m) : l = m := by
  have hp : l.Perm m := (List.perm_ext_iff_of_nodup
    (hl.imp (fun h => Nat.ne_of_lt h)) (hm.imp (fun h => Nat.ne_of_lt h))).2 h
  exact hp.eq_of_pairwise (fun a b _ _ h1 h2 => by omega) hl hm

/-! ## Bounding boxes -/

section
variable {F : Type} [Arith F] {S : F → Prop}

theorem Spec.WeakOrder.irrefl (h : WeakOrder F S) (a : F) : lt a a = false := by
  cases hl : (lt a a : Bool) with
  | false => rfl
  | true => have := h.asymm _ _ hl; rw [hl] at this; exact this

theorem minCoord_spec (h : WeakOrder F S) (c : Pt F → F) (ps : List (Pt F)) (best : F)
    (hb : S best) (hS : ∀ p ∈ ps, S (c p)) :
    S (minCoord c best ps) ∧ lt best (minCoord c best ps) = false ∧
    (∀ p ∈ ps, lt (c p) (minCoord c best ps) = false) ∧
    (minCoord c best ps = best ∨ ∃ p ∈ ps, minCoord c best ps = c p) := by
  induction ps generalizing best with
  | nil => exact ⟨hb, h.irrefl _, by simp, .inl rfl⟩
  | cons p ps ih =>
    have hp := hS p (by simp)
    simp only [minCoord]
    by_cases hl : lt (c p) best = true
    · rw [if_pos hl]
      obtain ⟨h1, h2, h3, h4⟩ := ih (c p) hp (fun p' hp' => hS p' (by simp [hp']))
      refine ⟨h1, h.negTrans _ _ _ hb hp h1 (h.asymm _ _ hl) h2, ?_, ?_⟩
      · intro p' hp'
        rcases List.mem_cons.1 hp' with rfl | hp'
        · exact h2
        · exact h3 p' hp'
      · right
        rcases h4 with h4 | ⟨p', hp', h4⟩
        · exact ⟨p, by simp, h4⟩
        · exact ⟨p', by simp [hp'], h4⟩
    · rw [if_neg hl]
      obtain ⟨h1, h2, h3, h4⟩ := ih best hb (fun p' hp' => hS p' (by simp [hp']))
      refine ⟨h1, h2, ?_, ?_⟩
      · intro p' hp'
        rcases List.mem_cons.1 hp' with rfl | hp'
        · exact h.negTrans _ _ _ hp hb h1 (by simpa using hl) h2
        · exact h3 p' hp'
      · rcases h4 with h4 | ⟨p', hp', h4⟩
        · exact .inl h4
        · exact .inr ⟨p', by simp [hp'], h4⟩

theorem maxCoord_spec (h : WeakOrder F S) (c : Pt F → F) (ps : List (Pt F)) (best : F)
    (hb : S best) (hS : ∀ p ∈ ps, S (c p)) :
    S (maxCoord c best ps) ∧ lt (maxCoord c best ps) best = false ∧
    (∀ p ∈ ps, lt (maxCoord c best ps) (c p) = false) ∧
    (maxCoord c best ps = best ∨ ∃ p ∈ ps, maxCoord c best ps = c p) := by
  induction ps generalizing best with
  | nil => exact ⟨hb, h.irrefl _, by simp, .inl rfl⟩
  | cons p ps ih =>
    have hp := hS p (by simp)
    simp only [maxCoord]
    by_cases hl : lt (c p) best = true
    · rw [if_pos hl]
      obtain ⟨h1, h2, h3, h4⟩ := ih best hb (fun p' hp' => hS p' (by simp [hp']))
      refine ⟨h1, h2, ?_, ?_⟩
      · intro p' hp'
        rcases List.mem_cons.1 hp' with rfl | hp'
        · exact h.negTrans _ _ _ h1 hb hp h2 (h.asymm _ _ hl)
        · exact h3 p' hp'
      · rcases h4 with h4 | ⟨p', hp', h4⟩
        · exact .inl h4
        · exact .inr ⟨p', by simp [hp'], h4⟩
    · rw [if_neg hl]
      obtain ⟨h1, h2, h3, h4⟩ := ih (c p) hp (fun p' hp' => hS p' (by simp [hp']))
      refine ⟨h1, h.negTrans _ _ _ h1 hp hb h2 (by simpa using hl), ?_, ?_⟩
      · intro p' hp'
        rcases List.mem_cons.1 hp' with rfl | hp'
        · exact h2
        · exact h3 p' hp'
      · right
        rcases h4 with h4 | ⟨p', hp', h4⟩
        · exact ⟨p, by simp, h4⟩
        · exact ⟨p', by simp [hp'], h4⟩

theorem pointInBox_iff (lo up p : Pt F) : pointInBox lo up p = true ↔ InBox lo up p := by
  unfold pointInBox InBox
  cases lt up.x p.x <;> cases lt p.x lo.x <;> cases lt up.y p.y <;> cases lt p.y lo.y <;>
    cases lt up.z p.z <;> cases lt p.z lo.z <;> simp

/-- The box of a non-empty range: it contains the range, and every face touches it. -/
theorem boxBounds_spec (h : WeakOrder F S) (ps : List (Pt F)) (hne : ps ≠ [])
    (hS : ∀ p ∈ ps, PtIn S p) :
    ∃ lo up, boxBounds ps = .ok (lo, up) ∧ PtIn S lo ∧ PtIn S up ∧
      (∀ p ∈ ps, InBox lo up p) ∧
      (∃ p ∈ ps, p.x = lo.x) ∧ (∃ p ∈ ps, p.y = lo.y) ∧ (∃ p ∈ ps, p.z = lo.z) ∧
      (∃ p ∈ ps, p.x = up.x) ∧ (∃ p ∈ ps, p.y = up.y) ∧ (∃ p ∈ ps, p.z = up.z) := by
  cases ps with
  | nil => exact absurd rfl hne
  | cons p ps =>
    have hp := hS p (by simp)
    have hps : ∀ q ∈ ps, PtIn S q := fun q hq => hS q (by simp [hq])
    obtain ⟨a1, a2, a3, a4⟩ := minCoord_spec h Pt.x ps p.x hp.1 (fun q hq => (hps q hq).1)
    obtain ⟨b1, b2, b3, b4⟩ := minCoord_spec h Pt.y ps p.y hp.2.1 (fun q hq => (hps q hq).2.1)
    obtain ⟨c1, c2, c3, c4⟩ := minCoord_spec h Pt.z ps p.z hp.2.2 (fun q hq => (hps q hq).2.2)
    obtain ⟨d1, d2, d3, d4⟩ := maxCoord_spec h Pt.x ps p.x hp.1 (fun q hq => (hps q hq).1)
    obtain ⟨e1, e2, e3, e4⟩ := maxCoord_spec h Pt.y ps p.y hp.2.1 (fun q hq => (hps q hq).2.1)
    obtain ⟨f1, f2, f3, f4⟩ := maxCoord_spec h Pt.z ps p.z hp.2.2 (fun q hq => (hps q hq).2.2)
    have touch : ∀ (c : Pt F → F) (m : F), (m = c p ∨ ∃ q ∈ ps, m = c q) →
        ∃ q ∈ p :: ps, c q = m := by
      rintro c m (h | ⟨q, hq, h⟩)
      · exact ⟨p, by simp, h.symm⟩
      · exact ⟨q, by simp [hq], h.symm⟩
    refine ⟨_, _, rfl, ⟨a1, b1, c1⟩, ⟨d1, e1, f1⟩, ?_, touch Pt.x _ a4, touch Pt.y _ b4,
      touch Pt.z _ c4, touch Pt.x _ d4, touch Pt.y _ e4, touch Pt.z _ f4⟩
    intro q hq
    rcases List.mem_cons.1 hq with rfl | hq
    · exact ⟨⟨d2, a2⟩, ⟨e2, b2⟩, ⟨f2, c2⟩⟩
    · exact ⟨⟨d3 q hq, a3 q hq⟩, ⟨e3 q hq, b3 q hq⟩, ⟨f3 q hq, c3 q hq⟩⟩

end

/-! ## Splitting by a list of predicates -/

section
variable {F : Type}

/-- The blocks cut off by successive calls of `std::partition`, and what remains. -/
def splitBlocks (part : PartitionFn F) :
    List (PW F → Bool) → List (PW F) → List (List (PW F)) × List (PW F)
  | [], m => ([], m)
  | p :: ps, m =>
    let r := part p m
    let s := splitBlocks part ps (r.1.drop r.2)
    (r.1.take r.2 :: s.1, s.2)

theorem splitBlocks_perm {part : PartitionFn F} (hp : StdPartition part)
    (ps : List (PW F → Bool)) (m : List (PW F)) :
    ((splitBlocks part ps m).1.flatten ++ (splitBlocks part ps m).2).Perm m := by
  induction ps generalizing m with
  | nil => simp [splitBlocks]
  | cons p ps ih =>
    simp only [splitBlocks, List.flatten_cons, List.append_assoc]
    refine ((ih _).append_left _).trans ?_
    rw [List.take_append_drop]
    exact hp.perm p m

theorem splitBlocks_rest {part : PartitionFn F} (hp : StdPartition part)
    (ps : List (PW F → Bool)) (m : List (PW F)) :
    ∀ e ∈ (splitBlocks part ps m).2, ∀ p ∈ ps, p e = false := by
  induction ps generalizing m with
  | nil => simp
  | cons p ps ih =>
    intro e he q hq
    simp only [splitBlocks] at he
    rcases List.mem_cons.1 hq with rfl | hq
    · apply hp.neg q m e
      have := (splitBlocks_perm hp ps ((part q m).1.drop (part q m).2)).subset
        (List.mem_append_right _ he)
      exact this
    · exact ih _ e he q hq

/-- Elements of a block satisfy its predicate. -/
theorem splitBlocks_block {part : PartitionFn F} (hp : StdPartition part)
    (ps : List (PW F → Bool)) (m : List (PW F)) :
    ∀ b ∈ (splitBlocks part ps m).1, ∃ p ∈ ps, ∀ e ∈ b, p e = true := by
  induction ps generalizing m with
  | nil => simp [splitBlocks]
  | cons p ps ih =>
    intro b hb
    simp only [splitBlocks, List.mem_cons] at hb
    rcases hb with rfl | hb
    · exact ⟨p, by simp, hp.pos p m⟩
    · obtain ⟨q, hq, h⟩ := ih _ b hb
      exact ⟨q, by simp [hq], h⟩

/-- Elements no predicate distinguishes are not separated. -/
theorem splitBlocks_together {part : PartitionFn F} (hp : StdPartition part)
    (ps : List (PW F → Bool)) (hps : ∀ p ∈ ps, ∀ e e' : PW F, e.1 = e'.1 → p e = p e')
    (m : List (PW F)) :
    (splitBlocks part ps m).1.Pairwise (fun b b' => ∀ e ∈ b, ∀ e' ∈ b', e.1 ≠ e'.1) := by
  induction ps generalizing m with
  | nil => simp [splitBlocks]
  | cons p ps ih =>
    simp only [splitBlocks, List.pairwise_cons]
    refine ⟨?_, ih (fun q hq => hps q (by simp [hq])) _⟩
    intro b hb e he e' he' heq
    have h1 := hp.pos p m e he
    have h2 : e' ∈ (part p m).1.drop (part p m).2 :=
      (splitBlocks_perm hp ps _).subset
        (List.mem_append_left _ (List.mem_flatten.2 ⟨b, hb, he'⟩))
    have h3 := hp.neg p m e' h2
    rw [hps p (by simp) e e' heq, h3] at h1
    cases h1

end

section
variable {F : Type} [Add F] [Sub F] [Mul F] [Div F] [Arith F]

/-- The predicates of the cells, in the order of the triple loop. -/
def cellPreds (n : Nat) (lo up : Pt F) : List (PW F → Bool) :=
  (List.range n).flatMap fun i => (List.range n).flatMap fun j => (List.range n).map fun k =>
    fun pw => pointInBox (gridPt n lo up i j k) (gridPt n lo up (i + 1) (j + 1) (k + 1)) pw.1

theorem mem_cellPreds (n : Nat) (lo up : Pt F) (p : PW F → Bool) :
    p ∈ cellPreds n lo up ↔ ∃ i j k, i < n ∧ j < n ∧ k < n ∧ p = fun pw =>
      pointInBox (gridPt n lo up i j k) (gridPt n lo up (i + 1) (j + 1) (k + 1)) pw.1 := by
  unfold cellPreds
  simp only [List.mem_flatMap, List.mem_range, List.mem_map]
  constructor
  · rintro ⟨i, hi, j, hj, k, hk, rfl⟩
    exact ⟨i, j, k, hi, hj, hk, rfl⟩
  · rintro ⟨i, j, k, hi, hj, hk, rfl⟩
    exact ⟨i, hi, j, hj, k, hk, rfl⟩

theorem cellPreds_congr (n : Nat) (lo up : Pt F) :
    ∀ p ∈ cellPreds n lo up, ∀ e e' : PW F, e.1 = e'.1 → p e = p e' := by
  intro p hp e e' h
  obtain ⟨i, j, k, -, -, -, rfl⟩ := (mem_cellPreds n lo up p).1 hp
  simp only [h]

theorem boxCuts_eq (n : Nat) (lo up : F) :
    boxCuts n lo up = .ok ((List.range (n + 1)).map (cut n lo up)) := by
  unfold boxCuts
  obtain ⟨v, h1, h2, h3⟩ := forRange_inv
    (body := fun i (v : List F) => vset v i (lo + ofNat i * ((up - lo) / ofNat n)))
    (fun i (v : List F) => v.length = n + 1 ∧
      ∀ j, j < i → v[j]? = some (lo + ofNat j * ((up - lo) / ofNat n)))
    (Nat.zero_le n) (s := List.replicate (n + 1) (lit 0)) ⟨by simp, by simp⟩ (by
      rintro i s - hi ⟨hl, hj⟩
      refine ⟨_, vset_ok (by omega) _, by simpa using hl, ?_⟩
      intro j hji
      by_cases h : j = i
      · subst h
        have : j < n + 1 := by omega
        simp [hl, this]
      · rw [List.getElem?_set_ne (by omega)]; exact hj j (by omega))
  simp only [h1, Outcome.ok_bind]
  rw [vset_ok (by omega)]
  congr 1
  apply eq_map_range (by simpa using h2)
  intro j hj
  unfold cut
  by_cases h : j = n
  · subst h; simp [h2]
  · rw [List.getElem?_set_ne (by omega), h3 j (by omega), if_pos (by omega)]

/-- One `std::partition` call of `partition_box`. -/
def runPred (part : PartitionFn F) (en : Nat) (s : List (PW F) × List Nat) (p : PW F → Bool) :
    Outcome (List (PW F) × List Nat) :=
  match s.2.getLast? with
  | none => .ub
  | some back => do
    let (q, it) ← partitionRange part p s.1 back en
    pure (q, s.2 ++ [it])

theorem forN_eq_foldlM {σ : Type} (body : Nat → σ → Outcome σ) (n lo : Nat) (s : σ) :
    forN n lo body s = (List.range' lo n).foldlM (fun s i => body i s) s := by
  induction n generalizing lo s with
  | zero => rfl
  | succ n ih =>
    simp only [forN, List.range'_succ, List.foldlM_cons]
    congr 1
    funext s'
    exact ih _ _

theorem forRange_eq_foldlM {σ : Type} (body : Nat → σ → Outcome σ) (n : Nat) (s : σ) :
    forRange 0 n body s = (List.range n).foldlM (fun s i => body i s) s := by
  unfold forRange
  rw [forN_eq_foldlM, Nat.sub_zero, List.range_eq_range']

theorem foldlM_flatMap' {α β σ : Type} (f : σ → β → Outcome σ) (g : α → List β) (l : List α)
    (s : σ) : (l.flatMap g).foldlM f s = l.foldlM (fun s a => (g a).foldlM f s) s := by
  induction l generalizing s with
  | nil => rfl
  | cons a l ih =>
    simp only [List.flatMap_cons, List.foldlM_append, List.foldlM_cons]
    congr 1
    funext s'
    exact ih s'

theorem foldlM_map' {α β σ : Type} (f : σ → β → Outcome σ) (g : α → β) (l : List α)
    (s : σ) : (l.map g).foldlM f s = l.foldlM (fun s a => f s (g a)) s := by
  induction l generalizing s with
  | nil => rfl
  | cons a l ih =>
    simp only [List.map_cons, List.foldlM_cons]
    congr 1
    funext s'
    exact ih s'

theorem partitionBox_fold (part : PartitionFn F) (n : Nat) (lo up : Pt F) (q : List (PW F))
    (st en : Nat) :
    partitionBox part n lo up q st en =
      ((cellPreds n lo up).foldlM (runPred part en) (q, [st]) >>= fun s =>
        .ok (s.1, uniq s.2)) := by
  unfold partitionBox
  simp only [boxCuts_eq, Outcome.ok_bind]
  unfold cellPreds
  rw [foldlM_flatMap', ← forRange_eq_foldlM (fun i s => _)]
  congr 1
  apply forRange_congr
  intro i s _ hi
  rw [foldlM_flatMap', ← forRange_eq_foldlM (fun i s => _)]
  apply forRange_congr
  intro j s _ hj
  rw [foldlM_map', ← forRange_eq_foldlM (fun i s => _)]
  apply forRange_congr
  intro k s _ hk
  have e : ∀ (a b : F) (i : Nat), i < n + 1 →
      vget ((List.range (n + 1)).map (cut n a b)) i = .ok (cut n a b i) := by
    intro a b i hi
    apply vget_ok
    rw [getElem?_map_range, if_pos hi]
  unfold cellStep
  rw [e _ _ i (by omega), e _ _ j (by omega), e _ _ k (by omega), e _ _ (i + 1) (by omega),
    e _ _ (j + 1) (by omega), e _ _ (k + 1) (by omega)]
  rfl

omit [Add F] [Sub F] [Mul F] [Div F] [Arith F] in
/-- Closed form of the partition calls on a range `m` between `A` and `D`. -/
theorem foldPreds_eq {part : PartitionFn F} (hp : StdPartition part) (A D : List (PW F))
    (ps : List (PW F → Bool)) (done : List (List (PW F))) (m : List (PW F)) (en : Nat)
    (hen : en = A.length + done.flatten.length + m.length) :
    ps.foldlM (runPred part en) (A ++ done.flatten ++ m ++ D, offsets A.length done) =
      .ok (A ++ done.flatten ++ (splitBlocks part ps m).1.flatten ++
        (splitBlocks part ps m).2 ++ D,
        offsets A.length (done ++ (splitBlocks part ps m).1)) := by
  induction ps generalizing done m with
  | nil => simp [splitBlocks]
  | cons p ps ih =>
    rw [List.foldlM_cons]
    have hk : ((part p m).1.take (part p m).2).length = (part p m).2 := by
      rw [List.length_take, (hp.perm p m).length_eq]
      exact Nat.min_eq_left (hp.le p m)
    have h1 : runPred part en (A ++ done.flatten ++ m ++ D, offsets A.length done) p =
        .ok (A ++ (done ++ [(part p m).1.take (part p m).2]).flatten ++
          (part p m).1.drop (part p m).2 ++ D,
          offsets A.length (done ++ [(part p m).1.take (part p m).2])) := by
      unfold runPred
      dsimp only
      rw [offsets_getLast?]
      dsimp only
      unfold partitionRange
      rw [if_pos ⟨by omega, by simp only [List.length_append]; omega⟩]
      have e1 : ((A ++ done.flatten ++ m ++ D).take en).drop
          (A.length + done.flatten.length) = m := by
        rw [List.take_append_of_le_length (by simp only [List.length_append]; omega),
          List.take_of_length_le (by simp only [List.length_append]; omega)]
        rw [List.drop_append_of_le_length (by simp only [List.length_append]; omega)]
        rw [List.drop_of_length_le (by simp only [List.length_append]; omega)]
        rfl
      have e2 : (A ++ done.flatten ++ m ++ D).take (A.length + done.flatten.length) =
          A ++ done.flatten := by
        rw [List.append_assoc (A ++ done.flatten), List.take_append_of_le_length (by simp only [List.length_append]; omega),
          List.take_of_length_le (by simp only [List.length_append]; omega)]
      have e3 : (A ++ done.flatten ++ m ++ D).drop en = D := by
        rw [List.drop_append, List.drop_of_length_le (by simp only [List.length_append]; omega)]
        rw [show en - (A ++ done.flatten ++ m).length = 0 by simp only [List.length_append]; omega]
        rfl
      dsimp only
      rw [e1, e2, e3, Outcome.ok_bind, offsets_snoc, hk]
      congr 2
      simp only [List.flatten_append, List.flatten_cons, List.flatten_nil, List.append_nil,
        List.append_assoc]
      rw [← List.append_assoc ((part p m).1.take _), List.take_append_drop]
    rw [h1, Outcome.ok_bind, ih _ _ (by
      rw [hen]
      have h2 := (hp.perm p m).length_eq
      have h3 := congrArg List.length (List.take_append_drop (part p m).2 (part p m).1)
      simp only [List.length_append, List.flatten_append, List.flatten_cons, List.flatten_nil,
        List.append_nil] at h3 ⊢
      omega)]
    simp only [splitBlocks, List.flatten_append, List.flatten_cons, List.flatten_nil,
      List.append_nil, List.append_assoc, List.cons_append, List.nil_append]

/-- The non-empty blocks produced by `partition_box`. -/
def boxBlocks (part : PartitionFn F) (n : Nat) (lo up : Pt F) (m : List (PW F)) :
    List (List (PW F)) :=
  (splitBlocks part (cellPreds n lo up) m).1.filter (fun b => !b.isEmpty)

/-- What no box contains. -/
def boxRest (part : PartitionFn F) (n : Nat) (lo up : Pt F) (m : List (PW F)) : List (PW F) :=
  (splitBlocks part (cellPreds n lo up) m).2

theorem flatten_filter_nonempty {α : Type} (bs : List (List α)) :
    (bs.filter (fun b => !b.isEmpty)).flatten = bs.flatten := by
  induction bs with
  | nil => rfl
  | cons b bs ih =>
    by_cases hb : b = []
    · subst hb; simpa using ih
    · rw [List.filter_cons_of_pos (by simp [hb])]; simp [ih]

theorem partitionBox_eq {part : PartitionFn F} (hp : StdPartition part) (n : Nat) (lo up : Pt F)
    (A m D : List (PW F)) (en : Nat) (hen : en = A.length + m.length) :
    partitionBox part n lo up (A ++ m ++ D) A.length en =
      .ok (A ++ (boxBlocks part n lo up m).flatten ++ boxRest part n lo up m ++ D,
        offsets A.length (boxBlocks part n lo up m)) := by
  rw [partitionBox_fold]
  have := foldPreds_eq hp A D (cellPreds n lo up) [] m en (by simpa using hen)
  simp only [List.flatten_nil, List.append_nil, List.nil_append, offsets] at this
  rw [this, Outcome.ok_bind, uniq_offsets]
  unfold boxBlocks boxRest
  rw [flatten_filter_nonempty]

theorem boxBlocks_perm {part : PartitionFn F} (hp : StdPartition part) (n : Nat) (lo up : Pt F)
    (m : List (PW F)) :
    ((boxBlocks part n lo up m).flatten ++ boxRest part n lo up m).Perm m := by
  unfold boxBlocks boxRest
  rw [flatten_filter_nonempty]
  exact splitBlocks_perm hp _ m

theorem boxBlocks_ne (part : PartitionFn F) (n : Nat) (lo up : Pt F) (m : List (PW F)) :
    ∀ b ∈ boxBlocks part n lo up m, b ≠ [] := by
  intro b hb
  have := (List.mem_filter.1 hb).2
  simpa using this

theorem boxBlocks_cell {part : PartitionFn F} (hp : StdPartition part) (n : Nat) (lo up : Pt F)
    (m : List (PW F)) : ∀ b ∈ boxBlocks part n lo up m, ∃ i j k, i < n ∧ j < n ∧ k < n ∧
      ∀ e ∈ b, InBox (gridPt n lo up i j k) (gridPt n lo up (i + 1) (j + 1) (k + 1)) e.1 := by
  intro b hb
  obtain ⟨p, hp', h⟩ := splitBlocks_block hp _ m b (List.mem_filter.1 hb).1
  obtain ⟨i, j, k, hi, hj, hk, rfl⟩ := (mem_cellPreds n lo up p).1 hp'
  exact ⟨i, j, k, hi, hj, hk, fun e he => (pointInBox_iff _ _ _).1 (h e he)⟩

theorem boxBlocks_together {part : PartitionFn F} (hp : StdPartition part) (n : Nat)
    (lo up : Pt F) (m : List (PW F)) :
    (boxBlocks part n lo up m).Pairwise (fun b b' => ∀ e ∈ b, ∀ e' ∈ b', e.1 ≠ e'.1) :=
  (splitBlocks_together hp _ (cellPreds_congr n lo up) m).filter _

/-- Some cell of a subdivided interval contains a given point. -/
theorem exists_cell {S : F → Prop} (h : BoxArith F S) (n : Nat) (hn : 1 ≤ n) (lo up x : F)
    (hlo : S lo) (hup : S up) (hx : S x) (h1 : lt x lo = false) (h2 : lt up x = false) :
    ∃ i, i < n ∧ lt (cut n lo up (i + 1)) x = false ∧ lt x (cut n lo up i) = false := by
  have key : ∀ d i, i + d + 1 = n → lt x (cut n lo up i) = false →
      ∃ i, i < n ∧ lt (cut n lo up (i + 1)) x = false ∧ lt x (cut n lo up i) = false := by
    intro d
    induction d with
    | zero =>
      intro i hi hlt
      refine ⟨i, by omega, ?_, hlt⟩
      unfold cut
      rw [if_neg (by omega)]
      exact h2
    | succ d ih =>
      intro i hi hlt
      by_cases hc : lt x (cut n lo up (i + 1)) = true
      · exact ⟨i, by omega, h.asymm _ _ hc, hlt⟩
      · exact ih (i + 1) (by omega) (by simpa using hc)
  apply key (n - 1) 0 (by omega)
  unfold cut
  rw [if_pos (by omega)]
  exact h.zeroStep lo up x n hlo hup hx h1

/-- Nothing is left over when the box contains the range. -/
theorem boxRest_nil {S : F → Prop} (h : BoxArith F S) {part : PartitionFn F}
    (hp : StdPartition part) (n : Nat) (hn : 1 ≤ n) (lo up : Pt F) (hlo : PtIn S lo)
    (hup : PtIn S up) (m : List (PW F)) (hm : ∀ e ∈ m, PtIn S e.1 ∧ InBox lo up e.1) :
    boxRest part n lo up m = [] := by
  rw [List.eq_nil_iff_forall_not_mem]
  intro e he
  have hem : e ∈ m := (splitBlocks_perm hp _ m).subset (List.mem_append_right _ he)
  obtain ⟨hS, ⟨x1, x2⟩, ⟨y1, y2⟩, ⟨z1, z2⟩⟩ := hm e hem
  obtain ⟨i, hi, i1, i2⟩ := exists_cell h n hn lo.x up.x e.1.x hlo.1 hup.1 hS.1 x2 x1
  obtain ⟨j, hj, j1, j2⟩ := exists_cell h n hn lo.y up.y e.1.y hlo.2.1 hup.2.1 hS.2.1 y2 y1
  obtain ⟨k, hk, k1, k2⟩ := exists_cell h n hn lo.z up.z e.1.z hlo.2.2 hup.2.2 hS.2.2 z2 z1
  have := splitBlocks_rest hp _ m e he _
    ((mem_cellPreds n lo up _).2 ⟨i, j, k, hi, hj, hk, rfl⟩)
  have h2 : pointInBox (gridPt n lo up i j k) (gridPt n lo up (i + 1) (j + 1) (k + 1)) e.1 =
      true := (pointInBox_iff _ _ _).2 ⟨⟨i1, i2⟩, ⟨j1, j2⟩, ⟨k1, k2⟩⟩
  rw [h2] at this
  cases this

end

end IntegratorXX
