import Verif.Lemmas.BatcherPerm
import Verif.Lemmas.FloatBatcher
import Verif.Spec.BatcherApart

/-!
# Blocks of the batcher are separated by coordinate planes (helper lemmas)
-/

set_option linter.unusedSectionVars false

namespace IntegratorXX

open Spec Arith

section
variable {F : Type} [Add F] [Sub F] [Mul F] [Div F] [Arith F] {S : F → Prop}

/-- In one coordinate no element of the second block is below an element of the first. -/
def Ahead (b b' : List (PW F)) : Prop :=
  (∀ e ∈ b, ∀ e' ∈ b', lt e'.1.x e.1.x = false) ∨ (∀ e ∈ b, ∀ e' ∈ b', lt e'.1.y e.1.y = false) ∨
    (∀ e ∈ b, ∀ e' ∈ b', lt e'.1.z e.1.z = false)

theorem Ahead.mono {b b' c c' : List (PW F)} (h : Ahead b b') (hc : c ⊆ b) (hc' : c' ⊆ b') : Ahead c c' := by
  rcases h with h | h | h
  · exact .inl fun e he e' he' => h e (hc he) e' (hc' he')
  · exact .inr (.inl fun e he e' he' => h e (hc he) e' (hc' he'))
  · exact .inr (.inr fun e he e' he' => h e (hc he) e' (hc' he'))

/-- The same for what two predicates select. -/
def AheadPred (m : List (PW F)) (p p' : PW F → Bool) : Prop :=
  Ahead (m.filter p) (m.filter p')

theorem splitBlocks_forall {part : PartitionFn F} (hp : StdPartition part) (ps : List (PW F → Bool))
    (m : List (PW F)) :
    List.Forall₂ (fun b p => ∀ e ∈ b, e ∈ m ∧ p e = true) (splitBlocks part ps m).1 ps := by
  induction ps generalizing m with
  | nil => exact .nil
  | cons p ps ih =>
    refine .cons ?_ ((ih _).imp ?_)
    · intro e he
      exact ⟨(hp.perm p m).subset (List.mem_of_mem_take he), hp.pos p m e he⟩
    · intro b q h e he
      exact ⟨(hp.perm p m).subset (List.mem_of_mem_drop (h e he).1), (h e he).2⟩

theorem pairwise_forall₂ {α β : Type} {R : α → β → Prop} {T : α → α → Prop} {U : β → β → Prop} {as : List α}
    {bs : List β} (h : List.Forall₂ R as bs) (hU : bs.Pairwise U)
    (hT : ∀ a a' b b', R a b → R a' b' → U b b' → T a a') : as.Pairwise T := by
  induction h with
  | nil => exact .nil
  | @cons a b as bs hab hs ih =>
    rw [List.pairwise_cons] at hU ⊢
    refine ⟨?_, ih hU.2⟩
    intro a' ha'
    obtain ⟨i, hi, rfl⟩ := List.getElem_of_mem ha'
    have hi' : i < bs.length := by rw [← hs.length_eq]; exact hi
    have h2 := (List.forall₂_iff_get.1 hs).2 i hi hi'
    exact hT _ _ _ _ hab h2 (hU.1 _ (List.getElem_mem hi'))

theorem cellPreds_ahead (h : CutArith F S) (n : Nat) (hn : n = 2 ∨ n = 3) (lo up : Pt F) (hlo : PtIn S lo)
    (hup : PtIn S up) (hx : lt up.x lo.x = false) (hy : lt up.y lo.y = false) (hz : lt up.z lo.z = false)
    (m : List (PW F)) (hm : ∀ e ∈ m, PtIn S e.1) : (cellPreds n lo up).Pairwise (AheadPred m) := by
  have hlt : (List.range n).Pairwise (· < ·) := List.pairwise_lt_range
  have sel : ∀ i j k (e : PW F), e ∈ m.filter (fun pw : PW F => pointInBox (gridPt n lo up i j k)
      (gridPt n lo up (i + 1) (j + 1) (k + 1)) pw.1) → e ∈ m ∧
      InBox (gridPt n lo up i j k) (gridPt n lo up (i + 1) (j + 1) (k + 1)) e.1 := by
    intro i j k e he
    obtain ⟨h1, h2⟩ := List.mem_filter.1 he
    exact ⟨h1, (pointInBox_iff _ _ _).1 h2⟩
  unfold cellPreds
  rw [List.pairwise_flatMap]
  refine ⟨?_, (List.Pairwise.and_mem.1 hlt).imp ?_⟩
  · intro i hi
    rw [List.pairwise_flatMap]
    refine ⟨?_, (List.Pairwise.and_mem.1 hlt).imp ?_⟩
    · intro j hj
      rw [List.pairwise_map]
      refine (List.Pairwise.and_mem.1 hlt).imp ?_
      rintro k k' ⟨hk, hk', hkk⟩
      refine .inr (.inr fun e he e' he' => ?_)
      obtain ⟨a1, -, -, a2, -⟩ := sel _ _ _ e he
      obtain ⟨b1, -, -, -, b2⟩ := sel _ _ _ e' he'
      exact h.cuts _ _ _ _ hlo.2.2 hup.2.2 (hm e a1).2.2 (hm e' b1).2.2 hz n k k' hn hkk (List.mem_range.1 hk') a2 b2
    · rintro j j' ⟨hj, hj', hjj⟩ p hp p' hp'
      obtain ⟨k, -, rfl⟩ := List.mem_map.1 hp
      obtain ⟨k', -, rfl⟩ := List.mem_map.1 hp'
      refine .inr (.inl fun e he e' he' => ?_)
      obtain ⟨a1, -, ⟨a2, -⟩, -⟩ := sel _ _ _ e he
      obtain ⟨b1, -, ⟨-, b2⟩, -⟩ := sel _ _ _ e' he'
      exact h.cuts _ _ _ _ hlo.2.1 hup.2.1 (hm e a1).2.1 (hm e' b1).2.1 hy n j j' hn hjj (List.mem_range.1 hj') a2 b2
  · rintro i i' ⟨hi, hi', hii⟩ p hp p' hp'
    obtain ⟨j, -, hp⟩ := List.mem_flatMap.1 hp
    obtain ⟨j', -, hp'⟩ := List.mem_flatMap.1 hp'
    obtain ⟨k, -, rfl⟩ := List.mem_map.1 hp
    obtain ⟨k', -, rfl⟩ := List.mem_map.1 hp'
    refine .inl fun e he e' he' => ?_
    obtain ⟨a1, ⟨a2, -⟩, -⟩ := sel _ _ _ e he
    obtain ⟨b1, ⟨-, b2⟩, -⟩ := sel _ _ _ e' he'
    exact h.cuts _ _ _ _ hlo.1 hup.1 (hm e a1).1 (hm e' b1).1 hx n i i' hn hii (List.mem_range.1 hi') a2 b2

theorem boxBlocks_ahead (h : CutArith F S) {part : PartitionFn F} (hp : StdPartition part) (n : Nat)
    (hn : n = 2 ∨ n = 3) (lo up : Pt F) (hlo : PtIn S lo) (hup : PtIn S up) (m : List (PW F)) (hne : m ≠ [])
    (hm : ∀ e ∈ m, PtIn S e.1 ∧ InBox lo up e.1) : (boxBlocks part n lo up m).Pairwise Ahead := by
  obtain ⟨e, he⟩ := List.exists_mem_of_ne_nil m hne
  obtain ⟨⟨s1, s2, s3⟩, ⟨x1, x2⟩, ⟨y1, y2⟩, ⟨z1, z2⟩⟩ := hm e he
  refine List.Pairwise.filter _ ?_
  refine pairwise_forall₂ (splitBlocks_forall hp _ m) (cellPreds_ahead h n hn lo up hlo hup
    (h.negTrans _ _ _ hup.1 s1 hlo.1 x1 x2) (h.negTrans _ _ _ hup.2.1 s2 hlo.2.1 y1 y2)
    (h.negTrans _ _ _ hup.2.2 s3 hlo.2.2 z1 z2) m (fun e he => (hm e he).1)) ?_
  intro b b' p p' h1 h2 h3
  exact h3.mono (fun e he => List.mem_filter.2 (h1 e he)) (fun e he => List.mem_filter.2 (h2 e he))

theorem refBlocks_ahead (h : CutArith F S) {part : PartitionFn F} (hp : StdPartition part) (maxBatch : Nat)
    (b : List (PW F)) (hb : b ≠ []) (hS : ∀ e ∈ b, PtIn S e.1) : (refBlocks part maxBatch b).Pairwise Ahead := by
  unfold refBlocks
  split
  · obtain ⟨lo, up, h1, h2, h3, h4, -⟩ := bounds_of h.toWeakOrder b hb hS
    unfold subBlocks
    rw [h1]
    exact boxBlocks_ahead h hp _ (cellCount_cases lo up) lo up h2 h3 b hb h4
  · simp

theorem ahead_flatMap (g : List (PW F) → List (List (PW F))) (bs : List (List (PW F)))
    (hb : bs.Pairwise Ahead) (hg : ∀ b ∈ bs, (g b).Pairwise Ahead) (hp : ∀ b ∈ bs, (g b).flatten.Perm b) :
    (bs.flatMap g).Pairwise Ahead := by
  rw [List.pairwise_flatMap]
  refine ⟨hg, (List.Pairwise.and_mem.1 hb).imp ?_⟩
  rintro b b' ⟨h1, h2, h3⟩ c hc c' hc'
  exact h3.mono (fun e he => (hp b h1).subset (List.mem_flatten.2 ⟨c, hc, he⟩))
    (fun e he => (hp b' h2).subset (List.mem_flatten.2 ⟨c', hc', he⟩))

/-- The loop keeps the blocks in this order. -/
theorem refineLoop_ahead (h : CutArith F S) {part : PartitionFn F} (hp : StdPartition part) (maxBatch : Nat)
    {v : List (PW F)} (hS : ∀ e ∈ v, PtIn S e.1) (hlt : v.length < sizeMod) (fuel : Nat) :
    ∀ bs, Blocked v bs → bs.Pairwise Ahead → ∀ r,
      refineLoop part maxBatch fuel (bs.flatten, offsets 0 bs) = some r →
      ∃ bs', r = .ok (bs'.flatten, offsets 0 bs') ∧ Blocked v bs' ∧ bs'.Pairwise Ahead := by
  induction fuel with
  | zero => intro bs _ _ r hr; cases hr
  | succ fuel ih =>
    intro bs hB hA r hr
    have hl : bs.flatten.length < sizeMod := by rw [hB.perm.length_eq]; exact hlt
    unfold refineLoop at hr
    dsimp only at hr
    split at hr
    · rw [refine_eq h.toBoxArith hp maxBatch bs hB.ne (hB.inS hS) hl] at hr
      refine ih _ (hB.step h.toBoxArith hp maxBatch hS) (ahead_flatMap _ _ hA ?_ ?_) r hr
      · exact fun b hb => refBlocks_ahead h hp maxBatch b (hB.ne b hb) (hB.inS hS b hb)
      · exact fun b hb => (refBlocks_perm h.toBoxArith hp maxBatch b (hB.ne b hb) (hB.inS hS b hb)).1
    · exact ⟨bs, (Option.some.inj hr).symm, hB, hA⟩

/-- The blocks of a constructed batcher, in order. -/
theorem make_ahead (hA : CutArith F S) (part : PartitionFn F) (hp : StdPartition part) (maxBatch fuel : Nat)
    (q : SphQuad F) (hq : Consistent q.quad) (hne : q.quad.points ≠ []) (hS : ∀ p ∈ q.quad.points, PtIn S p)
    (hlt : q.quad.npts < sizeMod) (r : Outcome (Batcher F)) (h : Batcher.make part fuel maxBatch q = some r) :
    ∃ bs, Blocked (q.quad.points.zip q.quad.weights) bs ∧ bs.Pairwise Ahead ∧
      r = .ok ⟨maxBatch, ⟨⟨bs.flatten.map Prod.fst, bs.flatten.map Prod.snd⟩, q.center⟩, offsets 0 bs⟩ := by
  have hq' : q.quad.points.length = q.quad.weights.length := hq
  have hzl : (q.quad.points.zip q.quad.weights).length = q.quad.points.length := by simp [hq']
  have hzS : ∀ e ∈ q.quad.points.zip q.quad.weights, PtIn S e.1 := fun e he => hS e.1 (List.of_mem_zip he).1
  have hzne : q.quad.points.zip q.quad.weights ≠ [] := by
    intro h0
    rw [h0] at hzl
    exact hne (List.length_eq_zero_iff.1 hzl.symm)
  obtain ⟨lo, up, h1, h2, h3, h4, -⟩ := bounds_of hA.toWeakOrder _ hzne hzS
  have hrest := boxRest_nil hA.toBoxArith hp 3 (by omega) lo up h2 h3 _ h4
  generalize hv : q.quad.points.zip q.quad.weights = v at *
  have hB : Blocked v (boxBlocks part 3 lo up v) := by
    refine ⟨?_, boxBlocks_ne part 3 lo up v, boxBlocks_together hp 3 lo up v⟩
    have := boxBlocks_perm hp 3 lo up v
    rwa [hrest, List.append_nil] at this
  have hfirst : firstPartition part v = .ok ((boxBlocks part 3 lo up v).flatten,
      offsets 0 (boxBlocks part 3 lo up v)) := by
    unfold firstPartition
    rw [h1, Outcome.ok_bind]
    have := partitionBox_eq hp 3 lo up [] v [] v.length (by simp)
    simpa [hrest] using this
  have hahead := boxBlocks_ahead hA hp 3 (.inr rfl) lo up h2 h3 v hzne h4
  unfold Batcher.make at h
  rw [Option.map_eq_some_iff] at h
  obtain ⟨r1, hr1, h⟩ := h
  unfold generateBatches at hr1
  rw [gather_eq q.quad hq, Outcome.ok_bind, hv, hfirst] at hr1
  dsimp only at hr1
  rw [Option.map_eq_some_iff] at hr1
  obtain ⟨r2, hr2, rfl⟩ := hr1
  obtain ⟨bs', rfl, hB', hA'⟩ := refineLoop_ahead hA hp maxBatch hzS (by rw [hzl]; exact hlt) fuel _ hB hahead r2 hr2
  refine ⟨bs', hB', hA', ?_⟩
  rw [← h]
  simp only [Outcome.ok_bind]
  rw [scatter_eq _ _ hq (by rw [hB'.perm.length_eq, hzl]), Outcome.ok_bind]
  rfl

end

/-! ## Monotone rounding -/

section
variable {L : Libm}

/-- `+inf`. -/
private def inf64 : F64 L := XReal.pinf

/-- Rounding two numbers above a finite `double`, unless the larger one overflows. -/
private theorem of_pair {c x y : ℝ} (hc : IsF64 c) (h : c ≤ x) (hxy : x ≤ y) :
    (F64.of y : F64 L) = inf64 ∨ ((F64.of y : F64 L) = F64.fin (rnd y) ∧ (F64.of x : F64 L) = F64.fin (rnd x) ∧
      rnd x ≤ rnd y ∧ c ≤ rnd x) := by
  have h1 := le_rnd hc.1 h
  have h2 := abs_lt.1 hc.2
  have h3 := rnd_mono hxy
  by_cases hb : 2 * f64Big ≤ rnd y
  · left
    show XReal.round y = _
    unfold XReal.round
    rw [if_pos hb]
    rfl
  · right
    refine ⟨?_, ?_, h3, h1⟩
    · show XReal.round y = _
      unfold XReal.round
      rw [if_neg hb, if_neg (by linarith)]
      rfl
    · show XReal.round x = _
      unfold XReal.round
      rw [if_neg (by linarith), if_neg (by linarith)]
      rfl

private theorem zero_isF64 : IsF64 0 := ⟨rnd_zero, by rw [abs_zero]; unfold f64Big; positivity⟩

private theorem pinf_div {n : ℕ} (hn : 0 < n) (h : n < 10) : (inf64 / ofNat n : F64 L) = inf64 := by
  rw [ofNat_fin (by norm_num; omega)]
  show XReal.roundX (XReal.pinf / XReal.fin n) = XReal.pinf
  have : (0 : ℝ) < n := by exact_mod_cast hn
  show XReal.roundX (if _ then _ else _) = _
  rw [if_neg (by linarith)]
  rfl

private theorem mul_pinf {n : ℕ} (hn : 0 < n) (h : n < 10) : (ofNat n * inf64 : F64 L) = inf64 := by
  rw [ofNat_fin (by norm_num; omega)]
  have : (0 : ℝ) < n := by exact_mod_cast hn
  show XReal.roundX (XReal.infMul n) = XReal.pinf
  unfold XReal.infMul
  rw [if_pos this]
  rfl

private theorem not_above {y : ℝ} {l : ℝ} (h : lt (F64.fin y : F64 L) (F64.fin l + inf64) = false) : False := by
  rw [f64lt_false] at h
  exact h trivial

/-- Finite `double` numbers. -/
theorem f64_cutArith : CutArith (F64 L) Finite64 where
  asymm := f64_boxArith.asymm
  negTrans a b c ha hb hc := f64_boxArith.negTrans a b c (.inl ha) (.inl hb) (.inl hc)
  zeroStep lo up x n hlo hup hx := f64_boxArith.zeroStep lo up x n (.inl hlo) (.inl hup) (.inl hx)
  cuts lo up x y hlo hup hx hy hle n i j hn hij hj h1 h2 := by
    obtain ⟨l, rfl, hl⟩ := hlo
    obtain ⟨u, rfl, hu⟩ := hup
    obtain ⟨x, rfl, hx⟩ := hx
    obtain ⟨y, rfl, hy⟩ := hy
    rw [fin_lt_false] at hle ⊢
    have hn0 : (0 : ℝ) < n := by rcases hn with rfl | rfl <;> norm_num
    have ej : (ofNat j : F64 L) = F64.fin j := ofNat_fin (by norm_num; omega)
    have ei : (ofNat (i + 1) : F64 L) = F64.fin ((i + 1 : ℕ) : ℝ) := ofNat_fin (by norm_num; omega)
    have en : (ofNat n : F64 L) = F64.fin n := ofNat_fin (by norm_num; omega)
    unfold cut at h1 h2
    rw [if_pos (by omega)] at h1 h2
    have hD : 0 ≤ u - l := by linarith
    have hpinf : ∀ d : F64 L, d = inf64 → lt (F64.fin y) (F64.fin l + ofNat j * d) = false → False := by
      rintro d rfl h
      rw [mul_pinf (by omega) (by omega)] at h
      exact not_above h
    rw [F64.fin_sub] at h1 h2
    rcases of_pair (L := L) zero_isF64 hD le_rfl with e | ⟨e, -, -, hD'⟩
    · rw [e, pinf_div (by omega) (by omega)] at h2
      exact (hpinf _ rfl h2).elim
    · rw [e, en, F64.fin_div _ hn0.ne'] at h1 h2
      rcases of_pair (L := L) zero_isF64 (div_nonneg hD' hn0.le) le_rfl with e | ⟨e, -, -, hd⟩
      · rw [e] at h2
        exact (hpinf _ rfl h2).elim
      · rw [e] at h1 h2
        generalize rnd (rnd (u - l) / n) = d at *
        rw [ej, F64.fin_mul] at h2
        rw [ei, F64.fin_mul] at h1
        have hm : ((i + 1 : ℕ) : ℝ) * d ≤ j * d := mul_le_mul_of_nonneg_right (by exact_mod_cast hij) hd
        rcases of_pair (L := L) zero_isF64 (mul_nonneg (Nat.cast_nonneg _) hd) hm with e | ⟨e, e', hw, hw0⟩
        · rw [e] at h2
          exact (not_above h2).elim
        · rw [e, F64.fin_add] at h2
          rw [e', F64.fin_add] at h1
          rcases of_pair (L := L) hl (show l ≤ l + _ by linarith) (add_le_add_right hw l) with e | ⟨e, e', hv, -⟩
          · rw [e, f64lt_false] at h2
            exact (h2 trivial).elim
          · rw [e, fin_lt_false] at h2
            rw [e', fin_lt_false] at h1
            linarith

end

end IntegratorXX
