import Verif.Spec.Cube
import Verif.Prop.Batcher

/-!
# C112: how often the batcher refines
-/

namespace IntegratorXX

open Spec Arith

private theorem lt_false_iff (a b : ℝ) : lt a b = false ↔ b ≤ a := by
  rw [← not_lt, ← real_lt, Bool.not_eq_true]

/-- The width of a cell. -/
private theorem cut_width {n i : ℕ} (hi : i < n) {lo up s x y : ℝ} (hs : up - lo ≤ s)
    (hx : cut n lo up i ≤ x ∧ x ≤ cut n lo up (i + 1)) (hy : cut n lo up i ≤ y ∧ y ≤ cut n lo up (i + 1)) :
    |x - y| ≤ s / n := by
  have hn : (0 : ℝ) < n := by exact_mod_cast (by omega : 0 < n)
  have hd : (up - lo) / n ≤ s / n := div_le_div_of_nonneg_right hs hn.le
  have e : cut n lo up (i + 1) - cut n lo up i = (up - lo) / n := by
    unfold cut
    rw [if_pos hi]
    split_ifs with h
    · rw [real_ofNat, real_ofNat, real_ofNat]
      push_cast
      ring
    · have hni : (n : ℝ) = i + 1 := by exact_mod_cast (by omega : n = i + 1)
      rw [real_ofNat, real_ofNat]
      have hi' : (i : ℝ) = n - 1 := by linarith
      rw [hi']
      field_simp
      ring
  rw [abs_le]
  constructor <;> linarith [hx.1, hx.2, hy.1, hy.2]

/-- Any two points of the block are within `s`. -/
private def Tight (s : ℝ) (b : List (PW ℝ)) : Prop := ∀ e ∈ b, ∀ e' ∈ b, Within s e.1 e'.1

private theorem boxBlocks_tight {part : PartitionFn ℝ} (hp : StdPartition part) (n : ℕ) (lo up : Pt ℝ) (s : ℝ)
    (hs : up.x - lo.x ≤ s ∧ up.y - lo.y ≤ s ∧ up.z - lo.z ≤ s) (m : List (PW ℝ)) :
    ∀ c ∈ boxBlocks part n lo up m, Tight (s / n) c := by
  intro c hc e he e' he'
  obtain ⟨i, j, k, hi, hj, hk, h⟩ := boxBlocks_cell hp n lo up m c hc
  have h1 := h e he
  have h2 := h e' he'
  simp only [InBox, gridPt, lt_false_iff] at h1 h2
  exact ⟨cut_width hi hs.1 h1.1.symm h2.1.symm, cut_width hj hs.2.1 h1.2.1.symm h2.2.1.symm,
    cut_width hk hs.2.2 h1.2.2.symm h2.2.2.symm⟩

private theorem bounds_tight {s : ℝ} {b : List (PW ℝ)} (hb : b ≠ []) (ht : Tight s b) :
    ∃ lo up, boxBounds (b.map Prod.fst) = .ok (lo, up) ∧
      (up.x - lo.x ≤ s ∧ up.y - lo.y ≤ s ∧ up.z - lo.z ≤ s) ∧ ∀ e ∈ b, InCube lo s e.1 := by
  obtain ⟨lo, up, h1, -, -, h4, ⟨lx, hlx, elx⟩, ⟨ly, hly, ely⟩, ⟨lz, hlz, elz⟩,
    ⟨ux, hux, eux⟩, ⟨uy, huy, euy⟩, ⟨uz, huz, euz⟩⟩ :=
    bounds_of real_splitArith.toWeakOrder b hb (fun _ _ => ⟨trivial, trivial, trivial⟩)
  refine ⟨lo, up, h1, ⟨?_, ?_, ?_⟩, fun e he => ?_⟩
  · rw [← elx, ← eux]; exact (le_abs_self _).trans (ht ux hux lx hlx).1
  · rw [← ely, ← euy]; exact (le_abs_self _).trans (ht uy huy ly hly).2.1
  · rw [← elz, ← euz]; exact (le_abs_self _).trans (ht uz huz lz hlz).2.2
  · have h := (h4 e he).2
    simp only [InBox, lt_false_iff] at h
    have a1 := (le_abs_self _).trans (ht e he lx hlx).1
    have a2 := (le_abs_self _).trans (ht e he ly hly).2.1
    have a3 := (le_abs_self _).trans (ht e he lz hlz).2.2
    rw [elx] at a1; rw [ely] at a2; rw [elz] at a3
    exact ⟨⟨h.1.2, by linarith⟩, ⟨h.2.1.2, by linarith⟩, ⟨h.2.2.2, by linarith⟩⟩

private theorem tight_mono {s t : ℝ} (h : s ≤ t) {b : List (PW ℝ)} (hb : Tight s b) : Tight t b :=
  fun e he e' he' => ⟨(hb e he e' he').1.trans h, (hb e he e' he').2.1.trans h, (hb e he e' he').2.2.trans h⟩

private theorem tight_nonneg {s : ℝ} {b : List (PW ℝ)} (hb : b ≠ []) (ht : Tight s b) : 0 ≤ s := by
  obtain ⟨e, he⟩ := List.exists_mem_of_ne_nil b hb
  exact (abs_nonneg _).trans (ht e he e he).1

private theorem subBlocks_tight {part : PartitionFn ℝ} (hp : StdPartition part) {s : ℝ} {b : List (PW ℝ)} (hb : b ≠ [])
    (ht : Tight s b) : ∀ c ∈ subBlocks part b, Tight (s / 2) c := by
  obtain ⟨lo, up, h1, h2, -⟩ := bounds_tight hb ht
  have hsub : subBlocks part b = boxBlocks part (cellCount lo up) lo up b := by
    unfold subBlocks; rw [h1]
  intro c hc
  rw [hsub] at hc
  have h0 := tight_nonneg hb ht
  refine tight_mono ?_ (boxBlocks_tight hp _ lo up s h2 b c hc)
  rcases cellCount_cases lo up with e | e <;> rw [e]
  · norm_num
  · push_cast
    linarith

open Classical in
/-- The loop ends after `k` refinements when no cube of the side reached then contains too many points. -/
private theorem refineLoop_passes {part : PartitionFn ℝ} (hp : StdPartition part) (maxBatch : Nat) {v : List (PW ℝ)}
    (hlt : v.length < sizeMod) (k : ℕ) :
    ∀ (s : ℝ) (bs : List (List (PW ℝ))), Blocked v bs → (∀ b ∈ bs, b.length ≤ maxBatch ∨ Tight s b) →
      (∀ c : Pt ℝ, v.countP (fun e => decide (InCube c (s / 2 ^ k) e.1)) ≤ maxBatch) →
      ∃ r, refineLoop part maxBatch (k + 1) (bs.flatten, offsets 0 bs) = some r := by
  have hS : ∀ e ∈ v, PtIn (fun _ : ℝ => True) e.1 := fun _ _ => ⟨trivial, trivial, trivial⟩
  have hA := real_splitArith.toBoxArith
  induction k with
  | zero =>
    intro s bs hB ht hc
    have hl : bs.flatten.length < sizeMod := by rw [hB.perm.length_eq]; exact hlt
    have hsmall : ¬tooLarge maxBatch (offsets 0 bs) = true := by
      rw [tooLarge_offsets maxBatch bs hl]
      rintro ⟨b, hb, hbl⟩
      rcases ht b hb with h | h
      · omega
      · obtain ⟨lo, -, -, -, hin⟩ := bounds_tight (hB.ne b hb) h
        have h1 := hc lo
        rw [pow_zero, div_one] at h1
        have h2 : b.countP (fun e => decide (InCube lo s e.1)) = b.length :=
          List.countP_eq_length.2 fun e he => decide_eq_true (hin e he)
        have h3 : b.countP (fun e => decide (InCube lo s e.1)) ≤
            bs.flatten.countP (fun e => decide (InCube lo s e.1)) :=
          (List.sublist_flatten_of_mem hb).countP_le
        rw [hB.perm.countP_eq] at h3
        omega
    unfold refineLoop
    dsimp only
    rw [if_neg hsmall]
    exact ⟨_, rfl⟩
  | succ k ih =>
    intro s bs hB ht hc
    have hl : bs.flatten.length < sizeMod := by rw [hB.perm.length_eq]; exact hlt
    rw [refineLoop]
    dsimp only
    by_cases hbig : tooLarge maxBatch (offsets 0 bs) = true
    · rw [if_pos hbig, refine_eq hA hp maxBatch bs hB.ne (hB.inS hS) hl]
      refine ih (s / 2) _ (hB.step hA hp maxBatch hS) ?_ ?_
      · intro c hcm
        obtain ⟨b, hb, hcb⟩ := List.mem_flatMap.1 hcm
        unfold refBlocks at hcb
        split at hcb
        · rename_i hbl
          refine .inr (subBlocks_tight hp (hB.ne b hb) ?_ c hcb)
          rcases ht b hb with h | h
          · omega
          · exact h
        · rw [List.mem_singleton] at hcb
          subst hcb
          exact .inl (by omega)
      · intro c
        have e : s / 2 / 2 ^ k = s / 2 ^ (k + 1) := by rw [pow_succ, div_div, mul_comm]
        rw [e]
        exact hc c
    · rw [if_neg hbig]
      exact ⟨_, rfl⟩

open Classical in
/-- **C112.**  In exact arithmetic, for a quadrature whose points fit into a cube of side `D`: if no cube of side
`D / (3 * 2 ^ k)` contains more than `max_batch_size` of the points, the construction returns after at most `k`
refinements, that is after at most `k + 1` evaluations of the loop condition. -/
theorem C112_passes (part : PartitionFn ℝ) (hp : StdPartition part) (maxBatch : Nat) (q : SphQuad ℝ)
    (hq : Consistent q.quad) (hne : q.quad.points ≠ []) (hlt : q.quad.npts < sizeMod) (D : ℝ)
    (hD : ∀ u ∈ q.quad.points, ∀ v ∈ q.quad.points, Within D u v) (k : ℕ)
    (hc : ∀ c : Pt ℝ, q.quad.points.countP (fun p => decide (InCube c (D / (3 * 2 ^ k)) p)) ≤ maxBatch) :
    ∃ b, Batcher.make part (k + 1) maxBatch q = some (.ok b) := by
  have hq' := hq
  unfold Consistent at hq'
  have hS : ∀ p ∈ q.quad.points, PtIn (fun _ : ℝ => True) p := fun _ _ => ⟨trivial, trivial, trivial⟩
  have hA := real_splitArith.toBoxArith
  generalize hv : q.quad.points.zip q.quad.weights = v
  have hfst : v.map Prod.fst = q.quad.points := by
    rw [← hv, List.map_fst_zip (by omega)]
  have hvne : v ≠ [] := by
    rintro rfl
    exact hne hfst.symm
  have hlen : v.length = q.quad.points.length := by rw [← hfst, List.length_map]
  have hSv : ∀ e ∈ v, PtIn (fun _ : ℝ => True) e.1 := fun _ _ => ⟨trivial, trivial, trivial⟩
  have hmem : ∀ e ∈ v, e.1 ∈ q.quad.points := fun e he => hfst ▸ List.mem_map_of_mem he
  obtain ⟨lo, up, h1, hext, -⟩ := bounds_tight (s := D) hvne fun e he e' he' => hD _ (hmem e he) _ (hmem e' he')
  have hrest := boxRest_nil hA hp 3 (by omega) lo up ⟨trivial, trivial, trivial⟩ ⟨trivial, trivial, trivial⟩ v (by
    obtain ⟨lo', up', h1', -, -, h4, -⟩ := bounds_of real_splitArith.toWeakOrder v hvne hSv
    rw [h1] at h1'
    cases h1'
    exact h4)
  have hfirst : firstPartition part v =
      .ok ((boxBlocks part 3 lo up v).flatten, offsets 0 (boxBlocks part 3 lo up v)) := by
    unfold firstPartition
    rw [h1, Outcome.ok_bind]
    have := partitionBox_eq hp 3 lo up [] v [] v.length (by simp)
    simpa [hrest] using this
  have hB : Blocked v (boxBlocks part 3 lo up v) := by
    refine ⟨?_, boxBlocks_ne part 3 lo up v, boxBlocks_together hp 3 lo up v⟩
    have := boxBlocks_perm hp 3 lo up v
    rwa [hrest, List.append_nil] at this
  obtain ⟨r, hr⟩ := refineLoop_passes hp maxBatch (v := v) (by rw [hlen]; exact hlt) k (D / (3 : ℕ)) _ hB
    (fun b hb => .inr (boxBlocks_tight hp 3 lo up D hext v b hb)) (fun c => by
      have e : D / (3 : ℕ) / 2 ^ k = D / (3 * 2 ^ k) := by rw [div_div]; norm_num
      rw [e]
      have := hc c
      rw [← hfst, List.countP_map] at this
      exact this)
  have hmake : ∃ r, Batcher.make part (k + 1) maxBatch q = some r := by
    unfold Batcher.make generateBatches
    rw [gather_eq q.quad hq, Outcome.ok_bind, hv, hfirst]
    dsimp only
    rw [hr]
    exact ⟨_, rfl⟩
  obtain ⟨r, hr⟩ := hmake
  obtain ⟨bs', -, -, rfl⟩ := make_blocks hA part hp maxBatch _ q hq hne hS hlt r hr
  exact ⟨_, hr⟩

/-- In particular, when different points differ by more than `d` in some coordinate, the number of refinements is at most
the logarithm of `D / (3 d)` to the base 2, rounded up, for every batch size of at least 1. -/
theorem C112_separated (part : PartitionFn ℝ) (hp : StdPartition part) (maxBatch : Nat) (h1 : 1 ≤ maxBatch)
    (q : SphQuad ℝ) (hq : Consistent q.quad) (hne : q.quad.points ≠ []) (hlt : q.quad.npts < sizeMod) (D d : ℝ)
    (hD : ∀ u ∈ q.quad.points, ∀ v ∈ q.quad.points, Within D u v)
    (hd : q.quad.points.Pairwise (fun u v => ¬Within d u v)) (k : ℕ) (hk : D ≤ 3 * 2 ^ k * d) :
    ∃ b, Batcher.make part (k + 1) maxBatch q = some (.ok b) := by
  refine C112_passes part hp maxBatch q hq hne hlt D hD k fun c => le_trans ?_ h1
  have hs : D / (3 * 2 ^ k) ≤ d := by
    rw [div_le_iff₀ (by positivity)]
    linarith
  classical
  rw [List.countP_eq_length_filter]
  by_contra hlen
  obtain ⟨a, b, l, hl⟩ : ∃ a b l, q.quad.points.filter (fun p => decide (InCube c (D / (3 * 2 ^ k)) p)) = a :: b :: l := by
    rcases hf : q.quad.points.filter (fun p => decide (InCube c (D / (3 * 2 ^ k)) p)) with _ | ⟨a, _ | ⟨b, l⟩⟩
    · simp [hf] at hlen
    · simp [hf] at hlen
    · exact ⟨a, b, l, rfl⟩
  have hpw := hd.sublist (List.filter_sublist (p := fun p => decide (InCube c (D / (3 * 2 ^ k)) p)))
  rw [hl] at hpw
  have ha : InCube c (D / (3 * 2 ^ k)) a := of_decide_eq_true
    (List.mem_filter.1 (hl ▸ List.mem_cons_self : a ∈ q.quad.points.filter _)).2
  have hb : InCube c (D / (3 * 2 ^ k)) b := of_decide_eq_true
    (List.mem_filter.1 (hl ▸ List.mem_cons_of_mem _ List.mem_cons_self : b ∈ q.quad.points.filter _)).2
  refine (List.pairwise_cons.1 hpw).1 b List.mem_cons_self ⟨?_, ?_, ?_⟩
  · rw [abs_le]; constructor <;> linarith [ha.1.1, ha.1.2, hb.1.1, hb.1.2]
  · rw [abs_le]; constructor <;> linarith [ha.2.1.1, ha.2.1.2, hb.2.1.1, hb.2.1.2]
  · rw [abs_le]; constructor <;> linarith [ha.2.2.1, ha.2.2.2, hb.2.2.1, hb.2.2.2]

/-- Three points at distance 1 are in batches of one after no refinement (`D = 1`, `d = 1/2`, `k = 0`). -/
example : ∃ b, Batcher.make (fun (p : PW ℝ → Bool) l =>
      (l.filter p ++ l.filter (fun e => !p e), (l.filter p).length)) 1 1
    ⟨⟨[⟨0, 0, 0⟩, ⟨1, 0, 0⟩, ⟨0, 1, 0⟩], [1, 2, 3]⟩, ⟨0, 0, 0⟩⟩ = some (.ok b) :=
  C112_separated _ stdPartition_exists 1 le_rfl _ (by simp [Consistent]) (by simp) (by simp [Quad.npts, sizeMod]) 1 (1 / 2)
    (by simp [Within]) (by norm_num [Within]) 0 (by norm_num)

end IntegratorXX
