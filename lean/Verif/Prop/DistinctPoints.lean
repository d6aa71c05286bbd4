import Verif.Lemmas.DistinctAng
import Verif.Lemmas.RadialGap
import Verif.Lemmas.GridCount
import Verif.Prop.AngularSymmetry
import Verif.Prop.Batcher

/-!
# The points of a grid are distinct (C92)

No angular grid contains a point twice.  Neither does a molecular grid of the factory, since consecutive shells are
further apart than the table entries deviate from the unit sphere.  Hence the batcher terminates on these grids for
every batch size except 0, in exact arithmetic.
-/

namespace IntegratorXX

open Arith Spec

/-- **C92.**  The angular quadratures. -/
theorem C92_angular (b : Build) (fam : AngFam) (n : Nat) (h : fam.orderByNpts n ≠ -1) :
    Returns (angConstruct b (angData ℝ) fam n) (fun q => q.points.Nodup) :=
  ⟨_, angData_construct b fam n h, angData_nodup fam n h⟩

private theorem ang_facts (b : Build) (fam : AngFam) (n : Nat) (h : fam.orderByNpts n ≠ -1) :
    ∃ q : Quad (Pt ℝ) ℝ, angConstruct b (angData ℝ) fam n = .ok q ∧ Consistent q ∧
      ((q.points.zip q.weights).map Prod.fst).Nodup ∧ NearUnit ((q.points.zip q.weights).map Prod.fst) ∧
      q = ⟨(angData ℝ fam n).points, (angData ℝ fam n).weights.map fam.scaled⟩ ∧ q.points.length = n := by
  obtain ⟨q, hq, h1, -⟩ := C91_angular C91_real b fam n h (g := id) (by
    cases fam
    · exact Tetrahedral.one
    · exact Octahedral.one
    · exact Octahedral.one
    · rfl)
  obtain ⟨q', hq', h2⟩ := C92_angular b fam n h
  obtain ⟨q'', hq'', h3⟩ := C64_unit_points b fam n h
  have e := angData_construct b fam n h
  rw [hq] at hq' hq'' e
  injection hq' with hq'
  injection hq'' with hq''
  injection e with e
  rw [← hq'] at h2
  rw [← hq''] at h3
  have hz : (q.points.zip q.weights).map Prod.fst = q.points := by
    unfold Consistent at h1
    rw [List.map_fst_zip (by omega)]
  have hl : q.points.length = n := by
    have hm := (fam.orderByNpts_iff _ _).1 ⟨rfl, h⟩
    have := (angConstruct_supported b (angData ℝ) (angData_typed ℝ) fam n n ((fam.dispatch_iff n n).2 ⟨rfl, _, hm⟩)).2.2.1
    rw [e]
    exact this
  exact ⟨q, hq, h1, by rw [hz]; exact h2, by rw [hz]; exact h3, e, hl⟩

private theorem radial_facts (b : Build) {rq : RadialQuad} {t : RadialTraits ℝ} (hm : Matches rq t)
    (hv : radialValid t) (hn : t.npts ≤ 5000000) :
    ∃ rl : List (ℝ × ℝ), rl.length = t.npts ∧ radialGenerate b rq t = .ok (Quad.ofPairs rl) ∧
      construct b t.generate = .ok (Quad.ofPairs rl) ∧ ShellsApart (rl.map Prod.fst) := by
  have hn' : t.npts + 2 < sizeMod := by unfold sizeMod; omega
  obtain ⟨rl, hl, hr⟩ := radialGenerate_ok (F := ℝ) b hm hn'
  refine ⟨rl, hl, hr, (radialGenerate_matches b hm).symm.trans hr, ?_⟩
  rw [radialGenerate_matches b hm, t.generate_real hn', construct_ok b (by simp)] at hr
  injection hr with hr
  have : (Quad.ofPairs rl).points = rl.map Prod.fst := rfl
  rw [← this, ← hr]
  exact radial_separated t hv hn

/-- **C92.**  Grids of the factory without pruning. -/
theorem C92_unpruned (b : Build) {rq : RadialQuad} {t : RadialTraits ℝ} (hm : Matches rq t) (hv : radialValid t)
    (hn : t.npts ≤ 5000000) (fam : AngFam) (nang : Nat) (h : fam.orderByNpts nang ≠ -1) :
    Returns (generateGridUnpruned b (angData ℝ) ⟨rq, some t, .fam fam, nang⟩)
      (fun s => s.quad.points.Nodup ∧ Consistent s.quad ∧ s.quad.npts = nang * t.npts) := by
  obtain ⟨rl, hl, hr, -, hs⟩ := radial_facts b hm hv hn
  obtain ⟨a, ha, a1, a2, a3, -, a4⟩ := ang_facts b fam nang h
  have e1 := sphConstruct_eq b rl (a.points.zip a.weights) (origin ℝ)
  rw [← Quad.eq_ofPairs a a1] at e1
  have : generateGridUnpruned b (angData ℝ) ⟨rq, some t, .fam fam, nang⟩ =
      sphConstruct b (Quad.ofPairs rl) a (origin ℝ) := by
    show generateUnprunedGrid b _ rq t (.fam fam) nang = _
    unfold generateUnprunedGrid
    simp only [ha, hr, Outcome.ok_bind]
  refine ⟨_, this.trans e1, ?_, by simp [Consistent, Quad.ofPairs], ?_⟩
  swap
  · unfold Consistent at a1
    simp [Quad.npts, Quad.ofPairs, sphEntries, List.length_flatMap, hl, ← a1, a4]
  exact shift_nodup _ (sphEntries_nodup hs (fun r hr => hr) hs.nodup a2 a3)

/-- **C92.**  Pruned grids of the factory. -/
theorem C92_pruned (b : Build) {rq : RadialQuad} {t : RadialTraits ℝ} (hm : Matches rq t) (hv : radialValid t)
    (hn : t.npts ≤ 5000000) (fam : AngFam) (rs : List PruningRegion)
    (hst : StartsOk (rs.map (fun r => (r.idxSt, r.angularSize)))) (hlt : ∀ r ∈ rs, r.idxSt < t.npts)
    (hdebug : b.asserts = true → ∀ r ∈ rs.tail, r.idxSt < t.npts - 1)
    (hang : ∀ r ∈ rs, r.angularQuad = .fam fam ∧ fam.orderByNpts r.angularSize ≠ -1) :
    Returns (generatePrunedGrid b (angData ℝ) rq t rs) (fun s => s.quad.points.Nodup ∧ Consistent s.quad ∧
      t.npts ≤ s.quad.npts ∧ s.quad.npts ≤ 20000 * t.npts) := by
  obtain ⟨rl, hl, -, hr, hs⟩ := radial_facts b hm hv hn
  obtain ⟨A, hAd⟩ : ∃ A : Nat → Quad (Pt ℝ) ℝ, A = fun n =>
    ⟨(angData ℝ fam n).points, (angData ℝ fam n).weights.map fam.scaled⟩ := ⟨_, rfl⟩
  have hA : ∀ n : Nat, fam.orderByNpts n ≠ -1 →
      angConstruct b (angData ℝ) fam n = .ok (A n) ∧ Consistent (A n) ∧
        (((A n).points.zip (A n).weights).map Prod.fst).Nodup ∧
        NearUnit (((A n).points.zip (A n).weights).map Prod.fst) ∧ (A n).points.length = n := by
    intro n h
    obtain ⟨a, ha, a1, a2, a3, e, a4⟩ := ang_facts b fam n h
    have : A n = a := by rw [hAd, e]
    rw [this]
    exact ⟨ha, a1, a2, a3, a4⟩
  have hclosed := pruned_grid_closed b (angData ℝ) hm hr (by simp [Consistent, Quad.ofPairs])
    (by simp [Quad.npts, Quad.ofPairs, hl]) (by unfold sizeMod; omega) fam rs hst hlt hdebug (fun r h => (hang r h).1) A
    (fun r h => (hA _ (hang r h).2).1) (fun r h => (hA _ (hang r h).2).2.1)
  have hz : (Quad.ofPairs rl).points.zip (Quad.ofPairs rl).weights = rl := Quad.zip_ofPairs rl
  have hst' : StartsOk (rs.map fun r => (r.idxSt, A r.angularSize)) := by
    unfold StartsOk at hst ⊢
    simpa [List.map_map, Function.comp_def] using hst
  have hlt' : ∀ e ∈ rs.map fun r => (r.idxSt, A r.angularSize), e.1 < rl.length := by
    intro e he
    obtain ⟨r, hr, rfl⟩ := List.mem_map.1 he
    rw [hl]
    exact hlt r hr
  have hmem : ∀ e ∈ tiles rl.length (rs.map fun r => (r.idxSt, A r.angularSize)), ∃ r ∈ rs, e.2 = A r.angularSize := by
    intro e he
    have hcov := (C32_tiles_cover rl.length _ hst' hlt').2
    have hm : (e.1.1, e.2) ∈ rs.map fun r => (r.idxSt, A r.angularSize) := by
      rw [← hcov.2]
      exact List.mem_map.2 ⟨e, he, rfl⟩
    obtain ⟨r, hr, e'⟩ := List.mem_map.1 hm
    injection e' with _ e'
    exact ⟨r, hr, e'.symm⟩
  have hcount := tiles_count rl _ hst' hlt' (by
    intro e he
    obtain ⟨r, hr, e'⟩ := hmem e he
    obtain ⟨-, k1, -, -, k2⟩ := hA _ (hang r hr).2
    rw [e']
    exact ⟨k1, by rw [k2]; exact ang_size_lt (hang r hr).2⟩)
  refine ⟨_, hclosed, ?_, by simp [Consistent, Quad.ofPairs], ?_, ?_⟩
  · rw [hz, ← hl]
    refine shift_nodup _ (regions_nodup hs hst' hlt' (fun e he => ?_))
    obtain ⟨r, hr, e'⟩ := hmem e he
    rw [e']
    exact ⟨(hA _ (hang r hr).2).2.2.1, (hA _ (hang r hr).2).2.2.2.1⟩
  · rw [hz, ← hl]
    simpa [Quad.npts, Quad.ofPairs] using hcount.1
  · rw [hz, ← hl]
    simpa [Quad.npts, Quad.ofPairs] using hcount.2

/-- **C92.**  A batcher over points which are distinct terminates for every batch size except 0. -/
theorem C92_batcher (part : PartitionFn ℝ) (hp : StdPartition part) (maxBatch : Nat) (s : SphQuad ℝ)
    (hc : Consistent s.quad) (hne : s.quad.points ≠ []) (hlt : s.quad.npts < sizeMod) (hd : s.quad.points.Nodup) :
    (∃ fuel r, Batcher.make part fuel maxBatch s = some r) ↔ 1 ≤ maxBatch := by
  classical
  rw [C58_terminates_iff part hp maxBatch s hc hne hlt]
  constructor
  · intro h
    obtain ⟨p, hp'⟩ := List.exists_mem_of_ne_nil _ hne
    exact le_trans (List.count_pos_iff.2 hp') (h p)
  · intro h p
    exact le_trans (List.nodup_iff_count_le_one.1 hd p) h

private theorem ne_nil_of_npts {q : Quad (Pt ℝ) ℝ} (h : 1 ≤ q.npts) : q.points ≠ [] := by
  intro he
  unfold Quad.npts at h
  rw [he, List.length_nil] at h
  omega

/-- **C92.**  The batcher over a grid of the factory is built, for every batch size. -/
theorem C92_batcher_unpruned (b : Build) {rq : RadialQuad} {t : RadialTraits ℝ} (hm : Matches rq t) (hv : radialValid t)
    (hn : t.npts ≤ 5000000) (hr : 1 ≤ t.npts) (fam : AngFam) (nang : Nat) (h : fam.orderByNpts nang ≠ -1)
    (part : PartitionFn ℝ) (hp : StdPartition part) (maxBatch : Nat) (hb : 1 ≤ maxBatch) :
    Returns (generateGridUnpruned b (angData ℝ) ⟨rq, some t, .fam fam, nang⟩) (fun s =>
      s.quad.npts = nang * t.npts ∧ ∃ bt, Batcher.make part (s.quad.npts + 1) maxBatch s = some (.ok bt)) := by
  classical
  obtain ⟨s, hs, h1, h2, h3⟩ := C92_unpruned b hm hv hn fam nang h
  obtain ⟨k1, k2⟩ := ang_size_lt h
  have k3 : 1 * 1 ≤ nang * t.npts := Nat.mul_le_mul k1 hr
  have k4 : nang * t.npts ≤ 20000 * 5000000 := Nat.mul_le_mul k2.le hn
  have hne : s.quad.points ≠ [] := ne_nil_of_npts (by omega)
  have hlt : s.quad.npts < sizeMod := by unfold sizeMod; omega
  refine ⟨s, hs, h3, ?_⟩
  exact C58_terminates real_splitArith part hp maxBatch s h2 hne (fun _ _ => ⟨trivial, trivial, trivial⟩) hlt
    (fun p => le_trans (List.nodup_iff_count_le_one.1 h1 p) hb)

/-- **C92.**  The batcher over a pruned grid of the factory. -/
theorem C92_batcher_pruned (b : Build) {rq : RadialQuad} {t : RadialTraits ℝ} (hm : Matches rq t) (hv : radialValid t)
    (hn : t.npts ≤ 5000000) (hr : 1 ≤ t.npts) (fam : AngFam) (rs : List PruningRegion)
    (hst : StartsOk (rs.map (fun r => (r.idxSt, r.angularSize)))) (hlt : ∀ r ∈ rs, r.idxSt < t.npts)
    (hdebug : b.asserts = true → ∀ r ∈ rs.tail, r.idxSt < t.npts - 1)
    (hang : ∀ r ∈ rs, r.angularQuad = .fam fam ∧ fam.orderByNpts r.angularSize ≠ -1) (part : PartitionFn ℝ)
    (hp : StdPartition part) (maxBatch : Nat) (hb : 1 ≤ maxBatch) :
    Returns (generatePrunedGrid b (angData ℝ) rq t rs) (fun s =>
      t.npts ≤ s.quad.npts ∧ ∃ bt, Batcher.make part (s.quad.npts + 1) maxBatch s = some (.ok bt)) := by
  classical
  obtain ⟨s, hs, h1, h2, h3, h4⟩ := C92_pruned b hm hv hn fam rs hst hlt hdebug hang
  have hne : s.quad.points ≠ [] := ne_nil_of_npts (by omega)
  have hlt : s.quad.npts < sizeMod := by unfold sizeMod; omega
  refine ⟨s, hs, h3, ?_⟩
  exact C58_terminates real_splitArith part hp maxBatch s h2 hne (fun _ _ => ⟨trivial, trivial, trivial⟩) hlt
    (fun p => le_trans (List.nodup_iff_count_le_one.1 h1 p) hb)

/-- The hypotheses: a Mura-Knowles rule with 99 points and a Womersley grid with 7939 points. -/
example : ∃ (t : RadialTraits ℝ), Matches .muraKnowles t ∧ radialValid t ∧ t.npts = 99 ∧ t.npts ≤ 5000000 ∧
    AngFam.womersley.orderByNpts 7939 ≠ -1 ∧ ∃ part : PartitionFn ℝ, StdPartition part :=
  ⟨.mk 99 7, .mk _ _, by show (0 : ℝ) < 7; norm_num, rfl, by show 99 ≤ 5000000; norm_num, by decide +kernel,
    ⟨_, stdPartition_exists⟩⟩

/-- The claim is not about lists without points: a Becke rule with 3 points and the grid with 6 points. -/
example : Returns (generateGridUnpruned ⟨true⟩ (angData ℝ) ⟨.becke, some (.becke 3 1), .fam .lebedevLaikov, 6⟩)
    (fun s => s.quad.points.Nodup ∧ Consistent s.quad ∧ s.quad.npts = 6 * 3) :=
  C92_unpruned _ (.becke _ _) (by show (0 : ℝ) < 1; norm_num) (by show 3 ≤ 5000000; norm_num) _ _ (by decide +kernel)

end IntegratorXX
