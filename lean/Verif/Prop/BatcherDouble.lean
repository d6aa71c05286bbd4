import Verif.Lemmas.GridCount
import Verif.Lemmas.FloatShells
import Verif.Prop.FloatBatcher
import Verif.Prop.FloatRecenter

/-!
# C97: the micro batcher in `double` over the grids of the factory

In `double` the cuts of a box are rounded, and a construction over different points can run for ever (C74).  The points
of the grids that the factory builds are further apart than that: any two of them differ in some coordinate by more than
the rounding of the cuts, so the construction returns for every batch size.
-/

namespace IntegratorXX

open Spec

variable {L : Libm}

private theorem gap_irrefl {u v : Pt ℝ} (h : PtGap u v) : u ≠ v := by
  rintro rfl
  have : ∀ a : ℝ, ¬ Gap a a := by
    intro a h
    have h2 := h.2
    rw [sub_self, abs_zero] at h2
    exact absurd h2 (not_le.2 (by positivity))
  rcases h with h | h | h <;> exact this _ h

private theorem gap_symm {u v : Pt ℝ} (h : PtGap u v) : PtGap v u := by
  have : ∀ a b : ℝ, Gap a b → Gap b a := by
    intro a b h
    refine ⟨?_, ?_⟩
    · rw [max_comm, abs_sub_comm]; exact h.1
    · rw [abs_sub_comm]; exact h.2
  exact h.imp (this _ _) (Or.imp (this _ _) (this _ _))

private theorem finPt_inj {u v : Pt ℝ} (h : (finPt u : Pt (F64 L)) = finPt v) : u = v := by
  have f : ∀ x y : ℝ, (F64.fin x : F64 L) = F64.fin y → x = y := by
    intro x y h
    injection h
  cases u; cases v
  simp only [finPt, Pt.mk.injEq] at h
  rw [f _ _ h.1, f _ _ h.2.1, f _ _ h.2.2]

/-- **C97.**  The batcher in `double` over points any two different ones of which differ in some coordinate by eight
units in the last place. -/
theorem C97_terminates_double [DecidableEq (Pt (F64 L))] (part : PartitionFn (F64 L)) (hp : StdPartition part)
    (maxBatch : Nat) (q : SphQuad (F64 L)) (hq : Consistent q.quad) (hne : q.quad.points ≠ [])
    (hlt : q.quad.npts < sizeMod) (ps : List (Pt ℝ)) (h1 : q.quad.points = ps.map finPt) (h2 : ∀ u ∈ ps, ModeratePt u)
    (h3 : ∀ u ∈ ps, ∀ v ∈ ps, u ≠ v → PtGap u v) (hc : ∀ p, q.quad.points.count p ≤ maxBatch) :
    ∃ b, Batcher.make part (q.quad.npts + 1) maxBatch q = some (.ok b) := by
  refine C58_terminates_parted f64_moderate part hp maxBatch q hq hne ?_ ?_ hlt hc
  · intro p hp
    rw [h1] at hp
    obtain ⟨u, hu, rfl⟩ := List.mem_map.1 hp
    obtain ⟨⟨a, b, c⟩, d, e, f⟩ := h2 u hu
    exact ⟨⟨_, rfl, a, d⟩, ⟨_, rfl, b, e⟩, ⟨_, rfl, c, f⟩⟩
  · intro p hp q hq hne
    rw [h1] at hp hq
    obtain ⟨u, hu, rfl⟩ := List.mem_map.1 hp
    obtain ⟨v, hv, rfl⟩ := List.mem_map.1 hq
    have huv : u ≠ v := fun h => hne (by rw [h])
    exact (h3 u hu v hv huv).imp (fun h => f64_parted h.1 h.2) (Or.imp (fun h => f64_parted h.1 h.2)
      (fun h => f64_parted h.1 h.2))

/-- Points satisfying the hypotheses, one of them twice. -/
example : ∃ ps : List (Pt ℝ), ps.length = 3 ∧ (∀ u ∈ ps, ModeratePt u) ∧ (∀ u ∈ ps, ∀ v ∈ ps, u ≠ v → PtGap u v) := by
  have f0 : IsF64 (0 : ℝ) := ⟨rnd_zero, by rw [abs_zero]; have := f64Big_pos; linarith⟩
  have f1 : IsF64 (1 : ℝ) := isF64_one
  have n0 : |(0 : ℝ)| ≤ 2 ^ 150 := by rw [abs_zero]; positivity
  have n1 : |(1 : ℝ)| ≤ 2 ^ 150 := by rw [abs_one]; norm_num
  have g : Gap 0 1 := ⟨by norm_num, by norm_num⟩
  have g' : Gap 1 0 := ⟨by norm_num, by norm_num⟩
  refine ⟨[⟨0, 0, 0⟩, ⟨0, 1, 0⟩, ⟨0, 0, 0⟩], rfl, ?_, ?_⟩
  · intro u hu
    simp only [List.mem_cons, List.not_mem_nil, or_false] at hu
    rcases hu with rfl | rfl | rfl
    · exact ⟨⟨f0, f0, f0⟩, n0, n0, n0⟩
    · exact ⟨⟨f0, f1, f0⟩, n0, n1, n0⟩
    · exact ⟨⟨f0, f0, f0⟩, n0, n0, n0⟩
  · intro u hu v hv huv
    simp only [List.mem_cons, List.not_mem_nil, or_false] at hu hv
    rcases hu with rfl | rfl | rfl <;> rcases hv with rfl | rfl | rfl <;>
      first | exact absurd rfl huv | exact .inr (.inl g) | exact .inr (.inl g')

private theorem nodup_of_gap {ps : List (Pt ℝ)} (h : ps.Pairwise PtGap) :
    (ps.map finPt : List (Pt (F64 L))).Nodup ∧ ∀ u ∈ ps, ∀ v ∈ ps, u ≠ v → PtGap u v := by
  constructor
  · rw [List.Nodup, List.pairwise_map]
    exact h.imp (fun h e => gap_irrefl h (finPt_inj e))
  · intro u hu v hv huv
    have : Std.Symm PtGap := ⟨fun _ _ h => gap_symm h⟩
    exact h.forall hu hv huv

/-- **C97.**  The angular grids: any two points of one grid differ by `2^-36` in some coordinate. -/
theorem C97_angular (b : Build) (fam : AngFam) (n : Nat) (h : fam.orderByNpts n ≠ -1) :
    Returns (angConstruct b (angData ℝ) fam n) (fun q => q.points.Pairwise (fun u v =>
      2⁻¹ ^ 36 ≤ |u.x - v.x| ∨ 2⁻¹ ^ 36 ≤ |u.y - v.y| ∨ 2⁻¹ ^ 36 ≤ |u.z - v.z|)) :=
  ⟨_, angData_construct b fam n h, angData_apart fam n h⟩

example : AngFam.womersley.orderByNpts 7939 ≠ -1 ∧ AngFam.delley.orderByNpts 1202 ≠ -1 := by decide +kernel

private theorem npts_lt {n m : ℕ} (hn : n < 2 ^ 15) (hm : m < 20000) : m * n < sizeMod := by
  have : m * n ≤ 20000 * 2 ^ 15 := Nat.mul_le_mul hm.le hn.le
  unfold sizeMod
  omega

private theorem SameScheme.small {rq : RadialQuad} {t : RadialTraits (F64 L)} {r : RadialTraits ℝ} {p w : ℝ}
    (hs : SameScheme L rq t r p w) : r.npts < 2 ^ 15 := by
  cases hs with
  | becke n R hn => exact hn
  | mhl n R hn => exact hn
  | mk n R hn => exact lt_trans hn (by norm_num)
  | ta n R α hn => exact lt_trans hn (by norm_num)

/-- **C97.**  The points of a grid of the factory, computed in `double`. -/
theorem C97_separated_unpruned (hL : L.Accurate) (b : Build) {rq : RadialQuad} {t : RadialTraits (F64 L)}
    {r : RadialTraits ℝ} {p w : ℝ} (hs : SameScheme L rq t r p w) (fam : AngFam) (nang : Nat)
    (h : fam.orderByNpts nang ≠ -1) :
    Returns (generateGridUnpruned b (angData (F64 L)) ⟨rq, some t, .fam fam, nang⟩) (fun s =>
      Consistent s.quad ∧ s.quad.npts = nang * r.npts ∧ ∃ ps : List (Pt ℝ), s.quad.points = ps.map finPt ∧
      (∀ u ∈ ps, ModeratePt u) ∧ ps.Pairwise PtGap) := by
  obtain ⟨q, c, q1, q2, q3, q4, q5, q6, q7, q8, q9, q10, hp, w0, w1⟩ := radial_entries hL b hs
  obtain ⟨A, a1, a3, a5, a6⟩ := dirs_double (L := L) b fam nang h
  have e1 := sphConstruct_eq b (q.points.zip q.weights) (A.points.zip A.weights) (origin (F64 L))
  rw [← Quad.eq_ofPairs q q3, ← Quad.eq_ofPairs A a3] at e1
  have hsh := radial_shells hL b hs q2 q4 q7 hp q10
  obtain ⟨ps, h1, h2, h3⟩ := sep_points (sphEntries_sep hsh a6)
  refine ⟨⟨Quad.ofPairs ((sphEntries (q.points.zip q.weights) (A.points.zip A.weights)).map
    (shiftEntry (origin (F64 L)))), origin (F64 L)⟩, ?_, by simp [Consistent, Quad.ofPairs], ?_, ps, h1, h2, h3⟩
  · simp only [generateGridUnpruned, generateUnprunedGrid, a1, Outcome.ok_bind, radialGenerate_matches b q8, q1]
    exact e1
  · unfold Consistent at q3 a3
    unfold Quad.npts at q5
    have l1 : q.points.length = r.npts := by omega
    simp [Quad.npts, Quad.ofPairs, sphEntries, List.length_flatMap, l1, ← q3, ← a3, a5]

/-- **C97.**  The points of a pruned grid of the factory, computed in `double`. -/
theorem C97_separated_pruned (hL : L.Accurate) (b : Build) {rq : RadialQuad} {t : RadialTraits (F64 L)}
    {r : RadialTraits ℝ} {p w : ℝ} (hs : SameScheme L rq t r p w) (fam : AngFam) (rs : List PruningRegion)
    (hst : StartsOk (rs.map (fun r => (r.idxSt, r.angularSize)))) (hlt : ∀ g ∈ rs, g.idxSt < r.npts)
    (hdebug : b.asserts = true → ∀ g ∈ rs.tail, g.idxSt < r.npts - 1)
    (hang : ∀ g ∈ rs, g.angularQuad = .fam fam ∧ fam.orderByNpts g.angularSize ≠ -1) :
    Returns (generateGridPruned b (angData (F64 L)) ⟨rq, some t, rs⟩) (fun s =>
      Consistent s.quad ∧ r.npts ≤ s.quad.npts ∧ s.quad.npts ≤ 20000 * r.npts ∧
      ∃ ps : List (Pt ℝ), s.quad.points = ps.map finPt ∧ (∀ u ∈ ps, ModeratePt u) ∧ ps.Pairwise PtGap) := by
  obtain ⟨q, c, q1, q2, q3, q4, q5, q6, q7, q8, q9, q10, hp, w0, w1⟩ := radial_entries hL b hs
  have hsh := radial_shells hL b hs q2 q4 q7 hp q10
  have hex : ∃ Q : Nat → Quad (Pt (F64 L)) (F64 L), ∀ g ∈ rs,
      angConstruct b (angData (F64 L)) fam g.angularSize = .ok (Q g.angularSize) ∧
      Consistent (Q g.angularSize) ∧ (Q g.angularSize).points.length = g.angularSize ∧
      DirsD ((Q g.angularSize).points.zip (Q g.angularSize).weights) := by
    refine ⟨fun n => match angConstruct b (angData (F64 L)) fam n with | .ok q => q | _ => ⟨[], []⟩, fun g hg => ?_⟩
    obtain ⟨q, h1, h3⟩ := dirs_double (L := L) b fam _ (hang g hg).2
    dsimp only
    rw [h1]
    exact ⟨rfl, h3⟩
  obtain ⟨Q, hQ⟩ := hex
  have e1 := pruned_grid_closed b (angData (F64 L)) q8 q1 q3 q5 (by omega) fam rs hst (by rw [q6]; exact hlt)
    (by rw [q6]; exact hdebug) (fun g hg => (hang g hg).1) Q (fun g hg => (hQ g hg).1) (fun g hg => (hQ g hg).2.1)
  obtain ⟨regions, hreg⟩ : ∃ regions, regions = rs.map (fun g => (g.idxSt, Q g.angularSize)) := ⟨_, rfl⟩
  have hlen : (q.points.zip q.weights).length = r.npts := by
    unfold Consistent at q3
    unfold Quad.npts at q5
    rw [List.length_zip]
    omega
  have hst' : StartsOk regions := by
    unfold StartsOk at hst ⊢
    rw [hreg]
    simpa [List.map_map, Function.comp_def] using hst
  have hlt' : ∀ e ∈ regions, e.1 < (q.points.zip q.weights).length := by
    intro e he
    rw [hreg] at he
    obtain ⟨g, hg, rfl⟩ := List.mem_map.1 he
    rw [hlen]
    exact hlt g hg
  have hmem : ∀ e ∈ tiles (q.points.zip q.weights).length regions, ∃ g ∈ rs, e.2 = Q g.angularSize := by
    intro e he
    have hcov := (C32_tiles_cover _ regions hst' hlt').2
    have hm : (e.1.1, e.2) ∈ regions := by
      rw [← hcov.2]
      exact List.mem_map.2 ⟨e, he, rfl⟩
    rw [hreg] at hm
    obtain ⟨g, hg, e'⟩ := List.mem_map.1 hm
    injection e' with _ e'
    exact ⟨g, hg, e'.symm⟩
  obtain ⟨ps, h1, h2, h3⟩ := sep_points (regions_sep hsh hst' hlt' (by
    intro e he
    obtain ⟨g, hg, e'⟩ := hmem e he
    rw [e']
    exact (hQ g hg).2.2.2))
  have hcount := tiles_count _ regions hst' hlt' (by
    intro e he
    obtain ⟨g, hg, e'⟩ := hmem e he
    obtain ⟨-, k1, k2, -⟩ := hQ g hg
    rw [e']
    exact ⟨k1, by rw [k2]; exact ang_size_lt (hang g hg).2⟩)
  rw [hlen] at hcount
  refine ⟨_, e1, by simp [Consistent, Quad.ofPairs], ?_, ?_, ps, ?_, h2, h3⟩
  · rw [← hreg, q6]
    simpa [Quad.npts, Quad.ofPairs] using hcount.1
  · rw [← hreg, q6]
    simpa [Quad.npts, Quad.ofPairs] using hcount.2
  · rw [← hreg, q6]
    rw [hlen] at h1
    exact h1

/-- **C97.**  The batcher over a grid of the factory computed in `double` is built, for every batch size. -/
theorem C97_batcher_unpruned_double (hL : L.Accurate) (b : Build) {rq : RadialQuad} {t : RadialTraits (F64 L)}
    {r : RadialTraits ℝ} {p w : ℝ} (hs : SameScheme L rq t r p w) (hr : 1 ≤ r.npts) (fam : AngFam) (nang : Nat)
    (h : fam.orderByNpts nang ≠ -1) (part : PartitionFn (F64 L)) (hp : StdPartition part) (maxBatch : Nat)
    (hb : 1 ≤ maxBatch) :
    Returns (generateGridUnpruned b (angData (F64 L)) ⟨rq, some t, .fam fam, nang⟩) (fun s =>
      s.quad.npts = nang * r.npts ∧ ∃ bt, Batcher.make part (s.quad.npts + 1) maxBatch s = some (.ok bt)) := by
  classical
  obtain ⟨s, h1, h2, h3, ps, h4, h5, h6⟩ := C97_separated_unpruned hL b hs fam nang h
  obtain ⟨n1, n2⟩ := nodup_of_gap (L := L) h6
  obtain ⟨k1, k2⟩ := ang_size_lt h
  refine ⟨s, h1, h3, C97_terminates_double part hp maxBatch s h2 ?_ ?_ ps h4 h5 n2 ?_⟩
  · intro he
    unfold Quad.npts at h3
    rw [he, List.length_nil] at h3
    have := Nat.mul_pos k1 hr
    omega
  · rw [h3]
    exact npts_lt (SameScheme.small hs) k2
  · intro p
    rw [h4]
    exact le_trans (List.nodup_iff_count_le_one.1 n1 p) hb

/-- **C97.**  The batcher over a pruned grid of the factory computed in `double` is built, for every batch size. -/
theorem C97_batcher_pruned_double (hL : L.Accurate) (b : Build) {rq : RadialQuad} {t : RadialTraits (F64 L)}
    {r : RadialTraits ℝ} {p w : ℝ} (hs : SameScheme L rq t r p w) (hr : 1 ≤ r.npts) (fam : AngFam)
    (rs : List PruningRegion)
    (hst : StartsOk (rs.map (fun r => (r.idxSt, r.angularSize)))) (hlt : ∀ g ∈ rs, g.idxSt < r.npts)
    (hdebug : b.asserts = true → ∀ g ∈ rs.tail, g.idxSt < r.npts - 1)
    (hang : ∀ g ∈ rs, g.angularQuad = .fam fam ∧ fam.orderByNpts g.angularSize ≠ -1)
    (part : PartitionFn (F64 L)) (hp : StdPartition part) (maxBatch : Nat) (hb : 1 ≤ maxBatch) :
    Returns (generateGridPruned b (angData (F64 L)) ⟨rq, some t, rs⟩) (fun s =>
      r.npts ≤ s.quad.npts ∧ ∃ bt, Batcher.make part (s.quad.npts + 1) maxBatch s = some (.ok bt)) := by
  classical
  obtain ⟨s, h1, h2, h3, h3', ps, h4, h5, h6⟩ := C97_separated_pruned hL b hs fam rs hst hlt hdebug hang
  obtain ⟨n1, n2⟩ := nodup_of_gap (L := L) h6
  refine ⟨s, h1, h3, C97_terminates_double part hp maxBatch s h2 ?_ ?_ ps h4 h5 n2 ?_⟩
  · intro he
    unfold Quad.npts at h3
    rw [he, List.length_nil] at h3
    omega
  · have := SameScheme.small hs
    have h7 : 20000 * r.npts ≤ 20000 * 2 ^ 15 := Nat.mul_le_mul_left _ this.le
    unfold sizeMod
    omega
  · intro p
    rw [h4]
    exact le_trans (List.nodup_iff_count_le_one.1 n1 p) hb

/-- The hypotheses: a Mura-Knowles rule with 99 points and Lebedev grids with 26, 50 and 302 points. -/
example : ∃ (t : RadialTraits (F64 L)) (r : RadialTraits ℝ) (p w : ℝ) (rs : List PruningRegion),
    SameScheme L .muraKnowles t r p w ∧ 1 ≤ r.npts ∧ rs.length = 3 ∧
    StartsOk (rs.map (fun r => (r.idxSt, r.angularSize))) ∧ (∀ g ∈ rs, g.idxSt < r.npts) ∧
    (∀ g ∈ rs.tail, g.idxSt < r.npts - 1) ∧
    (∀ g ∈ rs, g.angularQuad = .fam .lebedevLaikov ∧ AngFam.lebedevLaikov.orderByNpts g.angularSize ≠ -1) ∧
    ∃ part : PartitionFn (F64 L), StdPartition part :=
  ⟨_, _, _, _, [⟨0, 25, .fam .lebedevLaikov, 26⟩, ⟨25, 40, .fam .lebedevLaikov, 50⟩, ⟨40, 99, .fam .lebedevLaikov, 302⟩],
    .mk 99 1 (by norm_num) isF64_one (by norm_num) (by norm_num), by simp [RadialTraits.npts], rfl,
    by simp [StartsOk], by simp [RadialTraits.npts], by simp [RadialTraits.npts], by decide +kernel,
    ⟨_, stdPartition_exists⟩⟩

private theorem of_absorb {x : ℝ} (h : |x| ≤ 32) : (F64.of (x + 2 ^ 60) : F64 L) = F64.fin (2 ^ 60) := by
  rw [F64.of_fin, absorb h]
  have := le_f64Big
  have h3 : (33 : ℝ) + 2 ^ 60 ≤ 2 ^ 201 := by norm_num
  have := abs_add_le x (2 ^ 60)
  rw [abs_of_pos (by positivity : (0 : ℝ) < 2 ^ 60)] at this
  linarith

/-- The distance from the origin matters: a grid whose points are within 32 of the origin, moved to the centre
`(2^60, 2^60, 2^60)`, has a single point left, and the construction of a batcher over it does not return for any batch
size below the number of points. -/
theorem C97_recentred_hangs (q : Quad (Pt (F64 L)) (F64 L)) (hq : Consistent q) (ps : List (Pt ℝ))
    (h1 : q.points = ps.map finPt) (hps : ∀ p ∈ ps, |p.x| ≤ 32 ∧ |p.y| ≤ 32 ∧ |p.z| ≤ 32) (hlt : q.npts < sizeMod)
    (part : PartitionFn (F64 L)) (hp : StdPartition part) (maxBatch : Nat) (hb : maxBatch < q.npts) :
    Returns (recenter (finPt ⟨2 ^ 60, 2 ^ 60, 2 ^ 60⟩) ⟨q, finPt ⟨0, 0, 0⟩⟩) (fun s =>
      s.quad.points = List.replicate q.npts (finPt ⟨2 ^ 60, 2 ^ 60, 2 ^ 60⟩) ∧
      ∀ fuel, Batcher.make part fuel maxBatch s = none) := by
  classical
  have ne1 : ptEq (finPt ⟨2 ^ 60, 2 ^ 60, 2 ^ 60⟩ : Pt (F64 L)) (finPt ⟨0, 0, 0⟩) = false := by
    rw [Bool.eq_false_iff, ne_eq, ptEq_fin]
    simp
  obtain ⟨s, e1, e2, e3, -, g⟩ :=
    C30_recenter_step (finPt ⟨2 ^ 60, 2 ^ 60, 2 ^ 60⟩) (⟨q, finPt ⟨0, 0, 0⟩⟩ : SphQuad (F64 L))
  obtain ⟨c1, p1⟩ := g ne1
  have hpts : s.quad.points = List.replicate q.npts (finPt ⟨2 ^ 60, 2 ^ 60, 2 ^ 60⟩) := by
    rw [p1, List.eq_replicate_iff]
    refine ⟨by simp [Quad.npts], ?_⟩
    intro p hp
    dsimp only at hp
    rw [h1] at hp
    simp only [List.mem_map, exists_exists_and_eq_and] at hp
    obtain ⟨u, hu, rfl⟩ := hp
    obtain ⟨k1, k2, k3⟩ := hps u hu
    simp only [finPt, F64.fin_sub, sub_zero]
    rw [of_60, F64.fin_add, F64.fin_add, F64.fin_add, of_absorb k1, of_absorb k2, of_absorb k3]
  refine ⟨s, e1, hpts, fun fuel => ?_⟩
  dsimp only at e2 e3
  have hin : Moderate (F64.fin (2 ^ 60) : F64 L) := by
    have h0 := absorb (x := 0) (by norm_num)
    rw [zero_add] at h0
    have h60 : |(2 : ℝ) ^ 60| = 2 ^ 60 := abs_of_pos (by positivity)
    refine ⟨_, rfl, ⟨h0, ?_⟩, ?_⟩
    · rw [h60]
      have := le_f64Big
      have h3 : (2 : ℝ) ^ 60 ≤ 2 ^ 201 := by norm_num
      linarith
    · rw [h60]; norm_num
  refine C58_hangs f64_moderate part hp maxBatch s ?_ ?_ ?_ ?_ (finPt ⟨2 ^ 60, 2 ^ 60, 2 ^ 60⟩) ?_ fuel
  · unfold Consistent at hq ⊢
    unfold Quad.npts at e3
    rw [e2, ← hq, e3]
  · intro he
    rw [hpts, List.replicate_eq_nil_iff] at he
    omega
  · intro p hp
    rw [hpts] at hp
    rw [List.eq_of_mem_replicate hp]
    exact ⟨hin, hin, hin⟩
  · rw [e3]; exact hlt
  · rw [hpts, List.count_replicate_self]; exact hb

end IntegratorXX
