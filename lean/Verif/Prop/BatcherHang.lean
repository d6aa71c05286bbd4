import Verif.Prop.DistinctPoints
import Verif.Prop.FloatBatcher

/-!
# A wrong grid size makes the batcher hang (C93)

The factory accepts angular sizes that are not available and returns a grid with all points at the centre (C49).  A
batcher over such a grid never finishes its constructor, unless all points fit into one batch.
-/

set_option linter.unusedSectionVars false

namespace IntegratorXX

open Arith Spec

section
variable {F : Type} [Add F] [Sub F] [Mul F] [Div F] [Neg F] [Arith F]

/-- The grid, in an arithmetic in which the radial points times 0 are 0. -/
theorem C93_all_points_equal (b : Build) (d : AngData F) {rq : RadialQuad} {t : RadialTraits F} (hm : Matches rq t)
    (hn : t.npts + 2 < sizeMod) (fam : AngFam) (nang : Nat) (h : fam.orderByNpts nang = -1)
    (hint : fam = .delley → nang ≤ 2147483647) (h0 : (lit 0 * (lit 4 * pi) : F) = lit 0)
    (hr : ∀ q, construct b t.generate = .ok q → ∀ r ∈ q.points, r * lit 0 + lit 0 = (lit 0 : F)) :
    Returns (generateGridUnpruned b d ⟨rq, some t, .fam fam, nang⟩) (fun s => Consistent s.quad ∧
      s.quad.points = List.replicate (nang * t.npts) (origin F)) := by
  obtain ⟨rl, hl, hg⟩ := radialGenerate_ok (F := F) b hm hn
  have ha := C49_unsupported_silent b d fam nang h hint h0
  obtain ⟨al, hal⟩ : ∃ al : List (Pt F × F), al = List.replicate nang (origin F, lit 0) := ⟨_, rfl⟩
  have hq : (⟨List.replicate nang ⟨lit 0, lit 0, lit 0⟩, List.replicate nang (lit 0)⟩ : Quad (Pt F) F) =
      Quad.ofPairs al := by
    rw [hal]
    simp [Quad.ofPairs, origin]
  rw [hq] at ha
  have : generateGridUnpruned b d ⟨rq, some t, .fam fam, nang⟩ =
      sphConstruct b (Quad.ofPairs rl) (Quad.ofPairs al) (origin F) := by
    show generateUnprunedGrid b _ rq t (.fam fam) nang = _
    unfold generateUnprunedGrid
    simp only [ha, hg, Outcome.ok_bind]
  refine ⟨_, this.trans (sphConstruct_eq b rl al (origin F)), by simp [Consistent, Quad.ofPairs], ?_⟩
  have hlen : ((sphEntries rl al).map (shiftEntry (origin F))).length = nang * t.npts := by
    rw [List.length_map]
    unfold sphEntries
    rw [hal, List.length_flatMap]
    simp [hl]
  show ((sphEntries rl al).map (shiftEntry (origin F))).map Prod.fst = _
  rw [List.eq_replicate_iff]
  refine ⟨by rw [List.length_map, hlen], fun p hp => ?_⟩
  simp only [List.mem_map] at hp
  obtain ⟨e, ⟨e', he', rfl⟩, rfl⟩ := hp
  unfold sphEntries at he'
  rw [List.mem_flatMap] at he'
  obtain ⟨a, ha', hp⟩ := he'
  rw [List.mem_map] at hp
  obtain ⟨r, hr', rfl⟩ := hp
  rw [hal] at ha'
  have e := List.eq_of_mem_replicate ha'
  have hz := hr _ ((radialGenerate_matches b hm).symm.trans hg) r.1 (List.mem_map.2 ⟨r, hr', rfl⟩)
  rw [e]
  show (⟨r.1 * lit 0 + lit 0, r.1 * lit 0 + lit 0, r.1 * lit 0 + lit 0⟩ : Pt F) = _
  rw [hz]
  rfl

/-- **C93.**  The batcher. -/
theorem C93_hangs {S : F → Prop} (hA : BoxArith F S) (hS : S (lit 0)) (b : Build) (d : AngData F) {rq : RadialQuad}
    {t : RadialTraits F} (hm : Matches rq t) (hn : t.npts + 2 < sizeMod) (fam : AngFam) (nang : Nat)
    (h : fam.orderByNpts nang = -1) (hint : fam = .delley → nang ≤ 2147483647)
    (h0 : (lit 0 * (lit 4 * pi) : F) = lit 0)
    (hr : ∀ q, construct b t.generate = .ok q → ∀ r ∈ q.points, r * lit 0 + lit 0 = (lit 0 : F))
    (part : PartitionFn F) (hp : StdPartition part) (maxBatch : Nat) (hb : maxBatch < nang * t.npts)
    (hlt : nang * t.npts < sizeMod) :
    Returns (generateGridUnpruned b d ⟨rq, some t, .fam fam, nang⟩) (fun s =>
      ∀ fuel, Batcher.make part fuel maxBatch s = none) := by
  classical
  obtain ⟨s, hs, h1, h2⟩ := C93_all_points_equal b d hm hn fam nang h hint h0 hr
  refine ⟨s, hs, fun fuel => C58_hangs hA part hp maxBatch s h1 ?_ ?_ ?_ (origin F) ?_ fuel⟩
  · rw [h2]
    intro he
    rw [List.replicate_eq_nil_iff] at he
    omega
  · rw [h2]
    intro p hp
    rw [List.eq_of_mem_replicate hp]
    exact ⟨hS, hS, hS⟩
  · unfold Quad.npts
    rw [h2, List.length_replicate]
    exact hlt
  · rw [h2, List.count_replicate_self]
    exact hb

end

/-- **C93** in exact arithmetic. -/
theorem C93_hangs_real (b : Build) (d : AngData ℝ) {rq : RadialQuad} {t : RadialTraits ℝ} (hm : Matches rq t)
    (hn : t.npts + 2 < sizeMod) (fam : AngFam) (nang : Nat) (h : fam.orderByNpts nang = -1)
    (hint : fam = .delley → nang ≤ 2147483647) (part : PartitionFn ℝ) (hp : StdPartition part) (maxBatch : Nat)
    (hb : maxBatch < nang * t.npts) (hlt : nang * t.npts < sizeMod) :
    Returns (generateGridUnpruned b d ⟨rq, some t, .fam fam, nang⟩) (fun s =>
      ∀ fuel, Batcher.make part fuel maxBatch s = none) :=
  C93_hangs real_splitArith.toBoxArith trivial b d hm hn fam nang h hint (by simp) (fun _ _ _ _ => by simp) part hp
    maxBatch hb hlt

section
variable {L : Libm}

/-- **C93** in `double`. -/
theorem C93_hangs_double (hL : L.Accurate) (b : Build) (d : AngData (F64 L)) {rq : RadialQuad}
    {t : RadialTraits (F64 L)} {r : RadialTraits ℝ} {p w : ℝ} (hs : SameScheme L rq t r p w) (fam : AngFam) (nang : Nat)
    (h : fam.orderByNpts nang = -1) (hint : fam = .delley → nang ≤ 2147483647) (part : PartitionFn (F64 L))
    (hp : StdPartition part) (maxBatch : Nat) (hb : maxBatch < nang * t.npts) (hlt : nang * t.npts < sizeMod) :
    Returns (generateGridUnpruned b d ⟨rq, some t, .fam fam, nang⟩) (fun s =>
      ∀ fuel, Batcher.make part fuel maxBatch s = none) := by
  obtain ⟨q, c, q1, q2, q3, q4, q5, q6, q7, q8, q9, q10, -⟩ := radial_entries hL b hs
  have hz : ∀ x : ℝ, (F64.fin x * F64.fin 0 : F64 L) = F64.fin 0 := by
    intro x
    rw [F64.fin_mul, mul_zero]
    exact (of_exact rnd_zero (by norm_num)).1
  have hl : (lit 0 : F64 L) = F64.fin 0 := by
    rw [F64.lit_eq, Rat.cast_zero]
    exact (of_exact rnd_zero (by norm_num)).1
  have ha : (F64.fin 0 + F64.fin 0 : F64 L) = F64.fin 0 := by
    rw [F64.fin_add, add_zero]
    exact (of_exact rnd_zero (by norm_num)).1
  refine C93_hangs f64_boxArith ?_ b d q8 (by omega) fam nang h hint ?_ ?_ part hp maxBatch hb hlt
  · rw [hl]
    exact .inl ⟨0, rfl, (of_exact (L := L) rnd_zero (by norm_num)).2⟩
  · obtain ⟨v, hv, -⟩ := fourpi_rel (L := L)
    rw [hv, hl]
    have := hz v
    rw [F64.fin_mul] at this ⊢
    rw [zero_mul]
    rw [mul_zero] at this
    exact this
  · intro q' hq' x hx
    rw [q1] at hq'
    injection hq' with hq'
    rw [← hq'] at hx
    obtain ⟨i, hi, rfl⟩ := List.getElem_of_mem hx
    have h3 : q.points.length = q.weights.length := q3
    have hi' : i < (q.points.zip q.weights).length := by rw [List.length_zip]; omega
    have hg := (List.forall₂_iff_get.1 q10).2 i hi' (by rw [← q10.length_eq]; exact hi')
    obtain ⟨v, hv, -⟩ := hg.pt
    rw [List.get_eq_getElem, List.getElem_zip] at hv
    dsimp only at hv
    rw [hv, hl, hz, ha]

end

/-- The hypotheses: a size which is not available, batches of 512 points and a Becke rule. -/
example : AngFam.lebedevLaikov.orderByNpts (100 : Nat) = -1 ∧ Matches .becke (RadialTraits.becke 75 1 : RadialTraits ℝ) ∧
    512 < 100 * 75 ∧ 100 * 75 < sizeMod :=
  ⟨by decide +kernel, .becke _ _, by norm_num, by unfold sizeMod; norm_num⟩

end IntegratorXX
