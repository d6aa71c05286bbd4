import Verif.Prop.Tables
import Verif.Lemmas.FactoryForms
import Verif.Spec.Composite

set_option linter.unusedSectionVars false

/-!
# C38-C45: pruning schemes and grid generation
-/

namespace IntegratorXX

open Spec Arith

/-! ## C38, C39 -/

/-- Robust pruning: three regions for the same traits, radial scheme and angular family, the
outermost at the requested angular size; they tile the radial grid exactly when it has at least
three points. -/
theorem C38_robust_tiles {F : Type} (unp : UnprunedSpec (RadialTraits F))
    (t : RadialTraits F) (ht : unp.radialTraits = some t) (s : PrunedSpec (RadialTraits F))
    (hs : createPrunedSpec .robust unp = .ok s) :
    s.radialQuad = unp.radialQuad ∧ s.radialTraits = some t ∧ s.regions.length = 3 ∧
    (∀ r ∈ s.regions, r.angularQuad = unp.angularQuad) ∧
    (s.regions.getLast?.map (·.angularSize) = some unp.angularSize) ∧
    (TilesRange t.npts (s.regions.map (fun r => (r.idxSt, r.idxEn))) ↔ 3 ≤ t.npts) := by
  unfold createPrunedSpec at hs
  simp only [ht] at hs
  unfold robustScheme at hs
  cases ha : unp.angularQuad with
  | other c => simp [ha] at hs
  | fam f =>
    simp only [ha] at hs
    rw [Outcome.bind_eq_ok] at hs
    obtain ⟨⟨low, med⟩, -, hs⟩ := hs
    simp only [ht, Outcome.ok.injEq] at hs
    subst hs
    refine ⟨rfl, rfl, rfl, by simp [robustRegions], by simp [robustRegions], ?_⟩
    simp only [robustRegions, List.map_cons, List.map_nil]
    rw [three_tiles]
    omega

/-- Treutler pruning: the same with at least four points. -/
theorem C39_treutler_tiles {F : Type} (unp : UnprunedSpec (RadialTraits F))
    (t : RadialTraits F) (ht : unp.radialTraits = some t) (s : PrunedSpec (RadialTraits F))
    (hs : createPrunedSpec .treutler unp = .ok s) :
    s.radialQuad = unp.radialQuad ∧ s.radialTraits = some t ∧ s.regions.length = 3 ∧
    (∀ r ∈ s.regions, r.angularQuad = unp.angularQuad) ∧
    (s.regions.getLast?.map (·.angularSize) = some unp.angularSize) ∧
    (TilesRange t.npts (s.regions.map (fun r => (r.idxSt, r.idxEn))) ↔ 4 ≤ t.npts) := by
  unfold createPrunedSpec at hs
  simp only [ht] at hs
  unfold treutlerScheme at hs
  cases ha : unp.angularQuad with
  | other c => simp [ha] at hs
  | fam f =>
    simp only [ha, ht, Outcome.ok.injEq] at hs
    subst hs
    refine ⟨rfl, rfl, rfl, by simp [treutlerRegions], by simp [treutlerRegions], ?_⟩
    simp only [treutlerRegions, List.map_cons, List.map_nil]
    rw [three_tiles]
    omega

/-- The two schemes succeed on a typical specification. -/
example : createPrunedSpec .robust
      (⟨.becke, some (.becke 75 (2 : ℝ)), .fam .lebedevLaikov, 302⟩) =
      .ok ⟨.becke, some (.becke 75 2), [⟨0, 19, .fam .lebedevLaikov, 26⟩,
        ⟨19, 38, .fam .lebedevLaikov, 194⟩, ⟨38, 75, .fam .lebedevLaikov, 302⟩]⟩ ∧
    createPrunedSpec .treutler
      (⟨.becke, some (.becke 75 (2 : ℝ)), .fam .lebedevLaikov, 302⟩) =
      .ok ⟨.becke, some (.becke 75 2), [⟨0, 26, .fam .lebedevLaikov, 26⟩,
        ⟨26, 38, .fam .lebedevLaikov, 50⟩, ⟨38, 75, .fam .lebedevLaikov, 302⟩]⟩ :=
  ⟨rfl, rfl⟩

/-! ## C40 -/

/-- One line of the table of robust sizes. -/
private def robustCheck (fam : AngFam) (e : Int × Int) : Bool :=
  match robustSizes fam e.2.toNat with
  | .ok (low, med) =>
    fam.orderByNpts low != -1 && fam.orderByNpts med != -1 && decide (med ≤ e.2.toNat) &&
      (decide (low ≤ med) == (fam == .ahrensBeylkin || decide (13 ≤ e.1)))
  | _ => false

private theorem robust_table (fam : AngFam) : fam.entries.all (robustCheck fam) = true := by
  cases fam <;> decide +kernel

private theorem treutler_table (fam : AngFam) :
    ∃ low ∈ fam.entries, ∃ med ∈ fam.entries,
      treutlerSizes fam = (low.2.toNat, med.2.toNat) := by
  cases fam <;> decide +kernel

private theorem robustSizes_invalid (fam : AngFam) (asz : Nat) (hasz : asz < sizeMod)
    (h : fam.orderByNpts asz = -1) :
    robustSizes fam asz = .throws (.runtimeError "Invalid Base Grid") := by
  unfold robustSizes
  rw [orderByNpts_toInt64 fam hasz, h]
  rfl

/-- Consequences of `robust_table` for a supported size. -/
private theorem robustSizes_valid (fam : AngFam) (asz : Nat) (h : fam.orderByNpts asz ≠ -1) :
    ∃ low med : Nat, robustSizes fam asz = .ok (low, med) ∧ fam.orderByNpts low ≠ -1 ∧
      fam.orderByNpts med ≠ -1 ∧ med ≤ asz ∧
      (low ≤ med ↔ fam = .ahrensBeylkin ∨ 13 ≤ fam.orderByNpts asz) := by
  have he := (fam.orderByNpts_iff _ _).1 ⟨rfl, h⟩
  have hc := List.all_eq_true.1 (robust_table fam) _ he
  unfold robustCheck at hc
  rw [Int.toNat_natCast] at hc
  split at hc
  · rename_i low med h1
    refine ⟨low, med, h1, ?_⟩
    simp only [Bool.and_eq_true, bne_iff_ne, ne_eq, decide_eq_true_eq, beq_iff_eq] at hc
    obtain ⟨⟨⟨h2, h3⟩, h4⟩, h5⟩ := hc
    refine ⟨h2, h3, h4, ?_⟩
    have : (decide (low ≤ med) = true) ↔
      ((fam == AngFam.ahrensBeylkin || decide (13 ≤ fam.orderByNpts asz)) = true) := by rw [h5]
    simpa using this
  · exact absurd hc (by simp)

/-- The robust scheme rejects exactly the base sizes that are not available, and otherwise
requests only available sizes. -/
theorem C40_robust_sizes {F : Type} (rq : RadialQuad) (t : RadialTraits F) (fam : AngFam)
    (asz : Nat) (hasz : asz < sizeMod) :
    (fam.orderByNpts asz = -1 →
      createPrunedSpec .robust ⟨rq, some t, .fam fam, asz⟩ =
        .throws (.runtimeError "Invalid Base Grid")) ∧
    (fam.orderByNpts asz ≠ -1 →
      Returns (createPrunedSpec .robust ⟨rq, some t, .fam fam, asz⟩) (fun s =>
        ∀ r ∈ s.regions, fam.orderByNpts r.angularSize ≠ -1)) := by
  constructor
  · intro h
    simp only [createPrunedSpec, robustScheme, robustSizes_invalid fam asz hasz h]
    rfl
  · intro h
    obtain ⟨low, med, h1, h2, h3, -, -⟩ := robustSizes_valid fam asz h
    refine ⟨⟨rq, some t, robustRegions low med (.fam fam) t.npts asz⟩, ?_, ?_⟩
    · simp only [createPrunedSpec, robustScheme, h1]; rfl
    · simp [robustRegions, h2, h3, h]

/-- The Treutler scheme always succeeds: its inner sizes are available and it does not look at
the base size, which it passes on. -/
theorem C40_treutler_sizes {F : Type} (rq : RadialQuad) (t : RadialTraits F) (fam : AngFam)
    (asz : Nat) :
    Returns (createPrunedSpec .treutler ⟨rq, some t, .fam fam, asz⟩) (fun s =>
      ∃ low med : PruningRegion, ∃ base : PruningRegion, s.regions = [low, med, base] ∧
        fam.orderByNpts low.angularSize ≠ -1 ∧ fam.orderByNpts med.angularSize ≠ -1 ∧
        base.angularSize = asz) := by
  obtain ⟨low, hl, med, hm, h1⟩ := treutler_table fam
  have sup : ∀ e ∈ fam.entries, fam.orderByNpts ((e.2.toNat : Nat) : Int) ≠ -1 := by
    intro e hm
    have p := fam.entries_pos _ hm
    have : ((e.2.toNat : Nat) : Int) = e.2 := by omega
    rw [this]
    have := (fam.orderByNpts_iff e.1 e.2).2 hm
    rw [this.1]; exact this.2
  refine ⟨⟨rq, some t, treutlerRegions low.2.toNat med.2.toNat (.fam fam) t.npts asz⟩, ?_, ?_⟩
  · simp only [createPrunedSpec, treutlerScheme, h1]
  · exact ⟨_, _, _, rfl, sup _ hl, sup _ hm, rfl⟩

/-- `n` is the smallest available size whose order is at least `o`. -/
def LeastSize (fam : AngFam) (o : Int) (n : Nat) : Prop :=
  fam.orderByNpts n ≠ -1 ∧ o ≤ fam.orderByNpts n ∧
    ∀ n' : Nat, fam.orderByNpts n' ≠ -1 → o ≤ fam.orderByNpts n' → n ≤ n'

/-- `LeastSize` from the table. -/
private def leastCheck (fam : AngFam) (o : Int) (n : Nat) : Bool :=
  fam.orderByNpts n != -1 && decide (o ≤ fam.orderByNpts n) &&
    fam.entries.all (fun e => !decide (o ≤ e.1) || decide ((n : Int) ≤ e.2))

private theorem leastCheck_iff {fam : AngFam} {o : Int} {n : Nat} (h : leastCheck fam o n = true) :
    LeastSize fam o n := by
  unfold leastCheck at h
  simp only [Bool.and_eq_true, bne_iff_ne, ne_eq, decide_eq_true_eq, List.all_eq_true,
    Bool.or_eq_true, Bool.not_eq_true', decide_eq_false_iff_not] at h
  refine ⟨h.1.1, h.1.2, fun n' h1 h2 => ?_⟩
  have he := (fam.orderByNpts_iff _ _).1 ⟨rfl, h1⟩
  rcases h.2 _ he with h3 | h3
  · exact absurd h2 h3
  · dsimp only at h3
    omega

/-- The inner sizes of the robust scheme: the smallest grids of order at least 7 and of order at
least 6 below the base order (the base order itself if it is at most 6). -/
theorem C40_robust_orders {F : Type} (rq : RadialQuad) (t : RadialTraits F) (fam : AngFam)
    (asz : Nat) (h : fam.orderByNpts asz ≠ -1) :
    Returns (createPrunedSpec .robust ⟨rq, some t, .fam fam, asz⟩) (fun s =>
      ∃ low med base : PruningRegion, s.regions = [low, med, base] ∧
        LeastSize fam 7 low.angularSize ∧
        LeastSize fam (if fam.orderByNpts asz ≤ 6 then fam.orderByNpts asz
          else fam.orderByNpts asz - 6) med.angularSize ∧
        base.angularSize = asz) := by
  have he := (fam.orderByNpts_iff _ _).1 ⟨rfl, h⟩
  have table : fam.entries.all (fun e => match robustSizes fam e.2.toNat with
      | .ok (low, med) => leastCheck fam 7 low &&
          leastCheck fam (if e.1 ≤ 6 then e.1 else e.1 - 6) med
      | _ => false) = true := by
    cases fam <;> decide +kernel
  have hc := List.all_eq_true.1 table _ he
  rw [Int.toNat_natCast] at hc
  obtain ⟨low, med, h1, -⟩ := robustSizes_valid fam asz h
  rw [h1] at hc
  simp only [Bool.and_eq_true] at hc
  refine ⟨⟨rq, some t, robustRegions low med (.fam fam) t.npts asz⟩, ?_, ?_⟩
  · simp only [createPrunedSpec, robustScheme, h1]; rfl
  · exact ⟨_, _, _, rfl, leastCheck_iff hc.1, leastCheck_iff hc.2, rfl⟩

/-- The inner sizes of the Treutler scheme: the smallest grids of order at least 7 and 11. -/
theorem C40_treutler_orders {F : Type} (rq : RadialQuad) (t : RadialTraits F) (fam : AngFam)
    (asz : Nat) :
    Returns (createPrunedSpec .treutler ⟨rq, some t, .fam fam, asz⟩) (fun s =>
      ∃ low med base : PruningRegion, s.regions = [low, med, base] ∧
        LeastSize fam 7 low.angularSize ∧ LeastSize fam 11 med.angularSize ∧
        base.angularSize = asz) := by
  have table : (leastCheck fam 7 (treutlerSizes fam).1 &&
      leastCheck fam 11 (treutlerSizes fam).2) = true := by
    cases fam <;> decide +kernel
  rw [Bool.and_eq_true] at table
  exact ⟨_, rfl, _, _, _, rfl, leastCheck_iff table.1, leastCheck_iff table.2, rfl⟩

/-- Values of the enumeration outside its enumerators are rejected by both schemes. -/
theorem C40_other_rejected {F : Type} (rq : RadialQuad) (t : RadialTraits F) (c asz : Nat) :
    createPrunedSpec .robust ⟨rq, some t, .other c, asz⟩ =
      .throws (.runtimeError "Unsupported Angular Quadrature") ∧
    createPrunedSpec .treutler ⟨rq, some t, .other c, asz⟩ =
      .throws (.runtimeError "Unsupported Angular Quadrature") := ⟨rfl, rfl⟩

example : AngFam.delley.orderByNpts (110 : Nat) ≠ -1 ∧ AngFam.delley.orderByNpts (111 : Nat) = -1 ∧
    (110 : Nat) < sizeMod := by decide +kernel

/-! ## C41

Intended: angular sizes grow outward, `low ≤ med ≤ base`. -/

/-- `med ≤ base` always; `low ≤ med` exactly when the base order is at least 13 or the family
is Ahrens-Beylkin. -/
theorem C41_robust_monotone {F : Type} (rq : RadialQuad) (t : RadialTraits F) (fam : AngFam)
    (asz : Nat) (h : fam.orderByNpts asz ≠ -1) :
    Returns (createPrunedSpec .robust ⟨rq, some t, .fam fam, asz⟩) (fun s =>
      ∃ low med base : PruningRegion, s.regions = [low, med, base] ∧
        base.angularSize = asz ∧ med.angularSize ≤ base.angularSize ∧
        (low.angularSize ≤ med.angularSize ↔
          fam = .ahrensBeylkin ∨ 13 ≤ fam.orderByNpts asz)) := by
  obtain ⟨low, med, h1, h2, h3, h4, h5⟩ := robustSizes_valid fam asz h
  refine ⟨⟨rq, some t, robustRegions low med (.fam fam) t.npts asz⟩, ?_, ?_⟩
  · simp only [createPrunedSpec, robustScheme, h1]; rfl
  · exact ⟨_, _, _, rfl, rfl, h4, h5⟩

/-- The intended order fails: for 50 Lebedev points the innermost region gets more angular
points (26) than the middle one (14). -/
theorem C41_not_monotone :
    ¬∀ (fam : AngFam) (asz : Nat), fam.orderByNpts asz ≠ -1 →
      Returns (createPrunedSpec .robust ⟨.becke, some (.becke 75 (1 : ℝ)), .fam fam, asz⟩)
        (fun s => (s.regions.map (·.angularSize)).Pairwise (· ≤ ·)) := by
  intro h
  obtain ⟨s, hs, hp⟩ := h .lebedevLaikov 50 (by decide +kernel)
  have : s = ⟨.becke, some (.becke 75 (1 : ℝ)), [⟨0, 19, .fam .lebedevLaikov, 26⟩,
        ⟨19, 38, .fam .lebedevLaikov, 14⟩, ⟨38, 75, .fam .lebedevLaikov, 50⟩]⟩ :=
    (Outcome.ok.inj hs).symm
  subst this
  revert hp
  decide

example : AngFam.womersley.orderByNpts (1862 : Nat) ≠ -1 ∧
    13 ≤ AngFam.womersley.orderByNpts (1862 : Nat) := by decide +kernel

/-! ## C42 -/

section
variable {F : Type} [Add F] [Sub F] [Mul F] [Div F] [Neg F] [Arith F]

private theorem sphEntries_length (rl : List (F × F)) (al : List (Pt F × F)) :
    (sphEntries rl al).length = rl.length * al.length := by
  unfold sphEntries
  rw [List.length_flatMap]
  simp [List.map_const', Nat.mul_comm]

/-- Three regions with increasing starts `0 < a < c < n`. -/
private theorem three_regions (b : Build) (d : AngData F) (hd : d.Typed) {rq : RadialQuad}
    {t : RadialTraits F} (hm : Matches rq t) (hn : t.npts + 2 < sizeMod) (fam : AngFam)
    (low med base a c e1 e2 e3 : Nat) (hl : fam.orderByNpts low ≠ -1)
    (hmed : fam.orderByNpts med ≠ -1) (hb : fam.orderByNpts base ≠ -1)
    (ha : 0 < a) (hac : a < c) (hcn : c < t.npts) (hdebug : b.asserts = true → c + 1 < t.npts) :
    Returns (generatePrunedGrid b d rq t [⟨0, e1, .fam fam, low⟩, ⟨a, e2, .fam fam, med⟩,
      ⟨c, e3, .fam fam, base⟩]) (fun g =>
        g.quad.points.length = a * low + (c - a) * med + (t.npts - c) * base ∧
        g.quad.weights.length = g.quad.points.length ∧ g.center = origin F) := by
  obtain ⟨rl, hrl, hr⟩ := radialGenerate_ok (F := F) b hm hn
  have hk : ∀ n : Nat, fam.orderByNpts n ≠ -1 → fam.dispatch n = some n := by
    intro n h
    rw [fam.dispatch_iff]
    exact ⟨rfl, _, (fam.orderByNpts_iff _ _).1 ⟨rfl, h⟩⟩
  have key : ∀ n : Nat, fam.orderByNpts n ≠ -1 → ∃ al : List (Pt F × F), al.length = n ∧
      angConstruct b d fam n = .ok (Quad.ofPairs al) := by
    intro n h
    obtain ⟨-, -, h1, h2, h3⟩ := angConstruct_supported b d hd fam n n (hk n h)
    refine ⟨(d fam n).points.zip ((d fam n).weights.map fam.scaled), by simp [h1, h2], ?_⟩
    rw [h3]
    congr 1
    exact Quad.eq_ofPairs ⟨_, _⟩ (by simp [h1, h2])
  obtain ⟨al, hal, h1⟩ := key low hl
  obtain ⟨am, ham, h2⟩ := key med hmed
  obtain ⟨ab, hab, h3⟩ := key base hb
  have hnp : (Quad.ofPairs rl).npts = t.npts := by simp [Quad.npts, Quad.ofPairs, hrl]
  have hw : subWrap t.npts 1 = t.npts - 1 := subWrap_of_le (by omega) (by omega)
  have hadd : addRegions b d fam t.npts [⟨0, e1, .fam fam, low⟩, ⟨a, e2, .fam fam, med⟩,
      ⟨c, e3, .fam fam, base⟩] Partition.empty =
      .ok ⟨[0, a, c], [Quad.ofPairs al, Quad.ofPairs am, Quad.ofPairs ab]⟩ := by
    simp only [addRegions, h1, h2, h3, Outcome.ok_bind, Partition.addQuad, Partition.empty,
      cassert, hw]
    cases hbd : b.asserts with
    | false => simp
    | true =>
      have := hdebug hbd
      have i1 : a < t.npts - 1 := by omega
      have i2 : c < t.npts - 1 := by omega
      simp [ha, hac, i1, i2]
  have hfin : Partition.finalize t.npts
      (⟨[0, a, c], [Quad.ofPairs al, Quad.ofPairs am, Quad.ofPairs ab]⟩ :
        Partition (Quad (Pt F) F)) =
      .ok ⟨[0, a, c, t.npts], [Quad.ofPairs al, Quad.ofPairs am, Quad.ofPairs ab]⟩ := by
    unfold Partition.finalize
    simp only [List.getLast?_cons_cons, List.getLast?_singleton]
    rw [if_pos (by omega)]
    rfl
  have hpr := prunedConstruct_eq b rl
    (⟨[0, a, c, t.npts], [Quad.ofPairs al, Quad.ofPairs am, Quad.ofPairs ab]⟩ :
      Partition (Quad (Pt F) F)) rfl (by
        simp only [Partition.ranges, List.mem_cons, List.not_mem_nil, or_false]
        rintro e (rfl | rfl | rfl)
        · exact ⟨ha, by rw [hrl]; dsimp only; omega, by simp [Quad.ofPairs]⟩
        · exact ⟨hac, by rw [hrl]; dsimp only; omega, by simp [Quad.ofPairs]⟩
        · exact ⟨hcn, by rw [hrl], by simp [Quad.ofPairs]⟩) (origin F)
  have hgen : generatePrunedGrid b d rq t [⟨0, e1, .fam fam, low⟩, ⟨a, e2, .fam fam, med⟩,
      ⟨c, e3, .fam fam, base⟩] = prunedConstruct b (Quad.ofPairs rl)
        (⟨[0, a, c, t.npts], [Quad.ofPairs al, Quad.ofPairs am, Quad.ofPairs ab]⟩ :
          Partition (Quad (Pt F) F)) (origin F) := by
    unfold generatePrunedGrid
    rw [hr, Outcome.ok_bind]
    unfold makePrunedGrid
    dsimp only
    rw [if_neg (by simp)]
    unfold makePrunedGridImpl
    rw [hnp, hadd, Outcome.ok_bind, hfin, Outcome.ok_bind]
  refine ⟨_, hgen.trans hpr, ?_⟩
  · refine ⟨?_, by simp [Quad.ofPairs], rfl⟩
    simp only [Quad.ofPairs, List.length_map, Partition.ranges, List.flatMap_cons,
      List.flatMap_nil, List.length_append, regionEntries, sphEntries_length, List.length_drop,
      List.length_take, List.length_zip, hrl, hal, ham, hab, List.length_nil, min_self]
    rw [min_eq_left (show a ≤ t.npts by omega), min_eq_left (show c ≤ t.npts by omega),
      Nat.sub_zero]
    omega

/-- With at least five radial points, both built-in schemes generate a grid, in debug and
release builds, with the number of points given by the three regions. -/
theorem C42_scheme_generates (b : Build) (d : AngData F) (hd : d.Typed) (rq : RadialQuad)
    (t : RadialTraits F) (hm : Matches rq t) (hn : t.npts + 2 < sizeMod) (fam : AngFam)
    (asz : Nat) (hsup : fam.orderByNpts asz ≠ -1) (scheme : PruningScheme)
    (hscheme : scheme = .robust ∨ scheme = .treutler) (h5 : 5 ≤ t.npts) :
    Returns (createPrunedSpec scheme ⟨rq, some t, .fam fam, asz⟩) (fun s =>
      Returns (generateGridPruned b d s) (fun g =>
        g.quad.points.length = (s.regions.map (fun r => (r.idxEn - r.idxSt) * r.angularSize)).sum ∧
        g.quad.weights.length = g.quad.points.length ∧ g.center = origin F)) := by
  rcases hscheme with rfl | rfl
  · obtain ⟨low, med, h1, h2, h3, -, -⟩ := robustSizes_valid fam asz hsup
    refine ⟨⟨rq, some t, robustRegions low med (.fam fam) t.npts asz⟩, ?_, ?_⟩
    · simp only [createPrunedSpec, robustScheme, h1]; rfl
    · obtain ⟨g, hg, h6, h7⟩ := three_regions b d hd hm hn fam low med asz (t.npts / 4 + 1)
        (t.npts / 2 + 1) (t.npts / 4 + 1) (t.npts / 2 + 1) t.npts h2 h3 hsup (by omega) (by omega)
        (by omega) (by omega)
      refine ⟨g, hg, ?_, h7⟩
      rw [h6]
      simp [robustRegions]
      omega
  · obtain ⟨s, hs, low, med, base, -, -, -, -⟩ :=
      C40_treutler_sizes rq t fam asz
    obtain ⟨low, hl, med, hmm, h1⟩ := treutler_table fam
    have sup : ∀ e ∈ fam.entries, fam.orderByNpts ((e.2.toNat : Nat) : Int) ≠ -1 := by
      intro e hm
      have p := fam.entries_pos _ hm
      have : ((e.2.toNat : Nat) : Int) = e.2 := by omega
      rw [this]
      have := (fam.orderByNpts_iff e.1 e.2).2 hm
      rw [this.1]; exact this.2
    refine ⟨⟨rq, some t, treutlerRegions low.2.toNat med.2.toNat (.fam fam) t.npts asz⟩, ?_, ?_⟩
    · simp only [createPrunedSpec, treutlerScheme, h1]
    · obtain ⟨g, hg, h6, h7⟩ := three_regions b d hd hm hn fam low.2.toNat med.2.toNat asz
        (t.npts / 3 + 1) (t.npts / 2 + 1) (t.npts / 3 + 1) (t.npts / 2 + 1) t.npts (sup _ hl)
        (sup _ hmm) hsup (by omega) (by omega) (by omega) (by omega)
      refine ⟨g, hg, ?_, h7⟩
      rw [h6]
      simp [treutlerRegions]
      omega

/-- Generation from three regions of one family, with all sizes available. -/
private theorem three_regions_form (b : Build) (d : AngData F) (hd : d.Typed) {rq : RadialQuad}
    {t : RadialTraits F} (hm : Matches rq t) (hn : t.npts + 2 < sizeMod) (fam : AngFam)
    (low med base a c e1 e2 e3 : Nat) (hl : fam.orderByNpts low ≠ -1)
    (hmed : fam.orderByNpts med ≠ -1) (hb : fam.orderByNpts base ≠ -1) :
    ∃ (rl : List (F × F)) (al am ab : Quad (Pt F) F), rl.length = t.npts ∧
      generatePrunedGrid b d rq t [⟨0, e1, .fam fam, low⟩, ⟨a, e2, .fam fam, med⟩,
        ⟨c, e3, .fam fam, base⟩] =
      (Partition.make b t.npts [(0, al), (a, am), (c, ab)] >>= fun rgp =>
        prunedConstruct b (Quad.ofPairs rl) rgp (origin F)) := by
  obtain ⟨rl, hrl, hr⟩ := radialGenerate_ok (F := F) b hm hn
  have key : ∀ n : Nat, fam.orderByNpts n ≠ -1 → ∃ al : Quad (Pt F) F,
      angConstruct b d fam n = .ok al := by
    intro n h
    have hk : fam.dispatch n = some n := by
      rw [fam.dispatch_iff]
      exact ⟨rfl, _, (fam.orderByNpts_iff _ _).1 ⟨rfl, h⟩⟩
    exact ⟨_, (angConstruct_supported b d hd fam n n hk).2.2.2.2⟩
  obtain ⟨al, h1⟩ := key low hl
  obtain ⟨am, h2⟩ := key med hmed
  obtain ⟨ab, h3⟩ := key base hb
  have hnp : (Quad.ofPairs rl).npts = t.npts := by simp [Quad.npts, Quad.ofPairs, hrl]
  refine ⟨rl, al, am, ab, hrl, ?_⟩
  unfold generatePrunedGrid
  rw [hr, Outcome.ok_bind]
  unfold makePrunedGrid
  dsimp only
  rw [if_neg (by simp)]
  unfold makePrunedGridImpl Partition.make
  rw [hnp, bind_assoc]
  congr 1
  simp only [addRegions, h1, h2, h3, Outcome.ok_bind, Partition.addAll]

/-- The regions of the built-in schemes, for a supported base size. -/
private theorem scheme_regions (rq : RadialQuad) (t : RadialTraits F) (fam : AngFam) (asz : Nat)
    (hsup : fam.orderByNpts asz ≠ -1) (scheme : PruningScheme)
    (hscheme : scheme = .robust ∨ scheme = .treutler) :
    ∃ low med a : Nat, fam.orderByNpts low ≠ -1 ∧ fam.orderByNpts med ≠ -1 ∧
      (scheme = .robust ∧ a = t.npts / 4 + 1 ∨ scheme = .treutler ∧ a = t.npts / 3 + 1) ∧
      createPrunedSpec scheme ⟨rq, some t, .fam fam, asz⟩ = .ok ⟨rq, some t,
        [⟨0, a, .fam fam, low⟩, ⟨a, t.npts / 2 + 1, .fam fam, med⟩,
          ⟨t.npts / 2 + 1, t.npts, .fam fam, asz⟩]⟩ := by
  rcases hscheme with rfl | rfl
  · obtain ⟨low, med, h1, h2, h3, -, -⟩ := robustSizes_valid fam asz hsup
    refine ⟨low, med, _, h2, h3, .inl ⟨rfl, rfl⟩, ?_⟩
    simp only [createPrunedSpec, robustScheme, h1]; rfl
  · obtain ⟨s, hs, low, med, base, h1, h2, h3, h4⟩ := C40_treutler_sizes rq t fam asz
    obtain ⟨l, -, m, -, h5⟩ := treutler_table fam
    simp only [createPrunedSpec, treutlerScheme, h5, Outcome.ok.injEq] at hs
    subst hs
    simp only [treutlerRegions, List.cons.injEq] at h1
    obtain ⟨rfl, rfl, rfl, -⟩ := h1
    refine ⟨l.2.toNat, m.2.toNat, _, h2, h3, .inr ⟨rfl, rfl⟩, ?_⟩
    simp only [createPrunedSpec, treutlerScheme, h5]; rfl

/-- In a debug build, four or fewer radial points fail the assertion in `add_quad`, although the
regions tile a radial grid of 4 points (robust: also 3). -/
theorem C42_debug_small (d : AngData F) (hd : d.Typed) (rq : RadialQuad)
    (t : RadialTraits F) (hm : Matches rq t) (fam : AngFam)
    (asz : Nat) (hsup : fam.orderByNpts asz ≠ -1) (scheme : PruningScheme)
    (hscheme : scheme = .robust ∨ scheme = .treutler) (h4 : t.npts ≤ 4) :
    Returns (createPrunedSpec scheme ⟨rq, some t, .fam fam, asz⟩) (fun s =>
      generateGridPruned ⟨true⟩ d s = .assertFail) := by
  obtain ⟨low, med, a, h1, h2, h3, h5⟩ := scheme_regions rq t fam asz hsup scheme hscheme
  refine ⟨_, h5, ?_⟩
  obtain ⟨rl, al, am, ab, hrl, h6⟩ := three_regions_form ⟨true⟩ d hd hm
    (by unfold sizeMod; omega) fam low med asz a (t.npts / 2 + 1) a (t.npts / 2 + 1) t.npts h1 h2 hsup
  show generatePrunedGrid ⟨true⟩ d rq t _ = _
  rw [h6]
  have key : Partition.make ⟨true⟩ t.npts [(0, al), (a, am), (t.npts / 2 + 1, ab)] =
      .assertFail := by
    have hw : 1 ≤ t.npts → subWrap t.npts 1 = t.npts - 1 :=
      fun h => subWrap_of_le h (by unfold sizeMod; omega)
    unfold Partition.make
    simp only [Partition.addAll, Partition.addQuad, Partition.empty, cassert]
    by_cases h0 : t.npts = 0
    · have ha : a = 1 := by omega
      subst ha
      simp [h0, subWrap, sizeMod]
    · rw [hw (by omega)]
      have hc : ¬ t.npts / 2 + 1 < t.npts - 1 := by omega
      by_cases ha : a < t.npts - 1 <;> by_cases ha0 : 0 < a <;>
        simp [ha, ha0, hc]
  rw [key]; rfl

/-- Neither an exception nor a failing assertion. -/
private def OkUb {α : Type} (o : Outcome α) : Prop := o = .ub ∨ ∃ a, o = .ok a

private theorem okUb_ok {α : Type} (a : α) : OkUb (.ok a) := .inr ⟨a, rfl⟩

private theorem okUb_bind {α β : Type} {o : Outcome α} {f : α → Outcome β} (h : OkUb o)
    (hf : ∀ a, OkUb (f a)) : OkUb (o >>= f) := by
  rcases h with rfl | ⟨a, rfl⟩
  · exact .inl rfl
  · exact hf a

private theorem okUb_vget {α : Type} (v : List α) (i : Nat) : OkUb (vget v i) := by
  unfold vget; split
  · exact okUb_ok _
  · exact .inl rfl

private theorem okUb_vset {α : Type} (v : List α) (i : Nat) (a : α) : OkUb (vset v i a) := by
  unfold vset; split
  · exact okUb_ok _
  · exact .inl rfl

private theorem okUb_forN {σ : Type} (body : Nat → σ → Outcome σ) (h : ∀ i s, OkUb (body i s)) :
    ∀ (n lo : Nat) (s : σ), OkUb (forN n lo body s)
  | 0, _, s => okUb_ok s
  | n + 1, lo, s => okUb_bind (h lo s) (fun s' => okUb_forN body h n (lo + 1) s')

private theorem okUb_prunedStep (r : Quad F F) (e : (Nat × Nat) × Quad (Pt F) F)
    (s : List (Pt F) × List F) : OkUb (prunedStep ⟨false⟩ r e s) := by
  unfold prunedStep
  refine okUb_bind ?_ (fun q => okUb_bind ?_ (fun pw => okUb_bind ?_ (fun w => okUb_ok _)))
  · simp only [subConstruct, subGenerate, construct, cassert, Bool.false_and, Bool.false_eq_true,
      if_false, Outcome.ok_bind]
    refine okUb_bind (okUb_bind ?_ (fun _ => okUb_bind ?_ (fun _ => okUb_ok _))) (fun pw => ?_)
    · unfold vrange; split
      · exact okUb_ok _
      · exact .inl rfl
    · unfold vrange; split
      · exact okUb_ok _
      · exact .inl rfl
    · simp only [Quad.make, Bool.false_and, Bool.false_eq_true, if_false]; exact okUb_ok _
  · unfold sphProduct productGenerate
    refine okUb_forN _ (fun j s => okUb_forN _ (fun i s => ?_) _ _ _) _ _ _
    unfold productStep
    exact okUb_bind (okUb_vget _ _) (fun _ => okUb_bind (okUb_vget _ _) (fun _ =>
      okUb_bind (okUb_vset _ _ _) (fun _ => okUb_bind (okUb_vget _ _) (fun _ =>
      okUb_bind (okUb_vget _ _) (fun _ => okUb_bind (okUb_vset _ _ _) (fun _ => okUb_ok _))))))
  · unfold jacobianLoop
    refine okUb_forN _ (fun j s => okUb_forN _ (fun i s => ?_) _ _ _) _ _ _
    unfold jacobianStep
    exact okUb_bind (okUb_vget _ _) (fun _ => okUb_bind (okUb_vget _ _) (fun _ => okUb_vset _ _ _))

/-- In a release build, one or two radial points (or none) make the region loop read outside
its vectors. -/
theorem C42_release_tiny (d : AngData F) (hd : d.Typed) (rq : RadialQuad)
    (t : RadialTraits F) (hm : Matches rq t) (fam : AngFam)
    (asz : Nat) (hsup : fam.orderByNpts asz ≠ -1) (scheme : PruningScheme)
    (hscheme : scheme = .robust ∨ scheme = .treutler) (h2 : t.npts ≤ 2) :
    Returns (createPrunedSpec scheme ⟨rq, some t, .fam fam, asz⟩) (fun s =>
      generateGridPruned ⟨false⟩ d s = .ub) := by
  obtain ⟨low, med, a, h1, h2', h3, h5⟩ := scheme_regions rq t fam asz hsup scheme hscheme
  refine ⟨_, h5, ?_⟩
  obtain ⟨rl, al, am, ab, hrl, h6⟩ := three_regions_form ⟨false⟩ d hd hm
    (by unfold sizeMod; omega) fam low med asz a (t.npts / 2 + 1) a (t.npts / 2 + 1) t.npts h1 h2' hsup
  show generatePrunedGrid ⟨false⟩ d rq t _ = _
  rw [h6]
  have ha : a = 1 := by omega
  subst ha
  unfold Partition.make
  simp only [Partition.addAll, Partition.addQuad, Partition.empty, cassert, Bool.false_and,
    Bool.false_eq_true, if_false, Outcome.ok_bind, Outcome.pure_eq, List.nil_append,
    List.cons_append, Partition.finalize, List.getLast?_cons_cons, List.getLast?_singleton]
  have hsub : ∀ i j, t.npts < j → subConstruct ⟨false⟩ (i, j) (Quad.ofPairs rl) = .ub := by
    intro i j hj
    simp only [subConstruct, subGenerate, construct, cassert, Bool.false_and, Bool.false_eq_true,
      if_false, Outcome.ok_bind, vrange]
    rw [if_neg (by simp [Quad.ofPairs, hrl]; omega)]
    rfl
  have hloop : ∀ (p : Partition (Quad (Pt F) F)), p.idx.length = 3 → p.quads.length = 3 →
      ∀ (body : _ → List (Pt F) × List F → Outcome (List (Pt F) × List F)) i,
      (∀ e s, OkUb (body e s)) →
      i ≤ 2 → ∀ s, Partition.loopFrom p body i i s = .ub := by
    intro p hp1 hp2 body i hbody hi
    induction h : 2 - i generalizing i with
    | zero =>
      intro s
      have : i = 2 := by omega
      subst this
      unfold Partition.loopFrom
      rw [if_neg (by omega), dif_neg (by omega)]
    | succ k ih =>
      intro s
      unfold Partition.loopFrom
      rw [if_neg (by omega), dif_pos (by omega)]
      rcases hbody ((p.idx[i]'(by omega), p.idx[i + 1]'(by omega)), p.quads[i]'(by omega)) s
        with ho | ⟨s', ho⟩
      · rw [ho]; rfl
      · rw [ho, Outcome.ok_bind]
        exact ih (i + 1) (by omega) (by omega) s'
  have hfail : ∀ p : Partition (Quad (Pt F) F),
      p.forEach (prunedStep ⟨false⟩ (Quad.ofPairs rl)) ([], []) = .ub →
      prunedConstruct ⟨false⟩ (Quad.ofPairs rl) p (origin F) = .ub := by
    intro p hp
    unfold prunedConstruct prunedGenerate construct
    rw [hp]; rfl
  by_cases h0 : t.npts = 0
  · rw [h0, if_pos (by omega), Outcome.ok_bind]
    apply hfail
    unfold Partition.forEach
    rw [if_neg (by simp)]
    unfold Partition.loopFrom
    rw [if_neg (by simp), dif_pos (by simp)]
    have : ∀ s, prunedStep ⟨false⟩ (Quad.ofPairs rl) ((0, 1), al) s = .ub := by
      intro s
      unfold prunedStep
      rw [hsub 0 1 (by omega)]; rfl
    simp only [List.getElem_cons_zero, List.getElem_cons_succ]
    rw [this]; rfl
  · rw [if_neg (by omega), Outcome.ok_bind]
    apply hfail
    unfold Partition.forEach
    rw [if_neg (by simp)]
    exact hloop _ rfl rfl _ 0 (fun e s => okUb_prunedStep _ e s) (by omega) _

/-- In a release build, three or more radial points (Treutler: four) suffice. -/
theorem C42_release (d : AngData F) (hd : d.Typed) (rq : RadialQuad)
    (t : RadialTraits F) (hm : Matches rq t) (hn : t.npts + 2 < sizeMod) (fam : AngFam)
    (asz : Nat) (hsup : fam.orderByNpts asz ≠ -1) (scheme : PruningScheme)
    (hscheme : scheme = .robust ∧ 3 ≤ t.npts ∨ scheme = .treutler ∧ 4 ≤ t.npts) :
    Returns (createPrunedSpec scheme ⟨rq, some t, .fam fam, asz⟩) (fun s =>
      Returns (generateGridPruned ⟨false⟩ d s) (fun g =>
        g.quad.points.length = (s.regions.map (fun r => (r.idxEn - r.idxSt) * r.angularSize)).sum ∧
        g.quad.weights.length = g.quad.points.length ∧ g.center = origin F)) := by
  obtain ⟨low, med, a, h1, h2, h3, h5⟩ :=
    scheme_regions rq t fam asz hsup scheme (hscheme.imp And.left And.left)
  refine ⟨_, h5, ?_⟩
  have hac : a < t.npts / 2 + 1 := by
    rcases hscheme with ⟨rfl, h⟩ | ⟨rfl, h⟩
    · rcases h3 with ⟨-, rfl⟩ | ⟨h3, -⟩
      · omega
      · exact absurd h3 (by simp)
    · rcases h3 with ⟨h3, -⟩ | ⟨-, rfl⟩
      · exact absurd h3 (by simp)
      · omega
  obtain ⟨g, hg, h6, h7⟩ := three_regions ⟨false⟩ d hd hm hn fam low med asz a
    (t.npts / 2 + 1) a (t.npts / 2 + 1) t.npts h1 h2 hsup (by omega) hac
    (by rcases hscheme with h | h <;> omega) (by simp)
  refine ⟨g, hg, ?_, h7⟩
  rw [h6]
  simp
  omega

/-- Hypotheses of the generation theorems. -/
example : ∃ d : AngData ℝ, d.Typed ∧ Matches .becke (RadialTraits.becke 75 (1 : ℝ)) ∧
    (RadialTraits.becke 75 (1 : ℝ)).npts + 2 < sizeMod ∧
    AngFam.lebedevLaikov.orderByNpts (302 : Nat) ≠ -1 ∧
    5 ≤ (RadialTraits.becke 75 (1 : ℝ)).npts := by
  refine ⟨fun _ n => ⟨List.replicate n ⟨0, 0, 1⟩, List.replicate n 1⟩, ?_, .becke _ _,
    by decide, by decide +kernel, by decide⟩
  intro fam e he
  rw [fam.declared_eq] at he
  obtain ⟨⟨o, m⟩, -, rfl⟩ := List.mem_map.1 he
  simp

/-! ## C43 -/

/-- The grid does not depend on the region ends: regions that agree in everything else give the
same result. -/
theorem C43_end_ignored (b : Build) (d : AngData F) (rq : RadialQuad) (t : RadialTraits F)
    (rs rs' : List PruningRegion)
    (h : List.Forall₂ (fun r r' => r.idxSt = r'.idxSt ∧ r.angularQuad = r'.angularQuad ∧
      r.angularSize = r'.angularSize) rs rs') :
    generatePrunedGrid b d rq t rs = generatePrunedGrid b d rq t rs' := by
  have hadd : ∀ f n p, addRegions b d f n rs p = addRegions b d f n rs' p := by
    intro f n
    clear * - h
    induction h with
    | nil => intro p; rfl
    | cons hr _ ih =>
      intro p
      simp only [addRegions, hr.1, hr.2.2, ih]
  have hany : ∀ q : AngularQuad, rs.any (fun r => r.angularQuad != q) =
      rs'.any (fun r => r.angularQuad != q) := by
    intro q
    clear * - h
    induction h with
    | nil => rfl
    | cons hr _ ih => simp only [List.any_cons, hr.2.1, ih]
  unfold generatePrunedGrid
  congr 1
  funext r
  have himpl : ∀ f, makePrunedGridImpl b d f r rs = makePrunedGridImpl b d f r rs' := by
    intro f; unfold makePrunedGridImpl; rw [hadd]
  cases h with
  | nil => rfl
  | cons hr hrest =>
    unfold makePrunedGrid
    dsimp only
    rw [hany, hr.2.1]
    split
    · rfl
    · split
      · exact himpl _
      · rfl

/-- Two different region lists to which the theorem applies. -/
example : List.Forall₂ (fun r r' : PruningRegion => r.idxSt = r'.idxSt ∧
      r.angularQuad = r'.angularQuad ∧ r.angularSize = r'.angularSize)
    [⟨0, 10, .fam .delley, 26⟩, ⟨10, 20, .fam .delley, 50⟩]
    [⟨0, 99, .fam .delley, 26⟩, ⟨10, 3, .fam .delley, 50⟩] := by simp

/-! ## C44 -/

/-- A traits object of another class than the one named by the enumerator: `std::bad_cast`,
whatever the regions are. -/
theorem C44_bad_cast (b : Build) (d : AngData F) (rq : RadialQuad) (t : RadialTraits F)
    (h : ¬Matches rq t) (ho : ∀ c, rq ≠ .other c) (rs : List PruningRegion) :
    generatePrunedGrid b d rq t rs = .throws .badCast := by
  unfold generatePrunedGrid
  rw [radialGenerate_mismatch b h ho]; rfl

/-- A value outside the enumeration is rejected first. -/
theorem C44_unsupported_radial (b : Build) (d : AngData F) (c : Nat) (t : RadialTraits F)
    (rs : List PruningRegion) :
    generatePrunedGrid b d (.other c) t rs =
      .throws (.runtimeError "Unsupported Radial Quadrature") := by
  unfold generatePrunedGrid
  rw [radialGenerate_other]; rfl

/-- Without pruning the angular part is looked at first: an unknown angular value is reported even
if the radial part is wrong as well, and so is the undefined behaviour of an oversized Delley grid. -/
theorem C44_unpruned_angular_first (b : Build) (d : AngData F) (rq : RadialQuad)
    (t : RadialTraits F) (n : Nat) :
    (∀ c, generateUnprunedGrid b d rq t (.other c) n =
      .throws (.runtimeError "Unsupported Angular Quadrature")) ∧
    (2147483647 < n → generateUnprunedGrid b d rq t (.fam .delley) n = .ub) := by
  refine ⟨fun c => rfl, fun h => ?_⟩
  unfold generateUnprunedGrid
  dsimp only
  rw [C49_delley_int_overflow b d n h]
  rfl

/-- When the angular part can be built: errors of the radial part. -/
theorem C44_unpruned_radial (b : Build) (d : AngData F) (rq : RadialQuad) (t : RadialTraits F)
    (fam : AngFam) (n : Nat) (h : Returns (angConstruct b d fam n) (fun _ => True)) :
    (¬Matches rq t → (∀ c, rq ≠ .other c) →
      generateUnprunedGrid b d rq t (.fam fam) n = .throws .badCast) ∧
    (∀ c, rq = .other c → generateUnprunedGrid b d rq t (.fam fam) n =
      .throws (.runtimeError "Unsupported Radial Quadrature")) := by
  obtain ⟨a, ha, -⟩ := h
  unfold generateUnprunedGrid
  dsimp only
  rw [ha]
  refine ⟨fun hm ho => ?_, ?_⟩
  · rw [Outcome.ok_bind, radialGenerate_mismatch b hm ho]; rfl
  · rintro c rfl
    rw [Outcome.ok_bind, radialGenerate_other]; rfl

example : Returns (angConstruct ⟨true⟩ (fun _ _ => ⟨[], []⟩ : AngData ℝ) .lebedevLaikov 7)
    (fun _ => True) :=
  ⟨_, C49_unsupported_silent _ _ _ 7 (by decide +kernel) (by simp) (by simp), trivial⟩

/-- With a matching traits object: no regions, regions of two families, or a value outside the
enumeration of angular quadratures. -/
theorem C44_region_errors (b : Build) (d : AngData F) (rq : RadialQuad) (t : RadialTraits F)
    (h : Matches rq t) (hn : t.npts + 2 < sizeMod) (rs : List PruningRegion) :
    (rs = [] → generatePrunedGrid b d rq t rs = .throws (.runtimeError "No Pruning Regions")) ∧
    (∀ r ∈ rs, ∀ r' ∈ rs, r.angularQuad ≠ r'.angularQuad →
      generatePrunedGrid b d rq t rs =
        .throws (.runtimeError "Mixed Angular Pruning Not Supported")) ∧
    (∀ c, rs ≠ [] → (∀ r ∈ rs, r.angularQuad = .other c) →
      generatePrunedGrid b d rq t rs =
        .throws (.runtimeError "Unsupported Angular Quadrature")) := by
  obtain ⟨rl, -, hr⟩ := radialGenerate_ok (F := F) b h hn
  unfold generatePrunedGrid
  rw [hr, Outcome.ok_bind]
  refine ⟨?_, ?_, ?_⟩
  · rintro rfl; rfl
  · intro r hr r' hr' hne
    cases rs with
    | nil => simp at hr
    | cons r0 rest =>
      unfold makePrunedGrid
      dsimp only
      rw [if_pos]
      rw [List.any_eq_true]
      by_cases h1 : r.angularQuad = r0.angularQuad
      · exact ⟨r', hr', by simpa using fun h2 => hne (h1.trans h2.symm)⟩
      · exact ⟨r, hr, by simpa using h1⟩
  · intro c hne hall
    cases rs with
    | nil => exact absurd rfl hne
    | cons r0 rest =>
      unfold makePrunedGrid
      dsimp only
      rw [if_neg, hall r0 (by simp)]
      simp only [List.any_eq_true, bne_iff_ne, not_exists, not_and, not_not]
      intro r hr
      rw [hall r hr, hall r0 (by simp)]

example : ¬Matches .becke (RadialTraits.mk 10 (1 : ℝ)) ∧
    Matches .muraKnowles (RadialTraits.mk 10 (1 : ℝ)) ∧
    ¬Matches .murrayHandyLaming (RadialTraits.mhl 3 10 (1 : ℝ)) := by
  refine ⟨nofun, .mk _ _, nofun⟩

/-! ## C45 -/

/-- Generating a grid directly, or through an "unpruned" pruned specification, gives the same
points, weights and centre.  (`PruningScheme` values outside the enumeration behave like
`Unpruned`.) -/
theorem C45_unpruned_round_trip (b : Build) (d : AngData F) (hd : d.Typed)
    (unp : UnprunedSpec (RadialTraits F)) (t : RadialTraits F) (ht : unp.radialTraits = some t)
    (hm : Matches unp.radialQuad t) (h1 : 1 ≤ t.npts) (hn : t.npts + 2 < sizeMod) (fam : AngFam)
    (ha : unp.angularQuad = .fam fam) (scheme : PruningScheme)
    (hs : scheme ≠ .robust ∧ scheme ≠ .treutler) :
    (createPrunedSpec scheme unp >>= generateGridPruned b d) = generateGridUnpruned b d unp := by
  obtain ⟨rq, tr, aq, asz⟩ := unp
  dsimp only at ht hm ha
  subst ht ha
  have hc : createPrunedSpec scheme ⟨rq, some t, .fam fam, asz⟩ =
      .ok ⟨rq, some t, [⟨0, t.npts, .fam fam, asz⟩]⟩ := by
    cases scheme with
    | unpruned => rfl
    | other _ => rfl
    | robust => exact absurd rfl hs.1
    | treutler => exact absurd rfl hs.2
  rw [hc, Outcome.ok_bind]
  obtain ⟨rl, hrl, hr⟩ := radialGenerate_ok (F := F) b hm hn
  show generatePrunedGrid b d rq t [⟨0, t.npts, .fam fam, asz⟩] =
    generateUnprunedGrid b d rq t (.fam fam) asz
  unfold generatePrunedGrid generateUnprunedGrid
  rw [hr, Outcome.ok_bind]
  dsimp only
  unfold makePrunedGrid
  dsimp only
  rw [if_neg (by simp)]
  unfold makePrunedGridImpl
  have hnp : (Quad.ofPairs rl).npts = t.npts := by simp [Quad.npts, Quad.ofPairs, hrl]
  simp only [addRegions, hnp]
  by_cases hub : fam = .delley ∧ 2147483647 < asz
  · obtain ⟨rfl, hub⟩ := hub
    have hk : AngFam.delley.dispatch asz = none := by
      cases hk : AngFam.delley.dispatch asz with
      | none => rfl
      | some k =>
        obtain ⟨-, o, ho⟩ := (AngFam.dispatch_iff _ _ _).1 hk
        have := (AngFam.entries_lt _ _ ho).2
        dsimp only at this
        omega
    have : angConstruct b d .delley asz = .ub := by
      unfold angConstruct angGenerate construct
      simp only [hk, Outcome.ok_bind, scaleWeights, if_neg (Nat.not_le.2 hub)]
      rfl
    rw [this]; rfl
  · have key : ∃ al : List (Pt F × F), angConstruct b d fam asz = .ok (Quad.ofPairs al) := by
      cases hk : fam.dispatch asz with
      | some k =>
        obtain ⟨-, -, h1, h2, h3⟩ := angConstruct_supported b d hd fam asz k hk
        rw [h3]
        exact ⟨_, congrArg _ (Quad.eq_ofPairs ⟨_, _⟩ (by simp [h1, h2]))⟩
      | none =>
        rw [angConstruct_unsupported b d fam asz hk (fun hf => by
          by_contra hlt; exact hub ⟨hf, by omega⟩)]
        exact ⟨_, congrArg _ (Quad.eq_ofPairs ⟨_, _⟩ (by simp))⟩
    obtain ⟨al, hal⟩ := key
    rw [hal]
    simp only [Outcome.ok_bind, Partition.addQuad, Partition.empty, cassert, List.getLast?_nil,
      beq_self_eq_true, Bool.not_true, Bool.and_false, Bool.false_eq_true, if_false,
      Outcome.pure_eq, List.nil_append, Partition.finalize, List.getLast?_singleton]
    rw [if_pos (by omega), Outcome.ok_bind]
    rw [prunedConstruct_eq b rl _ rfl (by
      simp only [List.cons_append, List.nil_append, Partition.ranges, List.mem_singleton]
      rintro e rfl
      exact ⟨by dsimp only; omega, by rw [hrl], by simp [Quad.ofPairs]⟩), sphConstruct_eq]
    congr 3
    simp only [List.cons_append, List.nil_append, Partition.ranges, List.flatMap_cons,
      List.flatMap_nil, List.append_nil, regionEntries, List.drop_zero]
    rw [Quad.zip_ofPairs, List.take_of_length_le (by omega)]

/-- For an empty radial grid the round trip fails: direct generation returns an empty grid, the
pruned route is undefined behaviour. -/
theorem C45_empty_radial (b : Build) (d : AngData F) (hd : d.Typed)
    (rq : RadialQuad) (t : RadialTraits F) (hm : Matches rq t) (h0 : t.npts = 0) (fam : AngFam)
    (asz : Nat) (hsup : fam.orderByNpts asz ≠ -1) :
    Returns (generateGridUnpruned b d ⟨rq, some t, .fam fam, asz⟩)
      (fun g => g.quad.points = [] ∧ g.quad.weights = []) ∧
    (createPrunedSpec .unpruned ⟨rq, some t, .fam fam, asz⟩ >>= generateGridPruned b d) = .ub := by
  obtain ⟨rl, hrl, hr⟩ := radialGenerate_ok (F := F) b hm (by rw [h0]; decide)
  have hrl0 : rl = [] := List.eq_nil_of_length_eq_zero (by omega)
  have hk : fam.dispatch asz = some asz := by
    rw [fam.dispatch_iff]
    exact ⟨rfl, _, (fam.orderByNpts_iff _ _).1 ⟨rfl, hsup⟩⟩
  obtain ⟨-, -, h1, h2, h3⟩ := angConstruct_supported b d hd fam asz asz hk
  obtain ⟨al, hal⟩ : ∃ al : List (Pt F × F), angConstruct b d fam asz = .ok (Quad.ofPairs al) := by
    rw [h3]
    exact ⟨_, congrArg _ (Quad.eq_ofPairs ⟨_, _⟩ (by simp [h1, h2]))⟩
  have hnp : (Quad.ofPairs rl).npts = 0 := by simp [Quad.npts, Quad.ofPairs, hrl0]
  constructor
  · have : generateGridUnpruned b d ⟨rq, some t, .fam fam, asz⟩ =
        sphConstruct b (Quad.ofPairs rl) (Quad.ofPairs al) (origin F) := by
      show generateUnprunedGrid b d rq t (.fam fam) asz = _
      unfold generateUnprunedGrid
      simp only [hal, hr, Outcome.ok_bind]
    refine ⟨_, this.trans (sphConstruct_eq _ _ _ _), ?_⟩
    simp [hrl0, sphEntries, Quad.ofPairs]
  · show generatePrunedGrid b d rq t [⟨0, t.npts, .fam fam, asz⟩] = _
    unfold generatePrunedGrid
    rw [hr, Outcome.ok_bind]
    unfold makePrunedGrid
    dsimp only
    rw [if_neg (by simp)]
    unfold makePrunedGridImpl
    simp only [addRegions, hal, hnp, Outcome.ok_bind, Partition.addQuad, Partition.empty, cassert,
      List.getLast?_nil, beq_self_eq_true, Bool.not_true, Bool.and_false, Bool.false_eq_true,
      if_false, Outcome.pure_eq, List.nil_append, Partition.finalize, List.getLast?_singleton]
    rw [if_neg (by simp), Outcome.ok_bind]
    unfold prunedConstruct prunedGenerate construct Partition.forEach
    rw [if_neg (by simp)]
    unfold Partition.loopFrom
    rw [if_neg (by simp), dif_neg (by simp)]
    rfl

/-- Hypotheses of the round trip. -/
example : ∃ (d : AngData ℝ) (unp : UnprunedSpec (RadialTraits ℝ)), d.Typed ∧
    unp.radialTraits = some (.ta 30 2 (1 / 2)) ∧
    Matches unp.radialQuad (.ta 30 (2 : ℝ) (1 / 2)) ∧ unp.angularQuad = .fam .womersley := by
  refine ⟨fun _ n => ⟨List.replicate n ⟨0, 0, 1⟩, List.replicate n 1⟩,
    ⟨.treutlerAhlrichs, some (.ta 30 2 (1 / 2)), .fam .womersley, 14⟩, ?_, rfl, .ta _ _ _, rfl⟩
  intro fam e he
  rw [fam.declared_eq] at he
  obtain ⟨⟨o, m⟩, -, rfl⟩ := List.mem_map.1 he
  simp

end

end IntegratorXX
