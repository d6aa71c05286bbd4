import Verif.Lemmas.AngularSymmetry
import Verif.Prop.FloatGrid

/-!
# Symmetry of the grids (C91)

`LebedevLaikov` and `Delley` grids are invariant under the 48 symmetries of the octahedron, `AhrensBeylkin` grids under
the 12 rotations of the tetrahedron; so are the molecular grids made from them.  This holds exactly, bit by bit, in
`double` as well as in exact arithmetic: integrands that change sign under one of the symmetries are integrated to 0.
-/

set_option linter.unusedSectionVars false

namespace IntegratorXX

open Arith Spec

/-! ## Arithmetic -/

theorem C91_real : SignSymmetric ℝ where
  lit_neg q := by simp [lit]
  mul_neg a b := by ring
  neg_add_zero a := by simp [lit]

section
variable {L : Libm}

private theorem round_neg (x : ℝ) : XReal.round (-x) = XReal.neg (XReal.round x) := by
  have hb : 0 < f64Big := by unfold f64Big; positivity
  unfold XReal.round
  rw [rnd_neg]
  split_ifs <;> first | rfl | (exfalso; linarith)

private theorem infMul_neg (x : ℝ) : XReal.infMul (-x) = XReal.neg (XReal.infMul x) := by
  unfold XReal.infMul
  split_ifs <;> first | rfl | (exfalso; linarith)

private theorem roundX_neg (a : XReal) : (XReal.neg a).roundX = XReal.neg a.roundX := by
  cases a with
  | fin x => exact round_neg x
  | _ => rfl

private theorem xmul_neg (a b : XReal) : XReal.mul a (XReal.neg b) = XReal.neg (XReal.mul a b) := by
  cases a <;> cases b <;> simp only [XReal.mul, XReal.neg, infMul_neg, neg_neg, mul_neg]
  all_goals first | rfl | (rename_i x; cases XReal.infMul x <;> simp)

theorem C91_double : SignSymmetric (F64 L) where
  lit_neg q := by
    show XReal.round ((-q : Rat) : ℝ) = XReal.neg (XReal.round (q : ℝ))
    rw [Rat.cast_neg, round_neg]
  mul_neg a b := by
    show (XReal.mul a (XReal.neg b)).roundX = XReal.neg (XReal.mul a b).roundX
    exact (congrArg XReal.roundX (xmul_neg a b)).trans (roundX_neg _)
  neg_add_zero a := by
    have h0 : (lit 0 : F64 L) = F64.fin 0 := by
      rw [F64.lit_eq, Rat.cast_zero]
      exact (of_exact rnd_zero (by norm_num)).1
    rw [h0]
    refine Eq.trans ?_ (roundX_neg (XReal.add a (XReal.fin 0)))
    refine congrArg XReal.roundX ?_
    show XReal.add (XReal.neg a) (XReal.fin 0) = _
    cases a <;> simp [XReal.add, XReal.neg]

end

section
variable {F : Type} [Add F] [Sub F] [Mul F] [Div F] [Neg F] [Arith F]

/-! ## Angular rules -/

/-- **C91.**  The angular quadratures. -/
theorem C91_angular (hF : SignSymmetric F) (b : Build) (fam : AngFam) (n : Nat) (h : fam.orderByNpts n ≠ -1)
    {g : Pt F → Pt F} (hg : FamSymmetry fam g) :
    Returns (angConstruct b (angData F) fam n) (fun q => Consistent q ∧ Invariant g q) := by
  have hk : fam.dispatch n = some n := by
    rw [fam.dispatch_iff]
    exact ⟨rfl, _, (fam.orderByNpts_iff _ _).1 ⟨rfl, h⟩⟩
  obtain ⟨-, -, l1, l2, l3⟩ := angConstruct_supported b _ (angData_typed F) fam n n hk
  refine ⟨_, l3, by simp [Consistent, l1, l2], ?_⟩
  rcases angData_supported F fam n h with ⟨rfl, rows, -, e⟩ | ⟨rfl, rows, -, e⟩ | ⟨rfl, gr, -, e⟩ | ⟨rfl, gr, -, e⟩
  · rw [e]
    exact octa_octahedral hF.lit_neg llPattern_sym _ rows hg
  · rw [e]
    exact octa_octahedral hF.lit_neg dePattern_sym _ rows hg
  · rw [e]
    have := icosa_tetrahedral hF.lit_neg gr hg
    have e' : (AngFam.scaled .ahrensBeylkin : F → F) = id := rfl
    rw [e', List.map_id]
    exact this
  · rw [show g = id from hg]
    exact invariant_id _

/-! ## Molecular grids -/

/-- Apply a function to the coordinates. -/
private def mapPt (φ : F → F) (u : Pt F) : Pt F := ⟨φ u.x, φ u.y, φ u.z⟩

private theorem fam_mapPt {φ : F → F} (hφ : ∀ a, φ (-a) = -φ a) (fam : AngFam) {g : Pt F → Pt F}
    (hg : FamSymmetry fam g) (u : Pt F) : mapPt φ (g u) = g (mapPt φ u) := by
  have ho : ∀ g : Pt F → Pt F, Octahedral g → mapPt φ (g u) = g (mapPt φ u) := by
    intro g hg
    induction hg with
    | one => rfl
    | flip _ ih => dsimp only; rw [← ih]; simp only [mapPt, flipX, hφ]
    | swap _ ih => dsimp only; rw [← ih]; rfl
    | cycle _ ih => dsimp only; rw [← ih]; rfl
  cases fam with
  | lebedevLaikov => exact ho g hg
  | delley => exact ho g hg
  | womersley => rw [show g = id from hg]; rfl
  | ahrensBeylkin =>
    have hg' : Tetrahedral g := hg
    clear hg
    induction hg' with
    | one => rfl
    | turn _ ih => dsimp only; rw [← ih]; simp only [mapPt, turnX, hφ]
    | cycle _ ih => dsimp only; rw [← ih]; rfl

private theorem shift_sph (hF : SignSymmetric F) (fam : AngFam) {g : Pt F → Pt F} (hg : FamSymmetry fam g)
    (r : F × F) (a : Pt F × F) :
    shiftEntry (origin F) (sphEntry r (g a.1, a.2)) =
      (g (shiftEntry (origin F) (sphEntry r a)).1, (shiftEntry (origin F) (sphEntry r a)).2) := by
  refine Prod.ext ?_ rfl
  show mapPt (· + lit 0) (mapPt (r.1 * ·) (g a.1)) = g (mapPt (· + lit 0) (mapPt (r.1 * ·) a.1))
  rw [fam_mapPt (fun a => hF.mul_neg _ a) fam hg, fam_mapPt (fun a => hF.neg_add_zero a) fam hg]

private theorem sph_perm (hF : SignSymmetric F) (fam : AngFam) {g : Pt F → Pt F} (hg : FamSymmetry fam g)
    (rl : List (F × F)) {al : List (Pt F × F)} (ha : (al.map (fun e => (g e.1, e.2))).Perm al) :
    (((sphEntries rl al).map (shiftEntry (origin F))).map (fun e => (g e.1, e.2))).Perm
      ((sphEntries rl al).map (shiftEntry (origin F))) := by
  have e : ((sphEntries rl al).map (shiftEntry (origin F))).map (fun e => (g e.1, e.2)) =
      (sphEntries rl (al.map (fun e => (g e.1, e.2)))).map (shiftEntry (origin F)) := by
    unfold sphEntries
    rw [List.flatMap_map]
    simp only [List.map_flatMap, List.map_map]
    congr 1
    funext a
    refine List.map_congr_left (fun r _ => ?_)
    exact (shift_sph hF fam hg r a).symm
  rw [e]
  exact (ha.flatMap_right _).map _

/-- **C91.**  Unpruned grids of the factory. -/
theorem C91_unpruned (hF : SignSymmetric F) (b : Build) {rq : RadialQuad} {t : RadialTraits F} (hm : Matches rq t)
    (hn : t.npts + 2 < sizeMod) (fam : AngFam) (nang : Nat) (h : fam.orderByNpts nang ≠ -1)
    {g : Pt F → Pt F} (hg : FamSymmetry fam g) :
    Returns (generateGridUnpruned b (angData F) ⟨rq, some t, .fam fam, nang⟩) (fun s => Invariant g s.quad) := by
  obtain ⟨rl, -, hr⟩ := radialGenerate_ok (F := F) b hm hn
  obtain ⟨a, ha, a1, a2⟩ := C91_angular hF b fam nang h hg
  have e1 := sphConstruct_eq b rl (a.points.zip a.weights) (origin F)
  rw [← Quad.eq_ofPairs a a1] at e1
  have : generateGridUnpruned b (angData F) ⟨rq, some t, .fam fam, nang⟩ =
      sphConstruct b (Quad.ofPairs rl) a (origin F) := by
    show generateUnprunedGrid b _ rq t (.fam fam) nang = _
    unfold generateUnprunedGrid
    simp only [ha, hr, Outcome.ok_bind]
  refine ⟨_, this.trans e1, ?_⟩
  dsimp only
  rw [invariant_iff, Quad.zip_ofPairs]
  exact sph_perm hF fam hg rl ((invariant_iff _ _).1 a2)

/-- **C91.**  Pruned grids of the factory. -/
theorem C91_pruned (hF : SignSymmetric F) (b : Build) {rq : RadialQuad} {t : RadialTraits F} (hm : Matches rq t)
    (hn : t.npts + 2 < sizeMod) (fam : AngFam) (rs : List PruningRegion)
    (hst : StartsOk (rs.map (fun r => (r.idxSt, r.angularSize)))) (hlt : ∀ r ∈ rs, r.idxSt < t.npts)
    (hdebug : b.asserts = true → ∀ r ∈ rs.tail, r.idxSt < t.npts - 1)
    (hang : ∀ r ∈ rs, r.angularQuad = .fam fam ∧ fam.orderByNpts r.angularSize ≠ -1)
    {g : Pt F → Pt F} (hg : FamSymmetry fam g) :
    Returns (generatePrunedGrid b (angData F) rq t rs) (fun s => Invariant g s.quad) := by
  obtain ⟨rl, hl, hr⟩ := radialGenerate_ok (F := F) b hm hn
  rw [radialGenerate_matches b hm] at hr
  obtain ⟨A, hA⟩ : ∃ A : Nat → Quad (Pt F) F, ∀ n : Nat, fam.orderByNpts n ≠ -1 →
      angConstruct b (angData F) fam n = .ok (A n) ∧ Consistent (A n) ∧ Invariant g (A n) := by
    refine ⟨fun n => ⟨(angData F fam n).points, (angData F fam n).weights.map fam.scaled⟩, fun n h => ?_⟩
    obtain ⟨a, ha, a1, a2⟩ := C91_angular hF b fam n h hg
    have hk : fam.dispatch n = some n := by
      rw [fam.dispatch_iff]
      exact ⟨rfl, _, (fam.orderByNpts_iff _ _).1 ⟨rfl, h⟩⟩
    have e := (angConstruct_supported b _ (angData_typed F) fam n n hk).2.2.2.2
    rw [ha] at e
    injection e with e
    dsimp only
    rw [← e]
    exact ⟨ha, a1, a2⟩
  have hclosed := pruned_grid_closed b (angData F) hm hr (by simp [Consistent, Quad.ofPairs])
    (by simp [Quad.npts, Quad.ofPairs, hl]) (by omega) fam rs hst hlt hdebug (fun r h => (hang r h).1) A
    (fun r h => (hA _ (hang r h).2).1) (fun r h => (hA _ (hang r h).2).2.1)
  refine ⟨_, hclosed, ?_⟩
  dsimp only
  rw [invariant_iff, Quad.zip_ofPairs]
  have hmem : ∀ e ∈ tiles t.npts (rs.map fun r => (r.idxSt, A r.angularSize)), Invariant g e.2 := by
    have hcov := (C32_tiles_cover t.npts (rs.map fun r => (r.idxSt, A r.angularSize))
      (by unfold StartsOk at hst ⊢; simpa [List.map_map, Function.comp_def] using hst)
      (by
        intro e he
        obtain ⟨r, hr, rfl⟩ := List.mem_map.1 he
        exact hlt r hr)).2
    intro e he
    have hm : (e.1.1, e.2) ∈ rs.map fun r => (r.idxSt, A r.angularSize) := by
      rw [← hcov.2]
      exact List.mem_map.2 ⟨e, he, rfl⟩
    obtain ⟨r, hr, e'⟩ := List.mem_map.1 hm
    injection e' with _ e'
    rw [← e']
    exact (hA _ (hang r hr).2).2.2
  rw [List.map_flatMap, List.map_flatMap]
  exact List.Perm.flatMap_left _ (fun e he => sph_perm hF fam hg _ ((invariant_iff _ _).1 (hmem e he)))

end

/-! ## Integrals -/

/-- **C91.**  A rule with the symmetry `g` gives the same value for an integrand and for the transformed integrand,
and 0 for an integrand that changes its sign. -/
theorem C91_sum {g : Pt ℝ → Pt ℝ} {q : Quad (Pt ℝ) ℝ} (h : Invariant g q) (f : Pt ℝ → ℝ) :
    ruleSum q.points q.weights (fun u => f (g u)) = ruleSum q.points q.weights f ∧
    ((∀ u, f (g u) = -f u) → ruleSum q.points q.weights f = 0) := by
  have e : ruleSum q.points q.weights (fun u => f (g u)) = ruleSum q.points q.weights f := by
    unfold ruleSum
    have := (((invariant_iff g q).1 h).map (fun e => e.2 * f e.1)).sum_eq
    rw [List.map_map] at this
    exact this
  refine ⟨e, fun hf => ?_⟩
  have e2 : ruleSum q.points q.weights (fun u => f (g u)) = -ruleSum q.points q.weights f := by
    unfold ruleSum
    rw [List.sum_neg, List.map_map]
    simp only [hf, mul_neg, Function.comp_def]
  linarith

/-! ## Examples -/

/-- Inversion is one of the symmetries of the octahedron. -/
theorem octahedral_inversion {F : Type} [Neg F] : Octahedral (fun u : Pt F => ⟨-u.x, -u.y, -u.z⟩) :=
  .cycle (.flip (.cycle (.flip (.cycle (.flip .one)))))

/-- The 302 point grid of `LebedevLaikov` integrates odd functions to 0. -/
example (b : Build) (f : Pt ℝ → ℝ) (hf : ∀ u : Pt ℝ, f ⟨-u.x, -u.y, -u.z⟩ = -f u) :
    Returns (angConstruct b (angData ℝ) .lebedevLaikov 302) (fun q => ruleSum q.points q.weights f = 0) := by
  obtain ⟨q, hq, -, h⟩ := C91_angular C91_real b .lebedevLaikov 302 (by decide) octahedral_inversion
  exact ⟨q, hq, (C91_sum h f).2 hf⟩

/-- A function that is not identically 0 and changes its sign. -/
example : (∀ u : Pt ℝ, (fun v : Pt ℝ => v.x * v.y ^ 2) ⟨-u.x, -u.y, -u.z⟩ = -(fun v : Pt ℝ => v.x * v.y ^ 2) u) ∧
    (fun v : Pt ℝ => v.x * v.y ^ 2) ⟨1, 1, 1⟩ = 1 := by
  constructor
  · intro u; dsimp only; ring
  · norm_num

/-- A grid in `double`. -/
example {L : Libm} (b : Build) (R : F64 L) :
    Returns (generateGridUnpruned b (angData (F64 L)) ⟨.becke, some (.becke 50 R), .fam .delley, 110⟩)
      (fun s => Invariant (fun u => ⟨u.x, u.z, -u.y⟩) s.quad) :=
  C91_unpruned C91_double b (.becke _ _) (show 50 + 2 < sizeMod by decide) .delley 110 (by decide)
    (Octahedral.one.cycle.flip.swap.cycle.cycle)

/-- Regions of a pruned grid. -/
example : let rs : List PruningRegion := [⟨0, 10, .fam .ahrensBeylkin, 72⟩, ⟨10, 50, .fam .ahrensBeylkin, 192⟩]
    StartsOk (rs.map (fun r => (r.idxSt, r.angularSize))) ∧ (∀ r ∈ rs, r.idxSt < 50) ∧
    (∀ r ∈ rs.tail, r.idxSt < 50 - 1) ∧
    ∀ r ∈ rs, r.angularQuad = .fam .ahrensBeylkin ∧ AngFam.ahrensBeylkin.orderByNpts r.angularSize ≠ -1 := by
  refine ⟨by unfold StartsOk; decide, by decide, by decide, by decide⟩

end IntegratorXX
