import Verif.Lemmas.PrunedConv
import Verif.Prop.GridConvergence
import Verif.Prop.Pruned
import Verif.Prop.Pruning
import Verif.Prop.Radial

/-!
# C82: the error of pruned grids

Not asymptotic: the error of a grid in space is bounded by errors of its radial rule, for every radial scheme, every
pruning and every build.
-/

namespace IntegratorXX

open Spec RadialTraits Set Real MeasureTheory

theorem make_total {A : Type} (b : Build) (n : Nat) (h1 : 1 ≤ n) (h2 : n < sizeMod) (regions : List (Nat × A))
    (hne : regions ≠ []) (hs : StartsOk regions) (hlt : ∀ e ∈ regions, e.1 < n)
    (hdebug : b.asserts = true → ∀ e ∈ regions.tail, e.1 < n - 1) :
    Returns (Partition.make b n regions) (fun p => p.visited = .ok (tiles n regions)) := by
  obtain ⟨bb⟩ := b
  cases bb with
  | false => exact C32_release n regions hne hlt
  | true =>
    obtain ⟨p, hp, e1, e2⟩ := (C32_debug_check n h1 h2 regions hne).1 ⟨hs, hdebug rfl⟩
    have : ∃ p', Partition.make ⟨true⟩ n regions = .ok p' := by
      unfold Partition.make
      rw [hp, Outcome.ok_bind]
      unfold Partition.finalize
      rw [e1]
      cases hl : (regions.map Prod.fst).getLast? with
      | none => simp at hl; exact absurd hl hne
      | some back => dsimp only; split_ifs <;> exact ⟨_, rfl⟩
    obtain ⟨p', hp'⟩ := this
    exact ⟨p', hp', C32_iteration _ _ _ hlt _ hp'⟩

/-- **C82.**  A pruned grid of the factory, for the integrand `F(|x|) p(x)`, `p` homogeneous of a degree at most the
order of every angular grid used.  With `q` the radial rule and `f(ρ) = ρ^(2+l) F(ρ)`: the error against the integral
over space is at most the error of `q` on `f`, times the integral of `p` over the sphere, plus two terms for the
rounding of the angular tables, one for the weights and one for nodes not exactly on the sphere (`H` bounds the change
of `f` when its argument moves by a relative `1e-14`). -/
theorem C82_pruned_grid_error (b : Build) {rq : RadialQuad} {t : RadialTraits ℝ} (hm : Matches rq t)
    (hv : radialValid t) (hn : t.npts + 2 < sizeMod) (fam : AngFam) (rs : List PruningRegion)
    (hst : StartsOk (rs.map (fun r => (r.idxSt, r.angularSize)))) (hlt : ∀ r ∈ rs, r.idxSt < t.npts)
    (hdebug : b.asserts = true → ∀ r ∈ rs.tail, r.idxSt < t.npts - 1)
    {p : MvPolynomial (Fin 3) ℝ} {l : ℕ} (hp : p.IsHomogeneous l)
    (hang : ∀ r ∈ rs, r.angularQuad = .fam fam ∧ fam.orderByNpts r.angularSize ≠ -1 ∧
      ¬ (fam = .ahrensBeylkin ∧ r.angularSize = 552) ∧ (l : Int) ≤ fam.orderByNpts r.angularSize)
    {F H : ℝ → ℝ}
    (hH : ∀ ρ > 0, ∀ s, |s - 1| ≤ 1 / 10 ^ 14 → |ρ ^ (2 + l) * (F (ρ * s) - F ρ)| ≤ H ρ) :
    Returns (construct b t.generate) (fun q => Returns (generatePrunedGrid b (angData ℝ) rq t rs) (fun s =>
      |ruleSum s.quad.points s.quad.weights (fun u => F (√(normSq u)) * polyAt p u) -
          ∫ x : E3, F ‖x‖ * polyAt p ⟨x 0, x 1, x 2⟩| ≤
        |sphereInt (polyAt p)| * |ruleSum q.points q.weights (fun ρ => ρ ^ (2 + l) * F ρ) -
          ∫ ρ in Ioi 0, ρ ^ (2 + l) * F ρ| +
        tableErr fam l * coeffSum p * ruleSum q.points q.weights (fun ρ => |ρ ^ (2 + l) * F ρ|) +
        16 * π * coeffSum p * ruleSum q.points q.weights H)) := by
  obtain ⟨q, hq, q1, q2, q3, q4, -⟩ := C21_radial_quadrature b t hv hn
  refine ⟨q, hq, ?_⟩
  obtain ⟨r0, rest, rfl⟩ : ∃ r0 rest, rs = r0 :: rest := by
    cases rs with
    | nil => simp [StartsOk] at hst
    | cons r0 rest => exact ⟨_, _, rfl⟩
  generalize hrs : r0 :: rest = rs at *
  have hr0 : r0 ∈ rs := by rw [← hrs]; simp
  have hqc : Consistent q := by unfold Consistent; rw [q1, q2]
  have hqn : q.npts = t.npts := q1
  have hpos : 1 ≤ t.npts := by have := hlt r0 hr0; omega
  obtain ⟨A, hA⟩ : ∃ A : Nat → Quad (Pt ℝ) ℝ, ∀ r ∈ rs,
      angConstruct b (angData ℝ) fam r.angularSize = .ok (A r.angularSize) := by
    refine ⟨fun n => ⟨(angData ℝ fam n).points, (angData ℝ fam n).weights.map fam.scaled⟩, fun r hr => ?_⟩
    exact angData_construct b fam _ (hang r hr).2.1
  obtain ⟨regions, hreg⟩ : ∃ regions, regions = rs.map (fun r => (r.idxSt, A r.angularSize)) := ⟨_, rfl⟩
  have hmem : ∀ e ∈ regions, ∃ r ∈ rs, e = (r.idxSt, A r.angularSize) := by
    intro e he
    rw [hreg] at he
    obtain ⟨r, hr, h⟩ := List.mem_map.1 he
    exact ⟨r, hr, h.symm⟩
  have hl6 : l ≤ 10 ^ 6 := by
    have := order_le fam _ (hang r0 hr0).2.1
    have := (hang r0 hr0).2.2.2
    omega
  have hs : StartsOk regions := by
    unfold StartsOk at hst ⊢
    rw [hreg]
    simpa [List.map_map, Function.comp_def] using hst
  have hlt' : ∀ e ∈ regions, e.1 < t.npts := by
    intro e he
    obtain ⟨r, hr, rfl⟩ := hmem e he
    exact hlt r hr
  have hne : regions ≠ [] := by rw [hreg, ← hrs]; simp
  have hok : ∀ e ∈ regions, AngOk p (tableErr fam l * coeffSum p) e.2 := by
    intro e he
    obtain ⟨r, hr, rfl⟩ := hmem e he
    obtain ⟨-, h1, h2, h3⟩ := hang r hr
    obtain ⟨a, e, a1, a2, a3, a4⟩ := angular_facts b fam _ h1 h2 hp h3
    rw [hA r hr] at e
    injection e with e
    rw [← e] at a1 a2 a3 a4
    exact ⟨a1, a2, a3, a4⟩
  obtain ⟨P, hP, hvis⟩ := make_total b t.npts hpos (by omega) regions hne hs hlt' (by
    intro hb e he
    have hd := hdebug hb
    rw [hreg] at he
    rw [← List.map_tail] at he
    obtain ⟨r, hr, rfl⟩ := List.mem_map.1 he
    exact hd r hr)
  have hgen : generatePrunedGrid b (angData ℝ) rq t rs = prunedConstruct b q P (origin ℝ) := by
    unfold generatePrunedGrid
    rw [radialGenerate_matches b hm, hq, Outcome.ok_bind]
    have : makePrunedGrid b (angData ℝ) q rs = makePrunedGridImpl b (angData ℝ) fam q rs := by
      unfold makePrunedGrid
      rw [← hrs]
      dsimp only
      rw [hrs, if_neg, (hang r0 hr0).1]
      simp only [List.any_eq_true, not_exists, not_and, bne_iff_ne, ne_eq, not_not]
      intro r hr
      rw [(hang r hr).1, (hang r0 hr0).1]
    rw [this]
    unfold makePrunedGridImpl
    rw [hqn, addRegions_eq b _ fam _ A rs hA, ← hreg]
    unfold Partition.make at hP
    rw [Outcome.bind_eq_ok] at hP
    obtain ⟨P1, h1, h2⟩ := hP
    rw [h1, Outcome.ok_bind, h2, Outcome.ok_bind]
  have hclosed := pruned_closed b q P (origin ℝ) hqc (tiles t.npts regions) hvis (by
    rw [hqn]
    have hcov := (C32_tiles_cover t.npts regions hs hlt').2
    intro e he
    obtain ⟨h1, h2⟩ := hcov.1 e he
    refine ⟨h1, h2, ?_⟩
    have hm : (e.1.1, e.2) ∈ regions := by
      rw [← hcov.2]
      exact List.mem_map.2 ⟨e, he, rfl⟩
    exact (hok _ hm).len)
  refine ⟨_, hgen.trans hclosed, ?_⟩
  exact pruned_error hp hl6 hqc q3 (fun w hw => (q4 w hw).le) hs (by rw [hqn]; exact hlt') hok hH (by rw [hqn])

/-- The same for grids generated from the specifications made by the built-in pruning schemes, for polynomials of
degree up to 7 (robust: at most the order of the base grid minus 6). -/
theorem C82_scheme_error (b : Build) {rq : RadialQuad} {t : RadialTraits ℝ} (hm : Matches rq t)
    (hv : radialValid t) (hn : t.npts + 2 < sizeMod) (h5 : 5 ≤ t.npts) (fam : AngFam) (asz : Nat)
    (hsup : fam.orderByNpts asz ≠ -1) (scheme : PruningScheme) (hscheme : scheme = .robust ∨ scheme = .treutler)
    {p : MvPolynomial (Fin 3) ℝ} {l : ℕ} (hp : p.IsHomogeneous l) (hl7 : l ≤ 7)
    (hl : (l : Int) + 6 ≤ fam.orderByNpts asz)
    (hnAB : fam ≠ .ahrensBeylkin) {F H : ℝ → ℝ}
    (hH : ∀ ρ > 0, ∀ s, |s - 1| ≤ 1 / 10 ^ 14 → |ρ ^ (2 + l) * (F (ρ * s) - F ρ)| ≤ H ρ) :
    Returns (createPrunedSpec scheme ⟨rq, some t, .fam fam, asz⟩) (fun spec =>
      Returns (construct b t.generate) (fun q => Returns (generateGridPruned b (angData ℝ) spec) (fun s =>
        |ruleSum s.quad.points s.quad.weights (fun u => F (√(normSq u)) * polyAt p u) -
            ∫ x : E3, F ‖x‖ * polyAt p ⟨x 0, x 1, x 2⟩| ≤
          |sphereInt (polyAt p)| * |ruleSum q.points q.weights (fun ρ => ρ ^ (2 + l) * F ρ) -
            ∫ ρ in Ioi 0, ρ ^ (2 + l) * F ρ| +
          tableErr fam l * coeffSum p * ruleSum q.points q.weights (fun ρ => |ρ ^ (2 + l) * F ρ|) +
          16 * π * coeffSum p * ruleSum q.points q.weights H))) := by
  obtain ⟨low, med, a, c, ha, hac, hc, o1, o2, o3, o4, hspec⟩ : ∃ low med a c : Nat, 0 < a ∧ a < c ∧
      c < t.npts - 1 ∧ fam.orderByNpts low ≠ -1 ∧ (l : Int) ≤ fam.orderByNpts low ∧
      fam.orderByNpts med ≠ -1 ∧ (l : Int) ≤ fam.orderByNpts med ∧
      createPrunedSpec scheme ⟨rq, some t, .fam fam, asz⟩ = .ok ⟨rq, some t,
        [⟨0, a, .fam fam, low⟩, ⟨a, c, .fam fam, med⟩, ⟨c, t.npts, .fam fam, asz⟩]⟩ := by
    rcases hscheme with rfl | rfl
    · obtain ⟨s, hs, low, med, base, h1, h2, h3, h4⟩ := C40_robust_orders rq t fam asz hsup
      simp only [createPrunedSpec, robustScheme] at hs
      rw [Outcome.bind_eq_ok] at hs
      obtain ⟨⟨lo, me⟩, hs1, hs2⟩ := hs
      simp only [Outcome.ok.injEq] at hs2
      subst hs2
      simp only [robustRegions, List.cons.injEq] at h1
      obtain ⟨rfl, rfl, rfl, -⟩ := h1
      have hm2 := h3.2.1
      refine ⟨lo, me, t.npts / 4 + 1, t.npts / 2 + 1, by omega, by omega, by omega, h2.1, ?_, h3.1, ?_, ?_⟩
      · have := h2.2.1; dsimp only at this; omega
      · dsimp only at hm2; split_ifs at hm2 <;> omega
      · simp only [createPrunedSpec, robustScheme, hs1]; rfl
    · obtain ⟨s, hs, low, med, base, h1, h2, h3, h4⟩ := C40_treutler_orders rq t fam asz
      simp only [createPrunedSpec, treutlerScheme, Outcome.ok.injEq] at hs
      subst hs
      simp only [treutlerRegions, List.cons.injEq] at h1
      obtain ⟨rfl, rfl, rfl, -⟩ := h1
      refine ⟨_, _, t.npts / 3 + 1, t.npts / 2 + 1, by omega, by omega, by omega, h2.1, ?_, h3.1, ?_, rfl⟩
      · have := h2.2.1; dsimp only at this ⊢; omega
      · have := h3.2.1; dsimp only at this ⊢; omega
  refine ⟨_, hspec, ?_⟩
  have := C82_pruned_grid_error b hm hv hn fam
    [⟨0, a, .fam fam, low⟩, ⟨a, c, .fam fam, med⟩, ⟨c, t.npts, .fam fam, asz⟩]
    (by simp [StartsOk]; omega) (by simp; omega) (by intro _; simp; omega) hp (by
      simp only [List.mem_cons, List.not_mem_nil, or_false, forall_eq_or_imp, forall_eq]
      exact ⟨⟨trivial, o1, fun h => hnAB h.1, o2⟩, ⟨trivial, o3, fun h => hnAB h.1, o4⟩,
        ⟨trivial, hsup, fun h => hnAB h.1, by omega⟩⟩) hH
  exact this

/-- The hypotheses on `F` and `H` hold for `F = exp(-ρ)`. -/
example (l : ℕ) : ∀ ρ > (0 : ℝ), ∀ s : ℝ, |s - 1| ≤ 1 / 10 ^ 14 →
    |ρ ^ (2 + l) * (exp (-(ρ * s)) - exp (-ρ))| ≤ ρ ^ (2 + l) * (2 * ρ / 10 ^ 14 * exp (-(ρ / 2))) := by
  intro ρ hρ s hs
  obtain ⟨h1, h2⟩ := abs_le.1 hs
  rw [abs_mul, abs_of_pos (by positivity : 0 < ρ ^ (2 + l))]
  refine mul_le_mul_of_nonneg_left ?_ (by positivity)
  have key : ∀ x y : ℝ, ρ / 2 ≤ x → x ≤ y → |exp (-y) - exp (-x)| ≤ (y - x) * exp (-(ρ / 2)) := by
    intro x y hx hxy
    have e1 : exp (-y) = exp (-x) * exp (-(y - x)) := by rw [← exp_add]; congr 1; ring
    have e2 := add_one_le_exp (-(y - x))
    have e3 : exp (-(y - x)) ≤ 1 := by rw [exp_le_one_iff]; linarith
    have e4 : exp (-x) ≤ exp (-(ρ / 2)) := by rw [exp_le_exp]; linarith
    have e5 := exp_pos (-x)
    rw [e1, abs_le]
    constructor <;> nlinarith
  have hs1 : 1 / 2 ≤ s := by
    have : (1 : ℝ) / 10 ^ 14 ≤ 1 / 2 := by norm_num
    linarith
  have hE := exp_pos (-(ρ / 2))
  rcases le_total s 1 with h | h
  · have := key (ρ * s) ρ (by nlinarith) (by nlinarith)
    rw [abs_sub_comm] at this
    refine this.trans (mul_le_mul_of_nonneg_right ?_ hE.le)
    have : ρ * (1 - s) ≤ ρ * (1 / 10 ^ 14) := mul_le_mul_of_nonneg_left (by linarith) hρ.le
    have : 0 < ρ / 10 ^ 14 := by positivity
    linarith
  · refine (key ρ (ρ * s) (by linarith) (by nlinarith)).trans (mul_le_mul_of_nonneg_right ?_ hE.le)
    have : ρ * (s - 1) ≤ ρ * (1 / 10 ^ 14) := mul_le_mul_of_nonneg_left (by linarith) hρ.le
    have : 0 < ρ / 10 ^ 14 := by positivity
    linarith

/-- The hypotheses on the grid hold for Mura-Knowles with 99 points, three regions, in a debug build. -/
example : Matches .muraKnowles (mk 99 (7 : ℝ)) ∧ radialValid (mk 99 (7 : ℝ)) ∧
    StartsOk ([⟨0, 30, .fam .lebedevLaikov, 50⟩, ⟨30, 60, .fam .lebedevLaikov, 302⟩,
      ⟨60, 99, .fam .lebedevLaikov, 770⟩].map (fun r : PruningRegion => (r.idxSt, r.angularSize))) ∧
    ((7 : Nat) : Int) ≤ AngFam.lebedevLaikov.orderByNpts (50 : Nat) ∧
    ((7 : Nat) : Int) + 6 ≤ AngFam.lebedevLaikov.orderByNpts (302 : Nat) := by
  refine ⟨.mk _ _, by norm_num [radialValid], by simp [StartsOk], by decide +kernel, by decide +kernel⟩

end IntegratorXX
