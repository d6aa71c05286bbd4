import Verif.Prop.Pruning

/-!
# C105: when pruning saves points

The purpose of the pruning schemes is a smaller grid.  C42 gives the number of points of a pruned grid by
its regions; here it is compared with the grid generated from the specification that was pruned.
-/

set_option maxRecDepth 20000

namespace IntegratorXX

open Spec Arith

section
variable {F : Type} [Add F] [Sub F] [Mul F] [Div F] [Neg F] [Arith F]

/-- The unpruned grid has as many points as the product of the two sizes. -/
theorem C105_unpruned_count (b : Build) (d : AngData F) (hd : d.Typed) (rq : RadialQuad)
    (t : RadialTraits F) (hm : Matches rq t) (hn : t.npts + 2 < sizeMod) (fam : AngFam)
    (asz : Nat) (hsup : fam.orderByNpts asz ≠ -1) :
    Returns (generateGridUnpruned b d ⟨rq, some t, .fam fam, asz⟩) (fun g =>
      g.quad.points.length = t.npts * asz ∧ g.quad.weights.length = t.npts * asz) := by
  obtain ⟨rl, hl, hr⟩ := radialGenerate_ok (F := F) b hm hn
  have hk : fam.dispatch asz = some asz := by
    rw [fam.dispatch_iff]
    exact ⟨rfl, _, (fam.orderByNpts_iff _ _).1 ⟨rfl, hsup⟩⟩
  obtain ⟨-, -, l1, l2, l3⟩ := angConstruct_supported b d hd fam asz asz hk
  obtain ⟨a, ha, a1, a2⟩ : ∃ a : Quad (Pt F) F, angConstruct b d fam asz = .ok a ∧ Consistent a ∧
      a.points.length = asz := ⟨_, l3, by simp [Consistent, l1, l2], l1⟩
  have e1 := sphConstruct_eq b rl (a.points.zip a.weights) (origin F)
  rw [← Quad.eq_ofPairs a a1] at e1
  have : generateGridUnpruned b d ⟨rq, some t, .fam fam, asz⟩ =
      sphConstruct b (Quad.ofPairs rl) a (origin F) := by
    show generateUnprunedGrid b _ rq t (.fam fam) asz = _
    unfold generateUnprunedGrid
    simp only [ha, hr, Outcome.ok_bind]
  have hlen : (sphEntries rl (a.points.zip a.weights)).length = t.npts * asz := by
    unfold sphEntries
    rw [List.length_flatMap]
    unfold Consistent at a1
    have a3 : a.weights.length = asz := by omega
    simp [List.map_const', hl, a2, a3, Nat.mul_comm]
  refine ⟨_, this.trans e1, ?_⟩
  simp [Quad.ofPairs, hlen]

/-- One line of the comparison of robust sizes with the base size. -/
private def robustLess (fam : AngFam) (e : Int × Int) : Bool :=
  match robustSizes fam e.2.toNat with
  | .ok (low, med) => bif fam == .ahrensBeylkin then
      decide (low ≤ e.2.toNat) && decide (med ≤ e.2.toNat) &&
        (bif decide (e.2.toNat = 72) then decide (low = 72) && decide (med = 72) else decide (low < e.2.toNat))
    else bif decide (7 ≤ e.1) then decide (low ≤ e.2.toNat) && decide (med ≤ e.2.toNat) &&
        (decide (low < e.2.toNat) || decide (med < e.2.toNat))
    else decide (e.2.toNat < low) && decide (e.2.toNat = med)
  | _ => false

private theorem robust_less (fam : AngFam) : fam.entries.all (robustLess fam) = true := by
  cases fam <;> decide +kernel

/-- One line of the comparison of Treutler sizes with the base size. -/
private def treutlerLess (fam : AngFam) (e : Int × Int) : Bool :=
  let low := (treutlerSizes fam).1
  let med := (treutlerSizes fam).2
  bif fam == .ahrensBeylkin then decide (low ≤ e.2.toNat) && decide (med ≤ e.2.toNat)
  else bif decide (9 ≤ e.1) then decide (low ≤ e.2.toNat) && decide (2 * med + 3 * low ≤ 5 * e.2.toNat)
  else decide (8 ≤ e.1) || decide (e.2.toNat ≤ low) && decide (e.2.toNat < med)

private theorem treutler_less (fam : AngFam) : fam.entries.all (treutlerLess fam) = true := by
  cases fam <;> decide +kernel

/-- **C105.**  Robust pruning never enlarges an Ahrens-Beylkin grid, and another grid exactly when its
order is below 7.  It makes the grid smaller in all remaining cases except for the smallest Ahrens-Beylkin
grid, which is used everywhere. -/
theorem C105_robust_saves (b : Build) (d : AngData F) (hd : d.Typed) (rq : RadialQuad)
    (t : RadialTraits F) (hm : Matches rq t) (hn : t.npts + 2 < sizeMod) (fam : AngFam)
    (asz : Nat) (hsup : fam.orderByNpts asz ≠ -1) (h5 : 5 ≤ t.npts) :
    Returns (createPrunedSpec .robust ⟨rq, some t, .fam fam, asz⟩) (fun s =>
      Returns (generateGridPruned b d s) (fun p =>
        Returns (generateGridUnpruned b d ⟨rq, some t, .fam fam, asz⟩) (fun u =>
          (p.quad.points.length ≤ u.quad.points.length ↔ fam = .ahrensBeylkin ∨ 7 ≤ fam.orderByNpts asz) ∧
          (p.quad.points.length < u.quad.points.length ↔
            fam = .ahrensBeylkin ∧ asz ≠ 72 ∨ fam ≠ .ahrensBeylkin ∧ 7 ≤ fam.orderByNpts asz)))) := by
  obtain ⟨u, hu, u1, -⟩ := C105_unpruned_count b d hd rq t hm hn fam asz hsup
  obtain ⟨s, hs, p, hp, p1, -⟩ := C42_scheme_generates b d hd rq t hm hn fam asz hsup .robust (.inl rfl) h5
  refine ⟨s, hs, p, hp, u, hu, ?_⟩
  have he := (fam.orderByNpts_iff _ _).1 ⟨rfl, hsup⟩
  have hc := List.all_eq_true.1 (robust_less fam) _ he
  unfold robustLess at hc
  rw [Int.toNat_natCast] at hc
  split at hc
  · rename_i low med h1
    have es : s = ⟨rq, some t, robustRegions low med (.fam fam) t.npts asz⟩ := by
      simp only [createPrunedSpec, robustScheme, h1] at hs
      exact (Outcome.ok.inj hs).symm
    have ep : p.quad.points.length = (t.npts / 4 + 1) * low + (t.npts / 2 - t.npts / 4) * med +
        (t.npts - (t.npts / 2 + 1)) * asz := by
      rw [p1, es]
      simp [robustRegions]
      omega
    obtain ⟨n1, e1⟩ : ∃ n1, t.npts / 4 + 1 = n1 := ⟨_, rfl⟩
    obtain ⟨n2, e2⟩ : ∃ n2, t.npts / 2 - t.npts / 4 = n2 := ⟨_, rfl⟩
    obtain ⟨n3, e3⟩ : ∃ n3, t.npts - (t.npts / 2 + 1) = n3 := ⟨_, rfl⟩
    have h4 : t.npts = n1 + n2 + n3 := by omega
    have hn1 : 1 ≤ n1 := by omega
    have hn2 : 1 ≤ n2 := by omega
    dsimp only
    rw [ep, u1, e1, e2, e3, h4]
    clear e1 e2 e3 ep p1 u1 h4
    have key : ∀ x y : Nat, (x ≤ asz → y < asz → n1 * x + n2 * y + n3 * asz < (n1 + n2 + n3) * asz) ∧
        (x < asz → y ≤ asz → n1 * x + n2 * y + n3 * asz < (n1 + n2 + n3) * asz) ∧
        (asz < x → asz = y → (n1 + n2 + n3) * asz < n1 * x + n2 * y + n3 * asz) := by
      intro x y
      refine ⟨fun h h' => ?_, fun h h' => ?_, fun h h' => ?_⟩
      · have := Nat.mul_le_mul_left n1 h
        have := Nat.mul_lt_mul_of_pos_left h' hn2
        rw [add_mul, add_mul]; omega
      · have := Nat.mul_lt_mul_of_pos_left h hn1
        have := Nat.mul_le_mul_left n2 h'
        rw [add_mul, add_mul]; omega
      · subst h'
        have := Nat.mul_lt_mul_of_pos_left h hn1
        rw [add_mul, add_mul]; omega
    obtain ⟨k1, k2, k3⟩ := key low med
    by_cases hAB : fam = .ahrensBeylkin
    · subst hAB
      simp only [beq_self_eq_true, cond_true, Bool.and_eq_true, decide_eq_true_eq] at hc
      obtain ⟨⟨c1, c2⟩, c3⟩ := hc
      by_cases h72 : asz = 72
      · subst h72
        simp only [decide_true, cond_true, Bool.and_eq_true, decide_eq_true_eq] at c3
        obtain ⟨rfl, rfl⟩ := c3
        rw [← add_mul, ← add_mul]
        simp
      · simp only [h72, decide_false, cond_false, decide_eq_true_eq] at c3
        have := k2 c3 c2
        simp [h72, this, this.le]
    · have hne : (fam == AngFam.ahrensBeylkin) = false := by simpa using hAB
      simp only [hne, cond_false] at hc
      by_cases h7 : 7 ≤ fam.orderByNpts asz
      · simp only [h7, decide_true, cond_true, Bool.and_eq_true, decide_eq_true_eq] at hc
        simp only [Bool.or_eq_true, decide_eq_true_eq] at hc
        have := hc.2.elim (fun h => k2 h hc.1.2) (fun h => k1 hc.1.1 h)
        simp [hAB, h7, this, this.le]
      · simp only [h7, decide_false, cond_false, Bool.and_eq_true, decide_eq_true_eq] at hc
        have := k3 hc.1 hc.2
        simp only [hAB, h7, false_and, and_false, or_self, iff_false, not_le, not_lt]
        exact ⟨this, this.le⟩
  · exact absurd hc (by simp)

/-- **C105.**  Treutler pruning does not enlarge an Ahrens-Beylkin grid nor a grid of order at least 9; it
enlarges all others of order at most 7. -/
theorem C105_treutler_saves (b : Build) (d : AngData F) (hd : d.Typed) (rq : RadialQuad)
    (t : RadialTraits F) (hm : Matches rq t) (hn : t.npts + 2 < sizeMod) (fam : AngFam)
    (asz : Nat) (hsup : fam.orderByNpts asz ≠ -1) (h5 : 5 ≤ t.npts) :
    Returns (createPrunedSpec .treutler ⟨rq, some t, .fam fam, asz⟩) (fun s =>
      Returns (generateGridPruned b d s) (fun p =>
        Returns (generateGridUnpruned b d ⟨rq, some t, .fam fam, asz⟩) (fun u =>
          (fam = .ahrensBeylkin ∨ 9 ≤ fam.orderByNpts asz → p.quad.points.length ≤ u.quad.points.length) ∧
          (fam ≠ .ahrensBeylkin → fam.orderByNpts asz ≤ 7 →
            u.quad.points.length < p.quad.points.length)))) := by
  obtain ⟨u, hu, u1, -⟩ := C105_unpruned_count b d hd rq t hm hn fam asz hsup
  obtain ⟨s, hs, p, hp, p1, -⟩ := C42_scheme_generates b d hd rq t hm hn fam asz hsup .treutler (.inr rfl) h5
  refine ⟨s, hs, p, hp, u, hu, ?_⟩
  have he := (fam.orderByNpts_iff _ _).1 ⟨rfl, hsup⟩
  have hc := List.all_eq_true.1 (treutler_less fam) _ he
  unfold treutlerLess at hc
  dsimp only at hc
  rw [Int.toNat_natCast] at hc
  obtain ⟨low, hlow⟩ : ∃ low, (treutlerSizes fam).1 = low := ⟨_, rfl⟩
  obtain ⟨med, hmed⟩ : ∃ med, (treutlerSizes fam).2 = med := ⟨_, rfl⟩
  rw [hlow, hmed] at hc
  have es : s = ⟨rq, some t, treutlerRegions low med (.fam fam) t.npts asz⟩ := by
    rw [← hlow, ← hmed]
    exact (Outcome.ok.inj hs).symm
  have ep : p.quad.points.length = (t.npts / 3 + 1) * low + (t.npts / 2 - t.npts / 3) * med +
      (t.npts - (t.npts / 2 + 1)) * asz := by
    rw [p1, es]
    simp [treutlerRegions]
    omega
  obtain ⟨n1, e1⟩ : ∃ n1, t.npts / 3 + 1 = n1 := ⟨_, rfl⟩
  obtain ⟨n2, e2⟩ : ∃ n2, t.npts / 2 - t.npts / 3 = n2 := ⟨_, rfl⟩
  obtain ⟨n3, e3⟩ : ∃ n3, t.npts - (t.npts / 2 + 1) = n3 := ⟨_, rfl⟩
  have h4 : t.npts = n1 + n2 + n3 := by omega
  have hn1 : 1 ≤ n1 := by omega
  have hn2 : 1 ≤ n2 := by omega
  have h32 : 3 * n2 ≤ 2 * n1 := by omega
  dsimp only
  rw [ep, u1, e1, e2, e3, h4]
  clear e1 e2 e3 ep p1 u1
  have key : low ≤ asz → 2 * med + 3 * low ≤ 5 * asz →
      n1 * low + n2 * med + n3 * asz ≤ (n1 + n2 + n3) * asz := by
    intro h h'
    obtain ⟨k, rfl⟩ := Nat.exists_eq_add_of_le h
    have h1 : 2 * med ≤ 2 * low + 5 * k := by omega
    have h2 := Nat.mul_le_mul_left n2 h1
    have h3 := Nat.mul_le_mul_right k h32
    nlinarith
  constructor
  · intro h
    by_cases hAB : fam = .ahrensBeylkin
    · subst hAB
      simp only [beq_self_eq_true, cond_true, Bool.and_eq_true, decide_eq_true_eq] at hc
      exact key hc.1 (by omega)
    · have hne : (fam == AngFam.ahrensBeylkin) = false := by simpa using hAB
      have h9 : 9 ≤ fam.orderByNpts asz := h.resolve_left hAB
      simp only [hne, cond_false, h9, decide_true, cond_true, Bool.and_eq_true, decide_eq_true_eq] at hc
      exact key hc.1 hc.2
  · intro hAB h7
    have hne : (fam == AngFam.ahrensBeylkin) = false := by simpa using hAB
    have h9 : ¬ 9 ≤ fam.orderByNpts asz := by omega
    have h8 : ¬ 8 ≤ fam.orderByNpts asz := by omega
    simp only [hne, cond_false, h9, h8, decide_false, Bool.false_or, Bool.and_eq_true, decide_eq_true_eq] at hc
    have := Nat.mul_le_mul_left n1 hc.1
    have := Nat.mul_lt_mul_of_pos_left hc.2 hn2
    rw [add_mul, add_mul]
    omega

/-- Sizes of each kind. -/
example : AngFam.lebedevLaikov.orderByNpts 302 = 29 ∧ AngFam.lebedevLaikov.orderByNpts 14 = 5 ∧
    AngFam.womersley.orderByNpts 50 = 9 ∧ AngFam.delley.orderByNpts 26 = 7 ∧
    AngFam.ahrensBeylkin.orderByNpts 72 = 14 ∧ AngFam.ahrensBeylkin.orderByNpts 312 ≠ -1 := by
  decide +kernel

end

end IntegratorXX
