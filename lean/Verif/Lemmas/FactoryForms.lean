import Verif.Lemmas.TableForms
import Verif.Lemmas.RadialForms
import Verif.Spec.Factory

/-!
# Closed forms of the factory functions
-/

set_option linter.unusedSectionVars false

namespace IntegratorXX

open Spec

theorem three_tiles (n a c : Nat) : TilesRange n [(0, a), (a, c), (c, n)] ↔ 0 < a ∧ a < c ∧ c < n := by
  constructor
  · rintro ⟨h, -⟩
    exact ⟨h (0, a) (by simp), h (a, c) (by simp), h (c, n) (by simp)⟩
  · rintro ⟨h1, h2, h3⟩
    refine ⟨by simp [h1, h2, h3], ?_⟩
    simp only [List.flatMap_cons, List.flatMap_nil, List.append_nil]
    have e1 : List.range' a (c - a) ++ List.range' c (n - c) = List.range' a (n - a) := by
      have := @List.range'_append_1 a (c - a) (n - c)
      rw [show a + (c - a) = c by omega, show c - a + (n - c) = n - a by omega] at this
      exact this
    rw [e1, List.range_eq_range']
    have := @List.range'_append_1 0 (a - 0) (n - a)
    rw [show 0 + (a - 0) = a by omega, show a - 0 + (n - a) = n by omega] at this
    exact this

theorem toInt64_of_lt {n : Nat} (h : n < 9223372036854775808) : toInt64 n = n := by
  unfold toInt64
  rw [Nat.mod_eq_of_lt (by unfold sizeMod; omega), if_pos h]

theorem toSize_of_nonneg {i : Int} (h : 0 ≤ i) (h' : i < 20000) : toSize i = i.toNat := by
  unfold toSize; omega

/-- On `size_t` values, the narrowing conversion does not change the table lookup. -/
theorem orderByNpts_toInt64 (fam : AngFam) {n : Nat} (h : n < sizeMod) :
    fam.orderByNpts (toInt64 n) = fam.orderByNpts n := by
  by_cases h1 : n < 9223372036854775808
  · rw [toInt64_of_lt h1]
  · have h2 : toInt64 n < 0 := by
      unfold toInt64
      rw [Nat.mod_eq_of_lt h, if_neg h1]
      unfold sizeMod at h; omega
    have e1 : fam.orderByNpts (toInt64 n) = -1 := by
      by_contra hne
      have := fam.entries_pos _ ((fam.orderByNpts_iff _ _).1 ⟨rfl, hne⟩)
      dsimp only at this; omega
    have e2 : fam.orderByNpts n = -1 := by
      by_contra hne
      have := fam.entries_lt _ ((fam.orderByNpts_iff _ _).1 ⟨rfl, hne⟩)
      dsimp only at this; omega
    rw [e1, e2]

section
variable {F : Type} [Add F] [Sub F] [Mul F] [Div F] [Neg F] [Arith F]

theorem radialGenerate_matches (b : Build) {rq : RadialQuad} {t : RadialTraits F}
    (h : Matches rq t) : radialGenerate b rq t = construct b t.generate := by
  cases h <;> rfl

theorem radialGenerate_other (b : Build) (c : Nat) (t : RadialTraits F) :
    radialGenerate b (.other c) t = .throws (.runtimeError "Unsupported Radial Quadrature") := by
  cases t <;> rfl

theorem radialGenerate_mismatch (b : Build) {rq : RadialQuad} {t : RadialTraits F}
    (h : ¬Matches rq t) (ho : ∀ c, rq ≠ .other c) : radialGenerate b rq t = .throws .badCast := by
  unfold radialGenerate
  split
  · exact absurd (.becke _ _) h
  · exact absurd (.mk _ _) h
  · exact absurd (.mhl _ _) h
  · exact absurd (.ta _ _ _) h
  · exact absurd rfl (ho _)
  · rfl

theorem radialGenerate_ok (b : Build) {rq : RadialQuad} {t : RadialTraits F} (h : Matches rq t)
    (hn : t.npts + 2 < sizeMod) : ∃ rl : List (F × F), rl.length = t.npts ∧
      radialGenerate b rq t = .ok (Quad.ofPairs rl) := by
  rw [radialGenerate_matches b h, t.generate_eq hn, construct_ok b (by simp)]
  refine ⟨(List.range t.npts).map (fun i => (t.transform (t.nodeX i),
    t.nodeW i * t.jacobian (t.nodeX i))), by simp, ?_⟩
  simp [Quad.ofPairs, Function.comp_def]

theorem addRegions_eq (b : Build) (d : AngData F) (f : AngFam) (n : Nat)
    (A : Nat → Quad (Pt F) F) (regions : List PruningRegion)
    (h : ∀ r ∈ regions, angConstruct b d f r.angularSize = .ok (A r.angularSize))
    (p : Partition (Quad (Pt F) F)) :
    addRegions b d f n regions p =
      Partition.addAll b n (regions.map (fun r => (r.idxSt, A r.angularSize))) p := by
  induction regions generalizing p with
  | nil => rfl
  | cons r rest ih =>
    simp only [addRegions, h r (by simp), Outcome.ok_bind, List.map_cons, Partition.addAll]
    congr 1
    funext p'
    exact ih (fun r hr => h r (by simp [hr])) p'

end

end IntegratorXX
