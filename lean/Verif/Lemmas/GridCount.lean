import Verif.Lemmas.PrunedConv
import Verif.Lemmas.AngularGrids

/-!
# The number of points of a product grid
-/

namespace IntegratorXX

open Spec

variable {F : Type} [Mul F]

/-- The available sizes of the angular grids. -/
theorem ang_size_lt {fam : AngFam} {n : Nat} (h : fam.orderByNpts n ≠ -1) : 0 < n ∧ n < 20000 := by
  have hm := (fam.orderByNpts_iff _ _).1 ⟨rfl, h⟩
  have h1 := (fam.entries_pos _ hm).2
  have h2 := (fam.entries_lt _ hm).2
  dsimp only at h1 h2
  omega

/-- Number of points contributed by regions whose angular rules have between 1 and 20000 points. -/
theorem regionEntries_count (rl : List (F × F)) : ∀ T : List ((Nat × Nat) × Quad (Pt F) F),
    (∀ e ∈ T, Consistent e.2 ∧ 0 < e.2.points.length ∧ e.2.points.length < 20000) →
    (T.flatMap (fun e => (rl.take e.1.2).drop e.1.1)).length ≤ (T.flatMap (regionEntries rl)).length ∧
    (T.flatMap (regionEntries rl)).length ≤ 20000 * (T.flatMap (fun e => (rl.take e.1.2).drop e.1.1)).length := by
  intro T
  induction T with
  | nil => intro _; simp
  | cons e T ih =>
    intro hT
    obtain ⟨i1, i2⟩ := ih (fun e he => hT e (List.mem_cons_of_mem _ he))
    obtain ⟨k2, k4, k5⟩ := hT e (by simp)
    have hl : (regionEntries rl e).length = e.2.points.length * ((rl.take e.1.2).drop e.1.1).length := by
      unfold Consistent at k2
      unfold regionEntries sphEntries
      rw [List.length_flatMap]
      simp only [List.length_map, List.map_const', List.sum_replicate, List.length_zip, smul_eq_mul]
      congr 1
      omega
    simp only [List.flatMap_cons, List.length_append]
    rw [hl]
    generalize ((rl.take e.1.2).drop e.1.1).length = m
    have l1 : 1 * m ≤ e.2.points.length * m := Nat.mul_le_mul_right _ k4
    have l2 : e.2.points.length * m ≤ 20000 * m := Nat.mul_le_mul_right _ k5.le
    omega

/-- Number of points of a pruned grid. -/
theorem tiles_count (rl : List (F × F)) (regions : List (Nat × Quad (Pt F) F)) (hst : StartsOk regions)
    (hlt : ∀ e ∈ regions, e.1 < rl.length)
    (hA : ∀ e ∈ tiles rl.length regions, Consistent e.2 ∧ 0 < e.2.points.length ∧ e.2.points.length < 20000) :
    rl.length ≤ ((tiles rl.length regions).flatMap (regionEntries rl)).length ∧
    ((tiles rl.length regions).flatMap (regionEntries rl)).length ≤ 20000 * rl.length := by
  have h := regionEntries_count rl _ hA
  have hsl := tiles_slices rl regions 0 hst.1 hst.2 hlt
  rw [List.drop_zero] at hsl
  rwa [hsl] at h

end IntegratorXX
