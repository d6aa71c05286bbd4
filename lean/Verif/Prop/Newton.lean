import Verif.Lemmas.NewtonForms
import Verif.Lemmas.RuleSum
import Verif.Arith

/-!
# C12, C15: outcome and symmetry of the Newton based rules
-/

namespace IntegratorXX

open Spec

variable {F : Type} [Add F] [Sub F] [Mul F] [Div F] [Neg F] [Arith F]

/-- **C12.**  In every arithmetic GaussLegendre either throws its `runtime_error` or returns
`npts` points and weights; node `i` of the lower half is the negation of node `npts-1-i` and
carries the same weight. -/
theorem C12_gauss_legendre_symmetric_or_throws (b : Build) (npts : ℕ) :
    construct b (gaussLegendre npts : Outcome (List F × List F)) =
      .throws (.runtimeError "Gauss-Legendre Newton Iterations Failed to Converge") ∨
    Returns (construct b (gaussLegendre npts : Outcome (List F × List F))) (fun q =>
      q.points.length = npts ∧ q.weights.length = npts ∧
      ∀ i, i < npts / 2 → ∃ x w, q.points[npts - 1 - i]? = some x ∧ q.points[i]? = some (-x) ∧
        q.weights[npts - 1 - i]? = some w ∧ q.weights[i]? = some w) := by
  rcases gaussLegendre_cases (F := F) npts with h | ⟨-, h⟩
  · left; rw [h]; rfl
  · right
    rw [h]
    refine ⟨_, construct_ok b (by simp), by simp, by simp, ?_⟩
    intro i hi
    refine ⟨(glZ F npts i).1, glW F npts i, ?_, ?_, ?_, ?_⟩ <;> simp only [getElem?_map_range]
    · rw [if_pos (by omega), if_neg (by omega), show npts - 1 - (npts - 1 - i) = i by omega]
    · rw [if_pos (by omega), if_pos hi]
    · rw [if_pos (by omega), if_neg (by omega), show npts - 1 - (npts - 1 - i) = i by omega]
    · rw [if_pos (by omega), if_pos hi]

/-- Both alternatives of C12 speak about the same run; the returning case does occur. -/
example : construct ⟨true⟩ (gaussLegendre 0 : Outcome (List ℝ × List ℝ)) = .ok ⟨[], []⟩ := rfl

/-- **C15.**  GaussLobatto for `npts ≥ 2`: throws its `runtime_error` or returns `npts` points
and weights with end points `-1`, `1`, end weights `2/(n(n-1))`, mirrored interior nodes with
equal weights and centre node `0.0` for odd sizes.  `GaussLobatto(0)` is undefined behaviour. -/
theorem C15_gauss_lobatto (b : Build) :
    construct b (gaussLobatto 0 : Outcome (List F × List F)) = .ub ∧
    ∀ npts, 2 ≤ npts → npts < 2 ^ 64 →
      (construct b (gaussLobatto npts : Outcome (List F × List F)) =
        .throws (.runtimeError "Gauss-Lobatto Newton Iterations Failed to Converge") ∨
      Returns (construct b (gaussLobatto npts : Outcome (List F × List F))) (fun q =>
        q.points.length = npts ∧ q.weights.length = npts ∧
        q.points[0]? = some (-(Arith.lit 1 : F)) ∧ q.points[npts - 1]? = some (Arith.lit 1) ∧
        q.weights[0]? = some
          (Arith.lit 2 / (Arith.ofNat npts * (Arith.ofNat npts - Arith.lit 1))) ∧
        q.weights[npts - 1]? = some
          (Arith.lit 2 / (Arith.ofNat npts * (Arith.ofNat npts - Arith.lit 1))) ∧
        (npts % 2 = 1 → q.points[npts / 2]? = some (Arith.lit 0)) ∧
        ∀ i, 1 ≤ i → i < npts / 2 → ∃ x w, q.points[i]? = some x ∧
          q.points[npts - 1 - i]? = some (-x) ∧
          q.weights[i]? = some w ∧ q.weights[npts - 1 - i]? = some w)) := by
  constructor
  · rfl
  · intro npts hn hn'
    rcases gaussLobatto_cases (F := F) npts (by omega) (by unfold sizeMod; omega) with h | ⟨-, h⟩
    · left; rw [h]; rfl
    · right
      rw [h]
      refine ⟨_, construct_ok b (by simp), by simp, by simp, ?_, ?_, ?_, ?_, ?_, ?_⟩
      · simp only [getElem?_map_range, lobPt]
        rw [if_pos (by omega), if_neg (by omega), if_neg (by omega), if_pos (by simp)]
      · simp only [getElem?_map_range, lobPt]
        rw [if_pos (by omega), if_neg (by omega), if_pos (by simp)]
      · simp only [getElem?_map_range, lobWt]
        rw [if_pos (by omega), if_pos (by simp)]; rfl
      · simp only [getElem?_map_range, lobWt]
        rw [if_pos (by omega), if_pos (by simp)]; rfl
      · intro hodd
        simp only [getElem?_map_range, lobPt]
        rw [if_pos (by omega), if_pos (by simp [hodd])]
      · intro i hi0 hi
        refine ⟨(lobZ F npts i).1, lobW F npts i, ?_, ?_, ?_, ?_⟩ <;>
          simp only [getElem?_map_range, lobPt, lobWt]
        · rw [if_pos (by omega), if_neg (by omega), if_neg (by omega), if_neg (by omega),
            if_pos hi]
        · rw [if_pos (by omega), if_neg (by omega), if_neg (by omega), if_neg (by omega),
            if_neg (by omega), show npts - 1 - (npts - 1 - i) = i by omega]
        · rw [if_pos (by omega), if_neg (by omega), if_pos hi]
        · rw [if_pos (by omega), if_neg (by omega), if_neg (by omega),
            show npts - 1 - (npts - 1 - i) = i by omega]

example : (gaussLobatto 2 : Outcome (List ℝ × List ℝ)) =
    .ok ([-(Arith.lit 1), Arith.lit 1], [lobE ℝ 2, lobE ℝ 2]) := by
  rcases gaussLobatto_cases (F := ℝ) 2 (by norm_num) (by unfold sizeMod; norm_num) with h | ⟨-, h⟩
  · cases h
  · rw [h]; rfl

end IntegratorXX
