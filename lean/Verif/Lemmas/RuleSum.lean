import Mathlib.Algebra.BigOperators.Group.Finset.Basic
import Mathlib.Algebra.BigOperators.Ring.Finset
import Verif.Spec.Rule
import Verif.Lemmas.Loop
import Verif.Model.Quadrature

namespace IntegratorXX

open Spec

theorem list_sum_map_range (n : Nat) (f : Nat → ℝ) :
    ((List.range n).map f).sum = ∑ i ∈ Finset.range n, f i := by
  induction n with
  | zero => simp
  | succ n ih => simp [List.range_succ, Finset.sum_range_succ, ih]

theorem ruleSum_map_range {P : Type} (n : Nat) (x : Nat → P) (w : Nat → ℝ) (f : P → ℝ) :
    ruleSum ((List.range n).map x) ((List.range n).map w) f =
      ∑ i ∈ Finset.range n, w i * f (x i) := by
  rw [← list_sum_map_range]
  unfold ruleSum
  rw [List.zip_map', List.map_map]
  rfl

theorem increasing_map_range (n : Nat) (x : Nat → ℝ)
    (h : ∀ i j, i < j → j < n → x i < x j) : Increasing ((List.range n).map x) := by
  unfold Increasing
  rw [List.pairwise_map]
  refine List.Pairwise.imp_of_mem ?_ List.pairwise_lt_range
  intro a b _ hb hab
  exact h a b hab (by simpa using hb)

theorem construct_ok {P W : Type} (b : Build) {p : List P} {w : List W} (h : p.length = w.length) :
    construct b (.ok (p, w)) = .ok ⟨p, w⟩ := by
  simp [construct, Quad.make, h]

end IntegratorXX
