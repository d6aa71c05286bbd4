import Verif.Prop.Sharp
import Verif.Lemmas.SphereVolume
import Verif.Prop.AngularSymmetry

/-!
# C106: Ahrens-Beylkin grids without inversion symmetry

C91 claims only rotations for the Ahrens-Beylkin family.  For every size of even order this cannot be
extended by the inversion or a reflection.
-/

namespace IntegratorXX

open Arith Spec Tables

private theorem polyAt_neg {p : MvPolynomial (Fin 3) ℝ} {d : ℕ} (h : p.IsHomogeneous d) (u : Pt ℝ) :
    polyAt p ⟨-u.x, -u.y, -u.z⟩ = (-1) ^ d * polyAt p u := by
  rw [← polyAt_smul h (-1) u]
  simp only [neg_one_mul]

/-- **C106.**  An Ahrens-Beylkin grid whose order is even is not mapped to itself by the inversion, nor by
the reflection at a coordinate plane. -/
theorem C106_no_inversion (b : Build) (n : Nat) (h : AngFam.ahrensBeylkin.orderByNpts n ≠ -1)
    (he : Even (AngFam.ahrensBeylkin.orderByNpts n)) :
    Returns (angConstruct b (angData ℝ) .ahrensBeylkin n) (fun q =>
      ¬Invariant (fun u => ⟨-u.x, -u.y, -u.z⟩) q ∧ ¬Invariant (fun u => ⟨-u.x, u.y, u.z⟩) q) := by
  obtain ⟨q, hq, d, p, hd, hp, -, -, h4⟩ := C104_order_sharp b .ahrensBeylkin (by decide) n h
  obtain ⟨q', hq', -, ht⟩ := C91_angular C91_real b .ahrensBeylkin n h
    (g := fun u => turnX u) (Tetrahedral.one.turn)
  rw [hq] at hq'
  obtain rfl : q = q' := Outcome.ok.inj hq'
  have hodd : Odd d := by
    rw [← Int.odd_coe_nat, hd]
    exact he.add_one
  have key : ¬Invariant (fun u => ⟨-u.x, -u.y, -u.z⟩) q := by
    intro hi
    have := (C91_sum hi (polyAt p)).2 (fun u => by rw [polyAt_neg hp, hodd.neg_one_pow, neg_one_mul])
    rw [this, abs_zero] at h4
    norm_num at h4
  refine ⟨q, hq, key, fun hf => key ?_⟩
  exact invariant_comp hf ht

/-- There are 24 such sizes. -/
example : (AngFam.ahrensBeylkin.entries.filter (fun e => e.1 % 2 == 0)).length = 24 ∧
    AngFam.ahrensBeylkin.orderByNpts 72 = 14 ∧ AngFam.ahrensBeylkin.orderByNpts 15012 = 210 := by
  decide +kernel

end IntegratorXX
