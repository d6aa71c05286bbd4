import Verif.Model.Radial
import Verif.Lemmas.PrimitiveForms
import Verif.Lemmas.ChebReal

/-!
# Closed forms of the radial generators
-/

set_option linter.unusedSectionVars false

namespace IntegratorXX

open Arith

namespace RadialTraits

section
variable {F : Type} [Add F] [Sub F] [Mul F] [Div F] [Neg F] [Arith F]

theorem generate_of_base (t : RadialTraits F) (X W : Nat → F)
    (h : t.baseGenerate (if t.inclusive then t.npts + 2 else t.npts) =
      .ok ((List.range (if t.inclusive then t.npts + 2 else t.npts)).map X,
        (List.range (if t.inclusive then t.npts + 2 else t.npts)).map W)) :
    t.generate = .ok
      ((List.range t.npts).map (fun i => t.transform (X (i + if t.inclusive then 1 else 0))),
       (List.range t.npts).map (fun i => W (i + if t.inclusive then 1 else 0) *
          t.jacobian (X (i + if t.inclusive then 1 else 0)))) := by
  unfold generate
  dsimp only
  rw [h, Outcome.ok_bind]
  dsimp only
  rw [forRange_congr (body' := fun i (s : List F × List F) => do
      let points ← vset s.1 i (t.transform (X (i + if t.inclusive then 1 else 0)))
      let weights ← vset s.2 i (W (i + if t.inclusive then 1 else 0) *
        t.jacobian (X (i + if t.inclusive then 1 else 0)))
      pure (points, weights))]
  · exact forRange_fill2 _ _ _ (fun i s => rfl) _ _ (by simp) (by simp)
  · intro i s _ hi
    have hlt : (i + if t.inclusive then 1 else 0) < (if t.inclusive then t.npts + 2 else t.npts) := by
      split_ifs <;> omega
    rw [vget_ok (a := X (i + if t.inclusive then 1 else 0)) (by
        rw [getElem?_map_range, if_pos hlt]), Outcome.ok_bind,
      vget_ok (a := W (i + if t.inclusive then 1 else 0)) (by
        rw [getElem?_map_range, if_pos hlt]), Outcome.ok_bind]

/-- Base node used for entry `i`. -/
def nodeX (t : RadialTraits F) (i : Nat) : F :=
  if t.inclusive then lit 0 + ofNat (i + 1) * ((lit 1 - lit 0) / ofNat (t.npts + 1))
  else mirrorFn t.npts (gc2X F t.npts) (fun x => -x) (lit 0) i

/-- Base weight used for entry `i`. -/
def nodeW (t : RadialTraits F) (i : Nat) : F :=
  if t.inclusive then (lit 1 - lit 0) / ofNat (t.npts + 1)
  else mirrorFn t.npts (gc2W F t.npts) id (pi / ofNat (t.npts + 1)) i

theorem generate_eq (t : RadialTraits F) (hn : t.npts + 2 < sizeMod) :
    t.generate = .ok ((List.range t.npts).map (fun i => t.transform (t.nodeX i)),
      (List.range t.npts).map (fun i => t.nodeW i * t.jacobian (t.nodeX i))) := by
  cases ht : t.inclusive
  · have := generate_of_base t (mirrorFn t.npts (gc2X F t.npts) (fun x => -x) (lit 0))
      (mirrorFn t.npts (gc2W F t.npts) id (pi / ofNat (t.npts + 1)))
      (by rw [ht]; simp [baseGenerate, ht, gaussChebyshev2_eq])
    rw [this]
    simp [nodeX, nodeW, ht]
  · have := generate_of_base t
      (fun i => lit 0 + ofNat i * ((lit 1 - lit 0) / ofNat (t.npts + 1)))
      (utW (t.npts + 2) (lit 0) (lit 1))
      (by
        rw [ht]
        simp only [baseGenerate, ht, if_true, uniformTrapezoid01]
        rw [uniformTrapezoid_eq _ (by omega) hn]
        rfl)
    rw [this]
    simp only [ht, if_true]
    congr 2
    · apply List.map_congr_left
      intro i hi
      simp [nodeX, ht]
    · apply List.map_congr_left
      intro i hi
      have hi : i < t.npts := by simpa using hi
      simp only [nodeW, nodeX, ht, if_true]
      congr 1
      unfold utW
      dsimp only
      rw [if_neg (by omega)]
      rfl

end

/-- Base node of entry `i` in exact arithmetic. -/
noncomputable def nodeXR (t : RadialTraits ℝ) (i : Nat) : ℝ :=
  if t.inclusive then ((i : ℝ) + 1) / (t.npts + 1) else Real.cos (gc2A t.npts i)

/-- Base weight of entry `i` in exact arithmetic. -/
noncomputable def nodeWR (t : RadialTraits ℝ) (i : Nat) : ℝ :=
  if t.inclusive then 1 / (t.npts + 1)
  else Real.pi / (t.npts + 1) * Real.sin (gc2A t.npts i)

theorem nodeX_real (t : RadialTraits ℝ) {i : Nat} (hi : i < t.npts) : t.nodeX i = t.nodeXR i := by
  unfold nodeX nodeXR
  split_ifs with h
  · simp only [Arith.real_lit, Arith.real_ofNat]; push_cast; ring
  · unfold mirrorFn
    split_ifs with h1 h2
    · exact gc2X_real
    · obtain ⟨h2, rfl⟩ := h2
      simp [gc2A_mid h2]
    · rw [gc2X_real, gc2A_reflect hi, Real.cos_pi_sub]; exact neg_neg _

theorem nodeW_real (t : RadialTraits ℝ) {i : Nat} (hi : i < t.npts) : t.nodeW i = t.nodeWR i := by
  unfold nodeW nodeWR
  split_ifs with h
  · simp only [Arith.real_lit, Arith.real_ofNat]; push_cast; ring
  · unfold mirrorFn
    split_ifs with h1 h2
    · exact gc2W_real hi
    · obtain ⟨h2, rfl⟩ := h2
      simp [gc2A_mid h2]
    · rw [id, gc2W_real (by omega), gc2A_reflect hi, Real.sin_pi_sub]

theorem generate_real (t : RadialTraits ℝ) (hn : t.npts + 2 < sizeMod) :
    t.generate = .ok ((List.range t.npts).map (fun i => t.transform (t.nodeXR i)),
      (List.range t.npts).map (fun i => t.nodeWR i * t.jacobian (t.nodeXR i))) := by
  rw [generate_eq t hn]
  congr 2
  · apply List.map_congr_left
    intro i hi
    rw [nodeX_real t (by simpa using hi)]
  · apply List.map_congr_left
    intro i hi
    rw [nodeX_real t (by simpa using hi), nodeW_real t (by simpa using hi)]

end RadialTraits

end IntegratorXX
