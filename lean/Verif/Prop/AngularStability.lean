import Verif.Lemmas.AngularGrids

/-!
# C65: size of the angular weights
-/

set_option maxRecDepth 20000

namespace IntegratorXX

open Arith Spec Tables

private theorem ll_abs : ∀ e ∈ llGrids, (e.2.map fun r => r.w.natAbs * r.kind.size).sum ≤ 2 * 10 ^ 21 := by
  decide +kernel

private theorem de_abs : ∀ e ∈ deGrids, (e.2.map fun r => r.w.natAbs * r.kind.size).sum ≤ 2 * 10 ^ 21 := by
  decide +kernel

private theorem octa_abs_sum {pattern : OctaKind → List (Int × Int × Int)}
    (hp : ∀ k, (pattern k).length = k.size) (rows : List OctaRow) :
    ((octaGrid pattern rows : StaticGrid ℝ).weights.map (|·|)).sum =
      ((rows.map fun r => r.w.natAbs * r.kind.size).sum : ℕ) / 10 ^ 21 := by
  unfold octaGrid
  dsimp only
  induction rows with
  | nil => simp
  | cons r l ih =>
    rw [List.flatMap_cons, List.map_append, List.sum_append, ih]
    unfold octaWeights
    rw [List.map_const', List.map_replicate, List.sum_replicate, hp, List.map_cons, List.sum_cons, real_lit]
    push_cast
    rw [abs_div, abs_of_pos (by positivity : (0 : ℝ) < 10 ^ 21), nsmul_eq_mul, Nat.cast_natAbs]
    push_cast
    ring

/-- The absolute values of the weights of every grid sum to at most `8π`: the rules are stable, also the four with
negative weights. -/
theorem C65_abs_sum (b : Build) (fam : AngFam) (n : Nat) (h : fam.orderByNpts n ≠ -1) :
    Returns (angConstruct b (angData ℝ) fam n) (fun q => (q.weights.map (|·|)).sum ≤ 8 * Real.pi) := by
  refine ⟨_, angData_construct b fam n h, ?_⟩
  dsimp only
  have hπ := Real.pi_gt_three
  have octa : ∀ (pattern : OctaKind → List (Int × Int × Int)) (_ : ∀ k, (pattern k).length = k.size)
      (rows : List OctaRow) (_ : (rows.map fun r => r.w.natAbs * r.kind.size).sum ≤ 2 * 10 ^ 21),
      (((octaGrid pattern rows : StaticGrid ℝ).weights.map (fun x => x * (4 * Real.pi))).map (|·|)).sum ≤
        8 * Real.pi := by
    intro pattern hp rows hr
    have e : ∀ l : List ℝ, ((l.map (fun x => x * (4 * Real.pi))).map (|·|)).sum =
        (l.map (|·|)).sum * (4 * Real.pi) := by
      intro l
      rw [List.map_map, ← List.sum_map_mul_right]
      congr 1
      apply List.map_congr_left
      intro x _
      simp only [Function.comp_def, abs_mul]
      rw [abs_of_pos Real.pi_pos, abs_of_pos (by norm_num : (0 : ℝ) < 4)]
    rw [e, octa_abs_sum hp]
    have : (((rows.map fun r => r.w.natAbs * r.kind.size).sum : ℕ) : ℝ) ≤ 2 * 10 ^ 21 := by exact_mod_cast hr
    have h2 : (((rows.map fun r => r.w.natAbs * r.kind.size).sum : ℕ) : ℝ) / 10 ^ 21 ≤ 2 := by
      rw [div_le_iff₀ (by positivity)]; exact this
    nlinarith
  have scale : ∀ (f : AngFam), (f = .lebedevLaikov ∨ f = .delley) → ∀ w : List ℝ,
      w.map (AngFam.scaled (F := ℝ) f) = w.map (· * (4 * Real.pi)) := by
    rintro f (rfl | rfl) w <;> exact List.map_congr_left (fun x _ => by simp [AngFam.scaled])
  have same : ∀ (f : AngFam), (f = .ahrensBeylkin ∨ f = .womersley) → ∀ w : List ℝ,
      w.map (AngFam.scaled (F := ℝ) f) = w := by
    rintro f (rfl | rfl) w <;> · conv_rhs => rw [← List.map_id w]
                                 exact List.map_congr_left (fun x _ => rfl)
  rcases angData_supported ℝ fam n h with ⟨rfl, rows, h1, h2⟩ | ⟨rfl, rows, h1, h2⟩ |
    ⟨rfl, g, h1, h2⟩ | ⟨rfl, g, h1, h2⟩
  · rw [scale _ (.inl rfl), h2]
    exact octa _ llPattern_ok.1 _ (ll_abs _ h1)
  · rw [scale _ (.inr rfl), h2]
    exact octa _ dePattern_ok.1 _ (de_abs _ h1)
  · rw [same _ (.inl rfl), h2]
    exact (icosaWeightSum_real (abBases _ h1).wsum).trans (by linarith)
  · rw [same _ (.inr rfl), h2]
    exact (wo_abs_sum (woBases _ h1).2).trans (by linarith)

/-- The hypothesis for a grid with negative weights. -/
example : AngFam.lebedevLaikov.orderByNpts (230 : Nat) ≠ -1 := by decide +kernel

end IntegratorXX
