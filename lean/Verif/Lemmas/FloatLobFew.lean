import Verif.Lemmas.FloatGLThree
import Verif.Lemmas.FloatLobRule

/-!
# GaussLobatto with three and four points in `double` arithmetic
-/

namespace IntegratorXX

open Polynomial Spec Set Real

variable {L : Libm}

local notation "P" => legendre

/-! ## Chaining the steps -/

/-- One more step of the iteration. -/
theorem lobNewton_step {m it : ℕ} {z z' : ℝ}
    (e : F64.fin z - (F64.fin z * (evalPn (F64.fin z : F64 L) m).1 - (evalPn (F64.fin z : F64 L) m).2.2) /
        (Arith.ofNat (m + 1) * (evalPn (F64.fin z : F64 L) m).1) = F64.fin z')
    (ih : lobNewton (m + 1) it (F64.fin z' : F64 L) ≠ none) :
    lobNewton (m + 1) (it + 1) (F64.fin z : F64 L) ≠ none := by
  unfold lobNewton
  dsimp only
  rw [Nat.add_sub_cancel, e]
  split_ifs
  · simp
  · exact ih

theorem lobNewton_last {m it : ℕ} {z z' : ℝ}
    (e : F64.fin z - (F64.fin z * (evalPn (F64.fin z : F64 L) m).1 - (evalPn (F64.fin z : F64 L) m).2.2) /
        (Arith.ofNat (m + 1) * (evalPn (F64.fin z : F64 L) m).1) = F64.fin z')
    (h : |z' - z| ≤ 197 / 100 * uro) :
    lobNewton (m + 1) (it + 1) (F64.fin z : F64 L) ≠ none := by
  unfold lobNewton
  dsimp only
  rw [Nat.add_sub_cancel, e, if_pos (accept_of h)]
  simp

/-! ## Three points -/

theorem rnd_tiny_bound {x : ℝ} (h : |x| ≤ 200 * uro) : |rnd x - x| ≤ uro / 1000 := by
  have hu := uro_pos
  have hu40 : 200 * uro < (2⁻¹ : ℝ) ^ 40 := by rw [uro_eq]; norm_num
  have t1 : uro / 2 ^ 41 ≤ uro / 1000 := by gcongr; norm_num
  exact (rnd_err_tiny (h.trans_lt hu40)).trans t1

/-- The value of `P_2` near 0. -/
theorem value_two_mid {z : ℝ} (hz : IsF64 z) (h1 : |z| ≤ 24 * uro) :
    ∃ V : ℝ, (evalPn (F64.fin z : F64 L) 2).1 = F64.fin V ∧ (evalPn (F64.fin z : F64 L) 2).2.2 = F64.fin z ∧
      IsF64 V ∧ |V + 1 / 2| ≤ 11 / 10 * uro := by
  have hu := uro_pos
  have hu' : uro < 1 / 10 ^ 15 := by rw [uro_eq]; norm_num
  have hz0 := abs_nonneg z
  obtain ⟨e1, e2⟩ := pnLoop_one (L := L) hz
  have l1 := lit_one (L := L)
  have l2 := lit_nat' (L := L) 2 (by norm_num)
  have a1 := two_nat_sub_one (L := L) 1 (by norm_num)
  have a2 := nat_sub_one (L := L) 1 (by norm_num)
  have a3 : |3 * z| ≤ 72 * uro := by rw [abs_mul, abs_of_pos (by norm_num : (0 : ℝ) < 3)]; linarith
  have hA := rnd_tiny_bound (x := 3 * z) (by linarith)
  have hAb : |rnd (3 * z)| ≤ 73 * uro := by
    have h3 := abs_add_le (rnd (3 * z) - 3 * z) (3 * z)
    rw [sub_add_cancel] at h3
    linarith
  have aB : |rnd (3 * z) * z| ≤ uro / 1000 := by
    rw [abs_mul]
    have := mul_le_mul hAb h1 hz0 (by linarith)
    have h4 : uro * uro ≤ uro * (1 / 10 ^ 15) := by gcongr
    linarith
  have hB := abs_le.1 (rnd_tiny_bound (x := rnd (3 * z) * z) (by linarith))
  have aB' := abs_le.1 aB
  have aD : |rnd (rnd (3 * z) * z) - 1| < 2 := by
    rw [abs_lt]
    constructor <;> linarith
  have hD := abs_le.1 (rnd_err2 aD)
  have aV : |rnd (rnd (rnd (3 * z) * z) - 1) / 2| < 1 := by
    rw [abs_lt]
    constructor <;> linarith
  have hV := abs_le.1 (rnd_err1 aV)
  refine ⟨_, ?_, ?_, (of_fin_small (L := L) (t := rnd (rnd (rnd (3 * z) * z) - 1) / 2) (by linarith)).2, ?_⟩
  · rw [evalPn_eq]
    dsimp only
    rw [pnLoop_succ]
    dsimp only
    rw [e1, e2, a1, a2, l2.1]
    push_cast
    rw [(mulF (L := L) (x := 3) (y := z) (by linarith)).1, (mulF (L := L) (by linarith)).1]
    rw [F64.fin_mul 1 1, mul_one, of_self l1.2, (subF (L := L) (by linarith)).1, F64.fin_div _ (by norm_num)]
    exact (of_fin_small (by linarith)).1
  · rw [evalPn_eq]
    dsimp only
    rw [pnLoop_succ]
    exact e1
  · rw [abs_le]
    constructor <;> linarith

/-- A step at the middle of three points. -/
theorem lob_step_three {z : ℝ} (hz : IsF64 z) (h1 : |z| ≤ 24 * uro) :
    ∃ z' : ℝ, F64.fin z - (F64.fin z * (evalPn (F64.fin z : F64 L) 2).1 - (evalPn (F64.fin z : F64 L) 2).2.2) /
        (Arith.ofNat (2 + 1) * (evalPn (F64.fin z : F64 L) 2).1) = F64.fin z' ∧ IsF64 z' ∧ |z'| ≤ uro / 10 := by
  have hu := uro_pos
  have hu' : uro < 1 / 10 ^ 15 := by rw [uro_eq]; norm_num
  have hz0 := abs_nonneg z
  have huu : uro * uro ≤ uro * (1 / 10 ^ 15) := by gcongr
  obtain ⟨V, hV1, hV2, hVf, hV⟩ := value_two_mid (L := L) hz h1
  have l3 := lit_nat' (L := L) 3 (by norm_num)
  have hVb := abs_le.1 hV
  have h1' := abs_le.1 h1
  rw [hV1, hV2, l3.1]
  have hzV : |z * V + z / 2| ≤ uro / 1000 := by
    have e : z * V + z / 2 = z * (V + 1 / 2) := by ring
    rw [e, abs_mul]
    have := mul_le_mul h1 hV (abs_nonneg _) (by linarith)
    linarith
  have hzV' := abs_le.1 hzV
  have aE : |z * V| ≤ 20 * uro := by
    rw [abs_le]
    constructor <;> linarith
  have hE := abs_le.1 (rnd_tiny_bound (x := z * V) (by linarith))
  have aQ : |rnd (z * V) - z| ≤ 60 * uro := by
    rw [abs_le]
    constructor <;> linarith
  have hQ := abs_le.1 (rnd_tiny_bound (x := rnd (z * V) - z) (by linarith))
  have aG : |3 * V| < 2 := by
    rw [abs_lt]
    constructor <;> linarith
  have hG := abs_le.1 (rnd_err2 aG)
  push_cast
  rw [(mulF (L := L) (x := z) (y := V) (by linarith)).1, (subF (L := L) (by linarith)).1,
    (mulF (L := L) (x := 3) (y := V) (by linarith)).1]
  have hGe : |rnd (3 * V) + 3 / 2| ≤ 5 * uro := by
    rw [abs_le]
    constructor <;> linarith
  have hGe' := abs_le.1 hGe
  have hQe : |rnd (rnd (z * V) - z) + 3 / 2 * z| ≤ 4 / 1000 * uro := by
    rw [abs_le]
    constructor <;> linarith
  generalize rnd (3 * V) = g at *
  generalize rnd (rnd (z * V) - z) = q at *
  have hg0 : g ≠ 0 := by
    intro h
    rw [h] at hGe'
    linarith
  have hdiv : |q / g - z| ≤ uro / 100 := by
    have e : q / g - z = ((q + 3 / 2 * z) - z * (g + 3 / 2)) / g := by
      field_simp
      ring
    rw [e, abs_div, div_le_iff₀ (abs_pos.2 hg0), abs_of_neg (by linarith : g < 0)]
    refine (abs_sub _ _).trans ?_
    rw [abs_mul]
    have t1 := mul_le_mul h1 hGe (abs_nonneg _) (by linarith)
    have t2 : uro / 100 * (14 / 10) ≤ uro / 100 * -g := by
      refine mul_le_mul_of_nonneg_left ?_ (by linarith)
      linarith
    linarith
  have hdiv' := abs_le.1 hdiv
  rw [F64.fin_div _ hg0]
  have aS : |q / g| ≤ 30 * uro := by
    rw [abs_le]
    constructor <;> linarith
  have hS := abs_le.1 (rnd_tiny_bound (x := q / g) (by linarith))
  rw [(of_fin_small (L := L) (t := q / g) (by linarith)).1]
  have aZ : |z - rnd (q / g)| ≤ uro / 50 := by
    rw [abs_le]
    constructor <;> linarith
  have hZ := abs_le.1 (rnd_tiny_bound (x := z - rnd (q / g)) (by linarith))
  have aZ' := abs_le.1 aZ
  obtain ⟨hz1, hz2⟩ := subF (L := L) (x := z) (y := rnd (q / g)) (by linarith)
  refine ⟨_, hz1, hz2, ?_⟩
  rw [abs_le]
  constructor <;> linarith

/-- `GaussLobatto(3)` does not throw. -/
theorem gaussLobatto_three (hL : L.Accurate) :
    (gaussLobatto 3 : Outcome (List (F64 L) × List (F64 L))) ≠ .throws (.runtimeError lobMsg) := by
  refine gaussLobatto_ok 3 (fun j h1 hj => ?_) (by norm_num) (by norm_num [sizeMod])
  obtain rfl : j = 1 := by omega
  have hu := uro_pos
  obtain ⟨s, hs, hsf, hs1⟩ := lobStart_double hL (m := 2) (k := 0) (by norm_num) (by norm_num)
  have e : ((0 : ℕ) + 1 : ℝ) * π / (2 : ℕ) = π / 2 := by push_cast; ring
  rw [e, cos_pi_div_two, neg_zero, sub_zero] at hs1
  have hs' : lobStart (F64 L) 3 1 = F64.fin s := hs
  rw [hs']
  obtain ⟨z₁, e₁, f₁, b₁⟩ := lob_step_three (L := L) hsf hs1
  obtain ⟨z₂, e₂, f₂, b₂⟩ := lob_step_three (L := L) f₁ (by linarith)
  have key : lobNewton 3 100 (F64.fin s : F64 L) ≠ none :=
    lobNewton_step (it := 99) e₁ (lobNewton_last (it := 98) e₂ ((abs_sub _ _).trans (by linarith)))
  cases h : lobNewton 3 100 (F64.fin s : F64 L) with
  | none => exact absurd h key
  | some _ => rfl

end IntegratorXX
