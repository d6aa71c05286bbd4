import Verif.Lemmas.FloatGLRule

/-!
# GaussLegendre with one point in `double` arithmetic
-/

namespace IntegratorXX

open Polynomial Spec Set Real

variable {L : Libm}

theorem of_self {x : ℝ} (h : IsF64 x) : (F64.of x : F64 L) = F64.fin x := by
  show XReal.round x = XReal.fin x
  have h2 := abs_lt.1 h.2
  unfold XReal.round
  rw [h.1, if_neg (by linarith), if_neg (by linarith)]

/-- `P_1` is evaluated without error. -/
theorem evalPn_one {z : ℝ} (hz : IsF64 z) :
    (evalPn (F64.fin z : F64 L) 1).1 = F64.fin z ∧
    (evalPn (F64.fin z : F64 L) 1).2.1 =
      (F64.fin z * F64.fin z - Arith.lit 1) * (F64.fin 1 / (F64.fin z * F64.fin z - Arith.lit 1)) := by
  have l0 := lit_zero (L := L)
  have l1 := lit_one (L := L)
  have l2 := lit_two (L := L)
  have n1 := lit_nat' (L := L) (n := 1) (by norm_num)
  have h1 : (pnLoop (F64.fin z : F64 L) 1).1 = F64.fin z ∧ (pnLoop (F64.fin z : F64 L) 1).2.1 = F64.fin 1 := by
    rw [pnLoop_succ]
    have h0 : pnLoop (F64.fin z : F64 L) 0 = (Arith.lit 1, Arith.lit 0, Arith.lit 0) := rfl
    rw [h0, l0.1, l1.1, l2.1]
    dsimp only
    rw [n1.1, Nat.cast_one, F64.fin_mul, mul_one, of_self l2.2, F64.fin_sub,
      show (2 : ℝ) - 1 = 1 by norm_num, of_self l1.2, F64.fin_mul, one_mul, of_self hz, F64.fin_mul, mul_one,
      of_self hz, F64.fin_sub, sub_self, of_self l0.2, F64.fin_mul, mul_zero, of_self l0.2, F64.fin_sub, sub_zero,
      of_self hz, F64.fin_div _ one_ne_zero, div_one, of_self hz]
    exact ⟨rfl, rfl⟩
  rw [evalPn_eq]
  dsimp only
  rw [h1.1, h1.2, n1.1, l1.1, Nat.cast_one]
  exact ⟨rfl, rfl⟩

/-- A Newton step. -/
theorem step_one {z : ℝ} (hz : IsF64 z) (hz1 : |z| ≤ 1 / 4) :
    ∃ z' : ℝ, F64.fin z - (evalPn (F64.fin z : F64 L) 1).1 / (evalPn (F64.fin z : F64 L) 1).2.1 = F64.fin z' ∧
      IsF64 z' ∧ |z'| ≤ 7 * uro * |z| + uro / 10 := by
  have hu := uro_pos
  have hu' := uro_lt
  have ht : (2⁻¹ : ℝ) ^ 200 ≤ uro / 100 := by rw [uro_eq]; norm_num
  obtain ⟨e1, e2⟩ := evalPn_one (L := L) hz
  rw [e1, e2]
  have hzz : z * z ≤ 1 / 16 := by
    have := mul_le_mul hz1 hz1 (abs_nonneg _) (by norm_num)
    rw [← abs_mul, abs_mul_self] at this
    linarith
  have hzz0 : 0 ≤ z * z := mul_self_nonneg z
  have habs : |z * z - 1| = 1 - z * z := by
    rw [abs_of_neg (by linarith)]
    ring
  have hD : Near ((F64.fin z : F64 L) * F64.fin z - Arith.lit 1) (z * z - 1) (3 * uro) := by
    have A := Near.mul (L := L) (near_self hz) (near_self hz) (X := 1) (Y := 1) (B := 1) (by linarith) (by linarith)
      (by
        rw [abs_of_nonneg hzz0]
        linarith) (by norm_num)
    have l1 := lit_one (L := L)
    rw [l1.1]
    exact (Near.sub A (near_self l1.2) (B := 11 / 10) (by linarith) (by norm_num)).mono (by linarith)
  obtain ⟨d, hd, hdf, hd1⟩ := hD
  rw [hd]
  have hd2 := abs_le.1 hd1
  have hd0 : d ≠ 0 := by
    intro h
    rw [h] at hd2
    linarith
  have hda : 1 / 2 ≤ |d| ∧ |d| ≤ 2 := by
    rw [abs_of_neg (by linarith)]
    constructor <;> linarith
  have hdn : Near (F64.fin d : F64 L) d (0 * |d|) := ⟨d, rfl, hdf, by simp⟩
  have h1n : Near (F64.fin 1 : F64 L) 1 (0 * |(1 : ℝ)|) := ⟨1, rfl, (lit_one (L := L)).2, by simp⟩
  have hI := near_div h1n hdn le_rfl le_rfl (by norm_num) (by norm_num) hd0 (by
    rw [abs_of_neg (by linarith)] at hda
    constructor
    · rw [abs_div, abs_one, abs_of_neg (by linarith), le_div_iff₀ (by linarith)]
      norm_num
      linarith
    · rw [abs_div, abs_one, abs_of_neg (by linarith), div_le_iff₀ (by linarith)]
      norm_num
      linarith)
  have e3 : d * (1 / d) = 1 := by field_simp
  have hP := near_mul hdn hI le_rfl (by linarith) (by norm_num) (by linarith) (by
    rw [e3]
    exact mid_of (by norm_num) (by norm_num))
  rw [e3, abs_one] at hP
  obtain ⟨g, hg, hgf, hg1⟩ := hP
  rw [hg]
  have hg1' : |g - 1| ≤ 9 / 2 * uro := by linarith
  have hg2 := abs_le.1 hg1'
  have hg0 : g ≠ 0 := by
    intro h
    rw [h] at hg2
    linarith
  rw [F64.fin_div _ hg0]
  have hzg : |z / g - z| ≤ 5 * uro * |z| := by
    have e : z / g - z = z * ((1 - g) / g) := by field_simp
    rw [e, abs_mul, mul_comm]
    refine mul_le_mul_of_nonneg_right ?_ (abs_nonneg z)
    rw [abs_div, abs_sub_comm, div_le_iff₀ (abs_pos.2 hg0), abs_of_pos (by linarith : 0 < g)]
    have := mul_le_mul_of_nonneg_left hg2.1 (by positivity : 0 ≤ 5 * uro)
    have : uro * uro ≤ uro * (1 / 1000) := mul_le_mul_of_nonneg_left hu'.le hu.le
    linarith
  have h5 : 5 * uro * |z| ≤ 5 * (1 / 1000) * |z| := by gcongr
  have hz0 := abs_nonneg z
  have hS := of_near (L := L) (B := 21 / 20 * |z|) hzg (by linarith) (by
    have : (1 : ℝ) ≤ 2 ^ 200 := by norm_num
    linarith)
  obtain ⟨s, hs, hsf, hs1⟩ := hS
  rw [hs, F64.fin_sub]
  have hs2 : |z - s - 0| ≤ 5 * uro * |z| + uro * (21 / 20 * |z|) + 2⁻¹ ^ 200 := by
    rw [sub_zero, abs_sub_comm]
    exact hs1
  have hF := of_near (L := L) (B := |z| + uro) hs2 (by
    rw [abs_zero]
    have : uro * |z| ≤ 1 / 1000 * |z| := by gcongr
    linarith) (by
    have : (1 : ℝ) ≤ 2 ^ 200 := by norm_num
    linarith)
  obtain ⟨z', hz', hzf', hz1'⟩ := hF
  refine ⟨z', hz', hzf', ?_⟩
  rw [sub_zero] at hz1'
  refine hz1'.trans ?_
  have h6 : uro * uro ≤ uro * (1 / 1000) := mul_le_mul_of_nonneg_left hu'.le hu.le
  have h7 : 0 ≤ uro * |z| := by positivity
  nlinarith

open Classical in
/-- The acceptance test holds for differences a little below `eps`. -/
theorem accept_of {x y : ℝ} (h : |x - y| ≤ 197 / 100 * uro) :
    Arith.le (Arith.abs ((F64.fin x : F64 L) - F64.fin y)) Arith.eps = true := by
  have hu := uro_pos
  have hu' := uro_lt
  have ht : (2⁻¹ : ℝ) ^ 200 ≤ uro / 100 := by rw [uro_eq]; norm_num
  have u52 : (2⁻¹ : ℝ) ^ 52 = 2 * uro := by rw [uro_eq]; norm_num
  obtain ⟨v, hv, -, hv1⟩ := of_near (L := L) (t := x - y) (z := 0) (e := 197 / 100 * uro) (B := 4 * uro) (by rw [sub_zero]; exact h)
    (by rw [abs_zero]; linarith) (by
      have : (1 : ℝ) ≤ 2 ^ 200 := by norm_num
      linarith)
  rw [F64.fin_sub, hv]
  rw [sub_zero] at hv1
  have h6 : uro * uro ≤ uro * (1 / 1000) := mul_le_mul_of_nonneg_left hu'.le hu.le
  have h7 : |v| ≤ 2⁻¹ ^ 52 := by
    rw [u52]
    linarith
  have h8 : XReal.Lt (XReal.fin |v|) (XReal.fin ((2 : ℝ)⁻¹ ^ 52)) ∨
      XReal.Eq' (XReal.fin |v|) (XReal.fin ((2 : ℝ)⁻¹ ^ 52)) := by
    rcases h7.lt_or_eq with h9 | h9
    · exact .inl h9
    · exact .inr h9
  show decide (XReal.Lt (XReal.fin |v|) (XReal.fin ((2 : ℝ)⁻¹ ^ 52)) ∨
    XReal.Eq' (XReal.fin |v|) (XReal.fin ((2 : ℝ)⁻¹ ^ 52))) = true
  exact decide_eq_true h8

/-- The iteration of the rule with one point ends. -/
theorem glNewton_one {z : ℝ} (hz : IsF64 z) (hz1 : |z| ≤ 1 / 4) (it : ℕ) :
    glNewton 1 (it + 2) (F64.fin z : F64 L) ≠ none := by
  have hu := uro_pos
  have hu' := uro_lt
  obtain ⟨z₁, e₁, f₁, b₁⟩ := step_one (L := L) hz hz1
  have c₁ : |z₁| ≤ 185 / 100 * uro := by
    have := mul_le_mul_of_nonneg_left hz1 hu.le
    linarith
  obtain ⟨z₂, e₂, f₂, b₂⟩ := step_one (L := L) f₁ (by linarith)
  unfold glNewton
  dsimp only
  rw [e₁]
  split_ifs with h1
  · simp
  · unfold glNewton
    dsimp only
    rw [e₂]
    rw [if_pos]
    · simp
    · refine accept_of ?_
      have h2 := mul_le_mul_of_nonneg_left c₁ hu.le
      have h3 : uro * uro ≤ uro * (1 / 1000) := mul_le_mul_of_nonneg_left hu'.le hu.le
      refine (abs_sub _ _).trans ?_
      linarith

/-- `GaussLegendre(1)` does not throw. -/
theorem gaussLegendre_one (hL : L.Accurate) :
    (gaussLegendre 1 : Outcome (List (F64 L) × List (F64 L))) ≠ .throws (.runtimeError glMsg) := by
  refine gaussLegendre_ok 1 (fun j hj => ?_)
  obtain rfl : j = 0 := by omega
  have hu := uro_pos
  have hu' := uro_lt
  obtain ⟨s, hs, hsf, hs1⟩ := glStart_double hL (n := 1) (k := 0) (by norm_num) (by norm_num)
  have e : ((0 : ℕ) + 3 / 4 : ℝ) * angStep 1 = π / 2 := by
    unfold angStep
    push_cast
    field_simp
    norm_num
  rw [e, cos_pi_div_two, sub_zero] at hs1
  rw [hs]
  have := glNewton_one (L := L) hsf (by linarith) 98
  cases h : glNewton 1 100 (F64.fin s : F64 L) with
  | none => exact absurd h this
  | some _ => rfl

end IntegratorXX
