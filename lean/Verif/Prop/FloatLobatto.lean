import Verif.Lemmas.FloatLobRule
import Verif.Lemmas.FloatLobFour
import Verif.Prop.FloatNewton

/-!
# C78: GaussLobatto in `double` arithmetic

As for GaussLegendre (C77), no a priori bound of the rounding errors decides whether the Newton iteration
meets its criterion for more than four points, so the exception is one of the outcomes.
-/

namespace IntegratorXX

open Polynomial Spec Real

variable {L : Libm}

local notation "ε" => (2 : ℝ)⁻¹ ^ 52

/-- **C78.**  In `double` arithmetic with a C library whose cosine has errors of at most one unit in the
last place, for 2 to 32768 points, `GaussLobatto(npts)` throws its `runtime_error` or returns a rule of
finite numbers with these properties: the first node is -1 and the last is 1, the nodes increase strictly
and are within `30 sqrt(npts) eps` of the exact ones; the weights are positive and agree with the exact
weights up to a fraction of `40 sqrt(npts) npts² eps`; the rule is exactly symmetric, the centre of a rule
with an odd number of points being exactly 0; and it integrates every polynomial of degree `< 2 npts - 2`
with an error of at most `150 sqrt(npts) npts² eps` times the sum of the absolute values of its
coefficients. -/
theorem C78_gauss_lobatto_double (hL : L.Accurate) (b : Build) (npts : ℕ) (h2 : 2 ≤ npts) (hn : npts ≤ 2 ^ 15) :
    construct b (gaussLobatto npts : Outcome (List (F64 L) × List (F64 L))) =
      .throws (.runtimeError "Gauss-Lobatto Newton Iterations Failed to Converge") ∨
    ∃ (q : Quad (F64 L) (F64 L)) (xs ws nodes : List ℝ),
      construct b (gaussLobatto npts) = .ok q ∧ Doubles q.points xs ∧ Doubles q.weights ws ∧
      Increasing nodes ∧ nodes.length = npts ∧
      (∀ x, x ∈ nodes ↔ x = 1 ∨ x = -1 ∨ (derivative (legendre (npts - 1))).eval x = 0) ∧
      Increasing xs ∧ xs[(0 : ℕ)]? = some (-1) ∧ xs[npts - 1]? = some 1 ∧ (∀ w ∈ ws, 0 < w) ∧
      Within (30 * √(npts : ℝ) * ε) xs nodes ∧
      WithinRel (40 * √(npts : ℝ) * npts ^ 2 * ε) ws
        (nodes.map (fun r => 2 / (npts * (npts - 1) * (legendre (npts - 1)).eval r ^ 2))) ∧
      (∀ i < npts, ∃ x w, xs[i]? = some x ∧ xs[npts - 1 - i]? = some (-x) ∧
        ws[i]? = some w ∧ ws[npts - 1 - i]? = some w) ∧
      ∀ p : ℝ[X], p.degree < (2 * npts - 2 : ℕ) →
        |ruleSum xs ws p.eval - ∫ t in (-1 : ℝ)..1, p.eval t| ≤
          150 * √(npts : ℝ) * npts ^ 2 * ε * ∑ i ∈ p.support, |p.coeff i| := by
  have u52 : (2⁻¹ : ℝ) ^ 52 = 2 * uro := by rw [uro_eq]; norm_num
  have hu := uro_pos
  obtain ⟨m, rfl⟩ : ∃ m, npts = m + 1 := ⟨npts - 1, by omega⟩
  have hm : 1 ≤ m := by omega
  rw [Nat.add_sub_cancel]
  obtain ⟨hR2, hR1, hy⟩ := lob_small hn
  rcases lob_rule_double hL hm hn with h | ⟨x, w, hrule, hx0, hxm, hin, hsym, h⟩
  · left; rw [h]; rfl
  right
  have hn1 : (1 : ℝ) ≤ m := by exact_mod_cast hm
  have hM1 : ((m : ℝ) + 1) ^ 2 ≤ 16 / 9 * (m + 1 / 2) ^ 2 := by nlinarith
  have hM2 : ((m : ℝ) + 1 / 2) ^ 2 ≤ (m + 1) ^ 2 := by nlinarith
  have hRu : 0 ≤ √((m : ℝ) + 1) * uro := by positivity
  have hτ : 75 * √((m : ℝ) + 1) * ((m : ℝ) + 1 / 2) ^ 2 * uro ≤
      40 * √((m : ℝ) + 1) * (m + 1) ^ 2 * (2 * uro) := by
    have := mul_le_mul_of_nonneg_left hM2 hRu
    have : 0 ≤ √((m : ℝ) + 1) * uro * ((m : ℝ) + 1) ^ 2 := by positivity
    linarith
  have step : ∀ i, i + 1 < m + 1 → x i < x (i + 1) := by
    intro i hi
    rcases Nat.eq_zero_or_pos i with rfl | h0
    · rw [hx0]
      rcases (show 1 ≤ m from hm).eq_or_lt with h1 | h1
      · subst h1; rw [zero_add, hxm]; norm_num
      · exact (abs_lt.1 (hin 1 le_rfl h1)).1
    rcases (show i + 1 ≤ m by omega).eq_or_lt with h1 | h1
    · rw [h1, hxm]
      exact (abs_lt.1 (hin i h0 (by omega))).2
    have g1 := abs_le.1 (h i (by omega)).2.2.1
    have g2 := abs_le.1 (h (i + 1) (by omega)).2.2.1
    have g3 := lobXi_gap h0 h1
    have g4 : 108 * √((m : ℝ) + 1) * uro < 4 / ((m : ℝ) + 1) ^ 2 := by
      rw [lt_div_iff₀ (by positivity)]
      have := mul_le_mul_of_nonneg_left hM1 hRu
      linarith
    linarith
  have mono : ∀ i d, i + (d + 1) < m + 1 → x i < x (i + (d + 1)) := by
    intro i d
    induction d with
    | zero => exact step i
    | succ d ih => intro hd; exact (ih (by omega)).trans (step _ (by omega))
  have hle : ∀ j, j < m + 1 → |x j| ≤ 1 := by
    intro j hj
    rcases Nat.eq_zero_or_pos j with rfl | h0
    · rw [hx0]; norm_num
    rcases (show j ≤ m by omega).eq_or_lt with h1 | h1
    · rw [h1, hxm]; norm_num
    exact (hin j h0 h1).le
  push_cast
  rw [show (m : ℝ) + 1 - 1 = m by ring]
  refine ⟨⟨(List.range (m + 1)).map (fun j => F64.fin (x j)), (List.range (m + 1)).map (fun j => F64.fin (w j))⟩,
    (List.range (m + 1)).map x, (List.range (m + 1)).map w, (List.range (m + 1)).map (lobXi m),
    ?_, ⟨?_, ?_⟩, ⟨?_, ?_⟩,
    increasing_map_range _ _ (fun i j hij hj => lobXi_lt hij (by omega)), by simp, fun y => ⟨?_, fun hy => ?_⟩,
    ?_, ?_, ?_, ?_, ?_, ?_, ?_, ?_⟩
  · rw [hrule, construct_ok b (by simp)]
  · rw [List.map_map]; rfl
  · intro y hy
    obtain ⟨j, hj, rfl⟩ := List.mem_map.1 hy
    exact (h j (by have := List.mem_range.1 hj; omega)).1
  · rw [List.map_map]; rfl
  · intro y hy
    obtain ⟨j, hj, rfl⟩ := List.mem_map.1 hy
    exact (h j (by have := List.mem_range.1 hj; omega)).2.1
  · rintro hy
    obtain ⟨j, hj, rfl⟩ := List.mem_map.1 hy
    exact lobXi_mem hm (by have := List.mem_range.1 hj; omega)
  · obtain ⟨j, hj, rfl⟩ := lobXi_surj hm hy
    exact List.mem_map.2 ⟨j, List.mem_range.2 (by omega), rfl⟩
  · refine increasing_map_range _ _ (fun i j hij hj => ?_)
    obtain ⟨d, rfl⟩ : ∃ d, j = i + (d + 1) := ⟨j - i - 1, by omega⟩
    exact mono i d hj
  · rw [getElem?_map_range, if_pos (by omega), hx0]
  · rw [getElem?_map_range, if_pos (by omega), hxm]
  · intro y hy
    obtain ⟨j, hj, rfl⟩ := List.mem_map.1 hy
    have hj' : j ≤ m := by have := List.mem_range.1 hj; omega
    have g1 := (h j hj').2.2.2
    have g2 := lobOm_pos hm hj'
    have g3 := abs_le.1 g1
    have g4 : 75 * √((m : ℝ) + 1) * ((m : ℝ) + 1 / 2) ^ 2 * uro ≤ 1 / 2 := by linarith
    have g5 := mul_le_mul_of_nonneg_right g4 g2.le
    linarith
  · unfold Within
    rw [List.forall₂_map_left_iff, List.forall₂_map_right_iff, List.forall₂_same]
    intro j hj
    rw [u52]
    have := (h j (by have := List.mem_range.1 hj; omega)).2.2.1
    linarith
  · unfold WithinRel
    rw [List.map_map, List.forall₂_map_left_iff, List.forall₂_map_right_iff, List.forall₂_same]
    intro j hj
    have hj' : j ≤ m := by have := List.mem_range.1 hj; omega
    have g2 := lobOm_pos hm hj'
    show |w j - lobOm m (lobXi m j)| ≤ _ * |lobOm m (lobXi m j)|
    rw [u52, abs_of_pos g2]
    exact (h j hj').2.2.2.trans (mul_le_mul_of_nonneg_right hτ g2.le)
  · intro i hi
    refine ⟨x i, w i, ?_, ?_, ?_, ?_⟩ <;> rw [getElem?_map_range, if_pos (by omega)]
    · rw [(hsym i (by omega)).1]
    · rw [(hsym i (by omega)).2]
  · intro p hp
    rw [show 2 * (m + 1) - 2 = 2 * m by omega] at hp
    have hex : ∀ f : ℝ[X], f.degree < (2 * m : ℕ) → polyInt f =
        ∑ j ∈ Finset.range (m + 1), lobOm m (lobXi m j) * f.eval (lobXi m j) := by
      intro f hf
      rw [gauss_lobatto_exact m hm f hf]
      exact sum_lobXi hm (fun x => lobOm m x * f.eval x)
    have hsum : ∑ j ∈ Finset.range (m + 1), lobOm m (lobXi m j) = 2 := by
      have := hex 1 (by rw [degree_one]; exact_mod_cast (by omega : 0 < 2 * m))
      simp only [eval_one, mul_one] at this
      rw [← this]
      simp [polyInt]
      norm_num
    have herr := rule_error (m + 1) (fun j => lobXi m j) (fun j => lobOm m (lobXi m j)) x w
      (54 * √((m : ℝ) + 1) * uro) (75 * √((m : ℝ) + 1) * ((m : ℝ) + 1 / 2) ^ 2 * uro)
      (fun j hj => lobXi_le_one hm (by omega))
      hle (fun j hj => (h j (by omega)).2.2.1) (fun j hj => (lobOm_pos hm (by omega)).le)
      (fun j hj => by rw [mul_comm]; exact (h j (by omega)).2.2.2) hsum p
    rw [ruleSum_map_range]
    show |_ - polyInt p| ≤ _
    rw [hex p hp]
    refine herr.trans (mul_le_mul_of_nonneg_right ?_ (Finset.sum_nonneg fun i _ => abs_nonneg _))
    have hdeg : (p.natDegree : ℝ) ≤ 2 * m := by
      have : p.natDegree ≤ 2 * m := natDegree_le_of_degree_le hp.le
      exact_mod_cast this
    have g1 : (p.natDegree : ℝ) * (54 * √((m : ℝ) + 1) * uro) ≤ 2 * m * (54 * √((m : ℝ) + 1) * uro) :=
      mul_le_mul_of_nonneg_right hdeg (by linarith)
    have g2 : 2 * (75 * (((m : ℝ) + 1 / 2) ^ 2) + 108 * m) ≤ 300 * (m + 1) ^ 2 := by nlinarith
    have g3 := mul_le_mul_of_nonneg_right g2 hRu
    rw [u52]
    linarith

/-- `GaussLobatto(2)` is the trapezoidal rule, without any error. -/
theorem C78_two_points_double (b : Build) :
    construct b (gaussLobatto 2 : Outcome (List (F64 L) × List (F64 L))) =
      .ok ⟨[F64.fin (-1), F64.fin 1], [F64.fin 1, F64.fin 1]⟩ := by
  have l1 := lit_one (L := L)
  have l2 := lit_two (L := L)
  have n2 := lit_nat' (L := L) (n := 2) (by norm_num)
  have hE : lobE (F64 L) 2 = F64.fin 1 := by
    unfold lobE
    rw [l1.1, l2.1, n2.1, Nat.cast_ofNat, F64.fin_sub, show (2 : ℝ) - 1 = 1 by norm_num, of_self l1.2, F64.fin_mul,
      mul_one, of_self l2.2, F64.fin_div _ two_ne_zero, div_self two_ne_zero, of_self l1.2]
  rcases gaussLobatto_cases (F := F64 L) 2 (by omega) (by unfold sizeMod; omega) with hc | ⟨-, hc⟩
  · refine absurd hc (gaussLobatto_ok (F := F64 L) 2 (fun j h1 h2 => ?_) (by omega)
      (by unfold sizeMod; omega))
    omega
  · rw [hc, construct_ok b (by simp)]
    congr 2
    · show [lobPt (F64 L) 2 0, lobPt (F64 L) 2 1] = _
      unfold lobPt
      rw [l1.1]
      rfl
    · show [lobWt (F64 L) 2 0, lobWt (F64 L) 2 1] = _
      unfold lobWt
      simp [hE]

/-- With two, three or four points `GaussLobatto` does not throw: it returns the rule described by C78. -/
theorem C78_few_points_double (hL : L.Accurate) (b : Build) (npts : ℕ) (h2 : 2 ≤ npts) (h4 : npts ≤ 4) :
    ∃ q : Quad (F64 L) (F64 L), construct b (gaussLobatto npts) = .ok q := by
  obtain ⟨m, rfl⟩ : ∃ m, npts = m + 1 := ⟨npts - 1, by omega⟩
  have key : m = 2 ∨ m = 3 → (gaussLobatto (m + 1) : Outcome (List (F64 L) × List (F64 L))) ≠
      .throws (.runtimeError lobMsg) := by
    rintro (rfl | rfl)
    · exact gaussLobatto_three hL
    · exact gaussLobatto_four hL
  obtain rfl | hm : m = 1 ∨ (m = 2 ∨ m = 3) := by omega
  · exact ⟨_, C78_two_points_double b⟩
  · rcases lob_rule_double hL (m := m) (by omega) (by omega) with h | ⟨x, w, hrule, -⟩
    · exact absurd h (key hm)
    · exact ⟨_, by rw [hrule, construct_ok b (by simp)]⟩

/-- The hypotheses hold for a correctly rounded library and four points. -/
example (b : Build) : ∃ q : Quad (F64 Libm.correct) (F64 Libm.correct), construct b (gaussLobatto 4) = .ok q :=
  C78_few_points_double Libm.correct_accurate b 4 (by norm_num) le_rfl

/-- The hypotheses hold for a correctly rounded library and 1000 points. -/
example : Libm.correct.Accurate ∧ 2 ≤ 1000 ∧ 1000 ≤ 2 ^ 15 := ⟨Libm.correct_accurate, by norm_num, by norm_num⟩

end IntegratorXX
