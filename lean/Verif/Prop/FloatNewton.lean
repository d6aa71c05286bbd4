import Verif.Lemmas.FloatGLOne
import Verif.Lemmas.FloatGLThree

/-!
# C76, C77: `eval_Pn` and GaussLegendre in `double` arithmetic

`2⁻¹ ^ 52` is the distance of 1 to the next larger `double`.  Whether the Newton iteration of
GaussLegendre meets its criterion depends on rounding errors that no a priori bound decides, except
for up to three points; so the statement for general sizes has the exception as a second outcome.
-/

namespace IntegratorXX

open Polynomial Spec Real

variable {L : Libm}

local notation "ε" => (2 : ℝ)⁻¹ ^ 52

/-- **C76.**  For a `double` `x` in `[-1, 1]` the first and last value returned by `eval_Pn(x, n)` are
finite.  The error of the first is at most `4 n² eps`, and `4 n eps / sqrt(1 - x²)` inside; that of the
last is at most `4 n² eps`. -/
theorem C76_evalPn_double (x : ℝ) (hx : IsF64 x) (hx1 : |x| ≤ 1) (n : ℕ) (hn : n ≤ 2 ^ 20) :
    ∃ p r : ℝ, (evalPn (F64.fin x : F64 L) n).1 = F64.fin p ∧ (evalPn (F64.fin x : F64 L) n).2.2 = F64.fin r ∧
      |p - (legendre n).eval x| ≤ 4 * n ^ 2 * ε ∧
      √(1 - x ^ 2) * |p - (legendre n).eval x| ≤ 4 * n * ε ∧
      (1 ≤ n → |r - (legendre (n - 1)).eval x| ≤ 4 * n ^ 2 * ε) := by
  have u52 : (2⁻¹ : ℝ) ^ 52 = 2 * uro := by rw [uro_eq]; norm_num
  obtain ⟨v, w, e1, e2, hv, hw, hN, hev, hew⟩ := pn_double (L := L) hx hx1 n hn
  refine ⟨v, w, by rw [evalPn_eq]; exact e1, by rw [evalPn_eq]; exact e2, ?_, ?_, ?_⟩
  · rw [u52]; linarith
  · have := sqrt_mul_abs_le_recNorm hx1 (v - (legendre n).eval x) (w - legPrev n x)
    rw [u52]
    linarith
  · intro h1
    obtain ⟨m, rfl⟩ : ∃ m, n = m + 1 := ⟨n - 1, by omega⟩
    rw [u52]
    have e : legPrev (m + 1) x = (legendre (m + 1 - 1)).eval x := rfl
    rw [← e]
    linarith

/-- The derivative, for `x` not next to `±1`. -/
theorem C76_evalPn_derivative_double (x : ℝ) (hx : IsF64 x) (n : ℕ) (hn1 : 1 ≤ n) (hn : n ≤ 2 ^ 20)
    (hx1 : 1000 * ε ≤ 1 - x ^ 2) :
    ∃ g : ℝ, (evalPn (F64.fin x : F64 L) n).2.1 = F64.fin g ∧
      |g - (derivative (legendre n)).eval x| ≤
        n / (1 - x ^ 2) * ((5 * n + 9 / (1 - x ^ 2)) * ε) := by
  have u52 : (2⁻¹ : ℝ) ^ 52 = 2 * uro := by rw [uro_eq]; norm_num
  rw [u52] at hx1 ⊢
  have hu := uro_pos
  have hu' := uro_lt
  have ht : (2⁻¹ : ℝ) ^ 200 ≤ uro / 100 := by rw [uro_eq]; norm_num
  obtain ⟨Q, hQ⟩ : ∃ Q, Q = 1 - x ^ 2 := ⟨_, rfl⟩
  rw [← hQ] at hx1 ⊢
  have hQ0 : 0 < Q := by linarith
  have hQ1 : Q ≤ 1 := by
    have := sq_nonneg x
    linarith
  have hσ : √Q ^ 2 = 1 - x ^ 2 := by rw [sq_sqrt hQ0.le, hQ]
  have hxa : |x| ≤ 1 := by
    rw [← sq_le_one_iff_abs_le_one]
    linarith
  have hx2 : x ^ 2 ≠ 1 := by
    intro h
    rw [h] at hQ
    linarith
  have hnr : (n : ℝ) ≤ 1048576 := by exact_mod_cast hn
  have hn0 : (0 : ℝ) ≤ n := Nat.cast_nonneg n
  obtain ⟨v, w, e1, e2, -, -, -, -, -, -, hq⟩ := evalPn_double (L := L) hn hx (sqrt_pos.2 hQ0) hσ
  have hxx : x * x - 1 = -Q := by rw [hQ]; ring
  have hD : Near ((F64.fin x : F64 L) * F64.fin x - Arith.lit 1) (-Q) (3 * uro) := by
    have A := Near.mul (L := L) (near_self hx) (near_self hx) (X := 1) (Y := 1) (B := 1) hxa hxa
      (by
        rw [abs_mul]
        have := mul_le_one₀ hxa (abs_nonneg x) hxa
        linarith) (by norm_num)
    have l1 := lit_one (L := L)
    rw [l1.1, ← hxx]
    have hab : |x * x - 1| ≤ 1 := by
      rw [hxx, abs_neg, abs_of_pos hQ0]
      exact hQ1
    exact (Near.sub A (near_self l1.2) (B := 11 / 10) (by linarith) (by norm_num)).mono (by linarith)
  obtain ⟨d, hd, hdf, hd1⟩ := hD
  have hdl := abs_le.1 hd1
  have hd0 : d ≠ 0 := by
    intro h
    rw [h] at hdl
    linarith
  have hda : |d| = -d := abs_of_neg (by linarith)
  have hfd : |(n : ℝ) / d - n / (-Q)| ≤ n / Q * (31 / 10 * uro / Q) := by
    have e : (n : ℝ) / d - n / (-Q) = n / Q * ((Q + d) / d) := by
      field_simp
      ring
    rw [e, abs_mul, abs_of_nonneg (by positivity : 0 ≤ (n : ℝ) / Q)]
    refine mul_le_mul_of_nonneg_left ?_ (by positivity)
    rw [abs_div, hda, div_le_div_iff₀ (by linarith) hQ0]
    have h2 : |Q + d| ≤ 3 * uro := by
      rw [abs_le]
      constructor <;> linarith
    have h3 := mul_le_mul_of_nonneg_right h2 hQ0.le
    have h4 := mul_le_mul_of_nonneg_left hdl.2 (by positivity : 0 ≤ 31 / 10 * uro)
    have h5 := mul_le_mul_of_nonneg_left hx1 hu.le
    have h6 := mul_pos hu hu
    linarith
  have hY : |(n : ℝ) / (-Q)| = n / Q := by
    rw [abs_div, abs_neg, abs_of_pos hQ0, Nat.abs_cast]
  have hYb : (n : ℝ) / Q ≤ 2 ^ 80 := by
    rw [div_le_iff₀ hQ0]
    rw [uro_eq] at hx1
    have : (2 : ℝ) ^ 80 * (1000 * (2 * (1 / 9007199254740992))) ≤ 2 ^ 80 * Q := by gcongr
    refine le_trans ?_ this
    norm_num
    linarith
  obtain ⟨Y, hYd⟩ : ∃ Y : ℝ, Y = n / Q := ⟨_, rfl⟩
  have hY0 : 0 ≤ Y := by rw [hYd]; positivity
  rw [← hYd] at hY hfd hYb ⊢
  have hκ : 31 / 10 * uro / Q ≤ 1 / 500 := by
    rw [div_le_iff₀ hQ0]
    linarith
  obtain ⟨κ, hκd⟩ : ∃ κ : ℝ, κ = 31 / 10 * uro / Q := ⟨_, rfl⟩
  rw [← hκd] at hfd hκ
  have hκ0 : 0 ≤ κ := by rw [hκd]; positivity
  have hYκ : Y * κ ≤ Y * (1 / 500) := mul_le_mul_of_nonneg_left hκ hY0
  have hF : Near ((F64.of ((n : ℝ) / d)) : F64 L) (n / (-Q)) (Y * κ + uro * (101 / 100 * Y) + 2⁻¹ ^ 200) :=
    of_near hfd (by rw [hY]; linarith) (by norm_num at hYb ⊢; linarith)
  have hqa : |x * (legendre n).eval x - legPrev n x| ≤ 2 := by
    have h1 := legendre_abs_le_one n hxa
    have hPm : |legPrev n x| ≤ 1 := by
      unfold legPrev
      split_ifs
      · simp
      · exact legendre_abs_le_one _ hxa
    have h2 : |x * (legendre n).eval x| ≤ 1 := by
      rw [abs_mul]
      exact (mul_le_of_le_one_left (abs_nonneg _) hxa).trans h1
    exact (abs_sub _ _).trans (by linarith)
  have hder := legendre_deriv_eval n x hx2
  rw [hxx] at hder
  have hYn : (n : ℝ) ≤ Y := by
    rw [hYd, le_div_iff₀ hQ0]
    exact mul_le_of_le_one_right hn0 hQ1
  have hY1 : 1 ≤ Y := le_trans (by exact_mod_cast hn1) hYn
  have huY : uro * 1 ≤ uro * Y := mul_le_mul_of_nonneg_left hY1 hu.le
  have huY' : uro * Y ≤ 1 / 1000 * Y := mul_le_mul_of_nonneg_right hu'.le hY0
  have hF' := hF.mono (f := Y * (κ + 51 / 50 * uro)) (by linarith)
  have he : (8 * (n : ℝ) + 4) * uro ≤ 1 / 1000 := by
    have : (8 * (n : ℝ) + 4) * uro ≤ (8 * 1048576 + 4) * uro := by gcongr
    refine this.trans ?_
    rw [uro_eq]
    norm_num
  have he0 : 0 ≤ (8 * (n : ℝ) + 4) * uro := by positivity
  have hff : Y * (κ + 51 / 50 * uro) ≤ 1 / 100 * Y := by linarith
  have hef : (8 * (n : ℝ) + 4) * uro * (Y + Y * (κ + 51 / 50 * uro)) ≤ (8 * (n : ℝ) + 4) * uro * (101 / 100 * Y) :=
    mul_le_mul_of_nonneg_left (by linarith) he0
  have heY : (8 * (n : ℝ) + 4) * uro * (101 / 100 * Y) ≤ 1 / 1000 * (101 / 100 * Y) :=
    mul_le_mul_of_nonneg_right he (by linarith)
  have hG := Near.mul hq hF' hqa hY.le (B := 3 * Y) (by
    rw [abs_mul, hY]
    have := mul_le_mul_of_nonneg_right hqa hY0
    linarith) (by norm_num at hYb ⊢; linarith)
  obtain ⟨g, hg, -, hg1⟩ := hG
  refine ⟨g, ?_, ?_⟩
  · rw [evalPn_eq] at e1 e2 ⊢
    dsimp only at e1 e2 ⊢
    rw [e1, e2, hd, (lit_nat' n (by omega)).1, F64.fin_div _ hd0]
    exact hg
  · rw [hder]
    refine hg1.trans ?_
    have hκ2 : κ = 31 / 10 * uro * (1 / Q) := by rw [hκd]; ring
    have hQi : 1 ≤ 1 / Q := by rw [le_div_iff₀ hQ0]; linarith
    have e9 : 9 / Q = 9 * (1 / Q) := by ring
    rw [e9]
    have h1 : uro * Y * 1 ≤ uro * Y * (1 / Q) := mul_le_mul_of_nonneg_left hQi (by positivity)
    have h2 : 0 ≤ uro * Y * n := by positivity
    rw [hκ2] at hef ⊢
    have h3 : (8 * (n : ℝ) + 4) * uro * (101 / 100 * Y) = uro * Y * n * (808 / 100) + uro * Y * (404 / 100) := by ring
    linarith

/-- **C77.**  In `double` arithmetic with a C library whose cosine has errors of at most one unit in the
last place, for up to 32768 points, `GaussLegendre(npts)` throws its `runtime_error` or returns a rule of
finite numbers with these properties: the nodes increase strictly inside (-1, 1) and are within
`25 sqrt(npts) eps` of the roots of `P_npts`; the weights are positive and agree with the exact weights up
to a fraction of `100 sqrt(npts) (npts + 1)² eps`; the rule is exactly symmetric off the centre; and it
integrates every polynomial of degree `< 2 npts` with an error of at most `200 sqrt(npts) (npts + 1)² eps`
times the sum of the absolute values of its coefficients. -/
theorem C77_gauss_legendre_double (hL : L.Accurate) (b : Build) (npts : ℕ) (h1 : 1 ≤ npts) (hn : npts ≤ 2 ^ 15) :
    construct b (gaussLegendre npts : Outcome (List (F64 L) × List (F64 L))) =
      .throws (.runtimeError "Gauss-Legendre Newton Iterations Failed to Converge") ∨
    ∃ (q : Quad (F64 L) (F64 L)) (xs ws roots : List ℝ),
      construct b (gaussLegendre npts) = .ok q ∧ Doubles q.points xs ∧ Doubles q.weights ws ∧
      Increasing roots ∧ roots.length = npts ∧ (∀ r, r ∈ roots ↔ (legendre npts).eval r = 0) ∧
      Increasing xs ∧ (∀ x ∈ xs, -1 < x ∧ x < 1) ∧ (∀ w ∈ ws, 0 < w) ∧
      Within (25 * √(npts : ℝ) * ε) xs roots ∧
      WithinRel (100 * √(npts : ℝ) * (npts + 1) ^ 2 * ε) ws
        (roots.map (fun r => 2 / ((1 - r ^ 2) * (derivative (legendre npts)).eval r ^ 2))) ∧
      (∀ i < npts / 2, ∃ x w, xs[i]? = some x ∧ xs[npts - 1 - i]? = some (-x) ∧
        ws[i]? = some w ∧ ws[npts - 1 - i]? = some w) ∧
      ∀ p : ℝ[X], p.degree < (2 * npts : ℕ) →
        |ruleSum xs ws p.eval - ∫ t in (-1 : ℝ)..1, p.eval t| ≤
          200 * √(npts : ℝ) * (npts + 1) ^ 2 * ε * ∑ i ∈ p.support, |p.coeff i| := by
  have u52 : (2⁻¹ : ℝ) ^ 52 = 2 * uro := by rw [uro_eq]; norm_num
  have hu := uro_pos
  obtain ⟨hR2, hR1, hy⟩ := gl_small h1 hn
  rcases gl_rule_double hL hn with h | ⟨x, w, hrule, hsym, h⟩
  · left; rw [h]; rfl
  right
  have hn1 : (1 : ℝ) ≤ npts := by exact_mod_cast h1
  have hM1 : ((npts : ℝ) + 1) ^ 2 ≤ 16 / 9 * (npts + 1 / 2) ^ 2 := by nlinarith
  have hM2 : ((npts : ℝ) + 1 / 2) ^ 2 ≤ (npts + 1) ^ 2 := by nlinarith
  have hRu : 0 ≤ √(npts : ℝ) * uro := by positivity
  have hτ : 200 * √(npts : ℝ) * ((npts : ℝ) + 1 / 2) ^ 2 * uro ≤ 100 * √(npts : ℝ) * (npts + 1) ^ 2 * (2 * uro) := by
    have := mul_le_mul_of_nonneg_left hM2 hRu
    linarith
  refine ⟨⟨(List.range npts).map (fun j => F64.fin (x j)), (List.range npts).map (fun j => F64.fin (w j))⟩,
    (List.range npts).map x, (List.range npts).map w, (List.range npts).map (glXi npts), ?_, ⟨?_, ?_⟩, ⟨?_, ?_⟩,
    increasing_map_range _ _ (fun i j => glXi_lt), by simp, fun y => ⟨?_, fun hy => ?_⟩, ?_, ?_, ?_, ?_, ?_, ?_, ?_⟩
  · rw [hrule, construct_ok b (by simp)]
  · rw [List.map_map]; rfl
  · intro y hy
    obtain ⟨j, hj, rfl⟩ := List.mem_map.1 hy
    exact (h j (List.mem_range.1 hj)).1
  · rw [List.map_map]; rfl
  · intro y hy
    obtain ⟨j, hj, rfl⟩ := List.mem_map.1 hy
    exact (h j (List.mem_range.1 hj)).2.1
  · rintro hy
    obtain ⟨j, hj, rfl⟩ := List.mem_map.1 hy
    exact glXi_root (List.mem_range.1 hj)
  · obtain ⟨j, hj, rfl⟩ := glXi_surj hy
    exact List.mem_map.2 ⟨j, List.mem_range.2 hj, rfl⟩
  · have step : ∀ i, i + 1 < npts → x i < x (i + 1) := by
      intro i hi
      have g1 := abs_le.1 (h i (by omega)).2.2.1
      have g2 := abs_le.1 (h (i + 1) hi).2.2.1
      have g3 := glXi_gap hi
      have g4 : 100 * √(npts : ℝ) * uro < 1 / ((npts : ℝ) + 1) ^ 2 := by
        rw [lt_div_iff₀ (by positivity)]
        have := mul_le_mul_of_nonneg_left hM1 hRu
        linarith
      linarith
    have mono : ∀ i d, i + (d + 1) < npts → x i < x (i + (d + 1)) := by
      intro i d
      induction d with
      | zero => exact step i
      | succ d ih => intro hd; exact (ih (by omega)).trans (step _ (by omega))
    refine increasing_map_range _ _ (fun i j hij hj => ?_)
    obtain ⟨d, rfl⟩ : ∃ d, j = i + (d + 1) := ⟨j - i - 1, by omega⟩
    exact mono i d hj
  · intro y hy
    obtain ⟨j, hj, rfl⟩ := List.mem_map.1 hy
    exact abs_lt.1 (h j (List.mem_range.1 hj)).2.2.2.1
  · intro y hy
    obtain ⟨j, hj, rfl⟩ := List.mem_map.1 hy
    have hj' := List.mem_range.1 hj
    have g1 := (h j hj').2.2.2.2
    have g2 := glOm_pos hj'
    have g3 := abs_le.1 g1
    have g4 : 200 * √(npts : ℝ) * ((npts : ℝ) + 1 / 2) ^ 2 * uro ≤ 1 / 2 := by linarith
    have g5 := mul_le_mul_of_nonneg_right g4 g2.le
    linarith
  · unfold Within
    rw [List.forall₂_map_left_iff, List.forall₂_map_right_iff, List.forall₂_same]
    intro j hj
    rw [u52]
    have := (h j (List.mem_range.1 hj)).2.2.1
    linarith
  · unfold WithinRel
    rw [List.map_map, List.forall₂_map_left_iff, List.forall₂_map_right_iff, List.forall₂_same]
    intro j hj
    have hj' := List.mem_range.1 hj
    have g2 := glOm_pos hj'
    show |w j - glOm npts (glXi npts j)| ≤ _ * |glOm npts (glXi npts j)|
    rw [u52, abs_of_pos g2]
    exact (h j hj').2.2.2.2.trans (mul_le_mul_of_nonneg_right hτ g2.le)
  · intro i hi
    refine ⟨x i, w i, ?_, ?_, ?_, ?_⟩ <;> rw [getElem?_map_range, if_pos (by omega)]
    · rw [(hsym i hi).1]
    · rw [(hsym i hi).2]
  · intro p hp
    have hex : ∀ f : ℝ[X], f.degree < (2 * npts : ℕ) → polyInt f =
        ∑ j ∈ Finset.range npts, glOm npts (glXi npts j) * f.eval (glXi npts j) := by
      intro f hf
      rw [gauss_legendre_exact npts h1 f hf]
      exact sum_glXi npts (fun x => glOm npts x * f.eval x)
    have hsum : ∑ j ∈ Finset.range npts, glOm npts (glXi npts j) = 2 := by
      have := hex 1 (by rw [degree_one]; exact_mod_cast (by omega : 0 < 2 * npts))
      simp only [eval_one, mul_one] at this
      rw [← this]
      simp [polyInt]
      norm_num
    have herr := rule_error npts (fun j => glXi npts j) (fun j => glOm npts (glXi npts j)) x w
      (50 * √(npts : ℝ) * uro) (200 * √(npts : ℝ) * ((npts : ℝ) + 1 / 2) ^ 2 * uro)
      (fun j hj => (abs_lt.2 (legendre_root_mem npts _ (glXi_root hj))).le)
      (fun j hj => (h j hj).2.2.2.1.le) (fun j hj => (h j hj).2.2.1) (fun j hj => (glOm_pos hj).le)
      (fun j hj => by rw [mul_comm]; exact (h j hj).2.2.2.2) hsum p
    rw [ruleSum_map_range]
    show |_ - polyInt p| ≤ _
    rw [hex p hp]
    refine herr.trans (mul_le_mul_of_nonneg_right ?_ (Finset.sum_nonneg fun i _ => abs_nonneg _))
    have hdeg : (p.natDegree : ℝ) ≤ 2 * npts := by
      have : p.natDegree ≤ 2 * npts := natDegree_le_of_degree_le hp.le
      exact_mod_cast this
    have g1 : (p.natDegree : ℝ) * (50 * √(npts : ℝ) * uro) ≤ 2 * npts * (50 * √(npts : ℝ) * uro) :=
      mul_le_mul_of_nonneg_right hdeg (by linarith)
    have g2 : 2 * (200 * (((npts : ℝ) + 1 / 2) ^ 2) + 100 * npts) ≤ 400 * (npts + 1) ^ 2 := by nlinarith
    have g3 := mul_le_mul_of_nonneg_right g2 hRu
    rw [u52]
    linarith

/-- The second outcome occurs: `GaussLegendre(1)` returns. -/
theorem C77_one_point_double (hL : L.Accurate) (b : Build) :
    ∃ x w : ℝ, construct b (gaussLegendre 1 : Outcome (List (F64 L) × List (F64 L))) =
        .ok ⟨[F64.fin x], [F64.fin w]⟩ ∧ |x| ≤ 25 * ε ∧ |w - 2| ≤ 900 * ε := by
  rcases gl_rule_double hL (n := 1) (by norm_num) with h | ⟨x, w, hrule, -, h⟩
  · exact absurd h (gaussLegendre_one hL)
  have u52 : (2⁻¹ : ℝ) ^ 52 = 2 * uro := by rw [uro_eq]; norm_num
  obtain ⟨-, -, h1, -, h2⟩ := h 0 (by norm_num)
  have h0 : glXi 1 0 = 0 := by
    have := glXi_root (n := 1) (j := 0) (by norm_num)
    rwa [legendre_one, eval_X] at this
  have hom : glOm 1 0 = 2 := by
    unfold glOm
    rw [legendre_one]
    simp
  rw [h0, sub_zero, Nat.cast_one, sqrt_one] at h1
  rw [h0, hom, Nat.cast_one, sqrt_one] at h2
  refine ⟨x 0, w 0, by rw [hrule, construct_ok b (by simp)]; rfl, ?_, ?_⟩
  · rw [u52]; linarith
  · rw [u52]; norm_num at h2; linarith

/-- With one, two or three points `GaussLegendre` does not throw: it returns the rule described by C77. -/
theorem C77_few_points_double (hL : L.Accurate) (b : Build) (npts : ℕ) (h1 : 1 ≤ npts) (h3 : npts ≤ 3) :
    ∃ q : Quad (F64 L) (F64 L), construct b (gaussLegendre npts) = .ok q := by
  have key : (gaussLegendre npts : Outcome (List (F64 L) × List (F64 L))) ≠ .throws (.runtimeError glMsg) := by
    obtain rfl | rfl | rfl : npts = 1 ∨ npts = 2 ∨ npts = 3 := by omega
    · exact gaussLegendre_one hL
    · exact gaussLegendre_two hL
    · exact gaussLegendre_three hL
  rcases gl_rule_double hL (n := npts) (by omega) with h | ⟨x, w, hrule, -⟩
  · exact absurd h key
  · exact ⟨_, by rw [hrule, construct_ok b (by simp)]⟩

/-- The hypotheses hold for a correctly rounded library and three points. -/
example (b : Build) : ∃ q : Quad (F64 Libm.correct) (F64 Libm.correct), construct b (gaussLegendre 3) = .ok q :=
  C77_few_points_double Libm.correct_accurate b 3 (by norm_num) le_rfl

/-- The hypotheses hold for a correctly rounded library and 1000 points. -/
example : Libm.correct.Accurate ∧ 1 ≤ 1000 ∧ 1000 ≤ 2 ^ 15 := ⟨Libm.correct_accurate, by norm_num, by norm_num⟩

/-- C76 applies to `eval_Pn(0.5, 20)`. -/
example : ∃ p : ℝ, (evalPn (F64.fin (1 / 2) : F64 L) 20).1 = F64.fin p ∧
    |p - (legendre 20).eval (1 / 2)| ≤ 4 * (20 : ℕ) ^ 2 * ε := by
  have hf : IsF64 (1 / 2) := by
    refine (of_exact (L := L) (rnd_rep 1 (-1) (by norm_num) (by norm_num) (by norm_num)) ?_).2
    rw [abs_of_pos (by norm_num)]
    norm_num
  obtain ⟨p, -, h1, -, h2, -⟩ := C76_evalPn_double (L := L) (1 / 2) hf (by rw [abs_of_pos] <;> norm_num) 20 (by norm_num)
  exact ⟨p, h1, h2⟩

end IntegratorXX
