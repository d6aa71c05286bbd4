import Verif.Spec.GeometricSeries
import Verif.Prop.GaussFunctions
import Verif.Prop.Chebyshev
import Mathlib.Analysis.SpecificLimits.Normed
import Mathlib.Analysis.SpecialFunctions.Integrals.Basic

/-!
# C111: the Gauss rules on functions with a power series
-/

namespace IntegratorXX

open Spec Polynomial Real

private theorem geom_tail {A ρ : ℝ} (h0 : 0 ≤ ρ) (h1 : ρ < 1) (m : ℕ) :
    HasSum (fun k : ℕ => A * ρ ^ (k + m)) (A * ρ ^ m / (1 - ρ)) := by
  have := (hasSum_geometric_of_lt_one h0 h1).mul_left (A * ρ ^ m)
  rw [← div_eq_mul_inv] at this
  have e : (fun k : ℕ => A * ρ ^ (k + m)) = fun k => A * ρ ^ m * ρ ^ k := by
    funext k
    rw [pow_add]
    ring
  rw [e]
  exact this

private theorem geom_approx {f : ℝ → ℝ} {A ρ : ℝ} (hf : GeometricSeries f A ρ) (h0 : 0 ≤ ρ) (h1 : ρ < 1) (m : ℕ) :
    ∃ p : ℝ[X], p.degree < m ∧ ∀ x ∈ Set.Icc (-1 : ℝ) 1, |f x - p.eval x| ≤ A * ρ ^ m / (1 - ρ) := by
  obtain ⟨a, ha, hs⟩ := hf
  refine ⟨∑ k ∈ Finset.range m, C (a k) * X ^ k, ?_, fun x hx => ?_⟩
  · rw [← mem_degreeLT]
    refine Submodule.sum_mem _ fun k hk => ?_
    rw [mem_degreeLT]
    exact (degree_C_mul_X_pow_le k (a k)).trans_lt (by exact_mod_cast Finset.mem_range.1 hk)
  · have e := (hasSum_nat_add_iff' m).2 (hs x hx)
    have ep : (∑ k ∈ Finset.range m, C (a k) * X ^ k : ℝ[X]).eval x = ∑ k ∈ Finset.range m, a k * x ^ k := by
      rw [eval_finsetSum]
      simp
    rw [ep]
    refine e.norm_le_of_bounded (geom_tail h0 h1 m) fun k => ?_
    have hx1 : |x| ≤ 1 := abs_le.2 hx
    rw [Real.norm_eq_abs, abs_mul, abs_pow]
    calc |a (k + m)| * |x| ^ (k + m) ≤ |a (k + m)| * 1 :=
          mul_le_mul_of_nonneg_left (pow_le_one₀ (abs_nonneg _) hx1) (abs_nonneg _)
      _ ≤ _ := by rw [mul_one]; exact ha _

private theorem geom_bound {f : ℝ → ℝ} {A ρ : ℝ} (hf : GeometricSeries f A ρ) (h0 : 0 ≤ ρ) (h1 : ρ < 1)
    {x : ℝ} (hx : x ∈ Set.Icc (-1 : ℝ) 1) : |f x| ≤ A / (1 - ρ) := by
  obtain ⟨p, hp, h⟩ := geom_approx hf h0 h1 0
  have hp0 : p = 0 := by
    rw [← degree_eq_bot]
    by_contra hne
    have := zero_le_degree_iff.2 (fun e => hne (degree_eq_bot.2 e))
    exact absurd hp (not_lt.2 (by simpa using this))
  have := h x hx
  rw [hp0] at this
  simpa using this

private theorem abs_pow_sub_pow_le {x y : ℝ} (hx : |x| ≤ 1) (hy : |y| ≤ 1) (k : ℕ) :
    |x ^ k - y ^ k| ≤ k * |x - y| := by
  induction k with
  | zero => simp
  | succ k ih =>
    have e : x ^ (k + 1) - y ^ (k + 1) = x * (x ^ k - y ^ k) + y ^ k * (x - y) := by ring
    rw [e]
    refine (abs_add_le _ _).trans ?_
    rw [abs_mul, abs_mul, abs_pow]
    have g1 : |x| * |x ^ k - y ^ k| ≤ 1 * (k * |x - y|) :=
      mul_le_mul hx ih (abs_nonneg _) zero_le_one
    have g2 : |y| ^ k * |x - y| ≤ 1 * |x - y| :=
      mul_le_mul_of_nonneg_right (pow_le_one₀ (abs_nonneg _) hy) (abs_nonneg _)
    push_cast
    linarith

private theorem geom_lipschitz {f : ℝ → ℝ} {A ρ : ℝ} (hf : GeometricSeries f A ρ) (h0 : 0 ≤ ρ) (h1 : ρ < 1)
    {x y : ℝ} (hx : x ∈ Set.Icc (-1 : ℝ) 1) (hy : y ∈ Set.Icc (-1 : ℝ) 1) :
    |f x - f y| ≤ A * ρ / (1 - ρ) ^ 2 * |x - y| := by
  obtain ⟨a, ha, hs⟩ := hf
  have hg := (hasSum_coe_mul_geometric_of_norm_lt_one (r := ρ)
    (by rw [Real.norm_eq_abs, abs_of_nonneg h0]; exact h1)).mul_left (A * |x - y|)
  have e : A * |x - y| * (ρ / (1 - ρ) ^ 2) = A * ρ / (1 - ρ) ^ 2 * |x - y| := by ring
  rw [e] at hg
  refine ((hs x hx).sub (hs y hy)).norm_le_of_bounded hg fun k => ?_
  rw [← mul_sub, Real.norm_eq_abs, abs_mul]
  calc |a k| * |x ^ k - y ^ k| ≤ A * ρ ^ k * (k * |x - y|) :=
        mul_le_mul (ha k) (abs_pow_sub_pow_le (abs_le.2 hx) (abs_le.2 hy) k) (abs_nonneg _)
          ((abs_nonneg _).trans (ha k))
    _ = A * |x - y| * (k * ρ ^ k) := by ring

private theorem geom_continuousOn {f : ℝ → ℝ} {A ρ : ℝ} (hf : GeometricSeries f A ρ) (h0 : 0 ≤ ρ) (h1 : ρ < 1) :
    ContinuousOn f (Set.Icc (-1 : ℝ) 1) := by
  have hA : 0 ≤ A := by
    obtain ⟨a, ha, -⟩ := hf
    have := (abs_nonneg _).trans (ha 0)
    simpa using this
  have hK : 0 ≤ A * ρ / (1 - ρ) ^ 2 := by positivity
  refine LipschitzOnWith.continuousOn (K := ⟨_, hK⟩) (LipschitzOnWith.of_dist_le_mul fun x hx y hy => ?_)
  rw [Real.dist_eq, Real.dist_eq]
  exact geom_lipschitz hf h0 h1 hx hy

/-- What the error bound for general functions says about them. -/
private theorem geom_error {m : ℕ} {α β : ℝ} {xs ws : List ℝ} (h : GaussError m α β xs ws) {f : ℝ → ℝ} {A ρ : ℝ}
    (hf : GeometricSeries f A ρ) (h0 : 0 ≤ ρ) (h1 : ρ < 1) :
    |ruleSum xs ws f - ∫ t in (-1 : ℝ)..1, f t| ≤
      4 * (A * ρ ^ m / (1 - ρ)) + α * (A * ρ / (1 - ρ) ^ 2) + β * (A / (1 - ρ)) := by
  obtain ⟨p, hp, hd⟩ := geom_approx hf h0 h1 m
  exact (h f _ _ (fun x hx y hy => geom_lipschitz hf h0 h1 hx hy) (fun x hx => geom_bound hf h0 h1 hx)).1 p _ hp hd

/-- A rule with positive weights that is exact for polynomials times a weight function. -/
private theorem weighted_error {lo up : ℝ} (hlu : lo ≤ up) {σ : ℝ → ℝ} {W : ℝ} (hW : ∫ x in lo..up, σ x = W) (hW0 : W ≠ 0)
    (hσ : ∀ x, 0 ≤ σ x) {xs ws : List ℝ} {m : ℕ} (hm : 1 ≤ m)
    (hx : ∀ x ∈ xs, x ∈ Set.Icc lo up) (hw : ∀ w ∈ ws, 0 ≤ w)
    (hex : ∀ p : ℝ[X], p.degree < m → ruleSum xs ws (fun x => p.eval x * σ x) = ∫ x in lo..up, p.eval x * σ x)
    {f : ℝ → ℝ} (hf : ContinuousOn f (Set.Icc lo up)) {p : ℝ[X]} {δ : ℝ} (hp : p.degree < m)
    (hd : ∀ x ∈ Set.Icc lo up, |f x - p.eval x| ≤ δ) :
    |ruleSum xs ws (fun x => f x * σ x) - ∫ x in lo..up, f x * σ x| ≤ 2 * W * δ := by
  have hI : IntervalIntegrable σ MeasureTheory.volume lo up :=
    intervalIntegral.intervalIntegrable_of_integral_ne_zero (by rw [hW]; exact hW0)
  have hfI : IntervalIntegrable (fun x => f x * σ x) MeasureTheory.volume lo up :=
    hI.continuousOn_mul (by rwa [Set.uIcc_of_le hlu])
  have hpI : IntervalIntegrable (fun x => p.eval x * σ x) MeasureTheory.volume lo up :=
    hI.continuousOn_mul p.continuous.continuousOn
  have g1 : |(∫ x in lo..up, f x * σ x) - ∫ x in lo..up, p.eval x * σ x| ≤ δ * W := by
    rw [← intervalIntegral.integral_sub hfI hpI, ← hW, ← intervalIntegral.integral_const_mul]
    rw [← Real.norm_eq_abs]
    refine intervalIntegral.norm_integral_le_of_norm_le hlu (Filter.Eventually.of_forall fun x hx => ?_)
      (hI.const_mul δ)
    rw [← sub_mul, Real.norm_eq_abs, abs_mul, abs_of_nonneg (hσ x)]
    exact mul_le_mul_of_nonneg_right (hd x ⟨hx.1.le, hx.2⟩) (hσ x)
  have h1 : ruleSum xs ws σ = W := by
    have := hex 1 (by rw [degree_one]; exact_mod_cast hm)
    simpa [hW] using this
  have g2 : |ruleSum xs ws (fun x => f x * σ x) - ruleSum xs ws (fun x => p.eval x * σ x)| ≤ δ * ruleSum xs ws σ := by
    have key : ∀ l : List (ℝ × ℝ), (∀ e ∈ l, e.1 ∈ Set.Icc lo up ∧ 0 ≤ e.2) →
        |(l.map (fun e => e.2 * (f e.1 * σ e.1))).sum - (l.map (fun e => e.2 * (p.eval e.1 * σ e.1))).sum| ≤
          δ * (l.map (fun e => e.2 * σ e.1)).sum := by
      intro l
      induction l with
      | nil => simp
      | cons e l ih =>
        intro hl
        have i1 := ih fun e' he' => hl e' (List.mem_cons_of_mem _ he')
        obtain ⟨i2, i3⟩ := hl e List.mem_cons_self
        simp only [List.map_cons, List.sum_cons]
        have i4 : |e.2 * (f e.1 * σ e.1) - e.2 * (p.eval e.1 * σ e.1)| ≤ δ * (e.2 * σ e.1) := by
          have : e.2 * (f e.1 * σ e.1) - e.2 * (p.eval e.1 * σ e.1) = (f e.1 - p.eval e.1) * (e.2 * σ e.1) := by ring
          have i5 : 0 ≤ e.2 * σ e.1 := mul_nonneg i3 (hσ _)
          rw [this, abs_mul, abs_of_nonneg i5]
          exact mul_le_mul_of_nonneg_right (hd _ i2) i5
        rw [abs_le] at *
        constructor <;> linarith [i1.1, i1.2, i4.1, i4.2]
    exact key _ fun e he => ⟨hx _ (List.of_mem_zip he).1, hw _ (List.of_mem_zip he).2⟩
  rw [h1, hex p hp] at g2
  rw [abs_le] at *
  constructor <;> linarith [g1.1, g1.2, g2.1, g2.2]

/-- **C111.**  GaussLegendre and GaussLobatto in exact arithmetic: on a function with a power series of ratio `ρ` the
error decreases like `ρ ^ (2 npts)`, until it reaches the tolerance of the Newton iteration. -/
theorem C111_gauss_legendre (b : Build) (npts : ℕ) (hn1 : 1 ≤ npts) (hn : npts ≤ 2 ^ 20) :
    ∃ x w : List ℝ, construct b (gaussLegendre npts : Outcome (List XReal × List XReal)) =
        .ok ⟨x.map .fin, w.map .fin⟩ ∧
      ∀ (f : ℝ → ℝ) (A ρ : ℝ), GeometricSeries f A ρ → 0 ≤ ρ → ρ < 1 →
        |ruleSum x w f - ∫ t in (-1 : ℝ)..1, f t| ≤ 4 * (A * ρ ^ (2 * npts) / (1 - ρ)) +
          3 * 2⁻¹ ^ 52 * (A * ρ / (1 - ρ) ^ 2) + 8 * (npts + 1) ^ 2 * 2⁻¹ ^ 52 * (A / (1 - ρ)) := by
  obtain ⟨x, w, hc, h⟩ := C96_gauss_legendre b npts hn1 hn
  exact ⟨x, w, hc, fun f A ρ hf h0 h1 => geom_error h hf h0 h1⟩

theorem C111_gauss_lobatto (b : Build) (npts : ℕ) (hn2 : 2 ≤ npts) (hn : npts ≤ 2 ^ 20) :
    ∃ x w : List ℝ, construct b (gaussLobatto npts : Outcome (List XReal × List XReal)) =
        .ok ⟨x.map .fin, w.map .fin⟩ ∧
      ∀ (f : ℝ → ℝ) (A ρ : ℝ), GeometricSeries f A ρ → 0 ≤ ρ → ρ < 1 →
        |ruleSum x w f - ∫ t in (-1 : ℝ)..1, f t| ≤ 4 * (A * ρ ^ (2 * npts - 2) / (1 - ρ)) +
          3 * 2⁻¹ ^ 52 * (A * ρ / (1 - ρ) ^ 2) + 4 * npts ^ 2 * 2⁻¹ ^ 52 * (A / (1 - ρ)) := by
  obtain ⟨x, w, hc, h⟩ := C96_gauss_lobatto b npts hn2 hn
  exact ⟨x, w, hc, fun f A ρ hf h0 h1 => geom_error h hf h0 h1⟩

section Double

variable {L : Libm}

/-- The same rules in `double` arithmetic. -/
theorem C111_gauss_legendre_double (hL : L.Accurate) (b : Build) (npts : ℕ) (hn1 : 1 ≤ npts) (hn : npts ≤ 2 ^ 15) :
    construct b (gaussLegendre npts : Outcome (List (F64 L) × List (F64 L))) =
      .throws (.runtimeError "Gauss-Legendre Newton Iterations Failed to Converge") ∨
    ∃ (q : Quad (F64 L) (F64 L)) (xs ws : List ℝ),
      construct b (gaussLegendre npts) = .ok q ∧ Doubles q.points xs ∧ Doubles q.weights ws ∧
      ∀ (f : ℝ → ℝ) (A ρ : ℝ), GeometricSeries f A ρ → 0 ≤ ρ → ρ < 1 →
        |ruleSum xs ws f - ∫ t in (-1 : ℝ)..1, f t| ≤ 4 * (A * ρ ^ (2 * npts) / (1 - ρ)) +
          50 * √(npts : ℝ) * 2⁻¹ ^ 52 * (A * ρ / (1 - ρ) ^ 2) +
          200 * √(npts : ℝ) * (npts + 1) ^ 2 * 2⁻¹ ^ 52 * (A / (1 - ρ)) := by
  refine (C96_gauss_legendre_double hL b npts hn1 hn).imp_right ?_
  rintro ⟨q, xs, ws, h1, h2, h3, h⟩
  exact ⟨q, xs, ws, h1, h2, h3, fun f A ρ hf h0 h1 => geom_error h hf h0 h1⟩

theorem C111_gauss_lobatto_double (hL : L.Accurate) (b : Build) (npts : ℕ) (hn2 : 2 ≤ npts) (hn : npts ≤ 2 ^ 15) :
    construct b (gaussLobatto npts : Outcome (List (F64 L) × List (F64 L))) =
      .throws (.runtimeError "Gauss-Lobatto Newton Iterations Failed to Converge") ∨
    ∃ (q : Quad (F64 L) (F64 L)) (xs ws : List ℝ),
      construct b (gaussLobatto npts) = .ok q ∧ Doubles q.points xs ∧ Doubles q.weights ws ∧
      ∀ (f : ℝ → ℝ) (A ρ : ℝ), GeometricSeries f A ρ → 0 ≤ ρ → ρ < 1 →
        |ruleSum xs ws f - ∫ t in (-1 : ℝ)..1, f t| ≤ 4 * (A * ρ ^ (2 * npts - 2) / (1 - ρ)) +
          60 * √(npts : ℝ) * 2⁻¹ ^ 52 * (A * ρ / (1 - ρ) ^ 2) +
          80 * √(npts : ℝ) * npts ^ 2 * 2⁻¹ ^ 52 * (A / (1 - ρ)) := by
  refine (C96_gauss_lobatto_double hL b npts hn2 hn).imp_right ?_
  rintro ⟨q, xs, ws, h1, h2, h3, h⟩
  exact ⟨q, xs, ws, h1, h2, h3, fun f A ρ hf h0 h1 => geom_error h hf h0 h1⟩

end Double

private theorem degree_lt_two_mul {p : ℝ[X]} {n : ℕ} (hp : p.degree < (2 * n : ℕ)) : p.degree < 2 * n := by
  exact_mod_cast hp

/-- The Gauss–Chebyshev rules, for the integrals with their weight functions. -/
theorem C111_gauss_chebyshev_1 (b : Build) (npts : ℕ) (hn : 1 ≤ npts) :
    Returns (construct b (gaussChebyshev1 npts)) (fun q =>
      ∀ (f : ℝ → ℝ) (A ρ : ℝ), GeometricSeries f A ρ → 0 ≤ ρ → ρ < 1 →
        |ruleSum q.points q.weights (fun x => f x / √(1 - x ^ 2)) - ∫ x in (-1 : ℝ)..1, f x / √(1 - x ^ 2)| ≤
          2 * π * (A * ρ ^ (2 * npts) / (1 - ρ))) := by
  obtain ⟨q, hq, -, hx, hw⟩ := C03_gc1_sorted b npts
  refine ⟨q, hq, fun f A ρ hf h0 h1 => ?_⟩
  obtain ⟨p, hp, hd⟩ := geom_approx hf h0 h1 (2 * npts)
  have hW : ∫ x in (-1 : ℝ)..1, (√(1 - x ^ 2))⁻¹ = π := by
    have := Chebyshev.integral_eval_T_real_measureT_zero
    rw [Chebyshev.integral_measureT] at this
    simpa using this
  simp only [div_eq_mul_inv]
  simp only [← div_eq_mul_inv (A * ρ ^ (2 * npts)) (1 - ρ)]
  refine weighted_error (σ := fun x => (√(1 - x ^ 2))⁻¹) (m := 2 * npts) (by norm_num) hW pi_pos.ne'
    (fun x => by positivity) (by omega) (fun x h => ⟨(hx x h).1.le, (hx x h).2.le⟩) (fun w h => (hw w h).le)
    (fun r hr => ?_) (geom_continuousOn hf h0 h1) hp hd
  obtain ⟨q', hq', h⟩ := C04_gc1_exact b npts hn r (degree_lt_two_mul hr)
  rw [hq] at hq'
  cases hq'
  simpa only [div_eq_mul_inv] using h

theorem C111_gauss_chebyshev_2 (b : Build) (npts : ℕ) (hn : 1 ≤ npts) :
    Returns (construct b (gaussChebyshev2 npts)) (fun q =>
      ∀ (f : ℝ → ℝ) (A ρ : ℝ), GeometricSeries f A ρ → 0 ≤ ρ → ρ < 1 →
        |ruleSum q.points q.weights (fun x => f x * √(1 - x ^ 2)) - ∫ x in (-1 : ℝ)..1, f x * √(1 - x ^ 2)| ≤
          π * (A * ρ ^ (2 * npts) / (1 - ρ))) := by
  obtain ⟨q, hq, -, hx, hw⟩ := C05_gc2_sorted b npts
  refine ⟨q, hq, fun f A ρ hf h0 h1 => ?_⟩
  obtain ⟨p, hp, hd⟩ := geom_approx hf h0 h1 (2 * npts)
  have hpi := pi_pos
  have := weighted_error (σ := fun x => √(1 - x ^ 2)) (m := 2 * npts) (by norm_num) integral_sqrt_one_sub_sq
    (by positivity) (fun x => by positivity) (by omega) (fun x h => ⟨(hx x h).1.le, (hx x h).2.le⟩)
    (fun w h => (hw w h).le) (fun r hr => ?_) (geom_continuousOn hf h0 h1) hp hd
  · exact this.trans (le_of_eq (by ring))
  · obtain ⟨q', hq', h⟩ := C06_gc2_exact b npts r (degree_lt_two_mul hr)
    rw [hq] at hq'
    cases hq'
    exact h

theorem C111_gauss_chebyshev_3 (b : Build) (npts : ℕ) (hn : 1 ≤ npts) :
    Returns (construct b (gaussChebyshev3 npts)) (fun q =>
      ∀ (f : ℝ → ℝ) (A ρ : ℝ), GeometricSeries f A ρ → 0 ≤ ρ → ρ < 1 →
        |ruleSum q.points q.weights (fun x => f x * √(x / (1 - x))) - ∫ x in (0 : ℝ)..1, f x * √(x / (1 - x))| ≤
          π * (A * ρ ^ (2 * npts) / (1 - ρ))) := by
  obtain ⟨q, hq, -, hx, hw⟩ := C07_gc3_sorted b npts
  refine ⟨q, hq, fun f A ρ hf h0 h1 => ?_⟩
  obtain ⟨p, hp, hd⟩ := geom_approx hf h0 h1 (2 * npts)
  have hpi := pi_pos
  have hW : ∫ x in (0 : ℝ)..1, √(x / (1 - x)) = π / 2 := by
    have e := integral_gc3 1
    have e2 := Chebyshev.integral_T_real_mul_self_measureT_of_ne_zero (n := 1) (by norm_num)
    simp only [eval_one, one_mul, one_comp, mul_one, eval_pow, eval_X] at e
    rw [e, ← e2]
    simp [Chebyshev.T_one, pow_two]
  have hsub : Set.Icc (0 : ℝ) 1 ⊆ Set.Icc (-1) 1 := Set.Icc_subset_Icc_left (by norm_num)
  have := weighted_error (σ := fun x => √(x / (1 - x))) (m := 2 * npts) (by norm_num) hW
    (by positivity) (fun x => by positivity) (by omega) (fun x h => ⟨(hx x h).1.le, (hx x h).2.le⟩)
    (fun w h => (hw w h).le) (fun r hr => ?_) ((geom_continuousOn hf h0 h1).mono hsub) hp
    (fun x h => hd x (hsub h))
  · exact this.trans (le_of_eq (by ring))
  · obtain ⟨q', hq', h⟩ := C08_gc3_exact b npts r (degree_lt_two_mul hr)
    rw [hq] at hq'
    cases hq'
    simpa only [mul_comm] using h

/-- `1 / (2 - x)` has such a series, with ratio 1/2. -/
example : GeometricSeries (fun x => 1 / (2 - x)) (1 / 2) (1 / 2) := by
  refine ⟨fun k => 1 / 2 * (1 / 2) ^ k, fun k => le_of_eq (abs_of_nonneg (by positivity)), fun x hx => ?_⟩
  have hx' : |x / 2| < 1 := by
    rw [abs_div, abs_two]
    have := abs_le.2 hx
    linarith
  have := (hasSum_geometric_of_norm_lt_one (ξ := x / 2) hx').mul_left (1 / 2)
  have e : (1 / 2 : ℝ) * (1 - x / 2)⁻¹ = 1 / (2 - x) := by
    have h2 : (2 - x) ≠ 0 := by linarith [hx.2]
    have h3 : (1 - x / 2) ≠ 0 := by linarith [hx.2]
    field_simp
  rw [e] at this
  convert! this using 2 with k
  show 1 / 2 * (1 / 2) ^ k * x ^ k = _
  rw [div_pow, div_pow, one_pow]
  ring

end IntegratorXX
