import Verif.Lemmas.ChebReal
import Mathlib.Analysis.SpecialFunctions.Trigonometric.Deriv
import Mathlib.Analysis.Calculus.Deriv.MeanValue
import Mathlib.Tactic.ComputeDegree

/-!
# C01–C10: the Gauss–Chebyshev rules
-/

namespace IntegratorXX

open Spec Polynomial

section AnyArithmetic

variable {F : Type} [Add F] [Sub F] [Mul F] [Div F] [Neg F] [Arith F]

/-- **C01.**  In every arithmetic and every build the four Chebyshev rules are constructed
without any failing access, with exactly `npts` points and weights. -/
theorem C01_chebyshev_sizes (b : Build) (npts : ℕ) :
    Returns (construct b (gaussChebyshev1 npts : Outcome (List F × List F)))
        (fun q => q.points.length = npts ∧ q.weights.length = npts) ∧
    Returns (construct b (gaussChebyshev2 npts : Outcome (List F × List F)))
        (fun q => q.points.length = npts ∧ q.weights.length = npts) ∧
    Returns (construct b (gaussChebyshev2Modified npts : Outcome (List F × List F)))
        (fun q => q.points.length = npts ∧ q.weights.length = npts) ∧
    Returns (construct b (gaussChebyshev3 npts : Outcome (List F × List F)))
        (fun q => q.points.length = npts ∧ q.weights.length = npts) := by
  rw [gaussChebyshev1_eq, gaussChebyshev2_eq, gaussChebyshev2Modified_eq, gaussChebyshev3_eq,
    construct_ok b (by simp), construct_ok b (by simp), construct_ok b (by simp),
    construct_ok b (by simp)]
  refine ⟨⟨_, rfl, ?_⟩, ⟨_, rfl, ?_⟩, ⟨_, rfl, ?_⟩, ⟨_, rfl, ?_⟩⟩ <;> simp

example : Returns (construct ⟨true⟩ (gaussChebyshev1 5 : Outcome (List ℝ × List ℝ)))
    (fun q => q.points.length = 5 ∧ q.weights.length = 5) := (C01_chebyshev_sizes _ 5).1

/-- Mirror symmetry of a rule of size `n`: entry `n-1-i` is the negation of entry `i`
(weights: a copy of it), the centre node of an odd rule is the literal `0.0`. -/
def MirrorSymmetric {F : Type} [Neg F] [Arith F] (n : ℕ) (q : Quad F F) : Prop :=
  (∀ i, i < n / 2 → ∃ x w, q.points[i]? = some x ∧ q.points[n - 1 - i]? = some (-x) ∧
    q.weights[i]? = some w ∧ q.weights[n - 1 - i]? = some w) ∧
  (n % 2 = 1 → q.points[n / 2]? = some (Arith.lit 0))

omit [Add F] [Sub F] [Mul F] [Div F] in
private theorem mirror_of_closed (n : ℕ) (x w : ℕ → F) (c c' : F) (hc : c = Arith.lit 0) :
    MirrorSymmetric n ⟨(List.range n).map (mirrorFn n x (fun x => -x) c),
      (List.range n).map (mirrorFn n w id c')⟩ := by
  subst hc
  constructor
  · intro i hi
    refine ⟨x i, w i, ?_, ?_, ?_, ?_⟩ <;> simp only [getElem?_map_range, mirrorFn]
    · rw [if_pos (by omega), if_pos hi]
    · rw [if_pos (by omega), if_neg (by omega), if_neg (by omega),
        show n - 1 - (n - 1 - i) = i by omega]
    · rw [if_pos (by omega), if_pos hi]
    · rw [if_pos (by omega), if_neg (by omega), if_neg (by omega),
        show n - 1 - (n - 1 - i) = i by omega, id]
  · intro h
    simp only [getElem?_map_range, mirrorFn]
    rw [if_pos (by omega), if_neg (by omega), if_pos ⟨h, trivial⟩]

/-- **C02.**  The three reflected Chebyshev rules are exactly mirror symmetric in every
arithmetic. -/
theorem C02_chebyshev_mirror (b : Build) (npts : ℕ) :
    Returns (construct b (gaussChebyshev1 npts : Outcome (List F × List F)))
      (MirrorSymmetric npts) ∧
    Returns (construct b (gaussChebyshev2 npts : Outcome (List F × List F)))
      (MirrorSymmetric npts) ∧
    Returns (construct b (gaussChebyshev2Modified npts : Outcome (List F × List F)))
      (MirrorSymmetric npts) := by
  rw [gaussChebyshev1_eq, gaussChebyshev2_eq, gaussChebyshev2Modified_eq,
    construct_ok b (by simp), construct_ok b (by simp), construct_ok b (by simp)]
  exact ⟨⟨_, rfl, mirror_of_closed _ _ _ _ _ rfl⟩, ⟨_, rfl, mirror_of_closed _ _ _ _ _ rfl⟩,
    ⟨_, rfl, mirror_of_closed _ _ _ _ _ rfl⟩⟩

example : Returns (construct ⟨false⟩ (gaussChebyshev2 7 : Outcome (List ℝ × List ℝ)))
    (MirrorSymmetric 7) := (C02_chebyshev_mirror _ 7).2.1

end AnyArithmetic

open Real

/-- Nodes strictly increasing in the open interval `(lo, up)`, weights positive. -/
def SortedInterior (lo up : ℝ) (q : Quad ℝ ℝ) : Prop :=
  Increasing q.points ∧ (∀ x ∈ q.points, lo < x ∧ x < up) ∧ (∀ w ∈ q.weights, 0 < w)

/-- **C03.** -/
theorem C03_gc1_sorted (b : Build) (npts : ℕ) :
    Returns (construct b (gaussChebyshev1 npts)) (SortedInterior (-1) 1) := by
  refine ⟨_, gc1_real npts b, ?_, ?_, ?_⟩
  · apply increasing_map_range
    intro i j hij hj
    exact cos_lt_cos_of_nonneg_of_le_pi (gc1A_pos hj).le (gc1A_lt (by omega)).le (gc1A_anti hij hj)
  · simp only [List.mem_map, List.mem_range]
    rintro x ⟨j, hj, rfl⟩
    have h0 := gc1A_pos hj
    have h1 := gc1A_lt hj
    constructor
    · rw [← cos_pi]; exact cos_lt_cos_of_nonneg_of_le_pi h0.le le_rfl h1
    · rw [← cos_zero]; exact cos_lt_cos_of_nonneg_of_le_pi le_rfl h1.le h0
  · simp only [List.mem_map, List.mem_range]
    rintro x ⟨j, hj, rfl⟩
    have hn : (0 : ℝ) < npts := by exact_mod_cast (by omega : 0 < npts)
    have := sin_pos_of_pos_of_lt_pi (gc1A_pos hj) (gc1A_lt hj)
    have := pi_pos
    positivity

example : Returns (construct ⟨true⟩ (gaussChebyshev1 4)) (SortedInterior (-1) 1) :=
  C03_gc1_sorted _ 4

/-- **C04.**  GaussChebyshev1 integrates `p(x)/√(1-x²)` exactly for `deg p < 2 npts`. -/
theorem C04_gc1_exact (b : Build) (npts : ℕ) (hn : 1 ≤ npts) (p : ℝ[X])
    (hp : p.degree < 2 * npts) :
    Returns (construct b (gaussChebyshev1 npts)) (fun q =>
      ruleSum q.points q.weights (fun x => p.eval x / √(1 - x ^ 2)) =
        ∫ x in (-1)..1, p.eval x / √(1 - x ^ 2)) := by
  refine ⟨_, gc1_real npts b, ?_⟩
  dsimp only
  rw [ruleSum_map_range]
  have h1 : ∫ x in (-1 : ℝ)..1, p.eval x / √(1 - x ^ 2) = Chebyshev.sumZeroes npts p := by
    rw [← Chebyshev.integral_eq_sumZeroes (by omega) hp, Chebyshev.integral_measureT]
    simp only [div_eq_mul_inv, Real.sqrt_inv]
  rw [h1, Chebyshev.sumZeroes, Finset.mul_sum, ← Finset.sum_range_reflect]
  refine Finset.sum_congr rfl fun j hj => ?_
  have hj : j < npts := by simpa using hj
  have e1 : npts - 1 - (npts - 1 - j) = j := by omega
  have hj' : npts - 1 - j < npts := by omega
  have h0 := gc1A_pos hj'
  have h1 := gc1A_lt hj'
  have hs := sin_pos_of_pos_of_lt_pi h0 h1
  rw [sq, sqrt_one_sub_cos_mul h0.le h1.le]
  have e2 : gc1A npts (npts - 1 - j) = (2 * (j : ℝ) + 1) / (2 * npts) * π := by
    rw [gc1A, e1]
  rw [← e2]
  field_simp

example : (1 ≤ 2) ∧ (X ^ 3 + X : ℝ[X]).degree < 2 * (2 : ℕ) :=
  ⟨by norm_num, lt_of_le_of_lt (b := (3 : WithBot ℕ)) (by compute_degree) (by norm_num)⟩

/-- **C05.** -/
theorem C05_gc2_sorted (b : Build) (npts : ℕ) :
    Returns (construct b (gaussChebyshev2 npts)) (SortedInterior (-1) 1) := by
  refine ⟨_, gc2_real npts b, ?_, ?_, ?_⟩
  · apply increasing_map_range
    intro i j hij hj
    exact cos_lt_cos_of_nonneg_of_le_pi (gc2A_pos hj).le gc2A_lt.le (gc2A_anti hij hj)
  · simp only [List.mem_map, List.mem_range]
    rintro x ⟨j, hj, rfl⟩
    have h0 := gc2A_pos hj
    have h1 := gc2A_lt (n := npts) (j := j)
    constructor
    · rw [← cos_pi]; exact cos_lt_cos_of_nonneg_of_le_pi h0.le le_rfl h1
    · rw [← cos_zero]; exact cos_lt_cos_of_nonneg_of_le_pi le_rfl h1.le h0
  · simp only [List.mem_map, List.mem_range]
    rintro x ⟨j, hj, rfl⟩
    have := sin_pos_of_pos_of_lt_pi (gc2A_pos hj) gc2A_lt
    have := pi_pos
    positivity

example : Returns (construct ⟨true⟩ (gaussChebyshev2 6)) (SortedInterior (-1) 1) :=
  C05_gc2_sorted _ 6

private theorem degree_one_sub_sq_mul {n : ℕ} {p : ℝ[X]} (hp : p.degree < 2 * n) :
    ((1 - X ^ 2) * p : ℝ[X]).degree < 2 * (n + 1 : ℕ) := by
  by_cases h0 : p = 0
  · subst h0; simp; exact WithBot.bot_lt_coe _
  · have hd : p.natDegree < 2 * n := by
      rw [degree_eq_natDegree h0] at hp; exact_mod_cast hp
    have h1 : ((1 - X ^ 2) * p : ℝ[X]).natDegree ≤ 2 + p.natDegree :=
      natDegree_mul_le_of_le (by compute_degree) le_rfl
    refine lt_of_le_of_lt degree_le_natDegree ?_
    exact_mod_cast (show ((1 - X ^ 2) * p : ℝ[X]).natDegree < 2 * (n + 1) by omega)

/-- **C06.**  GaussChebyshev2 integrates `p(x) √(1-x²)` exactly for `deg p < 2 npts`. -/
theorem C06_gc2_exact (b : Build) (npts : ℕ) (p : ℝ[X]) (hp : p.degree < 2 * npts) :
    Returns (construct b (gaussChebyshev2 npts)) (fun q =>
      ruleSum q.points q.weights (fun x => p.eval x * √(1 - x ^ 2)) =
        ∫ x in (-1)..1, p.eval x * √(1 - x ^ 2)) := by
  refine ⟨_, gc2_real npts b, ?_⟩
  dsimp only
  rw [ruleSum_map_range]
  have h1 : ∫ x in (-1 : ℝ)..1, p.eval x * √(1 - x ^ 2) = sumExtrema npts ((1 - X ^ 2) * p) := by
    rw [← integral_eq_sumExtrema (degree_one_sub_sq_mul hp), Chebyshev.integral_measureT]
    refine intervalIntegral.integral_congr fun x hx => ?_
    rw [Set.uIcc_of_le (by norm_num)] at hx
    have hx' : 0 ≤ 1 - x ^ 2 := by nlinarith [hx.1, hx.2]
    simp only [eval_mul, eval_sub, eval_one, eval_pow, eval_X, Real.sqrt_inv]
    rcases hx'.eq_or_lt with h | h
    · simp [← h]
    · have h2 := sqrt_pos.mpr h
      nth_rewrite 2 [← mul_self_sqrt hx']
      field_simp
  rw [h1, sumExtrema, ← Finset.sum_range_reflect]
  simp only [eval_mul, eval_sub, eval_one, eval_pow, eval_X]
  norm_num
  rw [Finset.mul_sum]
  refine Finset.sum_congr rfl fun j hj => ?_
  have hj : j < npts := by simpa using hj
  have hj' : npts - 1 - j < npts := by omega
  have h0 := gc2A_pos hj'
  have h1 := gc2A_lt (n := npts) (j := npts - 1 - j)
  rw [sq, sqrt_one_sub_cos_mul h0.le h1.le]
  have e2 : gc2A npts (npts - 1 - j) = ((j : ℝ) + 1) * π / (npts + 1) := by
    rw [gc2A, show npts - (npts - 1 - j) = j + 1 by omega]; push_cast; ring
  rw [← e2, show 1 - cos (gc2A npts (npts - 1 - j)) ^ 2 = sin (gc2A npts (npts - 1 - j)) ^ 2 by
    rw [sin_sq]]
  ring

example : (X ^ 5 - 2 * X : ℝ[X]).degree < 2 * (3 : ℕ) :=
  lt_of_le_of_lt (b := (5 : WithBot ℕ)) (by compute_degree) (by norm_num)

/-- **C07.** -/
theorem C07_gc3_sorted (b : Build) (npts : ℕ) :
    Returns (construct b (gaussChebyshev3 npts)) (SortedInterior 0 1) := by
  have hc : ∀ j, j < npts → 0 < cos (gc3A npts j) := fun j hj =>
    cos_pos_of_mem_Ioo ⟨by linarith [gc3A_pos (n := npts) (j := j), pi_pos], gc3A_lt hj⟩
  have hpi := pi_pos
  refine ⟨_, gc3_real npts b, ?_, ?_, ?_⟩
  · apply increasing_map_range
    intro i j hij hj
    have := cos_lt_cos_of_nonneg_of_le_pi gc3A_pos.le
      (show gc3A npts i ≤ π by linarith [gc3A_lt (show i < npts by omega)]) (gc3A_anti hij hj)
    exact pow_lt_pow_left₀ this (hc i (by omega)).le (by norm_num)
  · simp only [List.mem_map, List.mem_range]
    rintro x ⟨j, hj, rfl⟩
    have h2 := hc j hj
    refine ⟨by positivity, ?_⟩
    have : cos (gc3A npts j) < 1 := by
      rw [← cos_zero]
      exact cos_lt_cos_of_nonneg_of_le_pi le_rfl (by linarith [gc3A_lt hj]) gc3A_pos
    nlinarith
  · simp only [List.mem_map, List.mem_range]
    rintro x ⟨j, hj, rfl⟩
    have := hc j hj
    have := sin_pos_of_pos_of_lt_pi (gc3A_pos (n := npts) (j := j)) (by linarith [gc3A_lt hj])
    positivity

example : Returns (construct ⟨true⟩ (gaussChebyshev3 3)) (SortedInterior 0 1) :=
  C07_gc3_sorted _ 3

theorem integral_gc3 (p : ℝ[X]) :
    ∫ x in (0 : ℝ)..1, p.eval x * √(x / (1 - x)) =
      ∫ x, (X ^ 2 * p.comp (X ^ 2) : ℝ[X]).eval x ∂Chebyshev.measureT := by
  have hpi := pi_pos
  -- the integrand in the angle
  have e1 : ∫ x in (0 : ℝ)..1, p.eval x * √(x / (1 - x)) =
      (1 / 2) * ∫ u in (-1 : ℝ)..1, (p.eval ((1 + u) / 2) * (1 + u)) * √(1 - u ^ 2)⁻¹ := by
    have h := intervalIntegral.integral_comp_add_mul (a := (-1 : ℝ)) (b := 1)
      (fun x => p.eval x * √(x / (1 - x))) (c := 1 / 2) (by norm_num) (1 / 2)
    norm_num at h
    have h' : ∫ x in (0 : ℝ)..1, p.eval x * √(x / (1 - x)) =
        (1 / 2) * ∫ u in (-1 : ℝ)..1,
          p.eval (1 / 2 + 1 / 2 * u) * √((1 / 2 + 1 / 2 * u) / (1 - (1 / 2 + 1 / 2 * u))) := by
      rw [h]; ring
    rw [h']
    congr 1
    refine intervalIntegral.integral_congr_uIoo ?_
    intro u hu
    rw [Set.uIoo_of_le (by norm_num)] at hu
    have h1 : 0 < 1 + u := by linarith [hu.1]
    have h2 : 0 < 1 - u := by linarith [hu.2]
    have e : (1 / 2 + 1 / 2 * u) / (1 - (1 / 2 + 1 / 2 * u)) = (1 + u) ^ 2 * (1 - u ^ 2)⁻¹ := by
      have : 1 - u ^ 2 ≠ 0 := by nlinarith
      have h3 : (1 - (1 / 2 + 1 / 2 * u)) ≠ 0 := by linarith
      rw [show 1 - u ^ 2 = (1 - u) * (1 + u) by ring,
        show (1 - (1 / 2 + 1 / 2 * u)) = (1 - u) / 2 by ring]
      field_simp
    simp only []
    rw [e, sqrt_mul (by positivity), sqrt_sq h1.le,
      show (1 : ℝ) / 2 + 1 / 2 * u = (1 + u) / 2 by ring]
    ring
  rw [e1, ← Chebyshev.integral_measureT, Chebyshev.integral_measureT_eq_integral_cos,
    Chebyshev.integral_measureT_eq_integral_cos]
  -- both sides in terms of `q t = cos² t p(cos² t)`
  have e2 : ∀ t : ℝ, p.eval ((1 + cos t) / 2) * (1 + cos t) =
      2 * (fun s => cos s ^ 2 * p.eval (cos s ^ 2)) (t / 2) := by
    intro t
    have : cos (t / 2) ^ 2 = (1 + cos t) / 2 := by
      rw [cos_sq]; ring_nf
    simp only [this]; ring
  simp_rw [e2]
  rw [intervalIntegral.integral_const_mul]
  rw [intervalIntegral.integral_comp_div (fun s => cos s ^ 2 * p.eval (cos s ^ 2)) two_ne_zero]
  simp only [eval_mul, eval_pow, eval_X, eval_comp, zero_div, smul_eq_mul]
  have hcont : Continuous fun s : ℝ => cos s ^ 2 * p.eval (cos s ^ 2) :=
    (by fun_prop)
  have e3 : ∫ s in (π / 2)..π, cos s ^ 2 * p.eval (cos s ^ 2) =
      ∫ s in (0)..(π / 2), cos s ^ 2 * p.eval (cos s ^ 2) := by
    have := intervalIntegral.integral_comp_sub_left (a := 0) (b := π / 2)
      (fun s => cos s ^ 2 * p.eval (cos s ^ 2)) π
    rw [sub_zero, show π - π / 2 = π / 2 by ring] at this
    rw [← this]
    simp only [cos_pi_sub, neg_sq]
  rw [← intervalIntegral.integral_add_adjacent_intervals (a := 0) (b := π / 2) (c := π)
    (hcont.intervalIntegrable _ _) (hcont.intervalIntegrable _ _), e3]
  ring

private theorem degree_gc3 {n : ℕ} {p : ℝ[X]} (hp : p.degree < 2 * n) :
    (X ^ 2 * p.comp (X ^ 2) : ℝ[X]).degree < 2 * (2 * n + 1 : ℕ) := by
  by_cases h0 : p = 0
  · subst h0; simp; exact WithBot.bot_lt_coe _
  · have hd : p.natDegree < 2 * n := by
      rw [degree_eq_natDegree h0] at hp; exact_mod_cast hp
    have h1 : (X ^ 2 * p.comp (X ^ 2) : ℝ[X]).natDegree ≤ 2 + p.natDegree * 2 :=
      natDegree_mul_le_of_le (by compute_degree) (by rw [natDegree_comp]; simp)
    refine lt_of_le_of_lt degree_le_natDegree ?_
    exact_mod_cast (show (X ^ 2 * p.comp (X ^ 2) : ℝ[X]).natDegree < 2 * (2 * n + 1) by omega)

/-- **C08.**  GaussChebyshev3 integrates `p(x) √(x/(1-x))` over `[0,1]` exactly for
`deg p < 2 npts`. -/
theorem C08_gc3_exact (b : Build) (npts : ℕ) (p : ℝ[X]) (hp : p.degree < 2 * npts) :
    Returns (construct b (gaussChebyshev3 npts)) (fun q =>
      ruleSum q.points q.weights (fun x => √(x / (1 - x)) * p.eval x) =
        ∫ x in (0)..1, p.eval x * √(x / (1 - x))) := by
  have hpi := pi_pos
  refine ⟨_, gc3_real npts b, ?_⟩
  dsimp only
  rw [ruleSum_map_range, integral_gc3,
    Chebyshev.integral_eq_sumZeroes (n := 2 * npts + 1) (by omega) (degree_gc3 hp),
    Chebyshev.sumZeroes]
  -- name the summand of the full rule
  set g : ℕ → ℝ := fun i => (X ^ 2 * p.comp (X ^ 2) : ℝ[X]).eval
    (cos ((2 * (i : ℝ) + 1) / (2 * ((2 * npts + 1 : ℕ) : ℝ)) * π)) with hg
  have hrefl : ∀ i, i < 2 * npts + 1 → g (2 * npts - i) = g i := by
    intro i hi
    have : (2 * ((2 * npts - i : ℕ) : ℝ) + 1) / (2 * ((2 * npts + 1 : ℕ) : ℝ)) * π =
        π - (2 * (i : ℝ) + 1) / (2 * ((2 * npts + 1 : ℕ) : ℝ)) * π := by
      rw [Nat.cast_sub (by omega)]; push_cast
      have : (2 * (npts : ℝ) + 1) ≠ 0 := by positivity
      field_simp; ring
    simp only [hg, eval_mul, eval_pow, eval_X, eval_comp]
    rw [this, cos_pi_sub, neg_sq]
  have hmid : g npts = 0 := by
    have : (2 * (npts : ℝ) + 1) / (2 * ((2 * npts + 1 : ℕ) : ℝ)) * π = π / 2 := by
      have : (2 * (npts : ℝ) + 1) ≠ 0 := by positivity
      push_cast; field_simp
    simp only [hg, eval_mul, eval_pow, eval_X, eval_comp]
    rw [this]; simp
  have hsum : ∑ i ∈ Finset.range (2 * npts + 1), g i = 2 * ∑ i ∈ Finset.range npts, g i := by
    rw [show 2 * npts + 1 = npts + (1 + npts) by ring, Finset.sum_range_add, Finset.sum_range_add,
      Finset.sum_range_one, add_zero, hmid, zero_add, two_mul]
    congr 1
    rw [← Finset.sum_range_reflect]
    refine Finset.sum_congr rfl fun j hj => ?_
    have hj : j < npts := by simpa using hj
    rw [← hrefl j (by omega)]
    congr 1; omega
  rw [hsum, ← Finset.sum_range_reflect, Finset.mul_sum, Finset.mul_sum]
  refine Finset.sum_congr rfl fun j hj => ?_
  have hj : j < npts := by simpa using hj
  have hj' : npts - 1 - j < npts := by omega
  have e2 : (2 * (j : ℝ) + 1) / (2 * ((2 * npts + 1 : ℕ) : ℝ)) * π = gc3A npts (npts - 1 - j) := by
    rw [gc3A, show npts - 1 - (npts - 1 - j) = j by omega]
  simp only [hg, eval_mul, eval_pow, eval_X, eval_comp, e2]
  set t := gc3A npts (npts - 1 - j)
  have h0 : 0 < t := gc3A_pos
  have h1 : t < π / 2 := gc3A_lt hj'
  have hc : 0 < cos t := cos_pos_of_mem_Ioo ⟨by linarith, h1⟩
  have hs : 0 < sin t := sin_pos_of_pos_of_lt_pi h0 (by linarith)
  have e3 : cos t ^ 2 / (1 - cos t ^ 2) = (cos t / sin t) ^ 2 := by rw [div_pow, sin_sq]
  rw [e3, sqrt_sq (by positivity)]
  push_cast; field_simp

example : (X ^ 3 + 7 : ℝ[X]).degree < 2 * (2 : ℕ) :=
  lt_of_le_of_lt (b := (3 : WithBot ℕ)) (by compute_degree) (by norm_num)

/-- **C09.**  The weights of GaussChebyshev2Modified sum to the length 2 of the interval for
`npts ≥ 2`, and to `8/3` for `npts = 1`. -/
theorem C09_gc2m_constants (b : Build) (npts : ℕ) (hn : 1 ≤ npts) :
    Returns (construct b (gaussChebyshev2Modified npts)) (fun q =>
      q.weights.sum = if npts = 1 then 8 / 3 else (2 : ℝ)) := by
  refine ⟨_, gc2m_real npts b, ?_⟩
  dsimp only
  rw [list_sum_map_range, ← Finset.mul_sum]
  have hN : ((npts : ℝ) + 1) ≠ 0 := by positivity
  have e : ∀ t : ℝ, sin t ^ 4 = 3 / 8 - cos (2 * t) / 2 + cos (4 * t) / 8 := by
    intro t
    rw [show (4 : ℝ) * t = 2 * (2 * t) by ring, cos_two_mul (2 * t), cos_two_mul t, cos_sq']
    ring
  rw [← Finset.sum_range_reflect]
  have e2 : ∀ j, j ∈ Finset.range npts → sin (gc2A npts (npts - 1 - j)) ^ 4 =
      3 / 8 - cos ((2 : ℕ) * ((j + 1 : ℕ) * π / (npts + 1))) / 2
        + cos ((4 : ℕ) * ((j + 1 : ℕ) * π / (npts + 1))) / 8 := by
    intro j hj
    have hj : j < npts := by simpa using hj
    rw [e, gc2A, show npts - (npts - 1 - j) = j + 1 by omega]
    norm_num
  rw [Finset.sum_congr rfl e2, Finset.sum_add_distrib, Finset.sum_sub_distrib, ← Finset.sum_div,
    ← Finset.sum_div, ← Finset.sum_div, sum_cos_extrema (k := 2) (Nat.not_dvd_of_pos_of_lt (by norm_num) (by omega))]
  split_ifs with h
  · subst h
    simp only [Finset.range_one, Finset.sum_const, Finset.card_singleton, Finset.sum_singleton]
    have : ((4 : ℕ) : ℝ) * (((0 + 1 : ℕ) : ℝ) * π / (((1 : ℕ) : ℝ) + 1)) = 2 * π := by
      push_cast; ring
    rw [this, cos_two_pi]; norm_num
  · rw [sum_cos_extrema (k := 4) (Nat.not_dvd_of_pos_of_lt (by norm_num) (by omega))]
    simp only [Finset.sum_const, Finset.card_range, nsmul_eq_mul]
    field_simp; ring

example : Returns (construct ⟨true⟩ (gaussChebyshev2Modified 5))
    (fun q => q.weights.sum = (2 : ℝ)) := by
  simpa using C09_gc2m_constants ⟨true⟩ 5 (by norm_num)

/-- The substitution behind GaussChebyshev2Modified (Perez-Jorda et al. 1994), as a map from
the angle to the interval. -/
noncomputable def perezMap (t : ℝ) : ℝ :=
  1 - 2 * t / π + 2 / π * (1 + 2 / 3 * sin t ^ 2) * cos t * sin t

theorem perezMap_hasDerivAt (t : ℝ) : HasDerivAt perezMap (-(16 / (3 * π)) * sin t ^ 4) t := by
  have hs := hasDerivAt_sin t
  have hc := hasDerivAt_cos t
  have h1 : HasDerivAt (fun t : ℝ => 1 - 2 * t / π) (-(2 / π)) t := by
    have := (((hasDerivAt_id t).const_mul 2).div_const π).const_sub 1
    simpa using this
  have h2 : HasDerivAt (fun t : ℝ => 2 / π * (1 + 2 / 3 * sin t ^ 2))
      (2 / π * (2 / 3 * (2 * sin t * cos t))) t := by
    have := (((hs.pow 2).const_mul (2 / 3)).const_add 1).const_mul (2 / π)
    refine this.congr_deriv ?_
    push_cast; ring
  refine (h1.add ((h2.mul hc).mul hs)).congr_deriv ?_
  have := pi_ne_zero
  have hcs : cos t ^ 2 = 1 - sin t ^ 2 := cos_sq' t
  field_simp
  simp only [Pi.mul_apply]
  field_simp
  linear_combination (12 * sin t ^ 2 + 6) * hcs

theorem perezMap_strictAnti : StrictAntiOn perezMap (Set.Icc 0 π) := by
  apply strictAntiOn_of_deriv_neg (convex_Icc _ _)
  · exact fun t _ => (perezMap_hasDerivAt t).continuousAt.continuousWithinAt
  · intro t ht
    rw [interior_Icc] at ht
    rw [(perezMap_hasDerivAt t).deriv]
    have h := sin_pos_of_pos_of_lt_pi ht.1 ht.2
    have := pi_pos
    have : 0 < 16 / (3 * π) * sin t ^ 4 := by positivity
    linarith

/-- **C10.**  GaussChebyshev2Modified consists of the images of the angles
`(npts - j) π / (npts + 1)` under `perezMap`, a strictly decreasing map of `[0,π]` onto
`[-1,1]`, with weights `-perezMap'(θ) π/(npts+1)`; its nodes are therefore increasing interior
points and its weights positive. -/
theorem C10_gc2m_substitution (b : Build) (npts : ℕ) :
    (StrictAntiOn perezMap (Set.Icc 0 π) ∧ perezMap 0 = 1 ∧ perezMap π = -1) ∧
    Returns (construct b (gaussChebyshev2Modified npts)) (fun q =>
      q.points.length = npts ∧
      (∀ j, j < npts → q.points[j]? = some (perezMap ((npts - j : ℕ) * π / (npts + 1)))) ∧
      (∀ j, j < npts → q.weights[j]? =
        some (-deriv perezMap ((npts - j : ℕ) * π / (npts + 1)) * (π / (npts + 1)))) ∧
      SortedInterior (-1) 1 q) := by
  have hpi := pi_pos
  have h0 : perezMap 0 = 1 := by simp [perezMap]
  have hp : perezMap π = -1 := by simp [perezMap]; field_simp; ring
  refine ⟨⟨perezMap_strictAnti, h0, hp⟩, _, gc2m_real npts b, by simp, ?_, ?_, ?_, ?_, ?_⟩
  · intro j hj
    simp only [getElem?_map_range, if_pos hj]
    rfl
  · intro j hj
    simp only [getElem?_map_range, if_pos hj, (perezMap_hasDerivAt _).deriv]
    rw [gc2A]
    have : (npts : ℝ) + 1 ≠ 0 := by positivity
    congr 1; field_simp
  · apply increasing_map_range
    intro i j hij hj
    exact perezMap_strictAnti ⟨(gc2A_pos hj).le, gc2A_lt.le⟩
      ⟨(gc2A_pos (show i < npts by omega)).le, gc2A_lt.le⟩ (gc2A_anti hij hj)
  · simp only [List.mem_map, List.mem_range]
    rintro x ⟨j, hj, rfl⟩
    constructor
    · rw [← hp]
      exact perezMap_strictAnti ⟨(gc2A_pos hj).le, gc2A_lt.le⟩ ⟨hpi.le, le_rfl⟩ gc2A_lt
    · rw [← h0]
      exact perezMap_strictAnti ⟨le_rfl, hpi.le⟩ ⟨(gc2A_pos hj).le, gc2A_lt.le⟩ (gc2A_pos hj)
  · simp only [List.mem_map, List.mem_range]
    rintro x ⟨j, hj, rfl⟩
    have := sin_pos_of_pos_of_lt_pi (gc2A_pos hj) gc2A_lt
    positivity

example : Returns (construct ⟨true⟩ (gaussChebyshev2Modified 3)) (SortedInterior (-1) 1) := by
  obtain ⟨q, h, _, _, _, h'⟩ := (C10_gc2m_substitution ⟨true⟩ 3).2
  exact ⟨q, h, h'⟩

end IntegratorXX
