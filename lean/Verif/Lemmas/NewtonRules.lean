import Verif.Lemmas.WeightError
import Verif.Lemmas.RuleSum
import Verif.Model.Quadrature

/-!
# The rules computed by GaussLegendre and GaussLobatto, with error bounds
-/

namespace IntegratorXX

open Polynomial Spec Set Real

local notation "P" => legendre

/-! ## Separation of cosines -/

theorem cos_gap {a b h : ℝ} (h0 : 0 < h) (ha : h ≤ a) (hb : b ≤ π - h) (hab : h ≤ b - a) :
    2 / π * h ^ 2 ≤ cos a - cos b := by
  have hlt : a < b := by linarith
  obtain ⟨x, hx, hd⟩ := exists_hasDerivAt_eq_slope cos (fun x => -sin x) hlt
    continuous_cos.continuousOn (fun x _ => hasDerivAt_cos x)
  rw [eq_div_iff (by linarith)] at hd
  have hpi := pi_pos
  have hs : 2 / π * h ≤ sin x := by
    rcases le_total x (π / 2) with hx2 | hx2
    · have := mul_le_sin (x := x) (by linarith [hx.1]) hx2
      have h2 : 2 / π * h ≤ 2 / π * x := mul_le_mul_of_nonneg_left (by linarith [hx.1]) (by positivity)
      linarith
    · have := mul_le_sin (x := π - x) (by linarith [hx.2]) (by linarith)
      rw [sin_pi_sub] at this
      have h2 : 2 / π * h ≤ 2 / π * (π - x) :=
        mul_le_mul_of_nonneg_left (by linarith [hx.2]) (by positivity)
      linarith
  have h1 : cos a - cos b = sin x * (b - a) := by linarith
  rw [h1]
  have h3 : 2 / π * h * h ≤ sin x * (b - a) :=
    mul_le_mul hs hab h0.le (le_trans (by positivity) hs)
  linarith

/-! ## Perturbed rules -/

theorem pow_sub_pow_le_unit {x y d : ℝ} (hx : |x| ≤ 1) (hy : |y| ≤ 1) (h : |x - y| ≤ d) (i : ℕ) :
    |x ^ i - y ^ i| ≤ i * d := by
  have hd : 0 ≤ d := (abs_nonneg _).trans h
  induction i with
  | zero => simp
  | succ i ih =>
    have e : x ^ (i + 1) - y ^ (i + 1) = x * (x ^ i - y ^ i) + (x - y) * y ^ i := by ring
    rw [e]
    refine (abs_add_le _ _).trans ?_
    rw [abs_mul, abs_mul, abs_pow]
    have h1 : |x| * |x ^ i - y ^ i| ≤ 1 * (i * d) :=
      mul_le_mul hx ih (abs_nonneg _) zero_le_one
    have h2 : |x - y| * |y| ^ i ≤ d * 1 :=
      mul_le_mul h (pow_le_one₀ (abs_nonneg _) hy) (by positivity) hd
    push_cast
    linarith

theorem eval_abs_le (p : ℝ[X]) {x : ℝ} (hx : |x| ≤ 1) :
    |p.eval x| ≤ ∑ i ∈ p.support, |p.coeff i| := by
  rw [eval_eq_sum, sum_def]
  refine (Finset.abs_sum_le_sum_abs _ _).trans (Finset.sum_le_sum fun i _ => ?_)
  rw [abs_mul, abs_pow]
  exact mul_le_of_le_one_right (abs_nonneg _) (pow_le_one₀ (abs_nonneg _) hx)

theorem eval_sub_le (p : ℝ[X]) {x y d : ℝ} (hx : |x| ≤ 1) (hy : |y| ≤ 1) (h : |x - y| ≤ d) :
    |p.eval x - p.eval y| ≤ p.natDegree * d * ∑ i ∈ p.support, |p.coeff i| := by
  have hd : 0 ≤ d := (abs_nonneg _).trans h
  rw [eval_eq_sum, eval_eq_sum, sum_def, sum_def, ← Finset.sum_sub_distrib, Finset.mul_sum]
  refine (Finset.abs_sum_le_sum_abs _ _).trans (Finset.sum_le_sum fun i hi => ?_)
  rw [← mul_sub, abs_mul, mul_comm]
  refine mul_le_mul_of_nonneg_right ?_ (abs_nonneg _)
  refine (pow_sub_pow_le_unit hx hy h i).trans (mul_le_mul_of_nonneg_right ?_ hd)
  exact_mod_cast le_natDegree_of_mem_supp i hi

theorem rule_error (n : ℕ) (ξ ω x w : ℕ → ℝ) (d τ : ℝ)
    (hξ : ∀ i < n, |ξ i| ≤ 1) (hx : ∀ i < n, |x i| ≤ 1) (hd : ∀ i < n, |x i - ξ i| ≤ d)
    (hω : ∀ i < n, 0 ≤ ω i) (hw : ∀ i < n, |w i - ω i| ≤ ω i * τ)
    (hsum : ∑ i ∈ Finset.range n, ω i = 2) (p : ℝ[X]) :
    |∑ i ∈ Finset.range n, w i * p.eval (x i) - ∑ i ∈ Finset.range n, ω i * p.eval (ξ i)| ≤
      2 * (τ + p.natDegree * d) * ∑ i ∈ p.support, |p.coeff i| := by
  set S := ∑ i ∈ p.support, |p.coeff i| with hS
  have hS0 : 0 ≤ S := Finset.sum_nonneg fun i _ => abs_nonneg _
  rw [← Finset.sum_sub_distrib]
  refine (Finset.abs_sum_le_sum_abs _ _).trans ?_
  have : ∀ i ∈ Finset.range n, |w i * p.eval (x i) - ω i * p.eval (ξ i)| ≤
      ω i * ((τ + p.natDegree * d) * S) := by
    intro i hi
    have hi' := Finset.mem_range.1 hi
    have e : w i * p.eval (x i) - ω i * p.eval (ξ i) =
        (w i - ω i) * p.eval (x i) + ω i * (p.eval (x i) - p.eval (ξ i)) := by ring
    rw [e]
    refine (abs_add_le _ _).trans ?_
    rw [abs_mul, abs_mul, abs_of_nonneg (hω i hi')]
    have h1 : |w i - ω i| * |p.eval (x i)| ≤ ω i * τ * S :=
      mul_le_mul (hw i hi') (eval_abs_le p (hx i hi')) (abs_nonneg _)
        ((abs_nonneg _).trans (hw i hi'))
    have h2 : ω i * |p.eval (x i) - p.eval (ξ i)| ≤ ω i * (p.natDegree * d * S) :=
      mul_le_mul_of_nonneg_left (eval_sub_le p (hx i hi') (hξ i hi') (hd i hi')) (hω i hi')
    linarith
  refine (Finset.sum_le_sum this).trans ?_
  rw [← Finset.sum_mul, hsum]
  linarith

/-! ## Gauss-Legendre -/

/-- The `j`-th smallest zero of `P_n`. -/
noncomputable def glXi (n j : ℕ) : ℝ := cos (glAng n (n - 1 - j))

theorem glXi_root {n j : ℕ} (hj : j < n) : (P n).eval (glXi n j) = 0 :=
  (glAng_mem (by omega)).2.2

theorem glXi_lt {n i j : ℕ} (hij : i < j) (hj : j < n) : glXi n i < glXi n j := by
  have h1 := glAng_mem (n := n) (k := n - 1 - i) (by omega)
  have h2 := glAng_mem (n := n) (k := n - 1 - j) (by omega)
  exact cos_lt_cos_of_nonneg_of_le_pi h2.1.le h1.2.1.le (glAng_lt (by omega) (by omega))

theorem glXi_neg {n j : ℕ} (hj : j < n) : glXi n j = -cos (glAng n j) := by
  unfold glXi
  rw [glAng_symm hj, cos_pi_sub]

theorem glXi_surj {n : ℕ} {x : ℝ} (hx : (P n).eval x = 0) : ∃ j < n, x = glXi n j := by
  obtain ⟨k, hk, h⟩ := glAng_surj hx
  exact ⟨n - 1 - k, by omega, by unfold glXi; rw [show n - 1 - (n - 1 - k) = k by omega]; exact h⟩

theorem glXi_gap {n i : ℕ} (hi : i + 1 < n) :
    1 / ((n : ℝ) + 1) ^ 2 ≤ glXi n (i + 1) - glXi n i := by
  unfold glXi
  have hpi := pi_pos
  have hs := angStep_pos n
  have hmul := angStep_mul n
  obtain ⟨k, hk⟩ : ∃ k, n - 1 - (i + 1) = k := ⟨_, rfl⟩
  have hk' : n - 1 - i = k + 1 := by omega
  rw [hk, hk']
  have hkn : k + 1 < n := by omega
  have h1 := glAng_upper (n := n) (k := k) (by omega)
  have h2 := glAng_lower (n := n) (k := k + 1) hkn
  have h3 := glAng_lower (n := n) (k := k) (by omega)
  have h4 := glAng_upper (n := n) (k := k + 1) hkn
  push_cast at h2 h4
  have hkr : (k : ℝ) + 2 ≤ n := by exact_mod_cast hkn
  have hk0 : (0 : ℝ) ≤ k := Nat.cast_nonneg k
  have g1 : angStep n / 2 ≤ glAng n k := by nlinarith
  have g2 : glAng n (k + 1) ≤ π - angStep n / 2 := by nlinarith
  have g3 : angStep n / 2 ≤ glAng n (k + 1) - glAng n k := by linarith
  refine le_trans ?_ (cos_gap (by positivity) g1 g2 g3)
  have e : 2 / π * (angStep n / 2) ^ 2 = π / (2 * ((n : ℝ) + 1 / 2) ^ 2) := by
    unfold angStep; field_simp
  rw [e, div_le_div_iff₀ (by positivity) (by positivity)]
  have hn0 : (0 : ℝ) ≤ n := Nat.cast_nonneg n
  have : ((n : ℝ) + 1 / 2) ^ 2 ≤ ((n : ℝ) + 1) ^ 2 := by nlinarith
  nlinarith [pi_gt_three]

/-- The exact Gauss-Legendre weight. -/
noncomputable def glOm (n : ℕ) (x : ℝ) : ℝ := 2 / ((1 - x ^ 2) * (derivative (P n)).eval x ^ 2)

theorem glOm_neg (n : ℕ) (x : ℝ) : glOm n (-x) = glOm n x := by
  unfold glOm
  rw [derivative_legendre_eval_neg, mul_pow, ← pow_mul, mul_comm (n + 1) 2, pow_mul, neg_sq]
  norm_num

theorem glOm_pos {n j : ℕ} (hj : j < n) : 0 < glOm n (glXi n j) := by
  have hr := glXi_root hj
  have hm := legendre_root_mem n _ hr
  have h1 := legendre_simple_root n _ hr
  have : 0 < 1 - glXi n j ^ 2 := by nlinarith
  unfold glOm
  positivity

theorem sum_glXi (n : ℕ) (f : ℝ → ℝ) :
    ∑ x ∈ legRoots n, f x = ∑ j ∈ Finset.range n, f (glXi n j) := by
  symm
  refine Finset.sum_bij (fun j _ => glXi n j) ?_ ?_ ?_ (fun _ _ => rfl)
  · intro j hj
    rw [mem_legRoots]; exact glXi_root (Finset.mem_range.1 hj)
  · intro i hi j hj h
    rw [Finset.mem_range] at hi hj
    rcases lt_trichotomy i j with hij | hij | hij
    · exact absurd h (glXi_lt hij hj).ne
    · exact hij
    · exact absurd h (glXi_lt hij hi).ne'
  · intro x hx
    obtain ⟨j, hj, h⟩ := glXi_surj ((mem_legRoots _ _).1 hx)
    exact ⟨j, Finset.mem_range.2 hj, h.symm⟩

theorem pow52_le {n : ℝ} (h0 : 0 ≤ n) (hn : n ≤ 2 ^ 20) :
    (n + 1) ^ 2 * (2 : ℝ)⁻¹ ^ 52 ≤ 1 / 1000 := by
  have h1 : (n + 1) ^ 2 ≤ (2 ^ 20 + 1) ^ 2 := pow_le_pow_left₀ (by linarith) (by linarith) 2
  have h2 : (2 ^ 20 + 1 : ℝ) ^ 2 * (2 : ℝ)⁻¹ ^ 52 ≤ 1 / 1000 := by norm_num
  have h3 : (0 : ℝ) < (2 : ℝ)⁻¹ ^ 52 := by positivity
  calc (n + 1) ^ 2 * (2 : ℝ)⁻¹ ^ 52 ≤ (2 ^ 20 + 1) ^ 2 * (2 : ℝ)⁻¹ ^ 52 :=
        mul_le_mul_of_nonneg_right h1 h3.le
    _ ≤ _ := h2

/-- One Newton run of GaussLegendre. -/
theorem gl_run {n k : ℕ} (hk : k < (n + 1) / 2) :
    ∃ z w : ℝ, glNewton n 100 (glStart XReal n k) = some (glZ XReal n k) ∧
      (glZ XReal n k).1 = .fin z ∧ glW XReal n k = .fin w ∧
      |z - cos (glAng n k)| ≤ 3 / 2 * (2 : ℝ)⁻¹ ^ 52 ∧ |z| < 1 ∧ 0 < w ∧
      (n ≤ 2 ^ 20 → |w - glOm n (cos (glAng n k))| ≤
        glOm n (cos (glAng n k)) * (4 * (n + 1) ^ 2 * (2 : ℝ)⁻¹ ^ 52)) := by
  obtain ⟨a, z, hrun, h1, h2, hz, hd, ha1, hz1, h3⟩ := glNewton_converges hk
  have hZ : glZ XReal n k = (.fin z, .fin ((derivative (P n)).eval a)) := by
    simp [glZ, hrun]
  have hz2 : 0 < 1 - z * z := by
    have := (sq_lt_one_iff_abs_lt_one z).2 hz1
    nlinarith
  have hden : 0 < (1 - z * z) * (derivative (P n)).eval a * (derivative (P n)).eval a := by
    have : 0 < (derivative (P n)).eval a ^ 2 := by positivity
    nlinarith [mul_pos hz2 this]
  have hW : glW XReal n k =
      .fin (2 / ((1 - z * z) * (derivative (P n)).eval a * (derivative (P n)).eval a)) := by
    unfold glW
    rw [hZ]
    simp only [XReal.lit_eq, XReal.fin_mul, XReal.fin_sub]
    push_cast
    rw [XReal.fin_div_ne _ hden.ne']
  refine ⟨z, _, by rw [hrun, hZ], by rw [hZ], hW, h2, hz1, by positivity, fun hn => ?_⟩
  have hr := (glAng_mem (n := n) (k := k) (by omega)).2.2
  have hn1 : 1 ≤ n := by omega
  have hn0 : (0 : ℝ) ≤ n := Nat.cast_nonneg n
  have hnr : (n : ℝ) ≤ 2 ^ 20 := by exact_mod_cast hn
  have hp := pow52_le hn0 hnr
  have he : (0 : ℝ) < (2 : ℝ)⁻¹ ^ 52 := by positivity
  -- lower bound for sin²
  have hsin : 3 / 2 / ((n : ℝ) + 1 / 2) ≤ sin (glAng n k) := by
    have hpi := pi_pos
    have g1 := glAng_start hk
    have g2 := mul_le_sin (glAng_mem (n := n) (k := k) (by omega)).1.le (glAng_le_half hk)
    have g3 : 3 / 4 * angStep n ≤ glAng n k := by
      have := angStep_pos n
      have hk0 : (0 : ℝ) ≤ k := Nat.cast_nonneg k
      nlinarith
    have g4 : 2 / π * (3 / 4 * angStep n) ≤ 2 / π * glAng n k :=
      mul_le_mul_of_nonneg_left g3 (by positivity)
    have e : 2 / π * (3 / 4 * angStep n) = 3 / 2 / ((n : ℝ) + 1 / 2) := by
      unfold angStep; field_simp; ring
    linarith
  have hq : 9 / 4 / ((n : ℝ) + 1 / 2) ^ 2 ≤ 1 - cos (glAng n k) ^ 2 := by
    rw [← sin_sq]
    have := pow_le_pow_left₀ (by positivity) hsin 2
    rw [div_pow] at this
    norm_num at this ⊢
    exact this
  have hq0 : 0 < 9 / 4 / ((n : ℝ) + 1 / 2) ^ 2 := by positivity
  have hu : (2 : ℝ)⁻¹ ^ 52 / (1 - cos (glAng n k) ^ 2) ≤
      4 / 9 * (((n : ℝ) + 1) ^ 2 * (2 : ℝ)⁻¹ ^ 52) := by
    generalize (2 : ℝ)⁻¹ ^ 52 = e at *
    rw [div_le_iff₀ (hq0.trans_le hq)]
    have g1 : (n + 1 / 2 : ℝ) ^ 2 ≤ (n + 1) ^ 2 := by nlinarith
    have g2 : 9 / 4 / ((n : ℝ) + 1) ^ 2 ≤ 1 - cos (glAng n k) ^ 2 :=
      (div_le_div_of_nonneg_left (by norm_num) (by positivity) g1).trans hq
    have g3 : 0 ≤ 4 / 9 * (((n : ℝ) + 1) ^ 2 * e) := by positivity
    have g4 := mul_le_mul_of_nonneg_left g2 g3
    have e1 : 4 / 9 * (((n : ℝ) + 1) ^ 2 * e) * (9 / 4 / ((n : ℝ) + 1) ^ 2) = e := by
      field_simp
    linarith
  have hNe : (n : ℝ) * (n + 1) * (2 : ℝ)⁻¹ ^ 52 ≤ 1 / 100 := by
    generalize (2 : ℝ)⁻¹ ^ 52 = e at *
    have : (n : ℝ) * (n + 1) ≤ (n + 1) ^ 2 := by nlinarith
    have := mul_le_mul_of_nonneg_right this he.le
    linarith
  have := gl_weight_error n hn1 (cos (glAng n k)) a z ((2 : ℝ)⁻¹ ^ 52) hr ha1 hz1 hz hd h1 h2 h3
    hNe (by linarith)
  refine this.trans ?_
  show glOm n _ * _ ≤ glOm n _ * _
  have hom : 0 < glOm n (cos (glAng n k)) := by
    have := glOm_pos (n := n) (j := n - 1 - k) (by omega)
    unfold glXi at this
    rwa [show n - 1 - (n - 1 - k) = k by omega] at this
  refine mul_le_mul_of_nonneg_left ?_ hom.le
  have : 0 ≤ ((n : ℝ) + 1) ^ 2 * (2 : ℝ)⁻¹ ^ 52 := by positivity
  linarith

/-- The rule returned by GaussLegendre. -/
theorem gl_rule (n : ℕ) : ∃ x w : ℕ → ℝ,
    (gaussLegendre n : Outcome (List XReal × List XReal)) =
      .ok ((List.range n).map (fun j => .fin (x j)), (List.range n).map (fun j => .fin (w j))) ∧
    ∀ j < n, |x j - glXi n j| ≤ 3 / 2 * (2 : ℝ)⁻¹ ^ 52 ∧ |x j| < 1 ∧ 0 < w j ∧
      (n ≤ 2 ^ 20 → |w j - glOm n (glXi n j)| ≤
        glOm n (glXi n j) * (4 * (n + 1) ^ 2 * (2 : ℝ)⁻¹ ^ 52)) := by
  have hrun : ∀ k, ∃ z w : ℝ, k < (n + 1) / 2 →
      glNewton n 100 (glStart XReal n k) = some (glZ XReal n k) ∧
      (glZ XReal n k).1 = .fin z ∧ glW XReal n k = .fin w ∧
      |z - cos (glAng n k)| ≤ 3 / 2 * (2 : ℝ)⁻¹ ^ 52 ∧ |z| < 1 ∧ 0 < w ∧
      (n ≤ 2 ^ 20 → |w - glOm n (cos (glAng n k))| ≤
        glOm n (cos (glAng n k)) * (4 * (n + 1) ^ 2 * (2 : ℝ)⁻¹ ^ 52)) := by
    intro k
    by_cases hk : k < (n + 1) / 2
    · obtain ⟨z, w, h⟩ := gl_run hk
      exact ⟨z, w, fun _ => h⟩
    · exact ⟨0, 0, fun h => absurd h hk⟩
  choose z w h using hrun
  refine ⟨fun j => if j < n / 2 then -z j else z (n - 1 - j),
    fun j => if j < n / 2 then w j else w (n - 1 - j), ?_, ?_⟩
  · rcases gaussLegendre_cases (F := XReal) n with hc | ⟨-, hc⟩
    · exact absurd hc (gaussLegendre_ok n (fun j hj => by rw [(h j hj).1]; rfl))
    · rw [hc]
      congr 2
      · apply List.map_congr_left
        intro j hj
        rw [List.mem_range] at hj
        dsimp only
        split_ifs with hj2
        · rw [(h j (by omega)).2.1]; rfl
        · exact (h (n - 1 - j) (by omega)).2.1
      · apply List.map_congr_left
        intro j hj
        rw [List.mem_range] at hj
        dsimp only
        split_ifs with hj2
        · exact (h j (by omega)).2.2.1
        · exact (h (n - 1 - j) (by omega)).2.2.1
  · intro j hj
    dsimp only
    split_ifs with hj2
    · obtain ⟨-, -, -, h1, h2, h3, h4⟩ := h j (by omega)
      rw [glXi_neg hj, glOm_neg]
      refine ⟨?_, by rwa [abs_neg], h3, h4⟩
      rw [show -z j - -cos (glAng n j) = -(z j - cos (glAng n j)) by ring, abs_neg]
      exact h1
    · obtain ⟨-, -, -, h1, h2, h3, h4⟩ := h (n - 1 - j) (by omega)
      exact ⟨h1, h2, h3, h4⟩

/-! ## Gauss-Lobatto -/

/-- The `j`-th smallest node of the exact rule with `m + 1` points. -/
noncomputable def lobXi (m j : ℕ) : ℝ :=
  if j = 0 then -1 else if j = m then 1 else -cos (lobAng m (j - 1))

theorem lobXi_zero (m : ℕ) : lobXi m 0 = -1 := by unfold lobXi; rw [if_pos rfl]
theorem lobXi_last {m : ℕ} (hm : 1 ≤ m) : lobXi m m = 1 := by
  unfold lobXi; rw [if_neg (by omega), if_pos rfl]
theorem lobXi_mid {m j : ℕ} (h0 : 1 ≤ j) (hj : j < m) : lobXi m j = -cos (lobAng m (j - 1)) := by
  unfold lobXi; rw [if_neg (by omega), if_neg (by omega)]

theorem lobXi_root {m j : ℕ} (h0 : 1 ≤ j) (hj : j < m) :
    (derivative (P m)).eval (lobXi m j) = 0 := by
  rw [lobXi_mid h0 hj, derivative_legendre_eval_neg,
    (lobAng_mem (m := m) (k := j - 1) (by omega)).2.2, mul_zero]

theorem lobXi_abs {m j : ℕ} (h0 : 1 ≤ j) (hj : j < m) : |lobXi m j| < 1 := by
  have hm : 1 ≤ m := by omega
  exact abs_lt.2 (lobInt_mem hm _ ((mem_lobInt hm _).2 (lobXi_root h0 hj)))

theorem lobXi_neg {m j : ℕ} (h0 : 1 ≤ j) (hj : j < m) : lobXi m (m - j) = -lobXi m j := by
  rw [lobXi_mid h0 hj, lobXi_mid (by omega) (by omega),
    show m - j - 1 = m - 2 - (j - 1) by omega, lobAng_symm (by omega), cos_pi_sub]

theorem lobXi_gap {m i : ℕ} (h0 : 1 ≤ i) (hi : i + 1 < m) :
    4 / ((m : ℝ) + 1) ^ 2 ≤ lobXi m (i + 1) - lobXi m i := by
  rw [lobXi_mid h0 (by omega), lobXi_mid (by omega) hi, Nat.add_sub_cancel]
  obtain ⟨k, rfl⟩ : ∃ k, i = k + 1 := ⟨i - 1, by omega⟩
  rw [Nat.add_sub_cancel]
  have hpi := pi_pos
  have hs := angStep_pos m
  have h1 := lobAng_gap (m := m) (k := k) (by omega)
  have h2 := lobAng_lower (m := m) (k := k) (by omega)
  have h3 := lobAng_lower (m := m) (k := m - 2 - (k + 1)) (by omega)
  rw [lobAng_symm (by omega)] at h3
  have g1 : angStep m ≤ lobAng m k := by
    have hk0 : (0 : ℝ) ≤ k := Nat.cast_nonneg k
    nlinarith
  have g2 : lobAng m (k + 1) ≤ π - angStep m := by
    have hk0 : (0 : ℝ) ≤ ((m - 2 - (k + 1) : ℕ) : ℝ) := Nat.cast_nonneg _
    nlinarith
  have := cos_gap hs g1 g2 (by linarith)
  rw [neg_sub_neg]
  have e : 2 / π * angStep m ^ 2 = 2 * π / ((m : ℝ) + 1 / 2) ^ 2 := by
    unfold angStep; field_simp
  have hm0 : (0 : ℝ) ≤ m := Nat.cast_nonneg m
  refine le_trans ?_ this
  rw [e, div_le_div_iff₀ (by positivity) (by positivity)]
  have : ((m : ℝ) + 1 / 2) ^ 2 ≤ ((m : ℝ) + 1) ^ 2 := by nlinarith
  nlinarith [pi_gt_three]

theorem lobXi_lt {m i j : ℕ} (hij : i < j) (hj : j ≤ m) : lobXi m i < lobXi m j := by
  rcases Nat.eq_zero_or_pos i with rfl | hi
  · rw [lobXi_zero]
    rcases hj.eq_or_lt with rfl | hj'
    · rw [lobXi_last (by omega)]; norm_num
    · exact (abs_lt.1 (lobXi_abs (by omega) hj')).1
  · rcases hj.eq_or_lt with rfl | hj'
    · rw [lobXi_last (by omega)]
      exact (abs_lt.1 (lobXi_abs hi hij)).2
    · rw [lobXi_mid hi (by omega), lobXi_mid (by omega) hj', neg_lt_neg_iff]
      have h1 := lobAng_mem (m := m) (k := i - 1) (by omega)
      have h2 := lobAng_mem (m := m) (k := j - 1) (by omega)
      exact cos_lt_cos_of_nonneg_of_le_pi h1.1.le h2.2.1.le (lobAng_lt (by omega) (by omega))

theorem lobXi_mem {m j : ℕ} (hm : 1 ≤ m) (hj : j ≤ m) :
    lobXi m j = 1 ∨ lobXi m j = -1 ∨ (derivative (P m)).eval (lobXi m j) = 0 := by
  rcases Nat.eq_zero_or_pos j with rfl | h0
  · exact .inr (.inl (lobXi_zero m))
  · rcases hj.eq_or_lt with rfl | hj'
    · exact .inl (lobXi_last hm)
    · exact .inr (.inr (lobXi_root h0 hj'))

theorem lobXi_surj {m : ℕ} (hm : 1 ≤ m) {x : ℝ}
    (hx : x = 1 ∨ x = -1 ∨ (derivative (P m)).eval x = 0) : ∃ j ≤ m, x = lobXi m j := by
  rcases hx with rfl | rfl | hx
  · exact ⟨m, le_rfl, (lobXi_last hm).symm⟩
  · exact ⟨0, Nat.zero_le _, (lobXi_zero m).symm⟩
  · have hmem := lobInt_mem hm _ ((mem_lobInt hm _).2 hx)
    have hneg : (derivative (P m)).eval (-x) = 0 := by
      rw [derivative_legendre_eval_neg, hx, mul_zero]
    obtain ⟨k, hk, h⟩ := lobAng_surj hm (t := arccos (-x)) (arccos_pos.2 (by linarith)) (by
      refine lt_of_le_of_ne (arccos_le_pi _) (fun h => ?_)
      have := arccos_eq_pi.1 h
      linarith) (by rwa [cos_arccos (by linarith) (by linarith)])
    refine ⟨k + 1, by omega, ?_⟩
    rw [lobXi_mid (by omega) (by omega), Nat.add_sub_cancel, ← h,
      cos_arccos (by linarith) (by linarith), neg_neg]

theorem lobXi_le_one {m j : ℕ} (hm : 1 ≤ m) (hj : j ≤ m) : |lobXi m j| ≤ 1 := by
  rcases Nat.eq_zero_or_pos j with rfl | h0
  · rw [lobXi_zero]; norm_num
  · rcases hj.eq_or_lt with rfl | hj'
    · rw [lobXi_last hm]; norm_num
    · exact (lobXi_abs h0 hj').le

/-- The exact Gauss-Lobatto weight. -/
noncomputable def lobOm (m : ℕ) (x : ℝ) : ℝ := 2 / ((m + 1) * m * (P m).eval x ^ 2)

theorem lobOm_neg (m : ℕ) (x : ℝ) : lobOm m (-x) = lobOm m x := by
  unfold lobOm
  rw [legendre_eval_neg, mul_pow, ← pow_mul, mul_comm m 2, pow_mul, neg_sq]
  norm_num

theorem lobOm_one (m : ℕ) : lobOm m 1 = 2 / ((m + 1) * m) := by
  unfold lobOm; rw [legendre_eval_one]; norm_num

theorem lobOm_pos {m j : ℕ} (hm : 1 ≤ m) (hj : j ≤ m) : 0 < lobOm m (lobXi m j) := by
  have hm0 : (0 : ℝ) < m := by exact_mod_cast hm
  rcases Nat.eq_zero_or_pos j with rfl | h0
  · rw [lobXi_zero, lobOm_neg, lobOm_one]; positivity
  · rcases hj.eq_or_lt with rfl | hj'
    · rw [lobXi_last hm, lobOm_one]; positivity
    · have := (legendre_deriv_simple_root m _ hm (lobXi_root h0 hj')).1
      unfold lobOm
      positivity

theorem sum_lobXi {m : ℕ} (hm : 1 ≤ m) (f : ℝ → ℝ) :
    ∑ x ∈ lobRoots m, f x = ∑ j ∈ Finset.range (m + 1), f (lobXi m j) := by
  symm
  refine Finset.sum_bij (fun j _ => lobXi m j) ?_ ?_ ?_ (fun _ _ => rfl)
  · intro j hj
    rw [mem_lobRoots m hm]
    exact lobXi_mem hm (by have := Finset.mem_range.1 hj; omega)
  · intro i hi j hj h
    rw [Finset.mem_range] at hi hj
    rcases lt_trichotomy i j with hij | hij | hij
    · exact absurd h (lobXi_lt hij (by omega)).ne
    · exact hij
    · exact absurd h (lobXi_lt hij (by omega)).ne'
  · intro x hx
    obtain ⟨j, hj, h⟩ := lobXi_surj hm ((mem_lobRoots m hm x).1 hx)
    exact ⟨j, Finset.mem_range.2 (by omega), h.symm⟩

theorem lobE_xreal {m : ℕ} (hm : 1 ≤ m) : lobE XReal (m + 1) = .fin (2 / ((m + 1) * m)) := by
  have hm0 : (0 : ℝ) < m := by exact_mod_cast hm
  unfold lobE
  simp only [XReal.lit_eq, XReal.ofNat_eq, XReal.fin_mul, XReal.fin_sub]
  push_cast
  have e : (m : ℝ) + 1 - 1 = m := by ring
  rw [e, XReal.fin_div_ne _ (by positivity)]

/-- One Newton run of GaussLobatto. -/
theorem lob_run {m k : ℕ} (hk : 2 * (k + 1) ≤ m) :
    ∃ z w : ℝ, lobNewton (m + 1) 100 (lobStart XReal (m + 1) (k + 1)) =
        some (lobZ XReal (m + 1) (k + 1)) ∧
      (lobZ XReal (m + 1) (k + 1)).1 = .fin z ∧ lobW XReal (m + 1) (k + 1) = .fin w ∧
      |z - lobXi m (k + 1)| ≤ 3 / 2 * (2 : ℝ)⁻¹ ^ 52 ∧ |z| < 1 ∧ 0 < w ∧
      (m ≤ 2 ^ 20 → |w - lobOm m (lobXi m (k + 1))| ≤
        lobOm m (lobXi m (k + 1)) * (2 * (m + 1) ^ 2 * (2 : ℝ)⁻¹ ^ 52)) := by
  obtain ⟨a, z, hrun, h1, h2, hz, hd, ha1, hz1, h3⟩ := lobNewton_converges hk
  have hm : 1 ≤ m := by omega
  have hm0 : (0 : ℝ) < m := by exact_mod_cast hm
  have hxi : lobXi m (k + 1) = -cos (lobAng m k) := lobXi_mid (by omega) (by omega)
  rw [← hxi] at h1 h2
  have hr := lobXi_root (m := m) (j := k + 1) (by omega) (by omega)
  have hr1 := lobXi_abs (m := m) (j := k + 1) (by omega) (by omega)
  have hZ : lobZ XReal (m + 1) (k + 1) = (.fin z, .fin ((P m).eval a)) := by
    simp [lobZ, hrun]
  have hden : 0 < (P m).eval a * (P m).eval a := mul_self_pos.2 hd
  have hW : lobW XReal (m + 1) (k + 1) =
      .fin (2 / ((m + 1) * m) / ((P m).eval a * (P m).eval a)) := by
    unfold lobW
    rw [hZ, lobE_xreal hm]
    simp only [XReal.fin_mul]
    rw [XReal.fin_div_ne _ hden.ne']
  refine ⟨z, _, by rw [hrun, hZ], by rw [hZ], hW, h2, hz1, by positivity, fun hn => ?_⟩
  have hnr : (m : ℝ) ≤ 2 ^ 20 := by exact_mod_cast hn
  have hp := pow52_le hm0.le hnr
  have he : (0 : ℝ) < (2 : ℝ)⁻¹ ^ 52 := by positivity
  have hsin : 2 / ((m : ℝ) + 1 / 2) ≤ sin (lobAng m k) := by
    have hpi := pi_pos
    have g1 := lobAng_lower (m := m) (k := k) (by omega)
    have g2 := mul_le_sin (lobAng_mem (m := m) (k := k) (by omega)).1.le (lobAng_le_half hk)
    have g3 : angStep m ≤ lobAng m k := by
      have := angStep_pos m
      have hk0 : (0 : ℝ) ≤ k := Nat.cast_nonneg k
      nlinarith
    have g4 : 2 / π * angStep m ≤ 2 / π * lobAng m k :=
      mul_le_mul_of_nonneg_left g3 (by positivity)
    have e : 2 / π * angStep m = 2 / ((m : ℝ) + 1 / 2) := by
      unfold angStep; field_simp
    linarith
  have hq : 4 / ((m : ℝ) + 1 / 2) ^ 2 ≤ 1 - lobXi m (k + 1) ^ 2 := by
    rw [hxi, neg_sq, ← sin_sq]
    have := pow_le_pow_left₀ (by positivity) hsin 2
    rw [div_pow] at this
    norm_num at this ⊢
    exact this
  have hq0 : 0 < 4 / ((m : ℝ) + 1 / 2) ^ 2 := by positivity
  have hu : (2 : ℝ)⁻¹ ^ 52 / (1 - lobXi m (k + 1) ^ 2) ≤
      1 / 4 * (((m : ℝ) + 1) ^ 2 * (2 : ℝ)⁻¹ ^ 52) := by
    generalize (2 : ℝ)⁻¹ ^ 52 = e at *
    rw [div_le_iff₀ (hq0.trans_le hq)]
    have g1 : (m + 1 / 2 : ℝ) ^ 2 ≤ (m + 1) ^ 2 := by nlinarith
    have g2 : 4 / ((m : ℝ) + 1) ^ 2 ≤ 1 - lobXi m (k + 1) ^ 2 :=
      (div_le_div_of_nonneg_left (by norm_num) (by positivity) g1).trans hq
    have g3 : 0 ≤ 1 / 4 * (((m : ℝ) + 1) ^ 2 * e) := by positivity
    have g4 := mul_le_mul_of_nonneg_left g2 g3
    have e1 : 1 / 4 * (((m : ℝ) + 1) ^ 2 * e) * (4 / ((m : ℝ) + 1) ^ 2) = e := by
      field_simp
    linarith
  have hNe : (m : ℝ) * (m + 1) * (2 : ℝ)⁻¹ ^ 52 ≤ 1 / 100 := by
    generalize (2 : ℝ)⁻¹ ^ 52 = e at *
    have : (m : ℝ) * (m + 1) ≤ (m + 1) ^ 2 := by nlinarith
    have := mul_le_mul_of_nonneg_right this he.le
    linarith
  have := lob_weight_error m hm (lobXi m (k + 1)) a z ((2 : ℝ)⁻¹ ^ 52) hr hr1 ha1 hz hd h1 h3
    hNe (by linarith) (2 / ((m + 1) * m)) (by positivity)
  have eom : 2 / (((m : ℝ) + 1) * m) / (P m).eval (lobXi m (k + 1)) ^ 2 =
      lobOm m (lobXi m (k + 1)) := by unfold lobOm; rw [div_div]
  rw [eom] at this
  refine this.trans (mul_le_mul_of_nonneg_left ?_ (lobOm_pos hm (by omega)).le)
  linarith

/-- The rule returned by GaussLobatto. -/
theorem lob_rule {m : ℕ} (hm : 1 ≤ m) (hm' : m + 1 < sizeMod) : ∃ x w : ℕ → ℝ,
    (gaussLobatto (m + 1) : Outcome (List XReal × List XReal)) =
      .ok ((List.range (m + 1)).map (fun j => .fin (x j)),
        (List.range (m + 1)).map (fun j => .fin (w j))) ∧
    x 0 = -1 ∧ x m = 1 ∧ w 0 = 2 / ((m + 1) * m) ∧ w m = 2 / ((m + 1) * m) ∧
    (∀ j, 1 ≤ j → j < m → |x j| < 1) ∧
    ∀ j ≤ m, |x j - lobXi m j| ≤ 3 / 2 * (2 : ℝ)⁻¹ ^ 52 ∧ |x j| ≤ 1 ∧ 0 < w j ∧
      (m ≤ 2 ^ 20 → |w j - lobOm m (lobXi m j)| ≤
        lobOm m (lobXi m j) * (2 * (m + 1) ^ 2 * (2 : ℝ)⁻¹ ^ 52)) := by
  have hm0 : (0 : ℝ) < m := by exact_mod_cast hm
  have he : (0 : ℝ) < (2 : ℝ)⁻¹ ^ 52 := by positivity
  have hrun : ∀ k, ∃ z w : ℝ, 1 ≤ k → 2 * k ≤ m →
      lobNewton (m + 1) 100 (lobStart XReal (m + 1) k) = some (lobZ XReal (m + 1) k) ∧
      (lobZ XReal (m + 1) k).1 = .fin z ∧ lobW XReal (m + 1) k = .fin w ∧
      |z - lobXi m k| ≤ 3 / 2 * (2 : ℝ)⁻¹ ^ 52 ∧ |z| < 1 ∧ 0 < w ∧
      (m ≤ 2 ^ 20 → |w - lobOm m (lobXi m k)| ≤
        lobOm m (lobXi m k) * (2 * (m + 1) ^ 2 * (2 : ℝ)⁻¹ ^ 52)) := by
    intro k
    by_cases hk : 1 ≤ k ∧ 2 * k ≤ m
    · obtain ⟨l, rfl⟩ : ∃ l, k = l + 1 := ⟨k - 1, by omega⟩
      obtain ⟨z, w, h⟩ := lob_run hk.2
      exact ⟨z, w, fun _ _ => h⟩
    · exact ⟨0, 0, fun h1 h2 => absurd ⟨h1, h2⟩ hk⟩
  choose z w h using hrun
  refine ⟨fun j => if j = 0 then -1 else if j = m then 1 else if m % 2 = 0 ∧ j = m / 2 then 0
      else if 2 * j < m then z j else -z (m - j),
    fun j => if j = 0 ∨ j = m then 2 / ((m + 1) * m) else if 2 * j < m then w j else w (m - j),
    ?_, by simp, by simp [show m ≠ 0 by omega], by simp, by simp, ?_, ?_⟩
  · rcases gaussLobatto_cases (F := XReal) (m + 1) (by omega) hm' with hc | ⟨-, hc⟩
    · exact absurd hc (gaussLobatto_ok _ (fun j hj0 hj => by
        rw [(h j hj0 (by omega)).1]; rfl) (by omega) hm')
    · rw [hc]
      congr 2
      · apply List.map_congr_left
        intro j hj
        rw [List.mem_range] at hj
        unfold lobPt
        simp only [Nat.add_sub_cancel]
        by_cases c0 : j = 0
        · subst c0
          rw [if_neg (by omega), if_neg (by omega), if_pos rfl, if_pos rfl]
          simp
        by_cases cm : j = m
        · subst cm
          rw [if_neg (by omega), if_pos rfl, if_neg c0, if_pos rfl]
          simp
        rw [if_neg c0, if_neg cm, if_neg cm, if_neg c0]
        by_cases cc : m % 2 = 0 ∧ j = m / 2
        · rw [if_pos (by omega), if_pos cc]; simp
        rw [if_neg (by omega), if_neg cc]
        by_cases ch : 2 * j < m
        · rw [if_pos (by omega), if_pos ch]
          exact (h j (by omega) (by omega)).2.1
        · rw [if_neg (by omega), if_neg ch]
          rw [(h (m - j) (by omega) (by omega)).2.1]
          rfl
      · apply List.map_congr_left
        intro j hj
        rw [List.mem_range] at hj
        unfold lobWt
        simp only [Nat.add_sub_cancel]
        by_cases c0 : j = 0 ∨ j = m
        · rw [if_pos (by omega), if_pos c0, lobE_xreal hm]
        rw [if_neg (by omega), if_neg c0]
        by_cases ch : 2 * j < m
        · rw [if_pos (by omega), if_pos ch]
          exact (h j (by omega) (by omega)).2.2.1
        · rw [if_neg ch]
          by_cases ch2 : j < (m + 1) / 2
          · omega
          · rw [if_neg ch2]
            exact (h (m - j) (by omega) (by omega)).2.2.1
  · intro j hj0 hj
    dsimp only
    rw [if_neg (by omega), if_neg (by omega)]
    split_ifs with cc ch
    · norm_num
    · exact (h j hj0 (by omega)).2.2.2.2.1
    · rw [abs_neg]; exact (h (m - j) (by omega) (by omega)).2.2.2.2.1
  · intro j hj
    dsimp only
    by_cases c0 : j = 0
    · subst c0
      rw [if_pos rfl, if_pos (.inl rfl), lobXi_zero, lobOm_neg, lobOm_one]
      refine ⟨by simp, by simp, by positivity, fun _ => ?_⟩
      rw [sub_self, abs_zero]; positivity
    by_cases cm : j = m
    · subst cm
      rw [if_neg c0, if_pos rfl, if_pos (.inr rfl), lobXi_last hm, lobOm_one]
      refine ⟨by simp, by simp, by positivity, fun _ => ?_⟩
      rw [sub_self, abs_zero]; positivity
    have c0m : ¬ (j = 0 ∨ j = m) := by omega
    rw [if_neg c0, if_neg cm, if_neg c0m]
    by_cases cc : m % 2 = 0 ∧ j = m / 2
    · have hmj : m - j = j := by omega
      have hxi : lobXi m j = 0 := by
        have := lobXi_neg (m := m) (j := j) (by omega) (by omega)
        rw [hmj] at this
        linarith
      rw [if_pos cc, if_neg (by omega), hmj]
      obtain ⟨-, -, -, h1, h2, h3, h4⟩ := h j (by omega) (by omega)
      refine ⟨by rw [hxi]; simp, by simp, h3, h4⟩
    rw [if_neg cc]
    by_cases ch : 2 * j < m
    · rw [if_pos ch, if_pos ch]
      obtain ⟨-, -, -, h1, h2, h3, h4⟩ := h j (by omega) (by omega)
      exact ⟨h1, h2.le, h3, h4⟩
    · rw [if_neg ch, if_neg ch]
      obtain ⟨-, -, -, h1, h2, h3, h4⟩ := h (m - j) (by omega) (by omega)
      rw [lobXi_neg (by omega) (by omega)] at h1 h4
      rw [lobOm_neg] at h4
      refine ⟨?_, by rw [abs_neg]; exact h2.le, h3, h4⟩
      rw [show -z (m - j) - lobXi m j = -(z (m - j) - -lobXi m j) by ring, abs_neg]
      exact h1

end IntegratorXX
