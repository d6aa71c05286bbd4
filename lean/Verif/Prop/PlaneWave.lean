import Verif.Lemmas.SphereZonal
import Verif.Prop.GridConvergence
import Verif.Spec.EntireSeries

/-!
# C115: plane waves and exponentials on the angular grids

Functions of the component in one direction, as they occur when a function centred elsewhere is integrated around an
atom.
-/

namespace IntegratorXX

open Spec Set Real MeasureTheory Metric
open scoped InnerProductSpace

private theorem exp_hasSum (x : ℝ) : HasSum (fun k : ℕ => x ^ k / k.factorial) (exp x) := by
  rw [Real.exp_eq_exp_ℝ]
  exact NormedSpace.expSeries_div_hasSum_exp x

private theorem term_le {x : ℝ} (hx : 0 ≤ x) (m j : ℕ) :
    x ^ (j + m) / ((j + m).factorial : ℝ) ≤ x ^ m / (m.factorial : ℝ) * (x ^ j / (j.factorial : ℝ)) := by
  have h : ((m.factorial * j.factorial : ℕ) : ℝ) ≤ ((j + m).factorial : ℕ) := by
    rw [Nat.cast_le, add_comm j m]
    exact Nat.le_of_dvd (Nat.factorial_pos _) (Nat.factorial_mul_factorial_dvd_factorial_add m j)
  rw [Nat.cast_mul] at h
  rw [div_mul_div_comm, ← pow_add, add_comm m j]
  exact div_le_div_of_nonneg_left (by positivity) (by positivity) h

/-- The remainder of the exponential series. -/
private theorem exp_tail {x : ℝ} (hx : 0 ≤ x) (m : ℕ) :
    ∃ S, HasSum (fun k : ℕ => if k < m then 0 else x ^ k / (k.factorial : ℝ)) S ∧
      S ≤ x ^ m / (m.factorial : ℝ) * exp x := by
  have hs : Summable (fun k : ℕ => if k < m then 0 else x ^ k / (k.factorial : ℝ)) := by
    refine Summable.of_nonneg_of_le (fun k => ?_) (fun k => ?_) (exp_hasSum x).summable
    · split
      · exact le_rfl
      · positivity
    · split
      · positivity
      · exact le_rfl
  refine ⟨_, hs.hasSum, ?_⟩
  have h2 := (exp_hasSum x).mul_left (x ^ m / (m.factorial : ℝ))
  have h3 : ∑' k : ℕ, (if k < m then 0 else x ^ k / (k.factorial : ℝ)) =
      ∑' j : ℕ, x ^ (j + m) / ((j + m).factorial : ℝ) := by
    rw [← hs.sum_add_tsum_nat_add m, Finset.sum_eq_zero (fun i hi => if_pos (Finset.mem_range.1 hi)), zero_add]
    refine tsum_congr fun j => if_neg (by omega)
  rw [h3, ← h2.tsum_eq]
  exact Summable.tsum_le_tsum (term_le hx m) ((summable_nat_add_iff m).2 (exp_hasSum x).summable) h2.summable

private theorem ruleSum_hasSum {P : Type} (x : List P) (w : List ℝ) (t : P → ℝ) {a : ℕ → ℝ} {f : ℝ → ℝ}
    (h : ∀ s, HasSum (fun k => a k * s ^ k) (f s)) :
    HasSum (fun k => a k * ruleSum x w (fun p => t p ^ k)) (ruleSum x w (fun p => f (t p))) := by
  unfold ruleSum
  induction x.zip w with
  | nil => simp
  | cons e l ih =>
    simp only [List.map_cons, List.sum_cons]
    refine (((h (t e.1)).mul_left e.2).add ih).congr_fun ?_
    intro k
    ring

private theorem surface_hasSum {a : ℕ → ℝ} {f : ℝ → ℝ} {A κ : ℝ} (ha : ∀ k, |a k| ≤ A * (κ ^ k / k.factorial))
    (h : ∀ s, HasSum (fun k => a k * s ^ k) (f s)) (u : Pt ℝ) (hu : normSq u = 1) :
    HasSum (fun k => a k * (2 * π * ∫ t in (-1 : ℝ)..1, t ^ k))
      (∫ x : sphere (0 : E3) 1, f (u.x * x.1 0 + u.y * x.1 1 + u.z * x.1 2) ∂(volume : Measure E3).toSphere) := by
  have e : ∀ k, a k * (2 * π * ∫ t in (-1 : ℝ)..1, t ^ k) =
      ∫ x : sphere (0 : E3) 1, a k * (u.x * x.1 0 + u.y * x.1 1 + u.z * x.1 2) ^ k ∂(volume : Measure E3).toSphere := by
    intro k
    rw [integral_const_mul, ← sphereInt_dirPoly u hu k, ← toSphere_poly]
    congr 1
    refine integral_congr_ae (ae_of_all _ fun x => ?_)
    simp only [polyAt_dirPoly, toPt]
  simp only [e]
  have hb := (exp_hasSum κ).mul_left A
  refine hasSum_integral_of_dominated_convergence (fun k _ => A * (κ ^ k / k.factorial)) (fun k => ?_) (fun k => ?_)
    (ae_of_all _ fun _ => hb.summable) (integrable_const _) (ae_of_all _ fun x => h _)
  · have hcs : Continuous (fun x : sphere (0 : E3) 1 =>
        a k * (u.x * x.1 0 + u.y * x.1 1 + u.z * x.1 2) ^ k) := by fun_prop
    exact hcs.aestronglyMeasurable
  · refine ae_of_all _ fun x => ?_
    rw [Real.norm_eq_abs, abs_mul, abs_pow]
    have hx : x.1 0 ^ 2 + x.1 1 ^ 2 + x.1 2 ^ 2 = 1 := by
      have h1 : ‖x.1‖ = 1 := by simp
      rw [EuclideanSpace.norm_eq, Real.sqrt_eq_one, Fin.sum_univ_three] at h1
      simpa using h1
    have h1 : |u.x * x.1 0 + u.y * x.1 1 + u.z * x.1 2| ≤ 1 := by
      unfold normSq at hu
      rw [abs_le]
      constructor
      · nlinarith [sq_nonneg (u.x + x.1 0), sq_nonneg (u.y + x.1 1), sq_nonneg (u.z + x.1 2)]
      · nlinarith [sq_nonneg (u.x - x.1 0), sq_nonneg (u.y - x.1 1), sq_nonneg (u.z - x.1 2)]
    calc |a k| * |u.x * x.1 0 + u.y * x.1 1 + u.z * x.1 2| ^ k ≤ |a k| * 1 :=
          mul_le_mul_of_nonneg_left (pow_le_one₀ (abs_nonneg _) h1) (abs_nonneg _)
      _ ≤ _ := by rw [mul_one]; exact ha k

private theorem rule_pow_le {P : Type} (x : List P) (w : List ℝ) (t : P → ℝ) {r : ℝ} (hr : 0 ≤ r)
    (ht : ∀ p ∈ x, |t p| ≤ r) (k : ℕ) :
    |ruleSum x w (fun p => t p ^ k)| ≤ (w.map (|·|)).sum * r ^ k := by
  have h0 : ∀ w : List ℝ, 0 ≤ (w.map (|·|)).sum := fun w => List.sum_nonneg fun y hy => by
    obtain ⟨v, -, rfl⟩ := List.mem_map.1 hy
    exact abs_nonneg v
  unfold ruleSum
  induction x generalizing w with
  | nil =>
    simp only [List.zip_nil_left, List.map_nil, List.sum_nil, abs_zero]
    exact mul_nonneg (h0 w) (by positivity)
  | cons p x ih =>
    rcases w with _ | ⟨v, w⟩
    · simp
    · have h1 := ih w (fun q hq => ht q (List.mem_cons_of_mem _ hq))
      have h2 := ht p List.mem_cons_self
      simp only [List.zip_cons_cons, List.map_cons, List.sum_cons]
      refine (abs_add_le _ _).trans ?_
      rw [add_mul, abs_mul, abs_pow]
      exact add_le_add (mul_le_mul_of_nonneg_left (pow_le_pow_left₀ (abs_nonneg _) h2 k) (abs_nonneg _)) h1

private theorem tableErr_pow (fam : AngFam) :
    ∃ E B : ℝ, 0 ≤ E ∧ 0 ≤ B ∧ (∀ k, tableErr fam k * √3 ^ k ≤ E * B ^ k) ∧ ∀ κ, digitErr fam κ = E * exp (B * κ) := by
  have hs : √3 ^ 2 = (3 : ℝ) := Real.sq_sqrt (by norm_num)
  have h1 : (1 : ℝ) ≤ √3 := Real.one_le_sqrt.2 (by norm_num)
  have other : ∀ k : ℕ, (3 : ℝ) ^ (k / 2) * (6 / 10 ^ 14) * √3 ^ k ≤ 6 / 10 ^ 14 * 3 ^ k := by
    intro k
    have h2 : (3 : ℝ) ^ (k / 2) ≤ √3 ^ k := by
      nth_rewrite 1 [← hs]
      rw [← pow_mul]
      exact pow_le_pow_right₀ h1 (Nat.mul_div_le k 2)
    have h4 : √3 ^ k * √3 ^ k = (3 : ℝ) ^ k := by rw [← mul_pow, ← sq, hs]
    have h5 : (0 : ℝ) < √3 ^ k := by positivity
    rw [← h4]
    nlinarith
  cases fam with
  | lebedevLaikov => exact ⟨4 * π / 10 ^ 13, √3, by positivity, by positivity, fun k => le_rfl, fun κ => rfl⟩
  | delley => exact ⟨4 * π / 10 ^ 13, √3, by positivity, by positivity, fun k => le_rfl, fun κ => rfl⟩
  | ahrensBeylkin => exact ⟨_, 3, by norm_num, by norm_num, other, fun κ => rfl⟩
  | womersley => exact ⟨_, 3, by norm_num, by norm_num, other, fun κ => rfl⟩

/-- **C115.**  A supported angular grid of order `L`, applied to a function of the component in the direction `u` that
grows like `A exp (κ t)`, returns its surface integral up to `12 π A κ^(L+1) / (L+1)! exp κ` (with `κ` enlarged by `1e-14`,
the error of the lengths of the points) and the contribution of the digits of the tables. -/
theorem C115_exponentials (b : Build) (fam : AngFam) (n : Nat) (h : fam.orderByNpts n ≠ -1)
    (ha : ¬ (fam = .ahrensBeylkin ∧ n = 552)) (u : Pt ℝ) (hu : normSq u = 1) {f : ℝ → ℝ} {A κ : ℝ} (hA : 0 ≤ A)
    (hκ : 0 ≤ κ) (hf : ExpSeries f A κ) :
    Returns (angConstruct b (angData ℝ) fam n) (fun q =>
      |ruleSum q.points q.weights (fun x => f (u.x * x.x + u.y * x.y + u.z * x.z)) -
        ∫ x : sphere (0 : E3) 1, f (u.x * x.1 0 + u.y * x.1 1 + u.z * x.1 2) ∂(volume : Measure E3).toSphere| ≤
        A * digitErr fam κ + 12 * π * A * ((κ * (1 + 1 / 10 ^ 14)) ^ ((fam.orderByNpts n).toNat + 1) /
          ((fam.orderByNpts n).toNat + 1).factorial * exp (κ * (1 + 1 / 10 ^ 14)))) := by
  obtain ⟨a, ha', hs⟩ := hf
  have hord : 0 ≤ fam.orderByNpts n := by
    have hm := (fam.orderByNpts_iff _ _).1 ⟨rfl, h⟩
    have : ∀ e ∈ fam.entries, (0 : Int) ≤ e.1 := by cases fam <;> decide +kernel
    exact this _ hm
  obtain ⟨m, hm⟩ : ∃ m : ℕ, fam.orderByNpts n = m := ⟨_, (Int.toNat_of_nonneg hord).symm⟩
  obtain ⟨q, hq, -, hw, hunit, -⟩ := angular_facts b fam n h ha (dirPoly_hom u 0) hord
  refine ⟨q, hq, ?_⟩
  rw [hm, Int.toNat_natCast]
  set r : ℝ := 1 + 1 / 10 ^ 14 with hr
  set t : Pt ℝ → ℝ := fun x => u.x * x.x + u.y * x.y + u.z * x.z with ht
  have htr : ∀ x ∈ q.points, |t x| ≤ r := by
    intro x hx
    have h1 := (abs_le.1 (hunit x hx)).2
    unfold normSq at hu h1
    rw [abs_le]
    constructor
    · rw [hr]
      simp only [ht]
      nlinarith [sq_nonneg (u.x + x.x), sq_nonneg (u.y + x.y), sq_nonneg (u.z + x.z)]
    · rw [hr]
      simp only [ht]
      nlinarith [sq_nonneg (u.x - x.x), sq_nonneg (u.y - x.y), sq_nonneg (u.z - x.z)]
  have hr1 : 1 ≤ r := by rw [hr]; norm_num
  obtain ⟨E, B, hE, hB, hEB, hdig⟩ := tableErr_pow fam
  have hsum := (ruleSum_hasSum q.points q.weights t hs).sub (surface_hasSum ha' hs u hu)
  obtain ⟨S, hS, hS2⟩ := exp_tail (x := κ * r) (by positivity) (m + 1)
  have hg := ((exp_hasSum (B * κ)).mul_left (A * E)).add (hS.mul_left (12 * π * A))
  have hint : ∀ k : ℕ, |2 * π * ∫ s in (-1 : ℝ)..1, s ^ k| ≤ 4 * π := by
    intro k
    have hb : ‖∫ s in (-1 : ℝ)..1, s ^ k‖ ≤ 1 * |1 - (-1 : ℝ)| := by
      refine intervalIntegral.norm_integral_le_of_norm_le_const fun s hs => ?_
      rw [uIoc_of_le (by norm_num)] at hs
      rw [norm_pow, Real.norm_eq_abs]
      exact pow_le_one₀ (abs_nonneg _) (abs_le.2 ⟨hs.1.le, hs.2⟩)
    rw [Real.norm_eq_abs] at hb
    have h2 : (1 : ℝ) * |1 - (-1 : ℝ)| = 2 := by norm_num
    rw [h2] at hb
    rw [abs_mul, abs_of_pos (by positivity : (0 : ℝ) < 2 * π)]
    nlinarith [pi_pos]
  have hbound : ∀ k, ‖a k * ruleSum q.points q.weights (fun p => t p ^ k) - a k * (2 * π * ∫ s in (-1 : ℝ)..1, s ^ k)‖ ≤
      A * E * ((B * κ) ^ k / k.factorial) + 12 * π * A * (if k < m + 1 then 0 else (κ * r) ^ k / k.factorial) := by
    intro k
    rw [← mul_sub, Real.norm_eq_abs, abs_mul]
    have hc : 0 ≤ A * (κ ^ k / k.factorial) := by positivity
    by_cases hk : k < m + 1
    · rw [if_pos hk, mul_zero, add_zero]
      obtain ⟨q', hq', -, -, -, h4⟩ := angular_facts b fam n h ha (dirPoly_hom u k) (by omega)
      rw [hq] at hq'
      injection hq' with hq'
      subst hq'
      rw [sphereInt_dirPoly u hu] at h4
      have hf : polyAt (dirPoly u ^ k) = fun x => t x ^ k := by
        funext x
        exact polyAt_dirPoly u x k
      rw [hf] at h4
      have h5 : tableErr fam k * coeffSum (dirPoly u ^ k) ≤ E * B ^ k := by
        refine le_trans ?_ (hEB k)
        refine mul_le_mul_of_nonneg_left (coeffSum_dirPoly u hu k) ?_
        cases fam <;> simp only [tableErr] <;> positivity
      calc _ ≤ A * (κ ^ k / k.factorial) * (E * B ^ k) := mul_le_mul (ha' k) (h4.trans h5) (abs_nonneg _) hc
        _ = _ := by rw [mul_pow]; ring
    · rw [if_neg hk]
      have h6 : |ruleSum q.points q.weights (fun p => t p ^ k) - 2 * π * ∫ s in (-1 : ℝ)..1, s ^ k| ≤ 12 * π * r ^ k := by
        refine (abs_sub _ _).trans ?_
        have h7 := rule_pow_le q.points q.weights t (by linarith) htr k
        have h8 : (1 : ℝ) ≤ r ^ k := one_le_pow₀ hr1
        have h9 : (q.weights.map (|·|)).sum * r ^ k ≤ 8 * π * r ^ k := mul_le_mul_of_nonneg_right hw (by positivity)
        have h10 := hint k
        nlinarith [pi_pos]
      have h11 : 0 ≤ A * E * ((B * κ) ^ k / k.factorial) := by positivity
      calc _ ≤ A * (κ ^ k / k.factorial) * (12 * π * r ^ k) := mul_le_mul (ha' k) h6 (abs_nonneg _) hc
        _ = 12 * π * A * ((κ * r) ^ k / k.factorial) := by rw [mul_pow]; ring
        _ ≤ _ := by linarith
  have hfin := hsum.norm_le_of_bounded hg hbound
  rw [Real.norm_eq_abs] at hfin
  refine hfin.trans ?_
  rw [hdig, mul_assoc A E]
  exact add_le_add le_rfl (mul_le_mul_of_nonneg_left hS2 (by positivity))

private theorem complex_series (c : ℂ) (t : ℝ) :
    HasSum (fun k : ℕ => c ^ k / (k.factorial : ℂ) * (t : ℂ) ^ k) (Complex.exp (c * t)) := by
  have h := NormedSpace.expSeries_div_hasSum_exp (𝔸 := ℂ) (c * t)
  rw [← Complex.exp_eq_exp_ℂ] at h
  refine h.congr_fun fun k => ?_
  rw [mul_pow]
  ring

private theorem complex_coeff (c : ℂ) (k : ℕ) :
    ‖c ^ k / (k.factorial : ℂ)‖ = ‖c‖ ^ k / (k.factorial : ℝ) := by
  rw [norm_div, norm_pow, Complex.norm_natCast]

/-- Exponentials and plane waves are such functions. -/
theorem C115_functions (κ : ℝ) (hκ : 0 ≤ κ) :
    ExpSeries (fun t => exp (κ * t)) 1 κ ∧ ExpSeries (fun t => exp (-(κ * t))) 1 κ ∧
      ExpSeries (fun t => cos (κ * t)) 1 κ ∧ ExpSeries (fun t => sin (κ * t)) 1 κ := by
  have hre : ∀ c : ℂ, ‖c‖ = κ → ExpSeries (fun t => (Complex.exp (c * t)).re) 1 κ := by
    intro c hc
    refine ⟨fun k => (c ^ k / (k.factorial : ℂ)).re, fun k => ?_, fun t => ?_⟩
    · rw [one_mul, ← hc, ← complex_coeff]
      exact Complex.abs_re_le_norm _
    · refine (Complex.hasSum_re (complex_series c t)).congr_fun fun k => ?_
      rw [← Complex.ofReal_pow, Complex.re_mul_ofReal]
  have him : ∀ c : ℂ, ‖c‖ = κ → ExpSeries (fun t => (Complex.exp (c * t)).im) 1 κ := by
    intro c hc
    refine ⟨fun k => (c ^ k / (k.factorial : ℂ)).im, fun k => ?_, fun t => ?_⟩
    · rw [one_mul, ← hc, ← complex_coeff]
      exact Complex.abs_im_le_norm _
    · refine (Complex.hasSum_im (complex_series c t)).congr_fun fun k => ?_
      rw [← Complex.ofReal_pow, Complex.im_mul_ofReal]
  have n1 : ‖(κ : ℂ)‖ = κ := by rw [Complex.norm_real, Real.norm_eq_abs, abs_of_nonneg hκ]
  have n2 : ‖(-κ : ℂ)‖ = κ := by rw [norm_neg, n1]
  have n3 : ‖(Complex.I * κ : ℂ)‖ = κ := by rw [norm_mul, Complex.norm_I, n1, one_mul]
  have e3 : ∀ t : ℝ, Complex.I * κ * t = ((κ * t : ℝ) : ℂ) * Complex.I := by
    intro t
    push_cast
    ring
  refine ⟨?_, ?_, ?_, ?_⟩
  · have h := hre _ n1
    have e : ∀ t : ℝ, (Complex.exp (κ * t)).re = exp (κ * t) := by
      intro t
      rw [← Complex.ofReal_mul, Complex.exp_ofReal_re]
    simpa only [e] using h
  · have h := hre _ n2
    have e : ∀ t : ℝ, (Complex.exp (-κ * t)).re = exp (-(κ * t)) := by
      intro t
      rw [neg_mul, ← Complex.ofReal_mul, ← Complex.ofReal_neg, Complex.exp_ofReal_re]
    simpa only [e] using h
  · have h := hre _ n3
    simpa only [e3, Complex.exp_ofReal_mul_I_re] using h
  · have h := him _ n3
    simpa only [e3, Complex.exp_ofReal_mul_I_im] using h

/-- The surface integral of such a function is an integral over an interval, the same for every direction. -/
theorem C115_surface_integral (u : Pt ℝ) (hu : normSq u = 1) {f : ℝ → ℝ} {A κ : ℝ} (hf : ExpSeries f A κ) :
    ∫ x : sphere (0 : E3) 1, f (u.x * x.1 0 + u.y * x.1 1 + u.z * x.1 2) ∂(volume : Measure E3).toSphere =
      2 * π * ∫ t in (-1 : ℝ)..1, f t := by
  obtain ⟨a, ha, hs⟩ := hf
  have h1 := surface_hasSum ha hs u hu
  have hb := (exp_hasSum κ).mul_left A
  have h2 : HasSum (fun k => ∫ t in (-1 : ℝ)..1, a k * t ^ k) (∫ t in (-1 : ℝ)..1, f t) := by
    refine intervalIntegral.hasSum_integral_of_dominated_convergence (fun k _ => A * (κ ^ k / k.factorial)) (fun k => ?_)
      (fun k => ?_) (ae_of_all _ fun _ _ => hb.summable) intervalIntegrable_const (ae_of_all _ fun t _ => hs t)
    · exact (by fun_prop : Continuous fun t : ℝ => a k * t ^ k).aestronglyMeasurable
    · refine ae_of_all _ fun t ht => ?_
      rw [uIoc_of_le (by norm_num)] at ht
      rw [norm_mul, norm_pow, Real.norm_eq_abs, Real.norm_eq_abs]
      calc |a k| * |t| ^ k ≤ |a k| * 1 :=
            mul_le_mul_of_nonneg_left (pow_le_one₀ (abs_nonneg _) (abs_le.2 ⟨ht.1.le, ht.2⟩)) (abs_nonneg _)
        _ ≤ _ := by rw [mul_one]; exact ha k
  have h3 := h2.mul_left (2 * π)
  refine h1.unique (h3.congr_fun fun k => ?_)
  rw [intervalIntegral.integral_const_mul]
  ring

/-- The plane wave with wave number 2 on the Lebedev-Laikov grid with 50 points (order 11); the bound is about `2.4e-3`. -/
example (b : Build) (u : Pt ℝ) (hu : normSq u = 1) : Returns (angConstruct b (angData ℝ) .lebedevLaikov 50) (fun q =>
    |ruleSum q.points q.weights (fun x => cos (2 * (u.x * x.x + u.y * x.y + u.z * x.z))) -
      ∫ x : sphere (0 : E3) 1, cos (2 * (u.x * x.1 0 + u.y * x.1 1 + u.z * x.1 2)) ∂(volume : Measure E3).toSphere| ≤
      1 * digitErr .lebedevLaikov 2 + 12 * π * 1 * ((2 * (1 + 1 / 10 ^ 14)) ^ 12 / (12).factorial *
        exp (2 * (1 + 1 / 10 ^ 14)))) := by
  have h := C115_exponentials b .lebedevLaikov 50 (by decide +kernel) (by simp) u hu zero_le_one (by norm_num)
    (C115_functions 2 (by norm_num)).2.2.1
  have e : AngFam.lebedevLaikov.orderByNpts (50 : ℕ) = 11 := by decide +kernel
  rw [e] at h
  exact h

end IntegratorXX
