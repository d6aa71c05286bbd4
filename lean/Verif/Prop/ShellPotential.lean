import Verif.Lemmas.SphereZonal
import Verif.Lemmas.InvSqrtSeries
import Verif.Prop.GridConvergence
import Verif.Spec.ShellPotential
import Mathlib.Analysis.SpecialFunctions.Integrals.Basic

/-!
# C116: the potential of a charged shell

The points of an angular grid on a sphere around the origin, charged with the weights, have outside the sphere the
potential of a point charge at the origin and inside it a constant potential, up to the error of the grid.
-/

namespace IntegratorXX

open Spec Set Real MeasureTheory Metric
open scoped InnerProductSpace

private theorem geom_tail {A x : ℝ} (h0 : 0 ≤ x) (h1 : x < 1) (m : ℕ) :
    HasSum (fun k : ℕ => if k < m then 0 else A * x ^ k) (A * (x ^ m / (1 - x))) := by
  rw [← hasSum_nat_add_iff' m, Finset.sum_eq_zero (fun i hi => if_pos (Finset.mem_range.1 hi)), sub_zero]
  have h := (hasSum_geometric_of_lt_one h0 h1).mul_left (A * x ^ m)
  rw [mul_assoc, ← div_eq_mul_inv] at h
  refine h.congr_fun fun k => ?_
  rw [if_neg (by omega), pow_add]
  ring

private theorem head_sum {E x : ℝ} (m : ℕ) :
    HasSum (fun k : ℕ => if k < m then E * x ^ k else 0) (E * ∑ k ∈ Finset.range m, x ^ k) := by
  have h := hasSum_sum_of_ne_finset_zero (L := .unconditional ℕ) (f := fun k : ℕ => if k < m then E * x ^ k else 0) (s := Finset.range m)
    (fun k hk => if_neg (by simpa using hk))
  rw [Finset.mul_sum]
  convert! h using 1
  exact Finset.sum_congr rfl fun k hk => (if_pos (Finset.mem_range.1 hk)).symm

private theorem ruleSum_hasSum {P : Type} (x : List P) (w : List ℝ) (t : P → ℝ) {a : ℕ → ℝ} {f : ℝ → ℝ}
    (h : ∀ p ∈ x, HasSum (fun k => a k * t p ^ k) (f (t p))) :
    HasSum (fun k => a k * ruleSum x w (fun p => t p ^ k)) (ruleSum x w (fun p => f (t p))) := by
  unfold ruleSum
  have hz : ∀ e ∈ x.zip w, HasSum (fun k => a k * t e.1 ^ k) (f (t e.1)) := fun e he => h _ (List.of_mem_zip he).1
  clear h
  generalize x.zip w = l at hz ⊢
  induction l with
  | nil => simp
  | cons e l ih =>
    simp only [List.map_cons, List.sum_cons]
    refine (((hz e List.mem_cons_self).mul_left e.2).add (ih fun e' he => hz e' (List.mem_cons_of_mem _ he))).congr_fun ?_
    intro k
    ring

private theorem dir_abs_le (u : Pt ℝ) (hu : normSq u = 1) (x : sphere (0 : E3) 1) :
    |u.x * x.1 0 + u.y * x.1 1 + u.z * x.1 2| ≤ 1 := by
  have hx : x.1 0 ^ 2 + x.1 1 ^ 2 + x.1 2 ^ 2 = 1 := by
    have h1 : ‖x.1‖ = 1 := by simp
    rw [EuclideanSpace.norm_eq, Real.sqrt_eq_one, Fin.sum_univ_three] at h1
    simpa using h1
  unfold normSq at hu
  rw [abs_le]
  constructor
  · nlinarith [sq_nonneg (u.x + x.1 0), sq_nonneg (u.y + x.1 1), sq_nonneg (u.z + x.1 2)]
  · nlinarith [sq_nonneg (u.x - x.1 0), sq_nonneg (u.y - x.1 1), sq_nonneg (u.z - x.1 2)]

private theorem surface_hasSum {a : ℕ → ℝ} {f : ℝ → ℝ} {A ρ : ℝ} (h0 : 0 ≤ ρ) (h1 : ρ < 1)
    (ha : ∀ k, |a k| ≤ A * ρ ^ k) (h : ∀ s, |s| ≤ 1 → HasSum (fun k => a k * s ^ k) (f s)) (u : Pt ℝ)
    (hu : normSq u = 1) :
    HasSum (fun k => a k * (2 * π * ∫ t in (-1 : ℝ)..1, t ^ k))
      (∫ x : sphere (0 : E3) 1, f (u.x * x.1 0 + u.y * x.1 1 + u.z * x.1 2) ∂(volume : Measure E3).toSphere) := by
  have e : ∀ k, a k * (2 * π * ∫ t in (-1 : ℝ)..1, t ^ k) =
      ∫ x : sphere (0 : E3) 1, a k * (u.x * x.1 0 + u.y * x.1 1 + u.z * x.1 2) ^ k ∂(volume : Measure E3).toSphere := by
    intro k
    rw [integral_const_mul, ← sphereInt_dirPoly u hu k, ← toSphere_poly]
    congr 1
    refine integral_congr_ae (ae_of_all _ fun x => ?_)
    simp only [polyAt_dirPoly, toPt]
  simp only [e]
  have hb := (hasSum_geometric_of_lt_one h0 h1).mul_left A
  refine hasSum_integral_of_dominated_convergence (fun k _ => A * ρ ^ k) (fun k => ?_) (fun k => ?_)
    (ae_of_all _ fun _ => hb.summable) (integrable_const _) (ae_of_all _ fun x => h _ (dir_abs_le u hu x))
  · have hcs : Continuous (fun x : sphere (0 : E3) 1 =>
        a k * (u.x * x.1 0 + u.y * x.1 1 + u.z * x.1 2) ^ k) := by fun_prop
    exact hcs.aestronglyMeasurable
  · refine ae_of_all _ fun x => ?_
    rw [Real.norm_eq_abs, abs_mul, abs_pow]
    calc |a k| * |u.x * x.1 0 + u.y * x.1 1 + u.z * x.1 2| ^ k ≤ |a k| * 1 :=
          mul_le_mul_of_nonneg_left (pow_le_one₀ (abs_nonneg _) (dir_abs_le u hu x)) (abs_nonneg _)
      _ ≤ _ := by rw [mul_one]; exact ha k

private theorem rule_pow_le {P : Type} (x : List P) (w : List ℝ) (t : P → ℝ) {r : ℝ} (hr : 0 ≤ r)
    (ht : ∀ p ∈ x, |t p| ≤ r) (k : ℕ) :
    |ruleSum x w (fun p => t p ^ k)| ≤ (w.map (|·|)).sum * r ^ k := by
  have h0 : ∀ w : List ℝ, 0 ≤ (w.map (|·|)).sum := fun w => List.sum_nonneg fun y hy => by
    obtain ⟨v, -, rfl⟩ := List.mem_map.1 hy
    exact abs_nonneg v
  unfold ruleSum
  induction x generalizing w with
  | nil =>
    simp only [List.zip_nil_left, List.map_nil, List.sum_nil, abs_zero]
    exact mul_nonneg (h0 w) (by positivity)
  | cons p x ih =>
    rcases w with _ | ⟨v, w⟩
    · simp
    · have h1 := ih w (fun q hq => ht q (List.mem_cons_of_mem _ hq))
      have h2 := ht p List.mem_cons_self
      simp only [List.zip_cons_cons, List.map_cons, List.sum_cons]
      refine (abs_add_le _ _).trans ?_
      rw [add_mul, abs_mul, abs_pow]
      exact add_le_add (mul_le_mul_of_nonneg_left (pow_le_pow_left₀ (abs_nonneg _) h2 k) (abs_nonneg _)) h1

private theorem tableErr_pow (fam : AngFam) :
    ∃ E B : ℝ, 0 ≤ E ∧ 0 ≤ B ∧ (∀ k, tableErr fam k * √3 ^ k ≤ E * B ^ k) ∧ ∀ L ρ, digitSum fam L ρ = E * ∑ k ∈ Finset.range (L + 1), (B * ρ) ^ k := by
  have hs : √3 ^ 2 = (3 : ℝ) := Real.sq_sqrt (by norm_num)
  have h1 : (1 : ℝ) ≤ √3 := Real.one_le_sqrt.2 (by norm_num)
  have other : ∀ k : ℕ, (3 : ℝ) ^ (k / 2) * (6 / 10 ^ 14) * √3 ^ k ≤ 6 / 10 ^ 14 * 3 ^ k := by
    intro k
    have h2 : (3 : ℝ) ^ (k / 2) ≤ √3 ^ k := by
      nth_rewrite 1 [← hs]
      rw [← pow_mul]
      exact pow_le_pow_right₀ h1 (Nat.mul_div_le k 2)
    have h4 : √3 ^ k * √3 ^ k = (3 : ℝ) ^ k := by rw [← mul_pow, ← sq, hs]
    have h5 : (0 : ℝ) < √3 ^ k := by positivity
    rw [← h4]
    nlinarith
  cases fam with
  | lebedevLaikov => exact ⟨4 * π / 10 ^ 13, √3, by positivity, by positivity, fun k => le_rfl, fun L ρ => rfl⟩
  | delley => exact ⟨4 * π / 10 ^ 13, √3, by positivity, by positivity, fun k => le_rfl, fun L ρ => rfl⟩
  | ahrensBeylkin => exact ⟨_, 3, by norm_num, by norm_num, other, fun L ρ => rfl⟩
  | womersley => exact ⟨_, 3, by norm_num, by norm_num, other, fun L ρ => rfl⟩

private theorem int_pow_abs_le (k : ℕ) : |2 * π * ∫ s in (-1 : ℝ)..1, s ^ k| ≤ 4 * π := by
  have hb : ‖∫ s in (-1 : ℝ)..1, s ^ k‖ ≤ 1 * |1 - (-1 : ℝ)| := by
    refine intervalIntegral.norm_integral_le_of_norm_le_const fun s hs => ?_
    rw [uIoc_of_le (by norm_num)] at hs
    rw [norm_pow, Real.norm_eq_abs]
    exact pow_le_one₀ (abs_nonneg _) (abs_le.2 ⟨hs.1.le, hs.2⟩)
  rw [Real.norm_eq_abs] at hb
  have h2 : (1 : ℝ) * |1 - (-1 : ℝ)| = 2 := by norm_num
  rw [h2] at hb
  rw [abs_mul, abs_of_pos (by positivity : (0 : ℝ) < 2 * π)]
  nlinarith [pi_pos]

private theorem node_abs_le {u x : Pt ℝ} (hu : normSq u = 1) (hx : |normSq x - 1| ≤ 1 / 10 ^ 14) :
    |u.x * x.x + u.y * x.y + u.z * x.z| ≤ 1 + 1 / 10 ^ 14 := by
  have h1 := (abs_le.1 hx).2
  unfold normSq at hu h1
  rw [abs_le]
  constructor
  · nlinarith [sq_nonneg (u.x + x.x), sq_nonneg (u.y + x.y), sq_nonneg (u.z + x.z)]
  · nlinarith [sq_nonneg (u.x - x.x), sq_nonneg (u.y - x.y), sq_nonneg (u.z - x.z)]

/-- The error for functions of the component in one direction, together with the facts about the grid used below. -/
private theorem series_error (b : Build) (fam : AngFam) (n : Nat) (h : fam.orderByNpts n ≠ -1)
    (ha : ¬ (fam = .ahrensBeylkin ∧ n = 552)) (u : Pt ℝ) (hu : normSq u = 1) {f : ℝ → ℝ} {A ρ : ℝ} (hA : 0 ≤ A)
    (hρ : 0 ≤ ρ) (hρ1 : ρ * (1 + 1 / 10 ^ 14) < 1) (hf : GeometricSeriesOn (1 + 1 / 10 ^ 14) f A ρ) :
    ∃ q, angConstruct b (angData ℝ) fam n = .ok q ∧ Consistent q ∧ (q.weights.map (|·|)).sum ≤ 8 * π ∧
      (∀ x ∈ q.points, |normSq x - 1| ≤ 1 / 10 ^ 14) ∧
      |ruleSum q.points q.weights (fun x => f (u.x * x.x + u.y * x.y + u.z * x.z)) -
        ∫ x : sphere (0 : E3) 1, f (u.x * x.1 0 + u.y * x.1 1 + u.z * x.1 2) ∂(volume : Measure E3).toSphere| ≤
        A * digitSum fam (fam.orderByNpts n).toNat ρ + 12 * π * A *
          ((ρ * (1 + 1 / 10 ^ 14)) ^ ((fam.orderByNpts n).toNat + 1) / (1 - ρ * (1 + 1 / 10 ^ 14))) := by
  obtain ⟨a, ha', hs⟩ := hf
  have hord : 0 ≤ fam.orderByNpts n := by
    have hm := (fam.orderByNpts_iff _ _).1 ⟨rfl, h⟩
    have : ∀ e ∈ fam.entries, (0 : Int) ≤ e.1 := by cases fam <;> decide +kernel
    exact this _ hm
  obtain ⟨m, hm⟩ : ∃ m : ℕ, fam.orderByNpts n = m := ⟨_, (Int.toNat_of_nonneg hord).symm⟩
  obtain ⟨q, hq, hcons, hw, hunit, -⟩ := angular_facts b fam n h ha (dirPoly_hom u 0) hord
  refine ⟨q, hq, hcons, hw, hunit, ?_⟩
  rw [hm, Int.toNat_natCast]
  set r : ℝ := 1 + 1 / 10 ^ 14 with hr
  set t : Pt ℝ → ℝ := fun x => u.x * x.x + u.y * x.y + u.z * x.z with ht
  have htr : ∀ x ∈ q.points, |t x| ≤ r := fun x hx => node_abs_le hu (hunit x hx)
  have hr1 : 1 ≤ r := by rw [hr]; norm_num
  have hlt : ρ < 1 := lt_of_le_of_lt (by nlinarith) hρ1
  obtain ⟨E, B, hE, hB, hEB, hdig⟩ := tableErr_pow fam
  have hsum := (ruleSum_hasSum q.points q.weights t (fun p hp => hs _ (htr p hp))).sub
    (surface_hasSum hρ hlt ha' (fun s h1 => hs s (h1.trans hr1)) u hu)
  have hg := (head_sum (E := A * E) (x := B * ρ) (m + 1)).add
    (geom_tail (A := 12 * π * A) (x := ρ * r) (by positivity) hρ1 (m + 1))
  have hbound : ∀ k, ‖a k * ruleSum q.points q.weights (fun p => t p ^ k) - a k * (2 * π * ∫ s in (-1 : ℝ)..1, s ^ k)‖ ≤
      (if k < m + 1 then A * E * (B * ρ) ^ k else 0) + (if k < m + 1 then 0 else 12 * π * A * (ρ * r) ^ k) := by
    intro k
    rw [← mul_sub, Real.norm_eq_abs, abs_mul]
    have hc : 0 ≤ A * ρ ^ k := by positivity
    by_cases hk : k < m + 1
    · rw [if_pos hk, if_pos hk, add_zero]
      obtain ⟨q', hq', -, -, -, h4⟩ := angular_facts b fam n h ha (dirPoly_hom u k) (by omega)
      rw [hq] at hq'
      injection hq' with hq'
      subst hq'
      rw [sphereInt_dirPoly u hu] at h4
      have hf : polyAt (dirPoly u ^ k) = fun x => t x ^ k := by
        funext x
        exact polyAt_dirPoly u x k
      rw [hf] at h4
      have h5 : tableErr fam k * coeffSum (dirPoly u ^ k) ≤ E * B ^ k := by
        refine le_trans ?_ (hEB k)
        refine mul_le_mul_of_nonneg_left (coeffSum_dirPoly u hu k) ?_
        cases fam <;> simp only [tableErr] <;> positivity
      calc _ ≤ A * ρ ^ k * (E * B ^ k) := mul_le_mul (ha' k) (h4.trans h5) (abs_nonneg _) hc
        _ = _ := by rw [mul_pow]; ring
    · rw [if_neg hk, if_neg hk, zero_add]
      have h6 : |ruleSum q.points q.weights (fun p => t p ^ k) - 2 * π * ∫ s in (-1 : ℝ)..1, s ^ k| ≤ 12 * π * r ^ k := by
        refine (abs_sub _ _).trans ?_
        have h7 := rule_pow_le q.points q.weights t (by linarith) htr k
        have h8 : (1 : ℝ) ≤ r ^ k := one_le_pow₀ hr1
        have h9 : (q.weights.map (|·|)).sum * r ^ k ≤ 8 * π * r ^ k := mul_le_mul_of_nonneg_right hw (by positivity)
        have h10 := int_pow_abs_le k
        nlinarith [pi_pos]
      calc _ ≤ A * ρ ^ k * (12 * π * r ^ k) := mul_le_mul (ha' k) h6 (abs_nonneg _) hc
        _ = 12 * π * A * (ρ * r) ^ k := by rw [mul_pow]; ring
  have hfin := hsum.norm_le_of_bounded hg hbound
  rw [Real.norm_eq_abs] at hfin
  refine hfin.trans (le_of_eq ?_)
  rw [hdig]
  ring

/-- **C116.**  A supported angular grid of order `L`, applied to a function of the component in the direction `u` given by a
power series with coefficients of size at most `A ρ ^ k`, `ρ < 1`, returns the surface integral with an error that decays
like `ρ ^ (L + 1)`, up to the digits of the tables. -/
theorem C116_series (b : Build) (fam : AngFam) (n : Nat) (h : fam.orderByNpts n ≠ -1)
    (ha : ¬ (fam = .ahrensBeylkin ∧ n = 552)) (u : Pt ℝ) (hu : normSq u = 1) {f : ℝ → ℝ} {A ρ : ℝ} (hA : 0 ≤ A)
    (hρ : 0 ≤ ρ) (hρ1 : ρ * (1 + 1 / 10 ^ 14) < 1) (hf : GeometricSeriesOn (1 + 1 / 10 ^ 14) f A ρ) :
    Returns (angConstruct b (angData ℝ) fam n) (fun q =>
      |ruleSum q.points q.weights (fun x => f (u.x * x.x + u.y * x.y + u.z * x.z)) -
        ∫ x : sphere (0 : E3) 1, f (u.x * x.1 0 + u.y * x.1 1 + u.z * x.1 2) ∂(volume : Measure E3).toSphere| ≤
        A * digitSum fam (fam.orderByNpts n).toNat ρ + 12 * π * A *
          ((ρ * (1 + 1 / 10 ^ 14)) ^ ((fam.orderByNpts n).toNat + 1) / (1 - ρ * (1 + 1 / 10 ^ 14)))) := by
  obtain ⟨q, hq, -, -, -, he⟩ := series_error b fam n h ha u hu hA hρ hρ1 hf
  exact ⟨q, hq, he⟩

private theorem kernel_series {σ : ℝ} (h0 : 0 ≤ σ) (h1 : 2 * σ / (1 + σ ^ 2) * (1 + 1 / 10 ^ 14) < 1) :
    GeometricSeriesOn (1 + 1 / 10 ^ 14) (fun t => 1 / √(1 + σ ^ 2 - 2 * σ * t)) 1 (2 * σ / (1 + σ ^ 2)) := by
  set τ : ℝ := 2 * σ / (1 + σ ^ 2) with hτ
  have hp : 0 < 1 + σ ^ 2 := by positivity
  have hτ0 : 0 ≤ τ := by positivity
  have hs1 : 1 ≤ √(1 + σ ^ 2) := Real.one_le_sqrt.2 (by nlinarith [sq_nonneg σ])
  refine ⟨fun k => 1 / √(1 + σ ^ 2) * Ring.choose ((1 / 2 : ℝ) + k - 1) k * τ ^ k, fun k => ?_, fun t ht => ?_⟩
  · rw [abs_mul, abs_mul, abs_of_nonneg (by positivity : 0 ≤ τ ^ k), abs_of_nonneg (by positivity : 0 ≤ 1 / √(1 + σ ^ 2))]
    refine mul_le_mul_of_nonneg_right ?_ (by positivity)
    have h2 : 1 / √(1 + σ ^ 2) ≤ 1 := by
      rw [div_le_one (by positivity)]
      exact hs1
    calc 1 / √(1 + σ ^ 2) * |Ring.choose ((1 / 2 : ℝ) + k - 1) k| ≤ 1 * 1 :=
          mul_le_mul h2 (choose_half_abs_le k) (abs_nonneg _) (by norm_num)
      _ = 1 := one_mul 1
  · have hx : |τ * t| < 1 := by
      rw [abs_mul, abs_of_nonneg hτ0]
      exact lt_of_le_of_lt (mul_le_mul_of_nonneg_left ht hτ0) h1
    have h := (inv_sqrt_hasSum hx).mul_left (1 / √(1 + σ ^ 2))
    have e : 1 / √(1 + σ ^ 2) * (1 / √(1 - τ * t)) = 1 / √(1 + σ ^ 2 - 2 * σ * t) := by
      rw [div_mul_div_comm, one_mul, ← Real.sqrt_mul hp.le]
      congr 2
      rw [hτ]
      field_simp
    rw [e] at h
    refine h.congr_fun fun k => ?_
    rw [mul_pow]
    ring

private theorem surface_geometric (u : Pt ℝ) (hu : normSq u = 1) {f : ℝ → ℝ} {r A ρ : ℝ} (hr : 1 ≤ r) (h0 : 0 ≤ ρ)
    (h1 : ρ < 1) (hf : GeometricSeriesOn r f A ρ) :
    ∫ x : sphere (0 : E3) 1, f (u.x * x.1 0 + u.y * x.1 1 + u.z * x.1 2) ∂(volume : Measure E3).toSphere =
      2 * π * ∫ t in (-1 : ℝ)..1, f t := by
  obtain ⟨a, ha, hs⟩ := hf
  have h2 := surface_hasSum h0 h1 ha (fun s hs' => hs s (hs'.trans hr)) u hu
  have hb := (hasSum_geometric_of_lt_one h0 h1).mul_left A
  have h3 : HasSum (fun k => ∫ t in (-1 : ℝ)..1, a k * t ^ k) (∫ t in (-1 : ℝ)..1, f t) := by
    refine intervalIntegral.hasSum_integral_of_dominated_convergence (fun k _ => A * ρ ^ k) (fun k => ?_)
      (fun k => ?_) (ae_of_all _ fun _ _ => hb.summable) intervalIntegrable_const (ae_of_all _ fun t ht => hs t ?_)
    · exact (by fun_prop : Continuous fun t : ℝ => a k * t ^ k).aestronglyMeasurable
    · refine ae_of_all _ fun t ht => ?_
      rw [uIoc_of_le (by norm_num)] at ht
      rw [norm_mul, norm_pow, Real.norm_eq_abs, Real.norm_eq_abs]
      calc |a k| * |t| ^ k ≤ |a k| * 1 :=
            mul_le_mul_of_nonneg_left (pow_le_one₀ (abs_nonneg _) (abs_le.2 ⟨ht.1.le, ht.2⟩)) (abs_nonneg _)
        _ ≤ _ := by rw [mul_one]; exact ha k
    · rw [uIoc_of_le (by norm_num)] at ht
      exact (abs_le.2 ⟨ht.1.le, ht.2⟩).trans hr
  refine h2.unique ((h3.mul_left (2 * π)).congr_fun fun k => ?_)
  rw [intervalIntegral.integral_const_mul]
  ring

private theorem kernel_integral {σ : ℝ} (h0 : 0 ≤ σ) (h1 : σ < 1) :
    ∫ t in (-1 : ℝ)..1, 1 / √(1 + σ ^ 2 - 2 * σ * t) = 2 := by
  rcases h0.eq_or_lt with rfl | hpos
  · norm_num
  have hin : ∀ t ∈ uIcc (-1 : ℝ) 1, 0 < 1 + σ ^ 2 - 2 * σ * t := by
    intro t ht
    rw [uIcc_of_le (by norm_num)] at ht
    nlinarith [ht.2, sq_pos_of_pos (sub_pos.2 h1)]
  have hd : ∀ t ∈ uIcc (-1 : ℝ) 1,
      HasDerivAt (fun t => -(√(1 + σ ^ 2 - 2 * σ * t) / σ)) (1 / √(1 + σ ^ 2 - 2 * σ * t)) t := by
    intro t ht
    have h2 := hin t ht
    have h3 : HasDerivAt (fun t : ℝ => 1 + σ ^ 2 - 2 * σ * t) (-(2 * σ)) t := by
      simpa using ((hasDerivAt_id t).const_mul (2 * σ)).const_sub (1 + σ ^ 2)
    have h4 := ((h3.sqrt h2.ne').div_const σ).neg
    refine h4.congr_deriv ?_
    have : √(1 + σ ^ 2 - 2 * σ * t) ≠ 0 := (Real.sqrt_pos.2 h2).ne'
    field_simp
  have hc : ContinuousOn (fun t => 1 / √(1 + σ ^ 2 - 2 * σ * t)) (uIcc (-1 : ℝ) 1) := by
    refine ContinuousOn.div continuousOn_const (by fun_prop) fun t ht => (Real.sqrt_pos.2 (hin t ht)).ne'
  rw [intervalIntegral.integral_eq_sub_of_hasDerivAt hd hc.intervalIntegrable]
  have e1 : 1 + σ ^ 2 - 2 * σ * 1 = (1 - σ) ^ 2 := by ring
  have e2 : 1 + σ ^ 2 - 2 * σ * (-1) = (1 + σ) ^ 2 := by ring
  rw [e1, e2, Real.sqrt_sq (by linarith), Real.sqrt_sq (by linarith)]
  field_simp
  ring

private theorem inv_sqrt_close {g D D' ε : ℝ} (hg : 0 < g) (h : 4 / 9 * g ^ 2 ≤ D) (h' : 4 / 9 * g ^ 2 ≤ D')
    (hε : |D - D'| ≤ ε) : |1 / √D - 1 / √D'| ≤ 2 * ε / g ^ 3 := by
  have hb : ∀ D : ℝ, 4 / 9 * g ^ 2 ≤ D → 2 / 3 * g ≤ √D := by
    intro D hD
    refine Real.le_sqrt_of_sq_le ?_
    nlinarith
  have h1 := hb D h
  have h2 := hb D' h'
  have p1 : 0 < √D := by linarith
  have p2 : 0 < √D' := by linarith
  have s1 : √D ^ 2 = D := Real.sq_sqrt (by nlinarith)
  have s2 : √D' ^ 2 = D' := Real.sq_sqrt (by nlinarith)
  have e : 1 / √D - 1 / √D' = (D' - D) / (√D * √D' * (√D + √D')) := by
    rw [← s1, ← s2, Real.sqrt_sq p1.le, Real.sqrt_sq p2.le]
    field_simp
    ring
  have hden : 16 / 27 * g ^ 3 ≤ √D * √D' * (√D + √D') := by
    have a1 : 4 / 9 * g ^ 2 ≤ √D * √D' := by nlinarith
    have a2 : 4 / 3 * g ≤ √D + √D' := by linarith
    have := mul_le_mul a1 a2 (by linarith) (by positivity)
    nlinarith [this]
  have hε0 : 0 ≤ ε := (abs_nonneg _).trans hε
  rw [e, abs_div, abs_of_pos (by positivity : 0 < √D * √D' * (√D + √D')), abs_sub_comm]
  calc |D - D'| / (√D * √D' * (√D + √D')) ≤ ε / (16 / 27 * g ^ 3) :=
        div_le_div₀ hε0 hε (by positivity) hden
    _ ≤ 2 * ε / g ^ 3 := by
      rw [div_le_div_iff₀ (by positivity) (by positivity)]
      nlinarith [mul_nonneg hε0 (pow_pos hg 3).le]

private theorem exists_direction (c : Pt ℝ) {R : ℝ} (h0 : 0 ≤ R) (hR : normSq c = R ^ 2) :
    ∃ u : Pt ℝ, normSq u = 1 ∧ c.x = R * u.x ∧ c.y = R * u.y ∧ c.z = R * u.z := by
  rcases h0.eq_or_lt with rfl | hp
  · unfold normSq at hR
    refine ⟨⟨0, 0, 1⟩, by simp [normSq], ?_, ?_, ?_⟩
    · nlinarith [sq_nonneg c.x, sq_nonneg c.y, sq_nonneg c.z]
    · nlinarith [sq_nonneg c.x, sq_nonneg c.y, sq_nonneg c.z]
    · nlinarith [sq_nonneg c.x, sq_nonneg c.y, sq_nonneg c.z]
  · refine ⟨⟨c.x / R, c.y / R, c.z / R⟩, ?_, ?_, ?_, ?_⟩
    · unfold normSq at hR ⊢
      simp only [div_pow]
      field_simp
      linarith
    all_goals
      simp only
      field_simp

/-- **C116.**  Newton's shell theorem for the grids: the points of a supported angular grid of order `L`, scaled by `s` and
charged with the weights, have at a point `c` with distance `R` from the origin the potential `4 π / max s R` of a charged
sphere.  With `σ` the quotient of the smaller and the larger distance, the error decays like
`(2 σ / (1 + σ²)) ^ (L + 1)`, up to what the digits of the tables contribute. -/
theorem C116_shell_potential (b : Build) (fam : AngFam) (n : Nat) (h : fam.orderByNpts n ≠ -1)
    (ha : ¬ (fam = .ahrensBeylkin ∧ n = 552)) (c : Pt ℝ) {s R M σ τ : ℝ} (hs : 0 ≤ s) (hR0 : 0 ≤ R)
    (hR : normSq c = R ^ 2) (hM : M = max s R) (hM0 : 0 < M) (hσ : σ = min s R / M) (hσ1 : σ ≤ 1 - 4 / 10 ^ 7)
    (hτ : τ = 2 * σ / (1 + σ ^ 2)) :
    Returns (angConstruct b (angData ℝ) fam n) (fun q =>
      |ruleSum q.points q.weights (fun x => 1 / distPt ⟨s * x.x, s * x.y, s * x.z⟩ c) - 4 * π / M| ≤
        (digitSum fam (fam.orderByNpts n).toNat τ +
          12 * π * ((τ * (1 + 1 / 10 ^ 14)) ^ ((fam.orderByNpts n).toNat + 1) / (1 - τ * (1 + 1 / 10 ^ 14))) +
          16 * π / 10 ^ 14 / (1 - σ) ^ 3) / M) := by
  have hσ0 : 0 ≤ σ := by rw [hσ]; exact div_nonneg (le_min hs hR0) hM0.le
  have hg : 4 / 10 ^ 7 ≤ 1 - σ := by linarith
  have hg2 : (4 / 10 ^ 7 : ℝ) ^ 2 ≤ (1 - σ) ^ 2 := pow_le_pow_left₀ (by norm_num) hg 2
  have hτ0 : 0 ≤ τ := by rw [hτ]; positivity
  have hτ1 : τ * (1 + 1 / 10 ^ 14) < 1 := by
    rw [hτ, div_mul_eq_mul_div, div_lt_one (by positivity)]
    linarith
  have hτ2 : τ < 1 := lt_of_le_of_lt (by linarith) hτ1
  obtain ⟨u, hu, hx, hy, hz⟩ := exists_direction c hR0 hR
  have hser := kernel_series hσ0 (by rw [← hτ]; exact hτ1)
  rw [← hτ] at hser
  obtain ⟨q, hq, hcons, hw, hunit, herr⟩ := series_error b fam n h ha u hu zero_le_one hτ0 hτ1 hser
  refine ⟨q, hq, ?_⟩
  rw [surface_geometric u hu (by norm_num) hτ0 hτ2 hser, kernel_integral hσ0 (by linarith), one_mul, mul_one] at herr
  set t : Pt ℝ → ℝ := fun x => u.x * x.x + u.y * x.y + u.z * x.z with ht
  have hMs : s ≤ M := by rw [hM]; exact le_max_left _ _
  have hprod : s ^ 2 + R ^ 2 = M ^ 2 * (1 + σ ^ 2) ∧ s * R = M ^ 2 * σ := by
    rw [hσ, hM] at *
    rcases le_total s R with h1 | h1
    · rw [max_eq_right h1] at *
      rw [min_eq_left h1] at *
      constructor
      · field_simp
        ring
      · field_simp
    · rw [max_eq_left h1] at *
      rw [min_eq_right h1] at *
      constructor <;> field_simp
  have hdist : ∀ x : Pt ℝ, distPt ⟨s * x.x, s * x.y, s * x.z⟩ c =
      M * √(1 + σ ^ 2 - 2 * σ * t x + (s / M) ^ 2 * (normSq x - 1)) := by
    intro x
    have hm : ∀ D : ℝ, M * √D = √(M ^ 2 * D) := fun D => by rw [Real.sqrt_mul (sq_nonneg M), Real.sqrt_sq hM0.le]
    unfold distPt
    rw [hm]
    congr 1
    have e : M ^ 2 * (1 + σ ^ 2 - 2 * σ * t x + (s / M) ^ 2 * (normSq x - 1)) =
        M ^ 2 * (1 + σ ^ 2) - 2 * (M ^ 2 * σ) * t x + s ^ 2 * (normSq x - 1) := by
      field_simp
    rw [e, ← hprod.1, ← hprod.2, hx, hy, hz]
    simp only [ht]
    unfold normSq at hu ⊢
    linear_combination (R ^ 2) * hu
  have hclose : ∀ x ∈ q.points,
      |M * (1 / distPt ⟨s * x.x, s * x.y, s * x.z⟩ c) - 1 / √(1 + σ ^ 2 - 2 * σ * t x)| ≤
        2 * (1 / 10 ^ 14) / (1 - σ) ^ 3 := by
    intro x hxq
    have hux := hunit x hxq
    have htx : t x ≤ 1 + 1 / 10 ^ 14 := (abs_le.1 (node_abs_le hu hux)).2
    have hsm : 0 ≤ (s / M) ^ 2 ∧ (s / M) ^ 2 ≤ 1 := by
      refine ⟨sq_nonneg _, ?_⟩
      exact pow_le_one₀ (by positivity) ((div_le_one hM0).2 hMs)
    have hdev : |(s / M) ^ 2 * (normSq x - 1)| ≤ 1 / 10 ^ 14 := by
      rw [abs_mul, abs_of_nonneg hsm.1]
      calc (s / M) ^ 2 * |normSq x - 1| ≤ 1 * (1 / 10 ^ 14) := mul_le_mul hsm.2 hux (abs_nonneg _) (by norm_num)
        _ = _ := one_mul _
    have hD0 : (1 - σ) ^ 2 - 2 / 10 ^ 14 ≤ 1 + σ ^ 2 - 2 * σ * t x := by
      linarith [mul_le_mul_of_nonneg_left htx hσ0]
    have e : M * (1 / distPt ⟨s * x.x, s * x.y, s * x.z⟩ c) =
        1 / √(1 + σ ^ 2 - 2 * σ * t x + (s / M) ^ 2 * (normSq x - 1)) := by
      rw [hdist x]
      field_simp
    rw [e]
    refine inv_sqrt_close (by linarith) ?_ ?_ ?_
    · have := (abs_le.1 hdev).1
      linarith
    · linarith
    · rw [add_sub_cancel_left]
      exact hdev
  have hdiff : |ruleSum q.points q.weights (fun x => M * (1 / distPt ⟨s * x.x, s * x.y, s * x.z⟩ c)) -
      ruleSum q.points q.weights (fun x => 1 / √(1 + σ ^ 2 - 2 * σ * t x))| ≤ 16 * π / 10 ^ 14 / (1 - σ) ^ 3 := by
    rw [← ruleSum_sub]
    have hp : 0 ≤ 2 * (1 / 10 ^ 14) / (1 - σ) ^ 3 := by
      have : 0 < 1 - σ := by linarith
      positivity
    refine (ruleSum_abs_le _ _ _ hp hclose).trans ?_
    calc _ ≤ 2 * (1 / 10 ^ 14) / (1 - σ) ^ 3 * (8 * π) := mul_le_mul_of_nonneg_left hw hp
      _ = _ := by ring
  have hscale : ruleSum q.points q.weights (fun x => M * (1 / distPt ⟨s * x.x, s * x.y, s * x.z⟩ c)) =
      M * ruleSum q.points q.weights (fun x => 1 / distPt ⟨s * x.x, s * x.y, s * x.z⟩ c) := by
    unfold ruleSum
    rw [← List.sum_map_mul_left]
    congr 1
    refine List.map_congr_left fun e _ => ?_
    ring
  rw [hscale] at hdiff
  show |_| ≤ _ / M
  rw [le_div_iff₀ hM0, ← abs_of_pos hM0, ← abs_mul, abs_of_pos hM0, sub_mul, div_mul_cancel₀ _ hM0.ne', mul_comm _ M]
  have h4 : 2 * π * 2 = 4 * π := by ring
  rw [h4] at herr
  have := abs_sub_le (M * ruleSum q.points q.weights (fun x => 1 / distPt ⟨s * x.x, s * x.y, s * x.z⟩ c))
    (ruleSum q.points q.weights (fun x => 1 / √(1 + σ ^ 2 - 2 * σ * t x))) (4 * π)
  linarith

/-- The Lebedev-Laikov grid with 302 points (order 29) on the unit sphere, seen from the distance 3; the bound is about
`7e-6`. -/
example (b : Build) : Returns (angConstruct b (angData ℝ) .lebedevLaikov 302) (fun q =>
    |ruleSum q.points q.weights (fun x => 1 / distPt ⟨1 * x.x, 1 * x.y, 1 * x.z⟩ ⟨1, 2, 2⟩) - 4 * π / 3| ≤
      (digitSum .lebedevLaikov 29 (3 / 5) +
        12 * π * ((3 / 5 * (1 + 1 / 10 ^ 14)) ^ 30 / (1 - 3 / 5 * (1 + 1 / 10 ^ 14))) +
        16 * π / 10 ^ 14 / (1 - 1 / 3) ^ 3) / 3) := by
  have h := C116_shell_potential b .lebedevLaikov 302 (by decide +kernel) (by simp) ⟨1, 2, 2⟩ (s := 1) (R := 3) (M := 3)
    (σ := 1 / 3) (τ := 3 / 5) (by norm_num) (by norm_num) (by norm_num [normSq]) (by norm_num) (by norm_num)
    (by norm_num) (by norm_num) (by norm_num)
  have e : AngFam.lebedevLaikov.orderByNpts (302 : ℕ) = 29 := by decide +kernel
  rw [e] at h
  exact h

end IntegratorXX
