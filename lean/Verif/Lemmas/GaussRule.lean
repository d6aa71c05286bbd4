import Verif.Lemmas.Legendre
import Mathlib.Analysis.Calculus.LocalExtr.Polynomial
import Mathlib.MeasureTheory.Integral.IntervalIntegral.FundThmCalculus
import Mathlib.LinearAlgebra.Lagrange
import Mathlib.Tactic.Linarith

/-!
# Orthogonality, roots and Gauss rules of the Legendre polynomials
-/

namespace IntegratorXX

open Polynomial Spec

local notation "P" => legendre

/-! ## The integral over `[-1, 1]` -/

/-- The integral of a polynomial over `[-1, 1]`. -/
noncomputable def polyInt (p : ℝ[X]) : ℝ := ∫ x in (-1 : ℝ)..1, p.eval x

theorem polyInt_add (p q : ℝ[X]) : polyInt (p + q) = polyInt p + polyInt q := by
  unfold polyInt
  simp only [eval_add]
  exact intervalIntegral.integral_add (p.continuous.intervalIntegrable _ _)
    (q.continuous.intervalIntegrable _ _)

theorem polyInt_C_mul (a : ℝ) (p : ℝ[X]) : polyInt (C a * p) = a * polyInt p := by
  unfold polyInt
  simp only [eval_mul, eval_C]
  exact intervalIntegral.integral_const_mul _ _

theorem polyInt_neg (p : ℝ[X]) : polyInt (-p) = -polyInt p := by
  have := polyInt_C_mul (-1) p
  simpa using this

theorem polyInt_sub (p q : ℝ[X]) : polyInt (p - q) = polyInt p - polyInt q := by
  rw [sub_eq_add_neg, polyInt_add, polyInt_neg, sub_eq_add_neg]

@[simp] theorem polyInt_zero : polyInt 0 = 0 := by simp [polyInt]

theorem polyInt_sum {ι : Type*} (s : Finset ι) (f : ι → ℝ[X]) :
    polyInt (∑ i ∈ s, f i) = ∑ i ∈ s, polyInt (f i) := by
  classical
  induction s using Finset.induction_on with
  | empty => simp
  | insert a s ha ih => rw [Finset.sum_insert ha, Finset.sum_insert ha, polyInt_add, ih]

theorem polyInt_derivative (p : ℝ[X]) : polyInt (derivative p) = p.eval 1 - p.eval (-1) := by
  unfold polyInt
  exact intervalIntegral.integral_eq_sub_of_hasDerivAt (fun x _ => p.hasDerivAt x)
    ((derivative p).continuous.intervalIntegrable _ _)

theorem polyInt_parts (p q : ℝ[X]) :
    polyInt (derivative p * q) = p.eval 1 * q.eval 1 - p.eval (-1) * q.eval (-1) -
      polyInt (p * derivative q) := by
  have h := polyInt_derivative (p * q)
  rw [derivative_mul, polyInt_add, eval_mul, eval_mul] at h
  linarith

/-! ## Degree -/

private theorem natDegree_u_pow (n : ℕ) : (((X : ℝ[X]) ^ 2 - 1) ^ n).natDegree = 2 * n := by
  rw [natDegree_pow, show ((X : ℝ[X]) ^ 2 - 1) = X ^ 2 - C 1 by simp, natDegree_X_pow_sub_C,
    mul_comm]

theorem natDegree_legendre_le (n : ℕ) : (P n).natDegree ≤ n := by
  unfold legendre
  refine (natDegree_C_mul_le _ _).trans ((natDegree_iterate_derivative _ _).trans ?_)
  rw [natDegree_u_pow]
  omega

theorem legendre_coeff_pos (n : ℕ) : 0 < (P n).coeff n := by
  induction n using Nat.twoStepInduction with
  | zero => simp
  | one => simp [legendre_one]
  | more n h0 h1 =>
    have h := congrArg (fun p => p.coeff (n + 2)) (legendre_bonnet n)
    simp only [coeff_sub, mul_assoc, coeff_C_mul, coeff_X_mul] at h
    rw [coeff_eq_zero_of_natDegree_lt (lt_of_le_of_lt (natDegree_legendre_le n) (by omega)),
      mul_zero, sub_zero] at h
    have hn : (0 : ℝ) < n + 2 := by positivity
    have : 0 < (n + 2 : ℝ) * (P (n + 2)).coeff (n + 2) := by
      rw [h]; positivity
    exact (mul_pos_iff_of_pos_left hn).1 this

theorem natDegree_legendre (n : ℕ) : (P n).natDegree = n :=
  le_antisymm (natDegree_legendre_le n) (le_natDegree_of_ne_zero (legendre_coeff_pos n).ne')

theorem legendre_ne_zero (n : ℕ) : P n ≠ 0 := by
  intro h
  have := legendre_coeff_pos n
  rw [h] at this
  simp at this

theorem derivative_legendre_coeff (n : ℕ) :
    (derivative (P (n + 1))).coeff n = (n + 1) * (P (n + 1)).coeff (n + 1) := by
  rw [coeff_derivative]; ring

theorem natDegree_derivative_legendre (n : ℕ) : (derivative (P (n + 1))).natDegree = n := by
  apply le_antisymm
  · refine (natDegree_derivative_le _).trans ?_
    rw [natDegree_legendre]; omega
  · apply le_natDegree_of_ne_zero
    rw [derivative_legendre_coeff]
    have := legendre_coeff_pos (n + 1)
    positivity

/-! ## Orthogonality -/

private theorem iterate_u_eval (n k : ℕ) (hk : k < n) (x : ℝ) (hx : x ^ 2 = 1) :
    (derivative^[k] (((X : ℝ[X]) ^ 2 - 1) ^ n)).eval x = 0 := by
  obtain ⟨q, hq⟩ := pow_sub_dvd_iterate_derivative_of_pow_dvd k
    (dvd_refl (((X : ℝ[X]) ^ 2 - 1) ^ n))
  rw [hq, eval_mul, eval_pow]
  simp only [eval_sub, eval_pow, eval_X, eval_one, hx, sub_self]
  rw [zero_pow (by omega), zero_mul]

private theorem iterate_u_orth (n : ℕ) : ∀ k, k ≤ n → ∀ q : ℝ[X], q.degree < k →
    polyInt (derivative^[k] ((X ^ 2 - 1) ^ n) * q) = 0 := by
  intro k
  induction k with
  | zero =>
    intro _ q hq
    have : q = 0 := by
      rw [← degree_eq_bot]
      simpa using hq
    rw [this, mul_zero, polyInt_zero]
  | succ k ih =>
    intro hk q hq
    rw [Function.iterate_succ_apply', polyInt_parts, iterate_u_eval n k (by omega) 1 (by norm_num),
      iterate_u_eval n k (by omega) (-1) (by norm_num), ih (by omega)]
    · ring
    · by_cases h0 : q = 0
      · rw [h0, derivative_zero, degree_zero]; exact WithBot.bot_lt_coe k
      · have h1 := degree_derivative_lt h0
        rw [degree_eq_natDegree h0] at hq h1
        have h2 : q.natDegree < k + 1 := by exact_mod_cast hq
        exact lt_of_lt_of_le h1 (by exact_mod_cast (by omega : q.natDegree ≤ k))

/-- `P_n` is orthogonal to all polynomials of lower degree. -/
theorem legendre_orth (n : ℕ) (q : ℝ[X]) (hq : q.degree < n) : polyInt (P n * q) = 0 := by
  unfold legendre
  rw [mul_assoc, polyInt_C_mul, iterate_u_orth n n le_rfl q hq, mul_zero]

/-- Only the top coefficient of a polynomial of degree `≤ n` matters against `P_n`. -/
theorem legendre_top (n : ℕ) (h : ℝ[X]) (hd : h.natDegree ≤ n) :
    (P n).coeff n * polyInt (P n * h) = h.coeff n * polyInt (P n * P n) := by
  have h1 : polyInt (P n * (C ((P n).coeff n) * h - C (h.coeff n) * P n)) = 0 := by
    apply legendre_orth
    rw [degree_lt_iff_coeff_zero]
    intro m hm
    rw [coeff_sub, coeff_C_mul, coeff_C_mul]
    rcases Nat.eq_or_lt_of_le hm with rfl | hm
    · ring
    · rw [coeff_eq_zero_of_natDegree_lt (lt_of_le_of_lt hd hm),
        coeff_eq_zero_of_natDegree_lt (lt_of_le_of_lt (natDegree_legendre_le n) hm)]
      ring
  rw [mul_sub, polyInt_sub, ← mul_assoc, mul_comm (P n) (C _), mul_assoc, polyInt_C_mul,
    ← mul_assoc, mul_comm (P n) (C _), mul_assoc, polyInt_C_mul] at h1
  linarith

/-- The norm of `P_n`. -/
theorem legendre_norm (n : ℕ) : (2 * n + 1) * polyInt (P n * P n) = 2 := by
  have h1 := polyInt_derivative (X * (P n * P n))
  have h2 : derivative (X * (P n * P n)) = P n * P n + C 2 * (P n * (X * derivative (P n))) := by
    rw [derivative_mul, derivative_mul, derivative_X, show (C 2 : ℝ[X]) = 2 from rfl]
    ring
  have h3 := legendre_top n (X * derivative (P n)) (by
    cases n with
    | zero => simp
    | succ n =>
      refine natDegree_mul_le.trans ?_
      rw [natDegree_derivative_legendre]
      have := natDegree_X_le (R := ℝ)
      omega)
  have h4 : (X * derivative (P n)).coeff n = n * (P n).coeff n := by
    cases n with
    | zero => simp
    | succ n =>
      rw [coeff_X_mul, derivative_legendre_coeff]
      push_cast
      ring
  rw [h2, polyInt_add, polyInt_C_mul] at h1
  simp only [eval_mul, eval_X, legendre_eval_one, legendre_eval_neg_one] at h1
  have hs : ((-1 : ℝ) ^ n) * (-1) ^ n = 1 := by rw [← mul_pow]; simp
  rw [hs] at h1
  rw [h4, mul_assoc, mul_comm (n : ℝ), mul_assoc] at h3
  have h5 := mul_left_cancel₀ (legendre_coeff_pos n).ne' h3
  rw [h5] at h1
  linarith

/-! ## Roots -/

theorem legendre_no_common_root (n : ℕ) (x : ℝ) (h : (P (n + 1)).eval x = 0) :
    (P n).eval x ≠ 0 := by
  induction n with
  | zero => simp
  | succ n ih =>
    intro h0
    apply ih h0
    have hb := congrArg (eval x) (legendre_bonnet n)
    simp only [eval_mul, eval_C, eval_sub, eval_X, h, h0, mul_zero, zero_sub] at hb
    have : (n + 1 : ℝ) ≠ 0 := by positivity
    have h2 : (n + 1 : ℝ) * (P n).eval x = 0 := by linarith
    exact (mul_eq_zero.1 h2).resolve_left this

theorem legendre_simple_root (n : ℕ) (x : ℝ) (h : (P n).eval x = 0) :
    (derivative (P n)).eval x ≠ 0 := by
  cases n with
  | zero => simp at h
  | succ n =>
    intro h0
    apply legendre_no_common_root n x h
    have hd := congrArg (eval x) (legendre_deriv_formula n)
    simp only [eval_mul, eval_sub, eval_one, eval_C, eval_X, h, h0, mul_zero, sub_zero] at hd
    have : (n + 1 : ℝ) ≠ 0 := by positivity
    exact (mul_eq_zero.1 hd.symm).resolve_left this

theorem legendre_ge_one (n : ℕ) (x : ℝ) (hx : 1 ≤ x) :
    1 ≤ (P n).eval x ∧ (P n).eval x ≤ (P (n + 1)).eval x := by
  induction n with
  | zero => simp [legendre_one, hx]
  | succ n ih =>
    have h1 : 1 ≤ (P (n + 1)).eval x := ih.1.trans ih.2
    refine ⟨h1, ?_⟩
    have hb := congrArg (eval x) (legendre_bonnet n)
    simp only [eval_mul, eval_C, eval_sub, eval_X] at hb
    have hn : (0 : ℝ) < n + 2 := by positivity
    apply le_of_mul_le_mul_left _ hn
    rw [hb]
    have hn' : (0 : ℝ) ≤ 2 * n + 3 := by positivity
    have hn'' : (0 : ℝ) ≤ n + 1 := by positivity
    nlinarith [mul_nonneg hn' (mul_nonneg (sub_nonneg.2 hx) (zero_le_one.trans h1)),
      mul_nonneg hn'' (sub_nonneg.2 ih.2)]

/-- All real roots of `P_n` lie in the open interval. -/
theorem legendre_root_mem (n : ℕ) (x : ℝ) (h : (P n).eval x = 0) : -1 < x ∧ x < 1 := by
  constructor
  · by_contra hx
    have := (legendre_ge_one n (-x) (by linarith)).1
    rw [legendre_eval_neg, h, mul_zero] at this
    linarith
  · by_contra hx
    have := (legendre_ge_one n x (by linarith)).1
    rw [h] at this
    linarith

private theorem card_roots_iterate (n k : ℕ) :
    2 * n ≤ Multiset.card (derivative^[k] (((X : ℝ[X]) ^ 2 - 1) ^ n)).roots + k := by
  induction k with
  | zero =>
    rw [Function.iterate_zero_apply, show ((X : ℝ[X]) ^ 2 - 1) = (X - C 1) * (X - C (-1)) by
      rw [C_neg, C_1]; ring, mul_pow, roots_mul, roots_pow, roots_pow, roots_X_sub_C,
      roots_X_sub_C]
    · simp; omega
    · exact mul_ne_zero (pow_ne_zero _ (X_sub_C_ne_zero _)) (pow_ne_zero _ (X_sub_C_ne_zero _))
  | succ k ih =>
    rw [Function.iterate_succ_apply']
    have := card_roots_le_derivative (derivative^[k] (((X : ℝ[X]) ^ 2 - 1) ^ n))
    omega

theorem card_roots_legendre (n : ℕ) : Multiset.card (P n).roots = n := by
  apply le_antisymm
  · have := card_roots' (P n)
    rwa [natDegree_legendre] at this
  · unfold legendre
    rw [roots_C_mul _ (by positivity)]
    have := card_roots_iterate n n
    omega

theorem nodup_roots_legendre (n : ℕ) : (P n).roots.Nodup := by
  rw [Multiset.nodup_iff_count_le_one]
  intro x
  rw [count_roots]
  by_contra h
  rw [not_le, one_lt_rootMultiplicity_iff_isRoot (legendre_ne_zero n)] at h
  exact legendre_simple_root n x h.1 h.2

/-- The set of roots of `P_n`. -/
noncomputable def legRoots (n : ℕ) : Finset ℝ := (P n).roots.toFinset

theorem mem_legRoots (n : ℕ) (x : ℝ) : x ∈ legRoots n ↔ (P n).eval x = 0 := by
  unfold legRoots
  rw [Multiset.mem_toFinset, mem_roots (legendre_ne_zero n), IsRoot.def]

/-- `P_n` has `n` distinct real roots. -/
theorem card_legRoots (n : ℕ) : (legRoots n).card = n := by
  unfold legRoots
  rw [Multiset.toFinset_card_of_nodup (nodup_roots_legendre n), card_roots_legendre]

/-- A polynomial with as many distinct roots as its degree is a multiple of the nodal
polynomial. -/
theorem eq_C_mul_nodal (W : ℝ[X]) (S : Finset ℝ) (hS : ∀ x ∈ S, W.eval x = 0)
    (hc : S.card = W.natDegree) :
    W = C W.leadingCoeff * Lagrange.nodal S id := by
  have hdvd : Lagrange.nodal S id ∣ W := by
    rw [Lagrange.nodal_eq]
    apply Finset.prod_dvd_of_coprime
    · intro x _ y _ hxy
      exact isCoprime_X_sub_C_of_isUnit_sub (sub_ne_zero.2 hxy).isUnit
    · intro x hx
      exact dvd_iff_isRoot.2 (hS x hx)
  exact eq_leadingCoeff_mul_of_monic_of_dvd_of_natDegree_le Lagrange.nodal_monic hdvd
    (by rw [Lagrange.natDegree_nodal, hc])

/-! ## Interpolatory rules -/

/-- A rule whose nodes are the zeros of a polynomial orthogonal to degree `< d`. -/
theorem interpolatory_exact (S : Finset ℝ) (d : ℕ)
    (horth : ∀ q : ℝ[X], q.degree < d → polyInt (Lagrange.nodal S id * q) = 0)
    (f : ℝ[X]) (hf : f.degree < (S.card + d : ℕ)) :
    polyInt f = ∑ x ∈ S, polyInt (Lagrange.basis S id x) * f.eval x := by
  set W := Lagrange.nodal S (id : ℝ → ℝ) 
  have hWm : W.Monic := Lagrange.nodal_monic
  have hWd : W.natDegree = S.card := Lagrange.natDegree_nodal
  have hsplit := modByMonic_add_div f W
  have hq : (f /ₘ W).degree < d := by
    by_cases h0 : f /ₘ W = 0
    · rw [h0, degree_zero]; exact WithBot.bot_lt_coe d
    · have hle : W.degree ≤ f.degree := by
        by_contra hlt
        exact h0 ((divByMonic_eq_zero_iff hWm).2 (not_le.1 hlt))
      have hf0 : f ≠ 0 := by rintro rfl; simp at h0
      have := natDegree_divByMonic f hWm
      rw [degree_eq_natDegree h0, this, hWd]
      rw [degree_eq_natDegree hf0] at hf
      have hf' : f.natDegree < S.card + d := by exact_mod_cast hf
      have hle' := natDegree_le_natDegree hle
      rw [hWd] at hle'
      exact_mod_cast (by omega : f.natDegree - S.card < d)
  have hr : (f %ₘ W).degree < S.card := by
    have := degree_modByMonic_lt f hWm
    rwa [Lagrange.degree_nodal] at this
  have hinter := Lagrange.eq_interpolate (f := f %ₘ W) (s := S) (v := id)
    Function.injective_id.injOn hr
  have hval : ∀ x ∈ S, (f %ₘ W).eval x = f.eval x := by
    intro x hx
    conv_rhs => rw [← hsplit]
    rw [eval_add, eval_mul]
    have : W.eval x = 0 := Lagrange.eval_nodal_at_node (v := id) hx
    rw [this, zero_mul, add_zero]
  conv_lhs => rw [← hsplit]
  rw [polyInt_add, horth _ hq, add_zero, hinter, Lagrange.interpolate_apply, polyInt_sum]
  apply Finset.sum_congr rfl
  intro x hx
  rw [polyInt_C_mul]
  show (f %ₘ W).eval x * _ = _
  rw [hval x hx, mul_comm]

/-- A multiple of a function vanishing at all nodes but `x`. -/
theorem interpolatory_single (S : Finset ℝ) (d : ℕ)
    (horth : ∀ q : ℝ[X], q.degree < d → polyInt (Lagrange.nodal S id * q) = 0)
    (f : ℝ[X]) (hf : f.degree < (S.card + d : ℕ)) (x : ℝ) (hx : x ∈ S)
    (h0 : ∀ y ∈ S, y ≠ x → f.eval y = 0) :
    polyInt f = polyInt (Lagrange.basis S id x) * f.eval x := by
  rw [interpolatory_exact S d horth f hf]
  apply Finset.sum_eq_single_of_mem x hx
  intro y hy hyx
  rw [h0 y hy hyx, mul_zero]

private theorem degree_lt_of_natDegree {p : ℝ[X]} {n : ℕ} (h : p.natDegree < n) :
    p.degree < n := lt_of_le_of_lt degree_le_natDegree (by exact_mod_cast h)

/-- Gauss-Legendre weights. -/
theorem gauss_legendre_weight (n : ℕ) (hn : 1 ≤ n) (x : ℝ) (hx : x ∈ legRoots n) :
    polyInt (Lagrange.basis (legRoots n) id x) =
      2 / ((1 - x ^ 2) * (derivative (P n)).eval x ^ 2) := by
  obtain ⟨k, rfl⟩ : ∃ k, n = k + 1 := ⟨n - 1, by omega⟩
  have hroot := (mem_legRoots _ _).1 hx
  have hnod := eq_C_mul_nodal (P (k + 1)) (legRoots (k + 1))
    (fun y hy => (mem_legRoots _ _).1 hy) (by rw [card_legRoots, natDegree_legendre])
  have hlc : (P (k + 1)).leadingCoeff ≠ 0 := leadingCoeff_ne_zero.2 (legendre_ne_zero _)
  have horth : ∀ q : ℝ[X], q.degree < (k + 1 : ℕ) →
      polyInt (Lagrange.nodal (legRoots (k + 1)) id * q) = 0 := by
    intro q hq
    have := legendre_orth (k + 1) q hq
    rw [hnod, mul_assoc, polyInt_C_mul] at this
    exact (mul_eq_zero.1 this).resolve_left hlc
  obtain ⟨g, hg⟩ := dvd_iff_isRoot.2 hroot
  set lam := polyInt (Lagrange.basis (legRoots (k + 1)) id x) with hlam
  have hg0 : g ≠ 0 := by rintro rfl; exact legendre_ne_zero (k + 1) (by rw [hg, mul_zero])
  have hgd : g.natDegree = k := by
    have := congrArg natDegree hg
    rw [natDegree_legendre, natDegree_mul (X_sub_C_ne_zero _) hg0, natDegree_X_sub_C] at this
    omega
  have hP' : derivative (P (k + 1)) = g + (X - C x) * derivative g := by
    rw [hg, derivative_mul, derivative_sub, derivative_X, derivative_C]; ring
  have hgx : g.eval x = (derivative (P (k + 1))).eval x := by
    rw [hP']; simp
  have hgy : ∀ y ∈ legRoots (k + 1), y ≠ x → g.eval y = 0 := by
    intro y hy hyx
    have := (mem_legRoots _ _).1 hy
    rw [hg, eval_mul] at this
    refine (mul_eq_zero.1 this).resolve_left ?_
    simpa using sub_ne_zero.2 hyx
  have h1 := interpolatory_single (legRoots (k + 1)) (k + 1) horth (g * derivative (P (k + 1)))
    (by
      rw [card_legRoots]
      apply degree_lt_of_natDegree
      refine lt_of_le_of_lt natDegree_mul_le ?_
      rw [natDegree_derivative_legendre, hgd]
      omega) x hx (fun y hy hyx => by rw [eval_mul, hgy y hy hyx, zero_mul])
  have h2 := interpolatory_single (legRoots (k + 1)) (k + 1) horth (g * g)
    (by
      rw [card_legRoots]
      apply degree_lt_of_natDegree
      refine lt_of_le_of_lt natDegree_mul_le ?_
      rw [hgd]
      omega) x hx (fun y hy hyx => by rw [eval_mul, hgy y hy hyx, zero_mul])
  have h3 := polyInt_derivative ((X - C x) * (g * g))
  have h4 : derivative ((X - C x) * (g * g)) = C 2 * (g * derivative (P (k + 1))) - g * g := by
    rw [hP', derivative_mul, derivative_mul, derivative_sub, derivative_X, derivative_C,
      show (C 2 : ℝ[X]) = 2 from rfl]
    ring
  rw [h4, polyInt_sub, polyInt_C_mul, h1, h2] at h3
  have e1 := congrArg (eval (1 : ℝ)) hg
  have e2 := congrArg (eval (-1 : ℝ)) hg
  rw [legendre_eval_one] at e1
  rw [legendre_eval_neg_one] at e2
  simp only [eval_mul, eval_sub, eval_X, eval_C, hgx] at h3 e1 e2
  obtain ⟨hx1, hx2⟩ := legendre_root_mem _ x hroot
  have e1' : eval 1 g = 1 / (1 - x) := by
    rw [eq_div_iff (by linarith)]; linarith
  have e2' : eval (-1) g * eval (-1) g = 1 / ((1 + x) * (1 + x)) := by
    rw [eq_div_iff (by nlinarith)]
    have : ((-1 : ℝ) ^ (k + 1)) * (-1) ^ (k + 1) = 1 := by rw [← mul_pow]; simp
    rw [e2] at this
    linarith
  rw [e1', e2'] at h3
  have hd := legendre_simple_root _ x hroot
  have ha : (1 - x) ≠ 0 := by linarith
  have hb : (1 + x) ≠ 0 := by linarith
  have hab : 1 - x ^ 2 ≠ 0 := by
    rw [show 1 - x ^ 2 = (1 - x) * (1 + x) by ring]
    exact mul_ne_zero ha hb
  rw [eq_div_iff (mul_ne_zero hab (pow_ne_zero 2 hd))]
  have h5 : lam * (eval x (derivative (P (k + 1)))) ^ 2 = 1 / (1 - x) + 1 / (1 + x) := by
    have : (1 - x) * (1 / (1 - x) * (1 / (1 - x))) = 1 / (1 - x) := by field_simp
    have h' : (-1 - x) * (1 / ((1 + x) * (1 + x))) = -(1 / (1 + x)) := by field_simp; ring
    rw [this, h'] at h3
    linarith
  calc lam * ((1 - x ^ 2) * eval x (derivative (P (k + 1))) ^ 2)
      = (1 - x ^ 2) * (lam * eval x (derivative (P (k + 1))) ^ 2) := by ring
    _ = 2 := by rw [h5]; field_simp; ring

/-- Gauss-Legendre exactness. -/
theorem gauss_legendre_exact (n : ℕ) (hn : 1 ≤ n) (f : ℝ[X]) (hf : f.degree < (2 * n : ℕ)) :
    polyInt f = ∑ x ∈ legRoots n,
      2 / ((1 - x ^ 2) * (derivative (P n)).eval x ^ 2) * f.eval x := by
  have hnod := eq_C_mul_nodal (P n) (legRoots n)
    (fun y hy => (mem_legRoots _ _).1 hy) (by rw [card_legRoots, natDegree_legendre])
  have hlc : (P n).leadingCoeff ≠ 0 := leadingCoeff_ne_zero.2 (legendre_ne_zero _)
  rw [interpolatory_exact (legRoots n) n (fun q hq => by
    have := legendre_orth n q hq
    rw [hnod, mul_assoc, polyInt_C_mul] at this
    exact (mul_eq_zero.1 this).resolve_left hlc) f (by rw [card_legRoots, ← two_mul]; exact hf)]
  apply Finset.sum_congr rfl
  intro x hx
  rw [gauss_legendre_weight n hn x hx]

/-! ## Gauss-Lobatto -/

theorem legendre_deriv_simple_root (n : ℕ) (x : ℝ) (hn : 1 ≤ n)
    (h : (derivative (P n)).eval x = 0) :
    (P n).eval x ≠ 0 ∧ (derivative (derivative (P n))).eval x ≠ 0 ∧ x ≠ 1 ∧ x ≠ -1 := by
  have h0 : (P n).eval x ≠ 0 := fun h0 => legendre_simple_root n x h0 h
  have hode := congrArg (eval x) (legendre_ode' n)
  simp only [eval_mul, eval_sub, eval_one, eval_pow, eval_X, eval_C, h, mul_zero, zero_sub] at hode
  have hn' : (0 : ℝ) < n := by exact_mod_cast hn
  have hne : (n : ℝ) * (n + 1) * (P n).eval x ≠ 0 := mul_ne_zero (by positivity) h0
  refine ⟨h0, ?_, ?_, ?_⟩
  · intro h2
    rw [h2, mul_zero] at hode
    exact hne (by linarith)
  · rintro rfl
    exact hne (by nlinarith)
  · rintro rfl
    exact hne (by nlinarith)

theorem derivative_legendre_ne_zero (n : ℕ) (hn : 1 ≤ n) : derivative (P n) ≠ 0 := by
  intro h
  have hl : (derivative (P n)).eval 1 = 0 := by rw [h, eval_zero]
  exact (legendre_deriv_simple_root n 1 hn hl).2.2.1 rfl

theorem card_roots_derivative_legendre (n : ℕ) :
    Multiset.card (derivative (P (n + 1))).roots = n := by
  apply le_antisymm
  · have := card_roots' (derivative (P (n + 1)))
    rwa [natDegree_derivative_legendre] at this
  · have := card_roots_le_derivative (P (n + 1))
    rw [card_roots_legendre] at this
    omega

theorem nodup_roots_derivative_legendre (n : ℕ) (hn : 1 ≤ n) :
    (derivative (P n)).roots.Nodup := by
  rw [Multiset.nodup_iff_count_le_one]
  intro x
  rw [count_roots]
  by_contra h
  rw [not_le, one_lt_rootMultiplicity_iff_isRoot (derivative_legendre_ne_zero n hn)] at h
  exact (legendre_deriv_simple_root n x hn h.1).2.1 h.2

/-- The Lobatto nodes: `±1` and the roots of `P'_m`. -/
noncomputable def lobRoots (m : ℕ) : Finset ℝ :=
  insert 1 (insert (-1) (derivative (P m)).roots.toFinset)

theorem mem_lobRoots (m : ℕ) (hm : 1 ≤ m) (x : ℝ) :
    x ∈ lobRoots m ↔ x = 1 ∨ x = -1 ∨ (derivative (P m)).eval x = 0 := by
  unfold lobRoots
  rw [Finset.mem_insert, Finset.mem_insert, Multiset.mem_toFinset,
    mem_roots (derivative_legendre_ne_zero m hm), IsRoot.def]

theorem card_lobRoots (m : ℕ) (hm : 1 ≤ m) : (lobRoots m).card = m + 1 := by
  obtain ⟨k, rfl⟩ : ∃ k, m = k + 1 := ⟨m - 1, by omega⟩
  have hne := derivative_legendre_ne_zero (k + 1) hm
  unfold lobRoots
  rw [Finset.card_insert_of_notMem, Finset.card_insert_of_notMem,
    Multiset.toFinset_card_of_nodup (nodup_roots_derivative_legendre _ hm),
    card_roots_derivative_legendre]
  · rw [Multiset.mem_toFinset, mem_roots hne, IsRoot.def]
    intro h
    exact (legendre_deriv_simple_root _ _ hm h).2.2.2 rfl
  · rw [Finset.mem_insert, Multiset.mem_toFinset, mem_roots hne, IsRoot.def]
    rintro (h | h)
    · norm_num at h
    · exact (legendre_deriv_simple_root _ _ hm h).2.2.1 rfl

/-- `(1 - x²) P'_m`. -/
noncomputable def lobPoly (m : ℕ) : ℝ[X] := (1 - X ^ 2) * derivative (P m)

private theorem lobPoly_coeff (k : ℕ) :
    (lobPoly (k + 1)).coeff (k + 2) = -((k + 1) * (P (k + 1)).coeff (k + 1)) := by
  unfold lobPoly
  rw [sub_mul, one_mul, coeff_sub, coeff_X_pow_mul,
    coeff_eq_zero_of_natDegree_lt (by rw [natDegree_derivative_legendre]; omega),
    derivative_legendre_coeff]
  ring

private theorem natDegree_one_sub_sq_mul (q : ℝ[X]) :
    ((1 - X ^ 2) * q).natDegree ≤ q.natDegree + 2 := by
  refine natDegree_mul_le.trans ?_
  have : (1 - X ^ 2 : ℝ[X]).natDegree ≤ 2 := by
    refine (natDegree_sub_le _ _).trans ?_
    simp
  omega

theorem natDegree_lobPoly (k : ℕ) : (lobPoly (k + 1)).natDegree = k + 2 := by
  apply le_antisymm
  · have := natDegree_one_sub_sq_mul (derivative (P (k + 1)))
    rwa [natDegree_derivative_legendre] at this
  · apply le_natDegree_of_ne_zero
    rw [lobPoly_coeff]
    have := legendre_coeff_pos (k + 1)
    have : 0 < ((k : ℝ) + 1) * (P (k + 1)).coeff (k + 1) := by positivity
    linarith

theorem lobPoly_ne_zero (k : ℕ) : lobPoly (k + 1) ≠ 0 := by
  intro h
  have := natDegree_lobPoly k
  rw [h] at this
  simp at this

theorem lobPoly_root (m : ℕ) (hm : 1 ≤ m) (x : ℝ) (hx : x ∈ lobRoots m) :
    (lobPoly m).eval x = 0 := by
  unfold lobPoly
  rw [mem_lobRoots m hm] at hx
  rcases hx with rfl | rfl | h
  · simp
  · simp
  · rw [eval_mul, h, mul_zero]

private theorem lobPoly_int (m : ℕ) (q : ℝ[X]) :
    polyInt (lobPoly m * q) = -polyInt (P m * derivative ((1 - X ^ 2) * q)) := by
  unfold lobPoly
  rw [show (1 - X ^ 2) * derivative (P m) * q = derivative (P m) * ((1 - X ^ 2) * q) by ring,
    polyInt_parts]
  simp

private theorem lob_orth (k : ℕ) (q : ℝ[X]) (hq : q.degree < (k : ℕ)) :
    polyInt (Lagrange.nodal (lobRoots (k + 1)) id * q) = 0 := by
  have hnod := eq_C_mul_nodal (lobPoly (k + 1)) (lobRoots (k + 1))
    (fun y hy => lobPoly_root _ (by omega) y hy)
    (by rw [card_lobRoots _ (by omega), natDegree_lobPoly])
  have hlc : (lobPoly (k + 1)).leadingCoeff ≠ 0 := leadingCoeff_ne_zero.2 (lobPoly_ne_zero k)
  have h0 : polyInt (lobPoly (k + 1) * q) = 0 := by
    rw [lobPoly_int, legendre_orth, neg_zero]
    by_cases hz : q = 0
    · rw [hz, mul_zero, derivative_zero, degree_zero]
      exact WithBot.bot_lt_coe _
    · rw [degree_eq_natDegree hz] at hq
      have hq' : q.natDegree < k := by exact_mod_cast hq
      apply degree_lt_of_natDegree
      refine lt_of_le_of_lt (natDegree_derivative_le _) ?_
      have := natDegree_one_sub_sq_mul q
      omega
  rw [hnod, mul_assoc, polyInt_C_mul] at h0
  exact (mul_eq_zero.1 h0).resolve_left hlc

/-- Gauss-Lobatto weights. -/
theorem gauss_lobatto_weight (m : ℕ) (hm : 1 ≤ m) (x : ℝ) (hx : x ∈ lobRoots m) :
    polyInt (Lagrange.basis (lobRoots m) id x) = 2 / ((m + 1) * m * (P m).eval x ^ 2) := by
  obtain ⟨k, rfl⟩ : ∃ k, m = k + 1 := ⟨m - 1, by omega⟩
  have hroot := lobPoly_root _ hm x hx
  have hPx : (P (k + 1)).eval x ≠ 0 := by
    rw [mem_lobRoots _ hm] at hx
    rcases hx with rfl | rfl | h
    · rw [legendre_eval_one]; exact one_ne_zero
    · rw [legendre_eval_neg_one]; exact pow_ne_zero _ (by norm_num)
    · exact (legendre_deriv_simple_root _ _ hm h).1
  obtain ⟨g, hg⟩ := dvd_iff_isRoot.2 hroot
  obtain ⟨q, hq⟩ : (X - C x) ∣ (C ((P (k + 1)).eval x) - P (k + 1)) := by
    rw [dvd_iff_isRoot]; simp
  set lam := polyInt (Lagrange.basis (lobRoots (k + 1)) id x) with hlam
  set c := (P (k + 1)).coeff (k + 1) with hc
  have hcpos : 0 < c := legendre_coeff_pos (k + 1)
  have hg0 : g ≠ 0 := by rintro rfl; exact lobPoly_ne_zero k (by rw [hg, mul_zero])
  have hgd : g.natDegree = k + 1 := by
    have := congrArg natDegree hg
    rw [natDegree_lobPoly, natDegree_mul (X_sub_C_ne_zero _) hg0, natDegree_X_sub_C] at this
    omega
  have hgc : g.coeff (k + 1) = -((k + 1) * c) := by
    have := congrArg (fun p => p.coeff (k + 2)) hg
    simp only [lobPoly_coeff, sub_mul, coeff_sub, coeff_X_mul, coeff_C_mul] at this
    rw [coeff_eq_zero_of_natDegree_lt (by rw [hgd]; omega : g.natDegree < k + 2)] at this
    linarith
  have hqne : C ((P (k + 1)).eval x) - P (k + 1) ≠ 0 := by
    intro h
    have := congrArg (fun p => p.coeff (k + 1)) h
    simp only [coeff_sub, coeff_C_succ, coeff_zero] at this
    linarith
  have hq0 : q ≠ 0 := by rintro rfl; exact hqne (by rw [hq, mul_zero])
  have hqd : q.natDegree ≤ k := by
    have := congrArg natDegree hq
    rw [natDegree_mul (X_sub_C_ne_zero _) hq0, natDegree_X_sub_C] at this
    have h2 := natDegree_sub_le (C ((P (k + 1)).eval x)) (P (k + 1))
    rw [natDegree_C, natDegree_legendre] at h2
    have : max 0 (k + 1) = k + 1 := by omega
    omega
  have hqc : q.coeff k = -c := by
    have := congrArg (fun p => p.coeff (k + 1)) hq
    simp only [coeff_sub, coeff_C_succ, sub_mul, coeff_X_mul, coeff_C_mul] at this
    rw [coeff_eq_zero_of_natDegree_lt (by omega : q.natDegree < k + 1)] at this
    linarith
  -- the derivative of `(1 - x²) q`
  have hdd : (derivative ((1 - X ^ 2) * q)).natDegree ≤ k + 1 := by
    have h1 := natDegree_derivative_le ((1 - X ^ 2) * q)
    have h2 := natDegree_one_sub_sq_mul q
    omega
  have hdc : (derivative ((1 - X ^ 2) * q)).coeff (k + 1) = (k + 2) * c := by
    rw [coeff_derivative, sub_mul, one_mul, coeff_sub, coeff_X_pow_mul,
      coeff_eq_zero_of_natDegree_lt (by omega), hqc]
    push_cast
    ring
  have h1 := legendre_top (k + 1) g (by omega)
  have h2 := legendre_top (k + 1) _ hdd
  rw [hgc, ← hc] at h1
  rw [hdc, ← hc] at h2
  have hN := legendre_norm (k + 1)
  have h1' : polyInt (P (k + 1) * g) = -((k + 1) * polyInt (P (k + 1) * P (k + 1))) :=
    mul_left_cancel₀ hcpos.ne' (by rw [h1]; ring)
  have h2' : polyInt (P (k + 1) * derivative ((1 - X ^ 2) * q)) =
      (k + 2) * polyInt (P (k + 1) * P (k + 1)) :=
    mul_left_cancel₀ hcpos.ne' (by rw [h2]; ring)
  have hsum : (P (k + 1)).eval x * polyInt g = -2 := by
    rw [← polyInt_C_mul]
    have : C ((P (k + 1)).eval x) * g = P (k + 1) * g + lobPoly (k + 1) * q := by
      rw [hg, mul_right_comm, ← hq]; ring
    rw [this, polyInt_add, lobPoly_int, h1', h2']
    push_cast at hN
    linarith
  have hW' : derivative (lobPoly (k + 1)) = g + (X - C x) * derivative g := by
    rw [hg, derivative_mul, derivative_sub, derivative_X, derivative_C]; ring
  have hgx : g.eval x = -((k + 1) * (k + 2) * (P (k + 1)).eval x) := by
    have h3 := congrArg (eval x) hW'
    unfold lobPoly at h3
    rw [legendre_ode] at h3
    simp only [eval_neg, eval_mul, eval_C, eval_add, eval_sub, eval_X, sub_self, zero_mul,
      add_zero] at h3
    rw [← h3]
    push_cast
    ring
  have hgy : ∀ y ∈ lobRoots (k + 1), y ≠ x → g.eval y = 0 := by
    intro y hy hyx
    have := lobPoly_root _ hm y hy
    rw [hg, eval_mul] at this
    refine (mul_eq_zero.1 this).resolve_left ?_
    simpa using sub_ne_zero.2 hyx
  have h3 := interpolatory_single (lobRoots (k + 1)) k (lob_orth k) g
    (by
      rw [card_lobRoots _ hm]
      apply degree_lt_of_natDegree
      omega) x hx hgy
  rw [h3, hgx, ← hlam] at hsum
  rw [eq_div_iff (by
    have h1 : ((k + 1 : ℕ) : ℝ) + 1 ≠ 0 := by positivity
    have h2 : ((k + 1 : ℕ) : ℝ) ≠ 0 := by positivity
    exact mul_ne_zero (mul_ne_zero h1 h2) (pow_ne_zero 2 hPx))]
  push_cast
  linarith

/-- Gauss-Lobatto exactness. -/
theorem gauss_lobatto_exact (m : ℕ) (hm : 1 ≤ m) (f : ℝ[X]) (hf : f.degree < (2 * m : ℕ)) :
    polyInt f = ∑ x ∈ lobRoots m, 2 / ((m + 1) * m * (P m).eval x ^ 2) * f.eval x := by
  obtain ⟨k, rfl⟩ : ∃ k, m = k + 1 := ⟨m - 1, by omega⟩
  rw [interpolatory_exact (lobRoots (k + 1)) k (lob_orth k) f (by
    rw [card_lobRoots _ hm, show k + 1 + 1 + k = 2 * (k + 1) by ring]; exact hf)]
  apply Finset.sum_congr rfl
  intro x hx
  rw [gauss_lobatto_weight _ hm x hx]

end IntegratorXX
