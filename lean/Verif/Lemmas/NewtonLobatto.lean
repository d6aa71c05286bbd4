import Verif.Lemmas.NewtonLegendre

/-!
# Convergence of the Newton iterations of GaussLobatto
-/

namespace IntegratorXX

open Polynomial Spec Set Real

local notation "P" => legendre

/-! ## Zeros of `P_m'` -/

theorem derivative_legendre_eval_neg (m : ℕ) (x : ℝ) :
    (derivative (P m)).eval (-x) = (-1) ^ (m + 1) * (derivative (P m)).eval x := by
  have h1 := ((P m).hasDerivAt (-x)).comp x (hasDerivAt_neg x)
  have h2 := ((P m).hasDerivAt x).const_mul ((-1 : ℝ) ^ m)
  have he : (fun y => (P m).eval y) ∘ Neg.neg = fun y => (-1) ^ m * (P m).eval y := by
    funext y
    exact legendre_eval_neg m y
  rw [he] at h1
  have := h1.unique h2
  rw [pow_succ]
  linarith

theorem derivative_legendre_nonneg (m : ℕ) (x : ℝ) (hx : 1 ≤ x) :
    0 ≤ (derivative (P m)).eval x := by
  induction m with
  | zero => simp
  | succ m ih =>
    rw [derivative_legendre_succ]
    simp only [eval_add, eval_mul, eval_C, eval_X]
    have h1 := (legendre_ge_one m x hx).1
    have h2 : 0 ≤ x * (derivative (P m)).eval x := mul_nonneg (by linarith) ih
    have h3 : 0 ≤ ((m : ℝ) + 1) * (P m).eval x := mul_nonneg (by positivity) (by linarith)
    linarith

theorem derivative_legendre_pos (m : ℕ) (hm : 1 ≤ m) (x : ℝ) (hx : 1 ≤ x) :
    0 < (derivative (P m)).eval x := by
  obtain ⟨k, rfl⟩ : ∃ k, m = k + 1 := ⟨m - 1, by omega⟩
  rw [derivative_legendre_succ]
  simp only [eval_add, eval_mul, eval_C, eval_X]
  have h1 := (legendre_ge_one k x hx).1
  have h2 : 0 ≤ x * (derivative (P k)).eval x :=
    mul_nonneg (by linarith) (derivative_legendre_nonneg k x hx)
  have h3 : 0 < ((k : ℝ) + 1) * (P k).eval x := mul_pos (by positivity) (by linarith)
  linarith

/-- The interior nodes of the Lobatto rule. -/
noncomputable def lobInt (m : ℕ) : Finset ℝ := (derivative (P m)).roots.toFinset

theorem mem_lobInt {m : ℕ} (hm : 1 ≤ m) (x : ℝ) :
    x ∈ lobInt m ↔ (derivative (P m)).eval x = 0 := by
  unfold lobInt
  rw [Multiset.mem_toFinset, mem_roots (derivative_legendre_ne_zero m hm), IsRoot.def]

theorem card_lobInt {m : ℕ} (hm : 1 ≤ m) : (lobInt m).card = m - 1 := by
  obtain ⟨k, rfl⟩ : ∃ k, m = k + 1 := ⟨m - 1, by omega⟩
  unfold lobInt
  rw [Multiset.toFinset_card_of_nodup (nodup_roots_derivative_legendre _ hm),
    card_roots_derivative_legendre]
  rfl

theorem lobInt_mem {m : ℕ} (hm : 1 ≤ m) : ∀ x ∈ lobInt m, -1 < x ∧ x < 1 := by
  intro x hx
  rw [mem_lobInt hm] at hx
  constructor
  · by_contra h
    have := derivative_legendre_pos m hm (-x) (by linarith)
    rw [derivative_legendre_eval_neg, hx, mul_zero] at this
    exact this.false
  · by_contra h
    have := derivative_legendre_pos m hm x (by linarith)
    linarith

theorem lobInt_neg {m : ℕ} (hm : 1 ≤ m) : ∀ x ∈ lobInt m, -x ∈ lobInt m := by
  intro x hx
  rw [mem_lobInt hm] at hx ⊢
  rw [derivative_legendre_eval_neg, hx, mul_zero]

/-- The angle of the `k`-th largest zero of `P_m'`. -/
noncomputable def lobAng (m k : ℕ) : ℝ := ang (lobInt m) k

theorem lobAng_mem {m k : ℕ} (hk : k + 1 < m) :
    0 < lobAng m k ∧ lobAng m k < π ∧ (derivative (P m)).eval (cos (lobAng m k)) = 0 := by
  have := ang_mem (lobInt_mem (m := m) (by omega)) (k := k) (by rw [card_lobInt (by omega)]; omega)
  rwa [mem_lobInt (by omega)] at this

theorem lobAng_lt {m j k : ℕ} (hjk : j < k) (hk : k + 1 < m) : lobAng m j < lobAng m k :=
  ang_lt (lobInt_mem (by omega)) hjk (by rw [card_lobInt (by omega)]; omega)

theorem lobAng_le {m j k : ℕ} (hjk : j ≤ k) (hk : k + 1 < m) : lobAng m j ≤ lobAng m k :=
  ang_le (lobInt_mem (by omega)) hjk (by rw [card_lobInt (by omega)]; omega)

theorem lobAng_symm {m k : ℕ} (hk : k + 1 < m) : lobAng m (m - 2 - k) = π - lobAng m k := by
  have := ang_symm (lobInt_mem (m := m) (by omega)) (lobInt_neg (by omega)) (k := k)
    (by rw [card_lobInt (by omega)]; omega)
  rw [card_lobInt (by omega)] at this
  rw [show m - 2 - k = m - 1 - 1 - k by omega]
  exact this

theorem lobAng_surj {m : ℕ} (hm : 1 ≤ m) {t : ℝ} (h0 : 0 < t) (h1 : t < π)
    (ht : (derivative (P m)).eval (cos t) = 0) : ∃ k, k + 1 < m ∧ t = lobAng m k := by
  obtain ⟨k, hk, h⟩ := ang_surj (lobInt_mem hm) h0 h1 ((mem_lobInt hm _).2 ht)
  rw [card_lobInt hm] at hk
  exact ⟨k, by omega, h⟩

theorem continuous_lobV (m : ℕ) : Continuous (lobV m) := by
  unfold lobV
  exact (continuous_sin.sqrt.pow 3).mul ((Polynomial.continuous _).comp continuous_cos)

theorem continuous_lobV1 (m : ℕ) : Continuous (lobV1 m) := by
  unfold lobV1
  have h1 : Continuous fun t => (derivative (P m)).eval (cos t) :=
    (Polynomial.continuous _).comp continuous_cos
  have h2 : Continuous fun t => (derivative (derivative (P m))).eval (cos t) :=
    (Polynomial.continuous _).comp continuous_cos
  have h3 : Continuous fun t => √(sin t) := continuous_sin.sqrt
  fun_prop

/-- Consecutive zeros of `P_m'(cos t)`, and `0` and the first zero, are at least `h` apart. -/
theorem lob_gap {m : ℕ} (hm : 1 ≤ m) (a b : ℝ) (ha : 0 ≤ a) (hab : a < b) (hb : b < π)
    (ha0 : a = 0 ∨ (derivative (P m)).eval (cos a) = 0)
    (hb0 : (derivative (P m)).eval (cos b) = 0)
    (hne : ∀ t, a < t → t < b → (derivative (P m)).eval (cos t) ≠ 0) : angStep m ≤ b - a := by
  have hl : (0 : ℝ) < (m : ℝ) + 1 / 2 := by positivity
  refine sturm_gap (u := lobV m) (u1 := lobV1 m)
    (q := fun t => ((m : ℝ) + 1 / 2) ^ 2 - 3 / (4 * sin t ^ 2)) hl hab
    (continuous_lobV m).continuousOn (continuous_lobV1 m).continuousOn
    (fun t ht => hasDerivAt_lobV m (ha.trans_lt ht.1) (ht.2.trans hb))
    (fun t ht => hasDerivAt_lobV1 m (ha.trans_lt ht.1) (ht.2.trans hb))
    (hasDerivAt_lobV m (ha.trans_lt hab) hb) ?_ ?_ ?_ ?_
  · unfold lobV
    rcases ha0 with rfl | h
    · simp
    · rw [h, mul_zero]
  · unfold lobV
    rw [hb0, mul_zero]
  · intro t ht
    have := sin_pos_of_pos_of_lt_pi (ha.trans_lt ht.1) (ht.2.trans hb)
    have : 0 < 3 / (4 * sin t ^ 2) := by positivity
    linarith
  · intro t ht
    have := sin_pos_of_pos_of_lt_pi (ha.trans_lt ht.1) (ht.2.trans hb)
    unfold lobV
    exact mul_ne_zero (pow_ne_zero _ (sqrt_pos.2 this).ne') (hne t ht.1 ht.2)

theorem lobAng_gap {m k : ℕ} (hk : k + 2 < m) : lobAng m k + angStep m ≤ lobAng m (k + 1) := by
  have h1 := lobAng_mem (m := m) (k := k) (by omega)
  have h2 := lobAng_mem (m := m) (k := k + 1) (by omega)
  have := lob_gap (m := m) (by omega) _ _ h1.1.le (lobAng_lt (Nat.lt_succ_self k) (by omega)) h2.2.1
    (.inr h1.2.2) h2.2.2 (fun t ht0 ht1 h => by
      obtain ⟨j, hj, rfl⟩ := lobAng_surj (by omega) (h1.1.trans ht0) (ht1.trans h2.2.1) h
      rcases Nat.lt_or_ge k j with hkj | hkj
      · have := lobAng_le (Nat.succ_le_of_lt hkj) hj
        simp only [Nat.succ_eq_add_one] at this
        linarith
      · have := lobAng_le hkj (by omega : k + 1 < m)
        linarith)
  linarith

theorem lobAng_lower {m : ℕ} : ∀ {k : ℕ}, k + 1 < m → (k + 1) * angStep m ≤ lobAng m k := by
  intro k
  induction k with
  | zero =>
    intro hk
    have h2 := lobAng_mem hk
    have := lob_gap (m := m) (by omega) 0 _ le_rfl h2.1 h2.2.1 (.inl rfl) h2.2.2
      (fun t ht0 ht1 h => by
        obtain ⟨j, hj, rfl⟩ := lobAng_surj (by omega) ht0 (ht1.trans h2.2.1) h
        have := lobAng_le (Nat.zero_le j) hj
        linarith)
    simp only [Nat.cast_zero, zero_add, one_mul]
    linarith
  | succ k ih =>
    intro hk
    have := ih (by omega)
    have := lobAng_gap (m := m) (k := k) (by omega)
    push_cast
    linarith

theorem lobAng_upper {m k : ℕ} (hk : 2 * (k + 1) ≤ m) :
    lobAng m k ≤ (k + 1 + 1 / 4) * angStep m := by
  have hmul := angStep_mul m
  have hup : ∀ j l : ℕ, l + 1 < m → j ≤ l → lobAng m j + (l - j : ℝ) * angStep m ≤ lobAng m l := by
    intro j l
    induction l with
    | zero => intro _ hj; simp [Nat.le_zero.1 hj]
    | succ l ih =>
      intro hl hj
      rcases hj.eq_or_lt with rfl | h
      · push_cast; simp
      · have := ih (by omega) (by omega)
        have := lobAng_gap (m := m) (k := l) (by omega)
        push_cast
        linarith
  rcases Nat.even_or_odd' m with ⟨l, rfl | rfl⟩
  · have h1 := lobAng_symm (m := 2 * l) (k := l - 1) (by omega)
    rw [show 2 * l - 2 - (l - 1) = l - 1 by omega] at h1
    have h3 := hup k (l - 1) (by omega) (by omega)
    rw [Nat.cast_sub (by omega)] at h3
    push_cast at *
    linarith
  · have h1 := lobAng_symm (m := 2 * l + 1) (k := l - 1) (by omega)
    rw [show 2 * l + 1 - 2 - (l - 1) = l - 1 + 1 by omega] at h1
    have h2 := lobAng_gap (m := 2 * l + 1) (k := l - 1) (by omega)
    have h3 := hup k (l - 1) (by omega) (by omega)
    rw [Nat.cast_sub (by omega)] at h3
    push_cast at *
    linarith

theorem lobAng_le_half {m k : ℕ} (hk : 2 * (k + 1) ≤ m) : lobAng m k ≤ π / 2 := by
  have h1 := lobAng_symm (m := m) (k := k) (by omega)
  have h2 := lobAng_le (m := m) (j := k) (k := m - 2 - k) (by omega) (by omega)
  linarith

/-! ## Sums over the other roots -/

theorem lobRoots_nodal {m : ℕ} (hm : 1 ≤ m) :
    lobPoly m = C (lobPoly m).leadingCoeff * Lagrange.nodal (lobRoots m) id := by
  obtain ⟨k, rfl⟩ : ∃ k, m = k + 1 := ⟨m - 1, by omega⟩
  exact eq_C_mul_nodal (lobPoly (k + 1)) (lobRoots (k + 1))
    (fun y hy => lobPoly_root _ hm y hy)
    (by rw [card_lobRoots _ (by omega), natDegree_lobPoly])

theorem derivative_lobPoly (m : ℕ) : derivative (lobPoly m) = -(C (m * (m + 1) : ℝ) * P m) :=
  legendre_ode m

theorem lobRoots_sums {m : ℕ} (hm : 1 ≤ m) (r : ℝ) (hr : (derivative (P m)).eval r = 0) :
    rootSum (lobRoots m) r = 0 ∧
    3 * (1 - r ^ 2) * rootSqSum (lobRoots m) r = m * (m + 1) := by
  have hrS : r ∈ lobRoots m := (mem_lobRoots m hm r).2 (.inr (.inr hr))
  obtain ⟨h1, h2⟩ := nodal_derivs (lobPoly m).leadingCoeff (lobRoots m) r hrS
  rw [← lobRoots_nodal hm, derivative_lobPoly] at h1 h2
  simp only [derivative_neg, derivative_C_mul, eval_neg, eval_mul, eval_C] at h1 h2
  have h0 := (legendre_deriv_simple_root m r hm hr).1
  have o1 := congrArg (eval r) (legendre_ode' m)
  simp only [eval_mul, eval_sub, eval_one, eval_pow, eval_X, eval_C, eval_ofNat] at o1
  rw [hr] at h1 o1
  have hm0 : (0 : ℝ) < m := by exact_mod_cast hm
  have hN : (m : ℝ) * (m + 1) ≠ 0 := by positivity
  generalize (P m).eval r = p at *
  generalize (derivative (derivative (P m))).eval r = p2 at *
  generalize (m : ℝ) * (m + 1) = N at *
  have e1 : rootSum (lobRoots m) r = 0 := by
    have : N * p * rootSum (lobRoots m) r = 0 := by linarith
    exact (mul_eq_zero.1 this).resolve_left (mul_ne_zero hN h0)
  refine ⟨e1, ?_⟩
  rw [e1] at h2
  generalize rootSqSum (lobRoots m) r = q at *
  have e2 : N * p2 = N * (-3 * p * q) := by linear_combination -h2
  have e3 := mul_left_cancel₀ hN e2
  rw [e3] at o1
  apply mul_right_cancel₀ h0
  linear_combination -o1

/-- Separation of an interior root from the roots to its right. -/
theorem lob_right {m k : ℕ} (hk : k + 1 < m) (x : ℝ) (hx : x ∈ lobRoots m)
    (hrx : cos (lobAng m k) < x) : ∃ b, 0 ≤ b ∧ b ≤ lobAng m k - angStep m ∧ x = cos b := by
  have hθ := lobAng_mem hk
  have hh := angStep_pos m
  rw [mem_lobRoots m (by omega)] at hx
  rcases hx with rfl | rfl | hx
  · refine ⟨0, le_rfl, ?_, cos_zero.symm⟩
    have := lobAng_lower hk
    have hk0 : (0 : ℝ) ≤ k := Nat.cast_nonneg k
    nlinarith
  · exact absurd hrx (not_lt.2 (neg_one_le_cos _))
  · have hm := lobInt_mem (m := m) (by omega) x ((mem_lobInt (by omega) x).2 hx)
    obtain ⟨j, hj, h⟩ := lobAng_surj (m := m) (by omega) (t := arccos x) (arccos_pos.2 hm.2) (by
      refine lt_of_le_of_ne (arccos_le_pi x) (fun h => ?_)
      have := arccos_eq_pi.1 h
      linarith) (by rwa [cos_arccos hm.1.le hm.2.le])
    have hxj : x = cos (lobAng m j) := by rw [← h, cos_arccos hm.1.le hm.2.le]
    have hj0 := lobAng_mem hj
    have hjk : j < k := by
      by_contra hcon
      have h1 := lobAng_le (not_lt.1 hcon) hj
      have := cos_le_cos_of_nonneg_of_le_pi hθ.1.le hj0.2.1.le h1
      linarith
    refine ⟨lobAng m j, hj0.1.le, ?_, hxj⟩
    have h1 := lobAng_gap (m := m) (k := j) (by omega)
    have h2 := lobAng_le (Nat.succ_le_of_lt hjk) hk
    simp only [Nat.succ_eq_add_one] at h2
    linarith

/-- Separation from the roots to its left. -/
theorem lob_left {m k : ℕ} (hk : 2 * (k + 1) < m) (x : ℝ) (hx : x ∈ lobRoots m)
    (hrx : x < cos (lobAng m k)) : angStep m * sin (lobAng m k) ≤ cos (lobAng m k) - x := by
  have hθ := lobAng_mem (m := m) (k := k) (by omega)
  have hh := angStep_pos m
  have hsin : 0 < sin (lobAng m k) := sin_pos_of_pos_of_lt_pi hθ.1 hθ.2.1
  have hφ := lobAng_mem (m := m) (k := k + 1) (by omega)
  have h2 := lobAng_gap (m := m) (k := k) (by omega)
  have h3 := lobAng_le (m := m) (j := k + 1) (k := m - 2 - k) (by omega) (by omega)
  rw [lobAng_symm (by omega)] at h3
  have h4 := cos_sub_cos_ge hθ.1.le (by linarith) h3
  have h5 := mul_le_mul_of_nonneg_right
    (by linarith : angStep m ≤ lobAng m (k + 1) - lobAng m k) hsin.le
  have hle : x ≤ cos (lobAng m (k + 1)) := by
    rw [mem_lobRoots m (by omega)] at hx
    rcases hx with rfl | rfl | hx
    · exact absurd hrx (not_lt.2 (cos_le_one _))
    · exact neg_one_le_cos _
    · have hm := lobInt_mem (m := m) (by omega) x ((mem_lobInt (by omega) x).2 hx)
      obtain ⟨j, hj, h⟩ := lobAng_surj (m := m) (by omega) (t := arccos x) (arccos_pos.2 hm.2) (by
        refine lt_of_le_of_ne (arccos_le_pi x) (fun h => ?_)
        have := arccos_eq_pi.1 h
        linarith) (by rwa [cos_arccos hm.1.le hm.2.le])
      have hxj : x = cos (lobAng m j) := by rw [← h, cos_arccos hm.1.le hm.2.le]
      have hj0 := lobAng_mem hj
      have hjk : k < j := by
        by_contra hcon
        have h1 := lobAng_le (not_lt.1 hcon) (by omega : k + 1 < m)
        have := cos_le_cos_of_nonneg_of_le_pi hj0.1.le hθ.2.1.le h1
        linarith
      rw [hxj]
      exact cos_le_cos_of_nonneg_of_le_pi hφ.1.le hj0.2.1.le
        (lobAng_le (Nat.succ_le_of_lt hjk) hj)
  linarith

/-- Contraction when the interval has half width at most `101/400 h sin θ`. -/
theorem lob_contract {m k : ℕ} (hk : k + 1 < m) (d e : ℝ)
    (hd0 : 0 ≤ d) (he0 : 0 ≤ e)
    (hd : d ≤ 101 / 400 * angStep m * sin (lobAng m k)) (he : e ≤ 101 / 400 * angStep m * sin (lobAng m k))
    (hR : ∀ x ∈ lobRoots m, cos (lobAng m k) < x → d ≤ 53 / 125 * (x - cos (lobAng m k)))
    (hL : ∀ x ∈ lobRoots m, x < cos (lobAng m k) → e ≤ 13 / 50 * (cos (lobAng m k) - x))
    (z : ℝ) (hz0 : cos (lobAng m k) - e ≤ z) (hz1 : z ≤ cos (lobAng m k) + d) :
    (P m).eval z ≠ 0 ∧
    |z - (z * (P m).eval z - (P (m - 1)).eval z) / ((m + 1) * (P m).eval z) - cos (lobAng m k)|
      ≤ 3 / 5 * |z - cos (lobAng m k)| := by
  have hm : 1 ≤ m := by omega
  have hθ := lobAng_mem hk
  have hh := angStep_pos m
  have hmul := angStep_mul m
  have hsin : 0 < sin (lobAng m k) := sin_pos_of_pos_of_lt_pi hθ.1 hθ.2.1
  obtain ⟨hs1, hs2⟩ := lobRoots_sums hm _ hθ.2.2
  have hrS : cos (lobAng m k) ∈ lobRoots m := (mem_lobRoots m hm _).2 (.inr (.inr hθ.2.2))
  have hQ0 := rootSqSum_nonneg (lobRoots m) (cos (lobAng m k))
  rw [← sin_sq] at hs2
  have hDQ : (101 / 400 * angStep m * sin (lobAng m k)) ^ 2 *
      rootSqSum (lobRoots m) (cos (lobAng m k)) ≤ 2126 / 10000 := by
    have h6 : angStep m ^ 2 * (m * (m + 1)) ≤ π ^ 2 := by
      have e : (((m : ℝ) + 1 / 2) * angStep m) ^ 2 =
        angStep m ^ 2 * (m * (m + 1)) + angStep m ^ 2 / 4 := by ring
      rw [← hmul, e]
      have := sq_nonneg (angStep m)
      linarith
    have h8 := pi_sq_le
    rw [← hs2] at h6
    have e1 : (101 / 400 * angStep m * sin (lobAng m k)) ^ 2 *
        rootSqSum (lobRoots m) (cos (lobAng m k)) = (101 / 400) ^ 2 / 3 *
        (angStep m ^ 2 * (3 * sin (lobAng m k) ^ 2 * rootSqSum (lobRoots m) (cos (lobAng m k))))
      := by ring
    rw [e1]
    linarith
  have hdQ := (mul_le_mul_of_nonneg_right (pow_le_pow_left₀ hd0 hd 2) hQ0).trans hDQ
  have heQ := (mul_le_mul_of_nonneg_right (pow_le_pow_left₀ he0 he 2) hQ0).trans hDQ
  have hlc : (lobPoly m).leadingCoeff ≠ 0 := by
    obtain ⟨l, rfl⟩ : ∃ l, m = l + 1 := ⟨m - 1, by omega⟩
    exact leadingCoeff_ne_zero.2 (lobPoly_ne_zero l)
  have := newton_contract (lobPoly m).leadingCoeff hlc (lobRoots m) (cos (lobAng m k)) d e
    (53 / 125) (13 / 50) hrS (by norm_num) (by norm_num) (by norm_num) (by norm_num) hR hL hs1.ge
    (by rw [hs1]; norm_num)
    (by rw [mul_div_assoc', div_le_iff₀ (by norm_num)]; linarith)
    (by
      rw [hs1, mul_zero, zero_add, mul_div_assoc', div_le_iff₀ (by norm_num)]
      linarith) z hz0 hz1
  rw [← lobRoots_nodal hm, derivative_lobPoly] at this
  simp only [eval_neg, eval_mul, eval_C] at this
  have hm0 : (0 : ℝ) < m := by exact_mod_cast hm
  have hne : (P m).eval z ≠ 0 := by
    intro h
    exact this.1 (by rw [h]; ring)
  refine ⟨hne, ?_⟩
  have hform : (z * (P m).eval z - (P (m - 1)).eval z) / ((m + 1) * (P m).eval z) =
      (lobPoly m).eval z / -(m * (m + 1) * (P m).eval z) := by
    obtain ⟨l, rfl⟩ : ∃ l, m = l + 1 := ⟨m - 1, by omega⟩
    have h := congrArg (eval z) (legendre_deriv_formula l)
    have hl : (lobPoly (l + 1)).eval z = (l + 1) * ((P l).eval z - z * (P (l + 1)).eval z) := by
      unfold lobPoly
      rw [h]
      simp
    rw [hl, Nat.add_sub_cancel]
    push_cast
    have : (l : ℝ) + 1 ≠ 0 := by positivity
    have : (l : ℝ) + 1 + 1 ≠ 0 := by positivity
    field_simp
    ring
  rw [hform]
  exact this.2

set_option maxHeartbeats 1000000 in
/-- Starting values of GaussLobatto (mirrored to the positive half) and the separation of "their" root
from the others. -/
theorem lob_start {m k : ℕ} (hk : 2 * (k + 1) ≤ m) :
    |cos ((k + 1) * π / m) - cos (lobAng m k)| ≤ 1 / 4 * angStep m * sin (lobAng m k) ∧
    (∀ x ∈ lobRoots m, cos (lobAng m k) < x →
      cos ((k + 1) * π / m) - cos (lobAng m k) ≤ 5 / 12 * (x - cos (lobAng m k)) ∧
      angStep m * sin (lobAng m k) ≤ 2 * (x - cos (lobAng m k))) ∧
    ∀ x ∈ lobRoots m, x < cos (lobAng m k) →
      |cos ((k + 1) * π / m) - cos (lobAng m k)| ≤ 1 / 4 * (cos (lobAng m k) - x) ∧
      angStep m * sin (lobAng m k) ≤ 2 * (cos (lobAng m k) - x) := by
  have hπ := pi_pos
  have hm : 1 ≤ m := by omega
  have hθ := lobAng_mem (m := m) (k := k) (by omega)
  have hlo := lobAng_lower (m := m) (k := k) (by omega)
  have hup := lobAng_upper hk
  have hhalf := lobAng_le_half hk
  have hh := angStep_pos m
  have hmul := angStep_mul m
  have hsin : 0 < sin (lobAng m k) := sin_pos_of_pos_of_lt_pi hθ.1 hθ.2.1
  have hRt := fun x hx h => lob_right (m := m) (k := k) (by omega) x hx h
  have hk0 : (0 : ℝ) ≤ k := Nat.cast_nonneg k
  have hm0 : (0 : ℝ) < m := by exact_mod_cast hm
  have hlt := fun (hc : 2 * (k + 1) < m) x hx h => lob_left (m := m) (k := k) hc x hx h
  -- the starting angle
  obtain ⟨α, hα⟩ : ∃ α, α = ((k : ℝ) + 1) * π / m := ⟨_, rfl⟩
  rw [← hα]
  have hα1 : m * α = (k + 1) * π := by rw [hα]; field_simp
  have hα2 : 2 * m * α = (k + 1) * angStep m * (2 * m + 1) := by
    have : 2 * m * α = (k + 1) * (2 * π) := by linarith
    rw [this, ← hmul]; ring
  have hkm : 2 * ((k : ℝ) + 1) ≤ m := by exact_mod_cast hk
  have hα0 : (k + 1) * angStep m ≤ α := by
    have h1 : 0 ≤ ((k : ℝ) + 1) * angStep m := by positivity
    have h2 : 2 * m * ((k + 1) * angStep m) ≤ 2 * m * α := by rw [hα2]; nlinarith
    exact le_of_mul_le_mul_left h2 (by linarith)
  have hαpos : 0 < α := by rw [hα]; positivity
  have hαhalf : α ≤ π / 2 := by
    have h2 : m * α ≤ m * (π / 2) := by rw [hα1]; nlinarith
    exact le_of_mul_le_mul_left h2 hm0
  set θ := lobAng m k with hθdef
  set h := angStep m with hhdef
  have hθh : h ≤ θ := by nlinarith
  have hsepR : ∀ x ∈ lobRoots m, cos θ < x → h * sin θ ≤ 2 * (x - cos θ) := by
    intro x hx hrx
    obtain ⟨b, hb0, hb1, rfl⟩ := hRt x hx hrx
    have hc := cos_sub_cos_ge_sq hb0 (by linarith) hθ.1 hθ.2.1.le
    have hbsq : b ^ 2 ≤ (θ - h) ^ 2 := pow_le_pow_left₀ hb0 hb1 2
    have hpoly : h * θ ≤ θ ^ 2 - b ^ 2 := by nlinarith
    have h5 : sin θ * (h * θ) ≤ 2 * θ * (cos b - cos θ) :=
      (mul_le_mul_of_nonneg_left hpoly hsin.le).trans hc
    have : θ * (h * sin θ) ≤ θ * (2 * (cos b - cos θ)) := by linarith
    exact le_of_mul_le_mul_left this hθ.1
  have hcen : 2 * (k + 1) = m → θ = π / 2 ∧ α = π / 2 := by
    intro hc
    have h1 := lobAng_symm (m := m) (k := k) (by omega)
    rw [show m - 2 - k = k by omega, ← hθdef] at h1
    have : (m : ℝ) = 2 * (k + 1) := by exact_mod_cast hc.symm
    exact ⟨by linarith, by rw [hα, this]; field_simp⟩
  have hsepL : ∀ x ∈ lobRoots m, x < cos θ → h * sin θ ≤ 2 * (cos θ - x) := by
    intro x hx hrx
    have hp : 0 < h * sin θ := by positivity
    rcases hk.lt_or_eq with hc | hc
    · have := hlt hc x hx hrx
      linarith
    · obtain ⟨h2, -⟩ := hcen hc
      have hc0 : cos θ = 0 := by rw [h2, cos_pi_div_two]
      have hx' : -x ∈ lobRoots m := by
        rw [mem_lobRoots m hm] at hx ⊢
        rcases hx with rfl | rfl | hx
        · right; left; rfl
        · left; norm_num
        · right; right
          rw [derivative_legendre_eval_neg, hx, mul_zero]
      have := hsepR (-x) hx' (by linarith)
      linarith
  rcases le_total α θ with hcase | hcase
  · -- the starting value is to the right of the root
    obtain ⟨η, hη⟩ : ∃ η, η = θ - α := ⟨_, rfl⟩
    have hη0 : 0 ≤ η := by linarith
    have hη1 : η ≤ h / 4 := by linarith
    have hη2 : η ≤ θ - h := by
      have : h ≤ (k + 1) * h := by nlinarith
      linarith
    obtain ⟨d, hd⟩ : ∃ d, d = cos α - cos θ := ⟨_, rfl⟩
    have hd0 : 0 ≤ d := by
      rw [hd]; exact sub_nonneg.2 (cos_le_cos_of_nonneg_of_le_pi hαpos.le hθ.2.1.le hcase)
    have hdD : d ≤ η * sin θ := by
      rw [hd, hη]; exact cos_sub_cos_le hαpos.le hcase hhalf
    have hdD' : d ≤ h / 4 * sin θ := hdD.trans (mul_le_mul_of_nonneg_right hη1 hsin.le)
    have hR : ∀ x ∈ lobRoots m, cos θ < x → d ≤ 5 / 12 * (x - cos θ) := by
      intro x hx hrx
      obtain ⟨b, hb0, hb1, rfl⟩ := hRt x hx hrx
      have hc := cos_sub_cos_ge_sq hb0 (by linarith) hθ.1 hθ.2.1.le
      have hbsq : b ^ 2 ≤ (θ - h) ^ 2 := pow_le_pow_left₀ hb0 hb1 2
      have hpoly : 24 * η * θ ≤ 5 * (θ ^ 2 - b ^ 2) := by
        have : 24 * η * θ ≤ 5 * (h * (2 * θ - h)) := by
          rcases le_total (5 / 4 * h) θ with h5 | h5
          · have h1 : 24 * η * θ ≤ 24 * (h / 4) * θ := by nlinarith
            nlinarith
          · have h1 : 24 * η * θ ≤ 24 * (θ - h) * θ := by nlinarith
            obtain ⟨s, hs⟩ : ∃ s, s = θ - h := ⟨_, rfl⟩
            have hs0 : 0 ≤ s := by linarith
            have hs1 : s ≤ h / 4 := by linarith
            have hθs : θ = s + h := by linarith
            rw [hθs] at h1 ⊢
            have h2 : s * s ≤ h / 4 * (h / 4) := mul_le_mul hs1 hs1 hs0 (by linarith)
            have h3 : s * h ≤ h / 4 * h := mul_le_mul_of_nonneg_right hs1 hh.le
            nlinarith
        nlinarith
      have h5 : sin θ * (24 * η * θ) ≤ 5 * (2 * θ * (cos b - cos θ)) := by
        have := mul_le_mul_of_nonneg_left hpoly hsin.le
        nlinarith
      have h6 : 12 * (η * sin θ) ≤ 5 * (cos b - cos θ) := by
        have : 2 * θ * (12 * (η * sin θ)) ≤ 2 * θ * (5 * (cos b - cos θ)) := by linarith
        exact le_of_mul_le_mul_left this (by linarith [hθ.1])
      linarith
    have hdabs : |cos α - cos θ| = d := by rw [← hd, abs_of_nonneg hd0]
    refine ⟨by rw [hdabs]; linarith, fun x hx hrx => ⟨by rw [← hd]; exact hR x hx hrx, hsepR x hx hrx⟩,
      fun x hx hrx => ⟨?_, hsepL x hx hrx⟩⟩
    rw [hdabs]
    rcases hk.lt_or_eq with hc | hc
    · have := hlt hc x hx hrx
      linarith
    · obtain ⟨h2, h3⟩ := hcen hc
      have : d = 0 := by rw [hd, h2, h3, sub_self]
      linarith
  · -- to the left
    obtain ⟨e, he⟩ : ∃ e, e = cos θ - cos α := ⟨_, rfl⟩
    have he0 : 0 ≤ e := by
      rw [he]; exact sub_nonneg.2 (cos_le_cos_of_nonneg_of_le_pi hθ.1.le (by linarith) hcase)
    have heabs : |cos α - cos θ| = e := by rw [abs_sub_comm, ← he, abs_of_nonneg he0]
    have heD : e ≤ h / 4 * sin θ ∧ ∀ x ∈ lobRoots m, x < cos θ → e ≤ 1 / 4 * (cos θ - x) := by
      rcases hk.lt_or_eq with hc | hc
      · have h1 : e ≤ (α - θ) * sin α := by
          rw [he]; exact cos_sub_cos_le hθ.1.le hcase hαhalf
        have h2 := sin_ge_chord hθ.1.le hcase hαpos (by linarith)
        have hc' : 2 * ((k : ℝ) + 1) + 1 ≤ m := by exact_mod_cast hc
        -- (α - θ) α ≤ θ h / 4
        have h3 : (α - θ) * α ≤ h / 4 * θ := by
          obtain ⟨K, hK⟩ : ∃ K : ℝ, K = k + 1 := ⟨_, rfl⟩
          have hK1 : 1 ≤ K := by linarith
          rw [← hK] at hα2 hlo hc' hα0
          have hmid : 2 * m * (α - K * h) = K * h := by linarith
          have hx0 : 0 ≤ α - K * h := by linarith
          -- α - θ ≤ α - K h =: x with 2 m x = K h
          obtain ⟨x, hx⟩ : ∃ x, x = α - K * h := ⟨_, rfl⟩
          rw [← hx] at hmid hx0
          have hαx : α = K * h + x := by linarith
          have g1 : (α - θ) * α ≤ x * α := mul_le_mul_of_nonneg_right (by linarith) hαpos.le
          have g2 : h / 4 * (K * h) ≤ h / 4 * θ := mul_le_mul_of_nonneg_left hlo (by linarith)
          -- x α ≤ h/4 * K h
          have g3 : x * α ≤ h / 4 * (K * h) := by
            have e1 : K * (x * α) = x ^ 2 * (K * (2 * m + 1)) := by
              rw [hαx, ← hmid]; ring
            have e2 : K * (h / 4 * (K * h)) = x ^ 2 * m ^ 2 := by
              have : K * (h / 4 * (K * h)) = (K * h) ^ 2 / 4 := by ring
              rw [this, ← hmid]; ring
            have e3 : K * (2 * m + 1) ≤ (m : ℝ) ^ 2 := by
              have : (2 * K + 1) * (2 * (m : ℝ) + 1) ≤ m * (2 * m + 1) :=
                mul_le_mul_of_nonneg_right hc' (by positivity)
              nlinarith
            have e4 : K * (x * α) ≤ K * (h / 4 * (K * h)) := by
              rw [e1, e2]
              exact mul_le_mul_of_nonneg_left e3 (sq_nonneg x)
            exact le_of_mul_le_mul_left e4 (by linarith)
          linarith
        have h4 : θ * e ≤ θ * (h / 4 * sin θ) := by
          calc θ * e ≤ θ * ((α - θ) * sin α) := mul_le_mul_of_nonneg_left h1 hθ.1.le
            _ = (α - θ) * (θ * sin α) := by ring
            _ ≤ (α - θ) * (α * sin θ) := mul_le_mul_of_nonneg_left h2 (by linarith)
            _ = (α - θ) * α * sin θ := by ring
            _ ≤ h / 4 * θ * sin θ := mul_le_mul_of_nonneg_right h3 hsin.le
            _ = θ * (h / 4 * sin θ) := by ring
        have h5 := le_of_mul_le_mul_left h4 hθ.1
        refine ⟨h5, fun x hx hrx => ?_⟩
        have := hlt hc x hx hrx
        linarith
      · have h1 := lobAng_symm (m := m) (k := k) (by omega)
        rw [show m - 2 - k = k by omega, ← hθdef] at h1
        have h2 : θ = π / 2 := by linarith
        have h3 : α = π / 2 := by
          have : (m : ℝ) = 2 * (k + 1) := by exact_mod_cast hc.symm
          rw [hα, this]
          field_simp
        have : e = 0 := by rw [he, h2, h3, sub_self]
        rw [this]
        exact ⟨by positivity, fun x hx hrx => by linarith⟩
    obtain ⟨heD, hL⟩ := heD
    exact ⟨by rw [heabs]; linarith, fun x hx hrx => ⟨by linarith, hsepR x hx hrx⟩,
      fun x hx hrx => ⟨by rw [heabs]; exact hL x hx hrx, hsepL x hx hrx⟩⟩

/-- Starting values of GaussLobatto lie in the contraction interval of "their" root (mirrored
to the positive half). -/
theorem lob_newton_data {m k : ℕ} (hk : 2 * (k + 1) ≤ m) :
    ∃ d e, 0 ≤ d ∧ 0 ≤ e ∧
      cos (lobAng m k) - e ≤ cos ((k + 1) * π / m) ∧ cos ((k + 1) * π / m) ≤ cos (lobAng m k) + d ∧
      3 / 5 * |cos ((k + 1) * π / m) - cos (lobAng m k)| ≤ d ∧
      3 / 5 * |cos ((k + 1) * π / m) - cos (lobAng m k)| ≤ e ∧
      cos (lobAng m k) + d < 1 ∧ -1 < cos (lobAng m k) - e ∧
      ∀ z, cos (lobAng m k) - e ≤ z → z ≤ cos (lobAng m k) + d →
        (P m).eval z ≠ 0 ∧
        |z - (z * (P m).eval z - (P (m - 1)).eval z) / ((m + 1) * (P m).eval z) - cos (lobAng m k)|
          ≤ 3 / 5 * |z - cos (lobAng m k)| := by
  have hm : 1 ≤ m := by omega
  have hθ := lobAng_mem (m := m) (k := k) (by omega)
  obtain ⟨hs, hR, hL⟩ := lob_start hk
  have h1S : (1 : ℝ) ∈ lobRoots m := (mem_lobRoots m hm _).2 (.inl rfl)
  have hmS : (-1 : ℝ) ∈ lobRoots m := (mem_lobRoots m hm _).2 (.inr (.inl rfl))
  have hr1 : cos (lobAng m k) < 1 := (lobInt_mem hm _ ((mem_lobInt hm _).2 hθ.2.2)).2
  have hr0 : -1 < cos (lobAng m k) := (lobInt_mem hm _ ((mem_lobInt hm _).2 hθ.2.2)).1
  have hctr := fun d e => lob_contract (m := m) (k := k) (by omega) d e
  have hp : 0 < angStep m * sin (lobAng m k) :=
    mul_pos (angStep_pos m) (sin_pos_of_pos_of_lt_pi hθ.1 hθ.2.1)
  generalize cos ((k + 1) * π / m) = s at *
  generalize cos (lobAng m k) = r at *
  rcases le_total r s with hc | hc
  · rw [abs_of_nonneg (by linarith)] at hs hL ⊢
    refine ⟨s - r, 3 / 5 * (s - r), by linarith, by linarith, by linarith, by linarith, by linarith, by linarith,
      ?_, ?_, hctr _ _ (by linarith) (by linarith) (by linarith) (by linarith) (fun x hx h => ?_)
        (fun x hx h => ?_)⟩
    · have := (hR 1 h1S hr1).1
      linarith
    · have := (hL (-1) hmS hr0).1
      linarith
    · have := (hR x hx h).1
      linarith
    · have := (hL x hx h).1
      linarith
  · rw [abs_of_nonpos (by linarith)] at hs hL ⊢
    refine ⟨3 / 5 * (r - s), r - s, by linarith, by linarith, by linarith, by linarith, by linarith, by linarith,
      ?_, ?_, hctr _ _ (by linarith) (by linarith) (by linarith) (by linarith) (fun x hx h => ?_)
        (fun x hx h => ?_)⟩
    · have := (hR 1 h1S hr1).2
      linarith
    · have := (hL (-1) hmS hr0).1
      linarith
    · have := (hR x hx h).2
      linarith
    · have := (hL x hx h).1
      linarith

/-- Contraction in a neighbourhood that does not degenerate for starting values at the root. -/
theorem lob_newton_wide {m k : ℕ} (hk : 2 * (k + 1) ≤ m) :
    ∃ d e M, d ≤ M ∧ e ≤ M ∧ 7 / 10 * M ≤ d ∧ 7 / 10 * M ≤ e ∧
      1 / 400 * angStep m * sin (lobAng m k) ≤ M ∧ M ≤ 101 / 400 * angStep m * sin (lobAng m k) ∧
      cos (lobAng m k) - e ≤ cos ((k + 1) * π / m) - 7 / 4000 * angStep m * sin (lobAng m k) ∧
      cos ((k + 1) * π / m) + 7 / 4000 * angStep m * sin (lobAng m k) ≤ cos (lobAng m k) + d ∧
      ∀ z, cos (lobAng m k) - e ≤ z → z ≤ cos (lobAng m k) + d →
        |z| < 1 ∧ 1 / 2 * sin (lobAng m k) ^ 2 ≤ 1 - z ^ 2 ∧
        (P m).eval z ≠ 0 ∧
        |z - (z * (P m).eval z - (P (m - 1)).eval z) / ((m + 1) * (P m).eval z) - cos (lobAng m k)|
          ≤ 3 / 5 * |z - cos (lobAng m k)| := by
  have hm : 1 ≤ m := by omega
  have hθ := lobAng_mem (m := m) (k := k) (by omega)
  obtain ⟨hs, hR, hL⟩ := lob_start hk
  have h1S : (1 : ℝ) ∈ lobRoots m := (mem_lobRoots m hm _).2 (.inl rfl)
  have hmS : (-1 : ℝ) ∈ lobRoots m := (mem_lobRoots m hm _).2 (.inr (.inl rfl))
  have hr1 : cos (lobAng m k) < 1 := (lobInt_mem hm _ ((mem_lobInt hm _).2 hθ.2.2)).2
  have hr0 : -1 < cos (lobAng m k) := (lobInt_mem hm _ ((mem_lobInt hm _).2 hθ.2.2)).1
  have hctr := fun d e => lob_contract (m := m) (k := k) (by omega) d e
  have hp : 0 < angStep m * sin (lobAng m k) :=
    mul_pos (angStep_pos m) (sin_pos_of_pos_of_lt_pi hθ.1 hθ.2.1)
  have hr2 : sin (lobAng m k) ^ 2 = 1 - cos (lobAng m k) ^ 2 := sin_sq _
  -- the distance from ±1
  have hdist : ∀ d e, 0 ≤ d → 0 ≤ e → d ≤ 53 / 125 * (1 - cos (lobAng m k)) →
      e ≤ 13 / 50 * (cos (lobAng m k) + 1) →
      ∀ z, cos (lobAng m k) - e ≤ z → z ≤ cos (lobAng m k) + d →
        |z| < 1 ∧ 1 / 2 * sin (lobAng m k) ^ 2 ≤ 1 - z ^ 2 := by
    intro d e hd0 he0 hd he z hz0 hz1
    refine ⟨abs_lt.2 ⟨by linarith, by linarith⟩, ?_⟩
    rw [hr2]
    generalize cos (lobAng m k) = r at *
    rcases le_total r z with hrz | hrz
    · have h1 : 1 / 2 * (1 - r) ≤ 1 - z := by linarith
      have h2 : 1 + r ≤ 1 + z := by linarith
      have := mul_le_mul h1 h2 (by linarith) (by linarith)
      linarith
    · have h1 : 1 - r ≤ 1 - z := by linarith
      have h2 : 1 / 2 * (1 + r) ≤ 1 + z := by linarith
      have := mul_le_mul h1 h2 (by linarith) (by linarith)
      linarith
  have key : ∀ d e, 0 ≤ d → 0 ≤ e → d ≤ 101 / 400 * angStep m * sin (lobAng m k) →
      e ≤ 101 / 400 * angStep m * sin (lobAng m k) →
      (∀ x ∈ lobRoots m, cos (lobAng m k) < x → d ≤ 53 / 125 * (x - cos (lobAng m k))) →
      (∀ x ∈ lobRoots m, x < cos (lobAng m k) → e ≤ 13 / 50 * (cos (lobAng m k) - x)) →
      ∀ z, cos (lobAng m k) - e ≤ z → z ≤ cos (lobAng m k) + d →
        |z| < 1 ∧ 1 / 2 * sin (lobAng m k) ^ 2 ≤ 1 - z ^ 2 ∧
        (P m).eval z ≠ 0 ∧
        |z - (z * (P m).eval z - (P (m - 1)).eval z) / ((m + 1) * (P m).eval z) - cos (lobAng m k)|
          ≤ 3 / 5 * |z - cos (lobAng m k)| := by
    intro d e hd0 he0 hd he hR hL z hz0 hz1
    obtain ⟨h1, h2⟩ := hdist d e hd0 he0 (hR 1 h1S hr1)
      ((hL (-1) hmS hr0).trans (le_of_eq (by ring))) z hz0 hz1
    exact ⟨h1, h2, hctr d e hd0 he0 hd he hR hL z hz0 hz1⟩
  clear hctr hdist
  generalize cos ((k + 1) * π / m) = s at *
  generalize hg : angStep m * sin (lobAng m k) = g at *
  have e1 : ∀ c : ℝ, c * angStep m * sin (lobAng m k) = c * g := fun c => by rw [← hg]; ring
  rw [e1] at hs
  simp only [e1] at key ⊢
  rcases le_total (cos (lobAng m k)) s with hc | hc
  · rw [abs_of_nonneg (by linarith)] at hs hL
    refine ⟨s - cos (lobAng m k) + 1 / 400 * g, 7 / 10 * (s - cos (lobAng m k) + 1 / 400 * g),
      s - cos (lobAng m k) + 1 / 400 * g, le_rfl, by linarith, by linarith, le_rfl, by linarith, by linarith,
      by linarith, by linarith, key _ _ (by linarith) (by linarith) (by linarith) (by linarith)
        (fun x hx h => ?_) (fun x hx h => ?_)⟩
    · have := hR x hx h
      linarith
    · have := hL x hx h
      linarith
  · rw [abs_of_nonpos (by linarith)] at hs hL
    refine ⟨7 / 10 * (cos (lobAng m k) - s + 1 / 400 * g), cos (lobAng m k) - s + 1 / 400 * g,
      cos (lobAng m k) - s + 1 / 400 * g, by linarith, le_rfl, le_rfl, by linarith, by linarith, by linarith,
      by linarith, by linarith, key _ _ (by linarith) (by linarith) (by linarith) (by linarith)
        (fun x hx h => ?_) (fun x hx h => ?_)⟩
    · have := hR x hx h
      linarith
    · have := hL x hx h
      linarith

/-! ## The iterations of the model -/

theorem lobNewton_fin (m k : ℕ) (hm : 1 ≤ m) (z : ℝ) (hd : (P m).eval z ≠ 0) :
    lobNewton (m + 1) (k + 1) (XReal.fin z) =
      if |z - (z * (P m).eval z - (P (m - 1)).eval z) / ((m + 1) * (P m).eval z) - z|
          ≤ (2 : ℝ)⁻¹ ^ 52 then
        some (.fin (z - (z * (P m).eval z - (P (m - 1)).eval z) / ((m + 1) * (P m).eval z)),
          .fin ((P m).eval z))
      else lobNewton (m + 1) k
        (.fin (z - (z * (P m).eval z - (P (m - 1)).eval z) / ((m + 1) * (P m).eval z))) := by
  rw [lobNewton, evalPn_eq]
  dsimp only
  have hp : legPrev m z = (P (m - 1)).eval z := by rw [legPrev, if_neg (by omega)]
  rw [Nat.add_sub_cancel, (pnLoop_xreal z m).1, (pnLoop_xreal z m).2, hp]
  rw [XReal.ofNat_eq, XReal.fin_mul, XReal.fin_mul, XReal.fin_sub,
    XReal.fin_div_ne _ (mul_ne_zero (by positivity) hd), XReal.fin_sub, XReal.fin_sub]
  push_cast
  simp only [xreal_accept]

theorem lobStart_xreal (m k : ℕ) (hk : 2 * (k + 1) ≤ m) :
    lobStart XReal (m + 1) (k + 1) = .fin (-cos ((k + 1) * π / m)) := by
  have hm0 : (0 : ℝ) < m := by exact_mod_cast (by omega : 0 < m)
  unfold lobStart
  show Arith.cos (XReal.fin ((m + 1 - 1 - (k + 1) : ℕ) : ℝ) * XReal.fin π /
    (XReal.fin ((m + 1 : ℕ) : ℝ) - XReal.fin ((1 : ℚ) : ℝ))) = _
  rw [XReal.fin_sub, XReal.fin_mul, XReal.fin_div_ne _ (by push_cast; linarith)]
  show XReal.fin (cos _) = _
  rw [← cos_pi_sub]
  congr 2
  rw [show m + 1 - 1 - (k + 1) = m - (k + 1) by omega, Nat.cast_sub (by omega)]
  push_cast
  rw [add_sub_cancel_right]
  field_simp

/-- Every Newton iteration of GaussLobatto is accepted, at the root it was meant for. -/
theorem lobNewton_converges {m k : ℕ} (hk : 2 * (k + 1) ≤ m) :
    ∃ a z : ℝ, lobNewton (m + 1) 100 (lobStart XReal (m + 1) (k + 1)) =
      some (.fin z, .fin ((P m).eval a)) ∧
      |a - -cos (lobAng m k)| ≤ 5 / 2 * (2 : ℝ)⁻¹ ^ 52 ∧
      |z - -cos (lobAng m k)| ≤ 3 / 2 * (2 : ℝ)⁻¹ ^ 52 ∧
      z = a - (a * (P m).eval a - (P (m - 1)).eval a) / ((m + 1) * (P m).eval a) ∧
      (P m).eval a ≠ 0 ∧ |a| < 1 ∧ |z| < 1 ∧ |z - a| ≤ (2 : ℝ)⁻¹ ^ 52 := by
  obtain ⟨d, e, hd0, he0, hs1, hs2, hs3, hs4, hlt1, hlt2, hcon⟩ := lob_newton_data hk
  rw [lobStart_xreal m k hk]
  have hm : 1 ≤ m := by omega
  set r := cos (lobAng m k)
  -- the mirrored contraction
  have hcon' : ∀ z, -r - d ≤ z → z ≤ -r + e → (P m).eval z ≠ 0 ∧
      |z - (z * (P m).eval z - (P (m - 1)).eval z) / ((m + 1) * (P m).eval z) - -r|
        ≤ 3 / 5 * |z - -r| := by
    intro z h1 h2
    have h := hcon (-z) (by linarith) (by linarith)
    rw [legendre_eval_neg, legendre_eval_neg] at h
    obtain ⟨l, rfl⟩ : ∃ l, m = l + 1 := ⟨m - 1, by omega⟩
    rw [Nat.add_sub_cancel] at h ⊢
    have hsgn : ((-1 : ℝ)) ^ l ≠ 0 := by positivity
    have hne : (P (l + 1)).eval z ≠ 0 := fun h0 => h.1 (by rw [h0, mul_zero])
    refine ⟨hne, ?_⟩
    have e1 : -z - (-z * ((-1) ^ (l + 1) * (P (l + 1)).eval z) - (-1) ^ l * (P l).eval z) /
        (((l + 1 : ℕ) + 1) * ((-1) ^ (l + 1) * (P (l + 1)).eval z)) - r =
        -(z - (z * (P (l + 1)).eval z - (P l).eval z) /
          (((l + 1 : ℕ) + 1) * (P (l + 1)).eval z) - -r) := by
      have : (((l + 1 : ℕ) : ℝ) + 1) ≠ 0 := by positivity
      rw [pow_succ]
      field_simp
      ring
    rw [e1, abs_neg, show -z - r = -(z - -r) by ring, abs_neg] at h
    exact h.2
  have hlt : ∀ z, -r - d ≤ z → z ≤ -r + e → |z| < 1 := fun z h1 h2 =>
    abs_lt.2 ⟨by linarith, by linarith⟩
  have habs : |-cos ((k + 1) * π / m) - -r| = |cos ((k + 1) * π / m) - r| := by
    rw [show -cos ((k + 1) * π / m) - -r = -(cos ((k + 1) * π / m) - r) by ring, abs_neg]
  obtain ⟨a, ha1, ha2, hrun, ha, ha3, ha4, hst⟩ := newton_iterate
    (fun z => z - (z * (P m).eval z - (P (m - 1)).eval z) / ((m + 1) * (P m).eval z))
    (fun z => (P m).eval z) (lobNewton (m + 1)) (-r) e d
    (fun j z h1 h2 => lobNewton_fin m j hm z (hcon' z h1 h2).1)
    (fun z h1 h2 => (hcon' z h1 h2).2) 99 (-cos ((k + 1) * π / m)) (by linarith) (by linarith)
    (by rw [habs]; exact hs4) (by rw [habs]; exact hs3)
    (by
      have h1 : |-cos ((k + 1) * π / m) - -r| ≤ 2 := by
        have h2 := neg_one_le_cos ((k + 1) * π / m)
        have h3 := cos_le_one ((k + 1) * π / m)
        have h4 := neg_one_le_cos (lobAng m k)
        have h5 := cos_le_one (lobAng m k)
        exact abs_le.2 ⟨by linarith, by linarith⟩
      have : (2 : ℝ) ≤ (5 / 3) ^ 99 * (2 : ℝ)⁻¹ ^ 53 := by norm_num
      linarith)
  have hna := (hcon' a ha1 ha2).2
  refine ⟨a, _, hrun, ha, ?_, rfl, (hcon' a ha1 ha2).1, hlt a ha1 ha2, ?_, hst⟩
  · linarith
  · have h1 := abs_le.1 (hna.trans ha3)
    have h2 := abs_le.1 (hna.trans ha4)
    exact hlt _ (by linarith) (by linarith)

end IntegratorXX
