import Verif.Lemmas.Sturm
import Verif.Lemmas.GaussRule
import Mathlib.Analysis.SpecialFunctions.Sqrt
import Mathlib.Analysis.SpecialFunctions.Trigonometric.Inverse
import Mathlib.Data.Finset.Sort

/-!
# Angles of the zeros of the Legendre polynomials

`P_n` has `n` zeros `cos θ_0 > … > cos θ_{n-1}`.  Sturm's comparison theorem locates the
angles: with `h = π/(n + 1/2)`, `(k + 1/2) h ≤ θ_k ≤ (k + 1) h`, and `(k + 3/4) h ≤ θ_k` in the
first half.
-/

namespace IntegratorXX

open Polynomial Spec Set Real

local notation "P" => legendre

/-- `√(sin t)` and its derivative. -/
theorem hasDerivAt_sqrt_sin {t : ℝ} (h0 : 0 < t) (h1 : t < π) :
    HasDerivAt (fun t => √(sin t)) (cos t / (2 * √(sin t))) t :=
  (hasDerivAt_sin t).sqrt (sin_pos_of_pos_of_lt_pi h0 h1).ne'

theorem hasDerivAt_eval_cos (p : ℝ[X]) (t : ℝ) :
    HasDerivAt (fun t => p.eval (cos t)) (-(sin t * (derivative p).eval (cos t))) t := by
  have := (p.hasDerivAt (cos t)).comp t (hasDerivAt_cos t)
  exact this.congr_deriv (by ring)

/-- `u(t) = √(sin t) P_n(cos t)`. -/
noncomputable def legU (n : ℕ) (t : ℝ) : ℝ := √(sin t) * (P n).eval (cos t)

/-- The derivative of `legU`. -/
noncomputable def legU1 (n : ℕ) (t : ℝ) : ℝ :=
  cos t / (2 * √(sin t)) * (P n).eval (cos t) +
    √(sin t) * (-(sin t * (derivative (P n)).eval (cos t)))

theorem hasDerivAt_legU (n : ℕ) {t : ℝ} (h0 : 0 < t) (h1 : t < π) :
    HasDerivAt (legU n) (legU1 n t) t :=
  (hasDerivAt_sqrt_sin h0 h1).mul (hasDerivAt_eval_cos (P n) t)

theorem hasDerivAt_legU1 (n : ℕ) {t : ℝ} (h0 : 0 < t) (h1 : t < π) :
    HasDerivAt (legU1 n) (-((((n : ℝ) + 1 / 2) ^ 2 + 1 / (4 * sin t ^ 2)) * legU n t)) t := by
  have hsin := sin_pos_of_pos_of_lt_pi h0 h1
  have hs : √(sin t) ^ 2 = sin t := sq_sqrt hsin.le
  have hs0 : 0 < √(sin t) := sqrt_pos.2 hsin
  have d1 := hasDerivAt_sqrt_sin h0 h1
  have d2 := hasDerivAt_eval_cos (P n) t
  have d3 := hasDerivAt_eval_cos (derivative (P n)) t
  have d4 := (hasDerivAt_cos t).div (d1.const_mul 2) (by positivity)
  have := (d4.mul d2).add (d1.mul ((hasDerivAt_sin t).mul d3).neg)
  refine this.congr_deriv ?_
  have hode := congrArg (eval (cos t)) (legendre_ode' n)
  simp only [eval_mul, eval_sub, eval_one, eval_pow, eval_X, eval_C, eval_ofNat] at hode
  have hc2 : cos t ^ 2 = 1 - sin t ^ 2 := by rw [cos_sq']
  rw [hc2, sub_sub_cancel] at hode
  unfold legU
  simp only [Pi.div_apply, Pi.neg_apply, Pi.mul_apply]
  generalize (derivative (derivative (P n))).eval (cos t) = p2 at *
  generalize (derivative (P n)).eval (cos t) = p1 at *
  generalize (P n).eval (cos t) = p0 at *
  generalize hq : √(sin t) = s at *
  rw [← hs] at hode hc2 ⊢
  generalize cos t = c at *
  field_simp
  linear_combination 16 * s ^ 4 * hode - 4 * p0 * hc2

/-- `v(t) = sin^{3/2} t P_m'(cos t)`. -/
noncomputable def lobV (m : ℕ) (t : ℝ) : ℝ := √(sin t) ^ 3 * (derivative (P m)).eval (cos t)

/-- The derivative of `lobV`. -/
noncomputable def lobV1 (m : ℕ) (t : ℝ) : ℝ :=
  3 / 2 * √(sin t) * cos t * (derivative (P m)).eval (cos t) +
    √(sin t) ^ 3 * (-(sin t * (derivative (derivative (P m))).eval (cos t)))

theorem hasDerivAt_lobV (m : ℕ) {t : ℝ} (h0 : 0 < t) (h1 : t < π) :
    HasDerivAt (lobV m) (lobV1 m t) t := by
  have hsin := sin_pos_of_pos_of_lt_pi h0 h1
  have hs0 : 0 < √(sin t) := sqrt_pos.2 hsin
  have := ((hasDerivAt_sqrt_sin h0 h1).fun_pow 3).mul (hasDerivAt_eval_cos (derivative (P m)) t)
  refine this.congr_deriv ?_
  unfold lobV1
  generalize √(sin t) = s at *
  push_cast
  field_simp

/-- The equation of `P_m'`. -/
theorem legendre_ode_deriv (m : ℕ) :
    (1 - X ^ 2) * derivative (derivative (derivative (P m))) =
      4 * X * derivative (derivative (P m)) - C (m * (m + 1) - 2 : ℝ) * derivative (P m) := by
  have h := congrArg derivative (legendre_ode' m)
  simp only [derivative_mul, derivative_sub, derivative_one, derivative_X_pow, derivative_X,
    derivative_C, derivative_ofNat] at h
  rw [show C (((2 : ℕ) : ℝ)) = (2 : ℝ[X]) from rfl] at h
  rw [C_sub, show (C (2 : ℝ)) = (2 : ℝ[X]) from rfl]
  linear_combination h

theorem hasDerivAt_lobV1 (m : ℕ) {t : ℝ} (h0 : 0 < t) (h1 : t < π) :
    HasDerivAt (lobV1 m) (-((((m : ℝ) + 1 / 2) ^ 2 - 3 / (4 * sin t ^ 2)) * lobV m t)) t := by
  have hsin := sin_pos_of_pos_of_lt_pi h0 h1
  have hs : √(sin t) ^ 2 = sin t := sq_sqrt hsin.le
  have hs0 : 0 < √(sin t) := sqrt_pos.2 hsin
  have d1 := hasDerivAt_sqrt_sin h0 h1
  have d2 := hasDerivAt_eval_cos (derivative (P m)) t
  have d3 := hasDerivAt_eval_cos (derivative (derivative (P m))) t
  have := (((d1.const_mul (3 / 2)).mul (hasDerivAt_cos t)).mul d2).add
    ((d1.fun_pow 3).mul ((hasDerivAt_sin t).mul d3).neg)
  refine this.congr_deriv ?_
  have hode := congrArg (eval (cos t)) (legendre_ode_deriv m)
  simp only [eval_mul, eval_sub, eval_one, eval_pow, eval_X, eval_C, eval_ofNat] at hode
  have hc2 : cos t ^ 2 = 1 - sin t ^ 2 := by rw [cos_sq']
  rw [hc2, sub_sub_cancel] at hode
  unfold lobV
  simp only [Pi.neg_apply, Pi.mul_apply]
  generalize (derivative (derivative (derivative (P m)))).eval (cos t) = p2 at *
  generalize (derivative (derivative (P m))).eval (cos t) = p1 at *
  generalize (derivative (P m)).eval (cos t) = p0 at *
  generalize hq : √(sin t) = s at *
  rw [← hs] at hode hc2 ⊢
  generalize cos t = c at *
  push_cast
  field_simp
  linear_combination 16 * s ^ 4 * hode + 12 * p0 * hc2

/-! ## Enumeration of angles -/

/-- The angles of a set of cosines. -/
noncomputable def angSet (R : Finset ℝ) : Finset ℝ := R.image arccos

theorem mem_angSet {R : Finset ℝ} (hR : ∀ x ∈ R, -1 < x ∧ x < 1) (t : ℝ) :
    t ∈ angSet R ↔ 0 < t ∧ t < π ∧ cos t ∈ R := by
  unfold angSet
  rw [Finset.mem_image]
  constructor
  · rintro ⟨x, hx, rfl⟩
    obtain ⟨h1, h2⟩ := hR x hx
    refine ⟨arccos_pos.2 h2, ?_, ?_⟩
    · refine lt_of_le_of_ne (arccos_le_pi x) (fun h => ?_)
      have := arccos_eq_pi.1 h
      linarith
    · rwa [cos_arccos h1.le h2.le]
  · rintro ⟨h0, h1, h⟩
    exact ⟨cos t, h, arccos_cos h0.le h1.le⟩

theorem card_angSet {R : Finset ℝ} (hR : ∀ x ∈ R, -1 < x ∧ x < 1) :
    (angSet R).card = R.card := by
  apply Finset.card_image_of_injOn
  intro x hx y hy h
  exact arccos_injOn ⟨(hR x hx).1.le, (hR x hx).2.le⟩ ⟨(hR y hy).1.le, (hR y hy).2.le⟩ h

/-- The `k`-th smallest angle. -/
noncomputable def ang (R : Finset ℝ) (k : ℕ) : ℝ :=
  if h : k < (angSet R).card then (angSet R).orderEmbOfFin rfl ⟨k, h⟩ else 0

section
variable {R : Finset ℝ} (hR : ∀ x ∈ R, -1 < x ∧ x < 1)
include hR

theorem ang_mem {k : ℕ} (hk : k < R.card) : 0 < ang R k ∧ ang R k < π ∧ cos (ang R k) ∈ R := by
  rw [← card_angSet hR] at hk
  rw [← mem_angSet hR, ang, dif_pos hk]
  exact Finset.orderEmbOfFin_mem _ _ _

theorem ang_lt {j k : ℕ} (hjk : j < k) (hk : k < R.card) : ang R j < ang R k := by
  rw [← card_angSet hR] at hk
  rw [ang, ang, dif_pos hk, dif_pos (hjk.trans hk)]
  exact (OrderEmbedding.lt_iff_lt _).2 hjk

theorem ang_le {j k : ℕ} (hjk : j ≤ k) (hk : k < R.card) : ang R j ≤ ang R k := by
  rcases hjk.eq_or_lt with rfl | h
  · exact le_rfl
  · exact (ang_lt hR h hk).le

theorem ang_surj {t : ℝ} (h0 : 0 < t) (h1 : t < π) (ht : cos t ∈ R) :
    ∃ k < R.card, t = ang R k := by
  have hm := (mem_angSet hR t).2 ⟨h0, h1, ht⟩
  have : t ∈ Set.range ((angSet R).orderEmbOfFin rfl) := by
    rw [Finset.range_orderEmbOfFin]; exact hm
  obtain ⟨⟨k, hk⟩, rfl⟩ := this
  exact ⟨k, by rw [← card_angSet hR]; exact hk, by rw [ang, dif_pos hk]⟩

theorem ang_symm (hs : ∀ x ∈ R, -x ∈ R) {k : ℕ} (hk : k < R.card) :
    ang R (R.card - 1 - k) = π - ang R k := by
  have hc := card_angSet hR
  have huniq := Finset.orderEmbOfFin_unique (s := angSet R) rfl
    (f := fun i => π - (angSet R).orderEmbOfFin rfl i.rev) (fun i => ?_) (fun i j hij => ?_)
  · have h1 : R.card - 1 - k < (angSet R).card := by omega
    have h2 : k < (angSet R).card := by omega
    have := congrFun huniq ⟨R.card - 1 - k, h1⟩
    rw [ang, dif_pos h1, ← this, ang, dif_pos h2]
    congr 3
    rw [Fin.rev]
    ext
    dsimp only
    omega
  · have := (mem_angSet hR _).1 (Finset.orderEmbOfFin_mem (angSet R) rfl i.rev)
    rw [mem_angSet hR, cos_pi_sub]
    exact ⟨by linarith [this.2.1], by linarith [this.1], hs _ this.2.2⟩
  · have : (angSet R).orderEmbOfFin rfl j.rev < (angSet R).orderEmbOfFin rfl i.rev :=
      (OrderEmbedding.lt_iff_lt _).2 (Fin.rev_lt_rev.2 hij)
    dsimp only
    linarith

end

/-! ## Gauss-Legendre -/

theorem legRoots_mem (n : ℕ) : ∀ x ∈ legRoots n, -1 < x ∧ x < 1 :=
  fun x hx => legendre_root_mem n x ((mem_legRoots n x).1 hx)

theorem legRoots_neg (n : ℕ) : ∀ x ∈ legRoots n, -x ∈ legRoots n := by
  intro x hx
  rw [mem_legRoots] at hx ⊢
  rw [legendre_eval_neg, hx, mul_zero]

/-- The angle of the `k`-th largest zero of `P_n`. -/
noncomputable def glAng (n k : ℕ) : ℝ := ang (legRoots n) k

/-- `π / (n + 1/2)`. -/
noncomputable def angStep (n : ℕ) : ℝ := π / ((n : ℝ) + 1 / 2)

theorem angStep_pos (n : ℕ) : 0 < angStep n := by
  have := pi_pos
  unfold angStep; positivity

theorem angStep_mul (n : ℕ) : ((n : ℝ) + 1 / 2) * angStep n = π := by
  unfold angStep; field_simp

theorem glAng_mem {n k : ℕ} (hk : k < n) :
    0 < glAng n k ∧ glAng n k < π ∧ (P n).eval (cos (glAng n k)) = 0 := by
  have := ang_mem (legRoots_mem n) (k := k) (by rwa [card_legRoots])
  rwa [mem_legRoots] at this

theorem glAng_lt {n j k : ℕ} (hjk : j < k) (hk : k < n) : glAng n j < glAng n k :=
  ang_lt (legRoots_mem n) hjk (by rwa [card_legRoots])

theorem glAng_le {n j k : ℕ} (hjk : j ≤ k) (hk : k < n) : glAng n j ≤ glAng n k :=
  ang_le (legRoots_mem n) hjk (by rwa [card_legRoots])

theorem glAng_symm {n k : ℕ} (hk : k < n) : glAng n (n - 1 - k) = π - glAng n k := by
  have := ang_symm (legRoots_mem n) (legRoots_neg n) (k := k) (by rwa [card_legRoots])
  rwa [card_legRoots] at this

theorem glAng_surj {n : ℕ} {x : ℝ} (hx : (P n).eval x = 0) : ∃ k < n, x = cos (glAng n k) := by
  have hm := legendre_root_mem n x hx
  obtain ⟨k, hk, h⟩ := ang_surj (legRoots_mem n) (t := arccos x) (arccos_pos.2 hm.2) (by
      refine lt_of_le_of_ne (arccos_le_pi x) (fun h => ?_)
      have := arccos_eq_pi.1 h
      linarith) (by rwa [cos_arccos hm.1.le hm.2.le, mem_legRoots])
  refine ⟨k, by rwa [card_legRoots] at hk, ?_⟩
  rw [glAng, ← h, cos_arccos hm.1.le hm.2.le]

/-- Every interval of length `h` contains a zero. -/
theorem legendre_zero_between (n : ℕ) (a : ℝ) (h0 : 0 < a) (h1 : a + angStep n < π) :
    ∃ k < n, a < glAng n k ∧ glAng n k < a + angStep n := by
  have hl : (0 : ℝ) < (n : ℝ) + 1 / 2 := by positivity
  obtain ⟨t, ht, hz⟩ := sturm_zero (u := legU n) (u1 := legU1 n)
    (q := fun t => ((n : ℝ) + 1 / 2) ^ 2 + 1 / (4 * sin t ^ 2)) (a := a) hl
    (fun t ht => hasDerivAt_legU n (h0.trans_le ht.1) (ht.2.trans_lt h1))
    (fun t ht => hasDerivAt_legU1 n (h0.trans_le ht.1) (ht.2.trans_lt h1))
    (fun t ht => by
      have := sin_pos_of_pos_of_lt_pi (h0.trans ht.1) (ht.2.trans h1)
      have : 0 < 1 / (4 * sin t ^ 2) := by positivity
      linarith)
  have ht0 := h0.trans ht.1
  have ht1 : t < π := ht.2.trans h1
  have hs := sin_pos_of_pos_of_lt_pi ht0 ht1
  have hroot : (P n).eval (cos t) = 0 :=
    (mul_eq_zero.1 hz).resolve_left (sqrt_pos.2 hs).ne'
  obtain ⟨k, hk, rfl⟩ := ang_surj (legRoots_mem n) ht0 ht1 ((mem_legRoots _ _).2 hroot)
  rw [card_legRoots] at hk
  exact ⟨k, hk, ht.1, ht.2⟩

theorem glAng_gap {n k : ℕ} (hk : k + 1 < n) : glAng n (k + 1) ≤ glAng n k + angStep n := by
  by_contra hcon
  push Not at hcon
  obtain ⟨j, hj, h1, h2⟩ := legendre_zero_between n (glAng n k) (glAng_mem (by omega)).1
    (hcon.trans (glAng_mem hk).2.1)
  rcases Nat.lt_or_ge k j with h | h
  · have := glAng_le (Nat.succ_le_of_lt h) hj
    simp only [Nat.succ_eq_add_one] at this
    linarith
  · have := glAng_le h (by omega : k < n)
    linarith

theorem glAng_upper {n : ℕ} : ∀ {k : ℕ}, k < n → glAng n k ≤ (k + 1) * angStep n := by
  intro k
  induction k with
  | zero =>
    intro hk
    by_contra hcon
    push Not at hcon
    simp only [Nat.cast_zero, zero_add, one_mul] at hcon
    obtain ⟨j, hj, h1, h2⟩ := legendre_zero_between n (glAng n 0 - angStep n) (by linarith) (by
      have := (glAng_mem hk).2.1
      linarith)
    have := glAng_le (Nat.zero_le j) hj
    linarith
  | succ k ih =>
    intro hk
    have := ih (by omega)
    have := glAng_gap hk
    push_cast
    linarith

theorem glAng_lower {n k : ℕ} (hk : k < n) : (k + 1 / 2) * angStep n ≤ glAng n k := by
  have h1 := glAng_symm hk
  have h2 := glAng_upper (n := n) (k := n - 1 - k) (by omega)
  have h3 := angStep_mul n
  rw [h1] at h2
  have h4 : ((n - 1 - k : ℕ) : ℝ) = n - 1 - k := by
    rw [Nat.cast_sub (by omega), Nat.cast_sub (by omega)]; simp
  rw [h4] at h2
  linarith

/-- The sharper bound in the first half; the right side is the starting angle. -/
theorem glAng_start {n k : ℕ} (hk : k < (n + 1) / 2) : (k + 3 / 4) * angStep n ≤ glAng n k := by
  have hmul := angStep_mul n
  have hdown : ∀ j m : ℕ, m < n → j ≤ m → glAng n m ≤ glAng n j + (m - j : ℝ) * angStep n := by
    intro j m
    induction m with
    | zero => intro _ hj; simp [Nat.le_zero.1 hj]
    | succ m ih =>
      intro hm hj
      rcases hj.eq_or_lt with rfl | h
      · push_cast; simp
      · have := ih (by omega) (by omega)
        have := glAng_gap hm
        push_cast
        linarith
  rcases Nat.even_or_odd' n with ⟨m, rfl | rfl⟩
  · -- n = 2 m
    have h1 := glAng_symm (n := 2 * m) (k := m - 1) (by omega)
    rw [show 2 * m - 1 - (m - 1) = m - 1 + 1 by omega] at h1
    have h2 := glAng_gap (n := 2 * m) (k := m - 1) (by omega)
    have h3 := hdown k (m - 1) (by omega) (by omega)
    rw [Nat.cast_sub (by omega)] at h3
    push_cast at *
    rw [h1] at h2
    linarith
  · have h1 := glAng_symm (n := 2 * m + 1) (k := m) (by omega)
    rw [show 2 * m + 1 - 1 - m = m by omega] at h1
    have h3 := hdown k m (by omega) (by omega)
    push_cast at *
    linarith

theorem glAng_le_half {n k : ℕ} (hk : k < (n + 1) / 2) : glAng n k ≤ π / 2 := by
  have h1 := glAng_symm (n := n) (k := k) (by omega)
  have h2 := glAng_le (n := n) (j := k) (k := n - 1 - k) (by omega) (by omega)
  linarith

end IntegratorXX
