import Verif.Lemmas.SphereZonal
import Verif.Prop.GridConvergence
import Verif.Spec.SphereRule
import Mathlib.Algebra.MvPolynomial.Funext
import Mathlib.LinearAlgebra.FiniteDimensional.Lemmas
import Mathlib.LinearAlgebra.Matrix.ToLin
import Mathlib.MeasureTheory.Measure.OpenPos

/-!
# C117: the number of points of the angular grids

How many points a rule on the sphere needs for its order, and how many the grids have.
-/

namespace IntegratorXX

open Spec Set Real MeasureTheory Metric

/-- Exponents of `x` and `y`, with total degree below `m`. -/
private def expo (m : ℕ) : Finset (Σ _ : ℕ, ℕ × ℕ) := (Finset.range m).sigma fun k => Finset.antidiagonal k

private theorem expo_card (m : ℕ) : 2 * (expo m).card = m * (m + 1) := by
  unfold expo
  rw [Finset.card_sigma]
  simp only [Finset.Nat.card_antidiagonal]
  induction m with
  | zero => simp
  | succ m ih =>
    rw [Finset.sum_range_succ, mul_add, ih]
    ring

private theorem expo_mem {m : ℕ} {i : Σ _ : ℕ, ℕ × ℕ} (h : i ∈ expo m) : i.2.1 + i.2.2 = i.1 ∧ i.1 < m := by
  unfold expo at h
  rw [Finset.mem_sigma, Finset.mem_range, Finset.mem_antidiagonal] at h
  exact ⟨h.2, h.1⟩

/-- The monomials used: no powers of `z` above the first. -/
private noncomputable def mono (σ : Type) (i0 i1 : σ) (i : Σ _ : ℕ, ℕ × ℕ) : MvPolynomial σ ℝ :=
  MvPolynomial.X i0 ^ i.2.1 * MvPolynomial.X i1 ^ i.2.2

private theorem mono_degree (i : Σ _ : ℕ, ℕ × ℕ) : (mono (Fin 3) 0 1 i).totalDegree ≤ i.2.1 + i.2.2 := by
  unfold mono
  refine (MvPolynomial.totalDegree_mul _ _).trans (add_le_add ?_ ?_) <;>
    exact (MvPolynomial.totalDegree_X_pow _ _).le

/-- A combination of these monomials that vanishes on a disk is trivial. -/
private theorem plane_zero (m : ℕ) (v : expo m → ℝ)
    (h : ∀ x y : ℝ, |x| < 1 / 2 → |y| < 1 / 2 → ∑ i, v i * (x ^ i.1.2.1 * y ^ i.1.2.2) = 0) : v = 0 := by
  have hp : ∑ i, MvPolynomial.C (v i) * mono (Fin 2) 0 1 i.1 = 0 := by
    refine MvPolynomial.funext_set (fun _ => Ioo (-(1 / 2) : ℝ) (1 / 2))
      (fun _ => Ioo_infinite (by norm_num)) fun x hx => ?_
    have h2 := h (x 0) (x 1) (abs_lt.2 (hx 0 trivial)) (abs_lt.2 (hx 1 trivial))
    rw [map_sum, map_zero]
    simpa [mono] using h2
  funext j
  have hc := congrArg (MvPolynomial.coeff (Finsupp.single 0 j.1.2.1 + Finsupp.single 1 j.1.2.2)) hp
  rw [MvPolynomial.coeff_sum, MvPolynomial.coeff_zero, Finset.sum_eq_single j] at hc
  · have e : MvPolynomial.C (v j) * mono (Fin 2) 0 1 j.1 =
        MvPolynomial.monomial (Finsupp.single 0 j.1.2.1 + Finsupp.single 1 j.1.2.2) (v j) := by
      unfold mono
      rw [MvPolynomial.X_pow_eq_monomial, MvPolynomial.X_pow_eq_monomial, MvPolynomial.monomial_mul,
        MvPolynomial.C_mul_monomial]
      simp
    rw [e, MvPolynomial.coeff_monomial, if_pos rfl] at hc
    exact hc
  · intro i _ hij
    have e : MvPolynomial.C (v i) * mono (Fin 2) 0 1 i.1 =
        MvPolynomial.monomial (Finsupp.single 0 i.1.2.1 + Finsupp.single 1 i.1.2.2) (v i) := by
      unfold mono
      rw [MvPolynomial.X_pow_eq_monomial, MvPolynomial.X_pow_eq_monomial, MvPolynomial.monomial_mul,
        MvPolynomial.C_mul_monomial]
      simp
    rw [e, MvPolynomial.coeff_monomial, if_neg]
    intro he
    apply hij
    have e0 := DFunLike.congr_fun he 0
    have e1 := DFunLike.congr_fun he 1
    simp at e0 e1
    obtain ⟨⟨k, a, b⟩, hi⟩ := i
    obtain ⟨⟨k', a', b'⟩, hj⟩ := j
    have h1 := (expo_mem hi).1
    have h2 := (expo_mem hj).1
    simp only at e0 e1 h1 h2
    subst e0 e1
    obtain rfl : k = k' := by omega
    rfl
  · intro hj
    exact absurd (Finset.mem_univ j) hj

/-- A polynomial whose square has surface integral zero vanishes on the sphere. -/
private theorem vanish_of_sphereInt (p : MvPolynomial (Fin 3) ℝ) (h : sphereInt (polyAt (p * p)) = 0) (x y z : ℝ)
    (hs : x ^ 2 + y ^ 2 + z ^ 2 = 1) : polyAt p ⟨x, y, z⟩ = 0 := by
  have : CompactSpace (sphere (0 : E3) 1) := isCompact_iff_compactSpace.1 (isCompact_sphere 0 1)
  rw [← toSphere_poly] at h
  have hcont : Continuous fun u : sphere (0 : E3) 1 => polyAt p (toPt u) := by
    unfold polyAt toPt
    simp only [MvPolynomial.eval_eq]
    refine continuous_finsetSum _ fun d _ => continuous_const.mul (continuous_finsetProd _ fun i _ => ?_)
    fin_cases i <;> simp <;> fun_prop
  have he : ∀ u : sphere (0 : E3) 1, polyAt (p * p) (toPt u) = polyAt p (toPt u) * polyAt p (toPt u) := fun u => by
    simp [polyAt]
  simp only [he] at h
  have hc2 := hcont.mul hcont
  rw [integral_eq_zero_iff_of_nonneg (fun u => mul_self_nonneg _)
    (hc2.integrable_of_hasCompactSupport (HasCompactSupport.of_compactSpace _))] at h
  have h2 := (Continuous.ae_eq_iff_eq _ hc2 continuous_const).1 h
  have hmem : (!₂[x, y, z] : E3) ∈ sphere (0 : E3) 1 := by
    rw [mem_sphere_zero_iff_norm, EuclideanSpace.norm_eq, Real.sqrt_eq_one, Fin.sum_univ_three]
    simpa using hs
  have h3 : polyAt p (toPt (!₂[x, y, z] : E3)) * polyAt p (toPt (!₂[x, y, z] : E3)) = 0 := congrFun h2 ⟨_, hmem⟩
  have h4 : toPt (!₂[x, y, z] : E3) = ⟨x, y, z⟩ := by simp [toPt]
  rw [h4] at h3
  exact mul_self_eq_zero.1 h3

/-- **C117.**  A rule for the sphere that is exact for all polynomials of degree at most `L` has at least `(L/2 + 1)²`
points. -/
theorem C117_lower_bound (x : List (Pt ℝ)) (w : List ℝ) (L : ℕ) (h : ExactOnSphere x w L) :
    (L / 2 + 1) ^ 2 ≤ (x.zip w).length := by
  by_contra hlt
  rw [not_le] at hlt
  set m := L / 2 with hm
  set l := x.zip w with hl
  have hcard : Fintype.card (expo (m + 1) ⊕ expo m) = (m + 1) ^ 2 := by
    rw [Fintype.card_sum, Fintype.card_coe, Fintype.card_coe]
    have h1 := expo_card (m + 1)
    have h2 := expo_card m
    nlinarith
  let T : Matrix (Fin l.length) (expo (m + 1) ⊕ expo m) ℝ := fun n i =>
    Sum.elim (fun i : expo (m + 1) => l[n].1.x ^ i.1.2.1 * l[n].1.y ^ i.1.2.2)
      (fun i : expo m => l[n].1.z * (l[n].1.x ^ i.1.2.1 * l[n].1.y ^ i.1.2.2)) i
  have hker : LinearMap.ker T.mulVecLin ≠ ⊥ := by
    refine LinearMap.ker_ne_bot_of_finrank_lt ?_
    rw [Module.finrank_fintype_fun_eq_card, Module.finrank_fintype_fun_eq_card, hcard, Fintype.card_fin]
    exact hlt
  obtain ⟨v, hv, hv0⟩ := (Submodule.ne_bot_iff _).1 hker
  rw [LinearMap.mem_ker, Matrix.mulVecLin_apply] at hv
  let p : MvPolynomial (Fin 3) ℝ := ∑ i, MvPolynomial.C (v (.inl i)) * mono (Fin 3) 0 1 i.1 +
    MvPolynomial.X 2 * ∑ i, MvPolynomial.C (v (.inr i)) * mono (Fin 3) 0 1 i.1
  have hval : ∀ u : Pt ℝ, polyAt p u = ∑ i, v (.inl i) * (u.x ^ i.1.2.1 * u.y ^ i.1.2.2) +
      u.z * ∑ i, v (.inr i) * (u.x ^ i.1.2.1 * u.y ^ i.1.2.2) := by
    intro u
    simp [p, polyAt, mono]
  have hdeg : p.totalDegree ≤ m := by
    have hterm : ∀ (c : ℝ) (i : Σ _ : ℕ, ℕ × ℕ), (MvPolynomial.C c * mono (Fin 3) 0 1 i).totalDegree ≤ i.2.1 + i.2.2 := by
      intro c i
      refine (MvPolynomial.totalDegree_mul _ _).trans ?_
      rw [MvPolynomial.totalDegree_C, zero_add]
      exact mono_degree i
    refine (MvPolynomial.totalDegree_add _ _).trans (max_le ?_ ?_)
    · refine MvPolynomial.totalDegree_finsetSum_le fun i _ => (hterm _ _).trans ?_
      have := expo_mem i.2
      omega
    · rcases Nat.eq_zero_or_pos m with h0 | h0
      · have hE : IsEmpty (expo m) := by
          rw [h0]
          exact ⟨fun i => by simpa [expo] using i.2⟩
        rw [Finset.univ_eq_empty, Finset.sum_empty, mul_zero, MvPolynomial.totalDegree_zero]
        exact Nat.zero_le _
      · refine (MvPolynomial.totalDegree_mul _ _).trans ?_
        rw [MvPolynomial.totalDegree_X]
        have : (∑ i : expo m, MvPolynomial.C (v (.inr i)) * mono (Fin 3) 0 1 i.1).totalDegree ≤ m - 1 := by
          refine MvPolynomial.totalDegree_finsetSum_le fun i _ => (hterm _ _).trans ?_
          have := expo_mem i.2
          omega
        omega
  have hzero : ∀ e ∈ l, polyAt p e.1 = 0 := by
    intro e he
    obtain ⟨n, hn, rfl⟩ := List.getElem_of_mem he
    have h1 := congrFun hv ⟨n, hn⟩
    rw [hval]
    simp only [Matrix.mulVec, dotProduct, Fintype.sum_sum_type, T, Sum.elim_inl, Sum.elim_inr, Pi.zero_apply] at h1
    rw [Finset.mul_sum, ← h1]
    congr 1
    · exact Finset.sum_congr rfl fun i _ => mul_comm _ _
    · refine Finset.sum_congr rfl fun i _ => ?_
      show _ = l[n].1.z * (l[n].1.x ^ _ * l[n].1.y ^ _) * _
      ring
  have hint : sphereInt (polyAt (p * p)) = 0 := by
    rw [← h (p * p) ((MvPolynomial.totalDegree_mul _ _).trans (by omega))]
    unfold ruleSum
    rw [← hl]
    refine List.sum_eq_zero fun a ha => ?_
    obtain ⟨e, he, rfl⟩ := List.mem_map.1 ha
    have h1 := hzero e he
    have h2 : polyAt (p * p) e.1 = polyAt p e.1 * polyAt p e.1 := by simp [polyAt]
    rw [h2, h1, mul_zero, mul_zero]
  have hsph := vanish_of_sphereInt p hint
  have hz : ∀ x y : ℝ, |x| < 1 / 2 → |y| < 1 / 2 → ∑ i, v (.inl i) * (x ^ i.1.2.1 * y ^ i.1.2.2) = 0 ∧
      ∑ i, v (.inr i) * (x ^ i.1.2.1 * y ^ i.1.2.2) = 0 := by
    intro x y hx hy
    have hr : 0 < 1 - x ^ 2 - y ^ 2 := by
      have h1 : x ^ 2 < (1 / 2) ^ 2 := sq_lt_sq' (abs_lt.1 hx).1 (abs_lt.1 hx).2
      have h2 : y ^ 2 < (1 / 2) ^ 2 := sq_lt_sq' (abs_lt.1 hy).1 (abs_lt.1 hy).2
      linarith
    have hs := Real.sq_sqrt hr.le
    have h1 := hsph x y √(1 - x ^ 2 - y ^ 2) (by rw [hs]; ring)
    have h2 := hsph x y (-√(1 - x ^ 2 - y ^ 2)) (by rw [neg_sq, hs]; ring)
    rw [hval] at h1 h2
    simp only at h1 h2
    have h3 : √(1 - x ^ 2 - y ^ 2) ≠ 0 := (Real.sqrt_pos.2 hr).ne'
    constructor
    · linarith
    · have : √(1 - x ^ 2 - y ^ 2) * ∑ i, v (.inr i) * (x ^ i.1.2.1 * y ^ i.1.2.2) = 0 := by linarith
      exact (mul_eq_zero.1 this).resolve_left h3
  have e1 := plane_zero (m + 1) (fun i => v (.inl i)) fun x y hx hy => (hz x y hx hy).1
  have e2 := plane_zero m (fun i => v (.inr i)) fun x y hx hy => (hz x y hx hy).2
  apply hv0
  funext i
  rcases i with i | i
  · exact congrFun e1 i
  · exact congrFun e2 i

/-- **C117.**  The numbers of points of the grids: about a third of `(L + 1)²`, for Womersley a half. -/
theorem C117_sizes (fam : AngFam) (n : Nat) (h : fam.orderByNpts n ≠ -1) :
    (fam = .lebedevLaikov → (fam.orderByNpts n + 1) ^ 2 + 2 ≤ 3 * n ∧ 3 * (n : Int) ≤ (fam.orderByNpts n + 1) ^ 2 + 38) ∧
    (fam = .delley → (fam.orderByNpts n + 1) ^ 2 + 6 ≤ 3 * n ∧ 3 * (n : Int) ≤ (fam.orderByNpts n + 1) ^ 2 + 14) ∧
    (fam = .ahrensBeylkin → (fam.orderByNpts n + 1) ^ 2 ≤ 3 * n + 9 ∧
      3 * (n : Int) ≤ (fam.orderByNpts n + 1) ^ 2 + 515) ∧
    (fam = .womersley → (fam.orderByNpts n + 1) ^ 2 ≤ 2 * n ∧ 2 * (n : Int) ≤ (fam.orderByNpts n + 1) ^ 2 + 3) := by
  have hm := (fam.orderByNpts_iff _ _).1 ⟨rfl, h⟩
  generalize fam.orderByNpts n = o at hm
  refine ⟨?_, ?_, ?_, ?_⟩
  · rintro rfl
    have : ∀ e ∈ AngFam.lebedevLaikov.entries, (e.1 + 1) ^ 2 + 2 ≤ 3 * e.2 ∧ 3 * e.2 ≤ (e.1 + 1) ^ 2 + 38 := by
      decide +kernel
    exact this _ hm
  · rintro rfl
    have : ∀ e ∈ AngFam.delley.entries, (e.1 + 1) ^ 2 + 6 ≤ 3 * e.2 ∧ 3 * e.2 ≤ (e.1 + 1) ^ 2 + 14 := by
      decide +kernel
    exact this _ hm
  · rintro rfl
    have : ∀ e ∈ AngFam.ahrensBeylkin.entries, (e.1 + 1) ^ 2 ≤ 3 * e.2 + 9 ∧ 3 * e.2 ≤ (e.1 + 1) ^ 2 + 515 := by
      decide +kernel
    exact this _ hm
  · rintro rfl
    have : ∀ e ∈ AngFam.womersley.entries, (e.1 + 1) ^ 2 ≤ 2 * e.2 ∧ 2 * e.2 ≤ (e.1 + 1) ^ 2 + 3 := by
      decide +kernel
    exact this _ hm

/-- **C117.**  Compared with any rule that is exact to the tabulated order of a grid, the grid has at most `13/8` times
(Lebedev-Laikov, Delley), `68/49` times (Ahrens-Beylkin) or three times (Womersley) as many points. -/
theorem C117_near_minimal (fam : AngFam) (n : Nat) (h : fam.orderByNpts n ≠ -1) (x : List (Pt ℝ)) (w : List ℝ)
    (hx : ExactOnSphere x w (fam.orderByNpts n).toNat) :
    (fam = .lebedevLaikov ∨ fam = .delley → 8 * n ≤ 13 * (x.zip w).length) ∧
    (fam = .ahrensBeylkin → 49 * n ≤ 68 * (x.zip w).length) ∧
    (fam = .womersley → n ≤ 3 * (x.zip w).length) := by
  have hb := C117_lower_bound x w _ hx
  have hm := (fam.orderByNpts_iff _ _).1 ⟨rfl, h⟩
  generalize fam.orderByNpts n = o at hm hb
  refine ⟨?_, ?_, ?_⟩
  · rintro (rfl | rfl)
    · have : ∀ e ∈ AngFam.lebedevLaikov.entries, 8 * e.2 ≤ ((13 * (e.1.toNat / 2 + 1) ^ 2 : ℕ) : Int) := by decide +kernel
      have := this _ hm
      simp only at this
      omega
    · have : ∀ e ∈ AngFam.delley.entries, 8 * e.2 ≤ ((13 * (e.1.toNat / 2 + 1) ^ 2 : ℕ) : Int) := by decide +kernel
      have := this _ hm
      simp only at this
      omega
  · rintro rfl
    have : ∀ e ∈ AngFam.ahrensBeylkin.entries, 49 * e.2 ≤ ((68 * (e.1.toNat / 2 + 1) ^ 2 : ℕ) : Int) := by decide +kernel
    have := this _ hm
    simp only at this
    omega
  · rintro rfl
    have : ∀ e ∈ AngFam.womersley.entries, e.2 ≤ ((3 * (e.1.toNat / 2 + 1) ^ 2 : ℕ) : Int) := by decide +kernel
    have := this _ hm
    simp only at this
    omega

/-- The six vertices of the octahedron with equal weights are exact to degree 3, the order of the smallest
Lebedev-Laikov grid. -/
example : ExactOnSphere [⟨1, 0, 0⟩, ⟨-1, 0, 0⟩, ⟨0, 1, 0⟩, ⟨0, -1, 0⟩, ⟨0, 0, 1⟩, ⟨0, 0, -1⟩]
    (List.replicate 6 (2 * π / 3)) (AngFam.lebedevLaikov.orderByNpts (6 : ℕ)).toNat := by
  have e : (AngFam.lebedevLaikov.orderByNpts (6 : ℕ)).toNat = 3 := by decide +kernel
  rw [e]
  intro p hp
  rw [ruleSum_poly, sphereInt_poly]
  refine Finset.sum_congr rfl fun m hm => ?_
  congr 1
  have hd := (MvPolynomial.le_totalDegree hm).trans hp
  rw [Finsupp.sum_fintype _ _ (fun _ => rfl), Fin.sum_univ_three] at hd
  generalize m 0 = a at hd ⊢
  generalize m 1 = b at hd ⊢
  generalize m 2 = c at hd ⊢
  clear hm hp e
  by_cases ho : a % 2 = 1 ∨ b % 2 = 1 ∨ c % 2 = 1
  · rw [sphereInt_mono_odd a b c ho]
    have ha : a ≤ 3 := by omega
    have hb : b ≤ 3 := by omega
    have hc : c ≤ 3 := by omega
    interval_cases a <;> interval_cases b <;> interval_cases c <;> simp_all [ruleSum] <;> ring
  · obtain ⟨i, rfl⟩ : ∃ i, a = 2 * i := ⟨a / 2, by omega⟩
    obtain ⟨j, rfl⟩ : ∃ j, b = 2 * j := ⟨b / 2, by omega⟩
    obtain ⟨k, rfl⟩ : ∃ k, c = 2 * k := ⟨c / 2, by omega⟩
    rw [sphereInt_mono_even]
    have hi : i ≤ 1 := by omega
    have hj : j ≤ 1 := by omega
    have hk : k ≤ 1 := by omega
    interval_cases i <;> interval_cases j <;> interval_cases k <;> simp_all [ruleSum, meanEven, odf] <;> ring

end IntegratorXX
