import Verif.Lemmas.ChebReal
import Verif.Lemmas.RadialReal
import Verif.Prop.Radial
import Verif.Prop.Uniform
import Verif.Spec.Nested

/-!
# Nested rules (C94) and the inversion symmetry of radial rules (C95)

Exact arithmetic.
-/

namespace IntegratorXX

open Spec RadialTraits Real

private theorem refines_map {n n' k off : ℕ} {X W X' W' : ℕ → ℝ}
    (h : ∀ i < n, k * i + off < n' ∧ X' (k * i + off) = X i ∧ W' (k * i + off) = W i / k) :
    Refines k off ⟨(List.range n).map X, (List.range n).map W⟩ ⟨(List.range n').map X', (List.range n').map W'⟩ := by
  intro i hi
  simp only [List.length_map, List.length_range] at hi ⊢
  obtain ⟨h1, h2, h3⟩ := h i hi
  refine ⟨hi, h1, ?_, ?_⟩
  · simp only [getElem?_map_range, if_pos hi, if_pos h1, h2]
  · simp only [getElem?_map_range, if_pos hi, if_pos h1, h3, Option.map_some]

/-! ## C94 -/

private theorem gc1A_refine {n m j : ℕ} (hj : j < n) : gc1A ((2 * m + 1) * n) ((2 * m + 1) * j + m) = gc1A n j := by
  have hn : (n : ℝ) ≠ 0 := by exact_mod_cast (by omega : n ≠ 0)
  have hk : (2 * (m : ℝ) + 1) ≠ 0 := by positivity
  have e : (2 * m + 1) * n - 1 - ((2 * m + 1) * j + m) = (2 * m + 1) * (n - 1 - j) + m := by
    obtain ⟨c, rfl⟩ : ∃ c, n = j + c + 1 := ⟨n - j - 1, by omega⟩
    have h1 : j + c + 1 - 1 - j = c := by omega
    have h2 : (2 * m + 1) * (j + c + 1) = (2 * m + 1) * j + (2 * m + 1) * c + (2 * m + 1) := by ring
    rw [h1, h2]
    omega
  unfold gc1A
  rw [e]
  push_cast
  field_simp
  ring

private theorem gc3A_refine {n m j : ℕ} (hj : j < n) :
    gc3A ((2 * m + 1) * n + m) ((2 * m + 1) * j + 2 * m) = gc3A n j := by
  have hk : (2 * (m : ℝ) + 1) ≠ 0 := by positivity
  have hn : (2 * (n : ℝ) + 1) ≠ 0 := by positivity
  have e : (2 * m + 1) * n + m - 1 - ((2 * m + 1) * j + 2 * m) = (2 * m + 1) * (n - 1 - j) + m := by
    obtain ⟨c, rfl⟩ : ∃ c, n = j + c + 1 := ⟨n - j - 1, by omega⟩
    have h1 : j + c + 1 - 1 - j = c := by omega
    have h2 : (2 * m + 1) * (j + c + 1) = (2 * m + 1) * j + (2 * m + 1) * c + (2 * m + 1) := by ring
    rw [h1, h2]
    omega
  have e2 : (2 * ((2 * m + 1) * n + m) + 1 : ℕ) = (2 * m + 1) * (2 * n + 1) := by ring
  unfold gc3A
  rw [e, e2]
  push_cast
  field_simp
  ring

private theorem fine_lt {n k j : ℕ} (hj : j < n) : k * j + (k - 1) < k * (n + 1) - 1 ∨ k = 0 := by
  rcases Nat.eq_zero_or_pos k with h | h
  · exact .inr h
  · left
    have : k * (j + 2) ≤ k * (n + 1) := Nat.mul_le_mul_left _ (by omega)
    have h2 : k * (j + 2) = k * j + 2 * k := by ring
    omega

private theorem fine_cast {n k : ℕ} (hk : 1 ≤ k) : ((k * (n + 1) - 1 : ℕ) : ℝ) + 1 = k * ((n : ℝ) + 1) := by
  have h : 1 ≤ k * (n + 1) := Nat.mul_pos hk (by omega)
  rw [Nat.cast_sub h]
  push_cast
  ring

private theorem gc2A_refine {n k j : ℕ} (hk : 1 ≤ k) (hj : j < n) :
    gc2A (k * (n + 1) - 1) (k * j + (k - 1)) = gc2A n j := by
  have hk0 : (k : ℝ) ≠ 0 := by exact_mod_cast (by omega : k ≠ 0)
  have hn : (n : ℝ) + 1 ≠ 0 := by positivity
  have e : k * (n + 1) - 1 - (k * j + (k - 1)) = k * (n - j) := by
    obtain ⟨c, rfl⟩ : ∃ c, n = j + c := ⟨n - j, by omega⟩
    have h1 : j + c - j = c := by omega
    have h2 : k * (j + c + 1) = k * j + k * c + k := by ring
    rw [h1, h2]
    omega
  unfold gc2A
  rw [e, fine_cast hk]
  push_cast
  field_simp

/-- **C94.**  GaussChebyshev1 with `n` points is contained in the rule with an odd multiple of `n` points. -/
theorem C94_gc1 (b : Build) (n m : ℕ) :
    Returns (construct b (gaussChebyshev1 n)) (fun q => Returns (construct b (gaussChebyshev1 ((2 * m + 1) * n)))
      (fun q' => Refines (2 * m + 1) m q q')) := by
  refine ⟨_, gc1_real n b, _, gc1_real _ b, refines_map (fun i hi => ?_)⟩
  rw [gc1A_refine hi]
  refine ⟨?_, rfl, ?_⟩
  · have : (2 * m + 1) * (i + 1) ≤ (2 * m + 1) * n := Nat.mul_le_mul_left _ (by omega)
    have h2 : (2 * m + 1) * (i + 1) = (2 * m + 1) * i + (2 * m + 1) := by ring
    omega
  · have hn : (n : ℝ) ≠ 0 := by exact_mod_cast (by omega : n ≠ 0)
    have hk : (2 * (m : ℝ) + 1) ≠ 0 := by positivity
    push_cast
    field_simp

/-- **C94.**  GaussChebyshev2 and GaussChebyshev2Modified with `n` points are contained in the rules with
`k (n + 1) - 1` points. -/
theorem C94_gc2 (b : Build) (n k : ℕ) (hk : 1 ≤ k) :
    (Returns (construct b (gaussChebyshev2 n)) fun q => Returns (construct b (gaussChebyshev2 (k * (n + 1) - 1)))
      fun q' => Refines k (k - 1) q q') ∧
    Returns (construct b (gaussChebyshev2Modified n)) fun q =>
      Returns (construct b (gaussChebyshev2Modified (k * (n + 1) - 1))) fun q' => Refines k (k - 1) q q' := by
  have hn : (n : ℝ) + 1 ≠ 0 := by positivity
  have hk0 : (k : ℝ) ≠ 0 := by exact_mod_cast (by omega : k ≠ 0)
  constructor
  · refine ⟨_, gc2_real n b, _, gc2_real _ b, refines_map (fun i hi => ?_)⟩
    rw [gc2A_refine hk hi, fine_cast hk]
    refine ⟨(fine_lt hi).resolve_right (by omega), rfl, ?_⟩
    field_simp
  · refine ⟨_, gc2m_real n b, _, gc2m_real _ b, refines_map (fun i hi => ?_)⟩
    rw [gc2A_refine hk hi, fine_cast hk]
    refine ⟨(fine_lt hi).resolve_right (by omega), rfl, ?_⟩
    field_simp

/-- **C94.**  GaussChebyshev3 with `n` points is contained in the rule with `n'` points if `2n' + 1` is an odd multiple
of `2n + 1`. -/
theorem C94_gc3 (b : Build) (n m : ℕ) :
    Returns (construct b (gaussChebyshev3 n)) (fun q => Returns (construct b (gaussChebyshev3 ((2 * m + 1) * n + m)))
      (fun q' => Refines (2 * m + 1) (2 * m) q q')) := by
  refine ⟨_, gc3_real n b, _, gc3_real _ b, refines_map (fun i hi => ?_)⟩
  rw [gc3A_refine hi]
  refine ⟨?_, rfl, ?_⟩
  · have : (2 * m + 1) * (i + 1) ≤ (2 * m + 1) * n := Nat.mul_le_mul_left _ (by omega)
    have h2 : (2 * m + 1) * (i + 1) = (2 * m + 1) * i + (2 * m + 1) := by ring
    rcases Nat.eq_zero_or_pos m with rfl | hm
    · omega
    · omega
  · have hn : (2 * (n : ℝ) + 1) ≠ 0 := by positivity
    have hk : (2 * (m : ℝ) + 1) ≠ 0 := by positivity
    have e : 2 * ((((2 * m + 1) * n + m : ℕ) : ℝ)) + 1 = (2 * m + 1) * (2 * n + 1) := by push_cast; ring
    rw [e]
    push_cast
    field_simp

/-- **C94.**  UniformTrapezoid with `n` points is contained in the rule with `k (n - 1) + 1` points. -/
theorem C94_trapezoid (b : Build) (n k : ℕ) (hn : 2 ≤ n) (hk : 1 ≤ k) (hs : k * (n - 1) + 1 < sizeMod) (lo up : ℝ) :
    Returns (construct b (uniformTrapezoid n lo up)) (fun q =>
      Returns (construct b (uniformTrapezoid (k * (n - 1) + 1) lo up)) (fun q' => Refines k 0 q q')) := by
  have h1 : n - 1 ≤ k * (n - 1) := Nat.le_mul_of_pos_left _ hk
  refine ⟨_, by rw [uniformTrapezoid_eq n hn (by omega)]; exact construct_ok b (by simp), _, by
    rw [uniformTrapezoid_eq _ (by omega) hs]; exact construct_ok b (by simp), refines_map (fun i hi => ?_)⟩
  have hk0 : (k : ℝ) ≠ 0 := by exact_mod_cast (by omega : k ≠ 0)
  have hn0 : ((n - 1 : ℕ) : ℝ) ≠ 0 := by exact_mod_cast (by omega : n - 1 ≠ 0)
  have h2 : k * i ≤ k * (n - 1) := Nat.mul_le_mul_left _ (by omega)
  refine ⟨by omega, ?_, ?_⟩
  · simp only [Arith.real_ofNat, Nat.add_sub_cancel, add_zero]
    push_cast
    field_simp
  · unfold utW
    have hiff : (k * i + 0 = 0 ∨ k * i + 0 = k * (n - 1) + 1 - 1) ↔ (i = 0 ∨ i = n - 1) := by
      rw [Nat.add_zero, Nat.add_sub_cancel, Nat.mul_eq_zero, Nat.mul_right_inj (by omega)]
      constructor
      · rintro ((h | h) | h)
        · omega
        · exact .inl h
        · exact .inr h
      · rintro (h | h)
        · exact .inl (.inr h)
        · exact .inr h
    have hc : ((k * (n - 1) + 1 - 1 : ℕ) : ℝ) = k * ((n - 1 : ℕ) : ℝ) := by rw [Nat.add_sub_cancel]; push_cast; ring
    by_cases h : i = 0 ∨ i = n - 1
    · rw [if_pos (hiff.2 h), if_pos h]
      simp only [Arith.real_ofNat, hc]
      field_simp
    · rw [if_neg (fun h' => h (hiff.1 h')), if_neg h]
      simp only [Arith.real_ofNat, hc]
      field_simp

/-- Eleven points in forty-one. -/
example : Returns (construct ⟨true⟩ (uniformTrapezoid 11 (-1) (2 : ℝ))) fun q =>
    Returns (construct ⟨true⟩ (uniformTrapezoid 41 (-1) 2)) fun q' => Refines 4 0 q q' :=
  C94_trapezoid ⟨true⟩ 11 4 (by norm_num) (by norm_num) (by unfold sizeMod; norm_num) (-1) 2

private theorem radial_refines (b : Build) (t t' : RadialTraits ℝ) (k : ℕ) (hk : 1 ≤ k)
    (hs : k * (t.npts + 1) + 1 < sizeMod) (hn' : t'.npts = k * (t.npts + 1) - 1) (hi' : t'.inclusive = t.inclusive)
    (ht : t'.transform = t.transform ∧ t'.jacobian = t.jacobian) :
    Returns (construct b t.generate) (fun q =>
      Returns (construct b t'.generate) (fun q' => Refines k (k - 1) q q')) := by
  have h1 : t.npts + 1 ≤ k * (t.npts + 1) := Nat.le_mul_of_pos_left _ hk
  have hn : (t.npts : ℝ) + 1 ≠ 0 := by positivity
  have hk0 : (k : ℝ) ≠ 0 := by exact_mod_cast (by omega : k ≠ 0)
  refine ⟨_, by rw [generate_real t (by omega)]; exact construct_ok b (by simp), _, by
    rw [generate_real t' (by omega)]; exact construct_ok b (by simp), ?_⟩
  rw [hn']
  refine refines_map (fun i hi => ?_)
  have hx : t'.nodeXR (k * i + (k - 1)) = t.nodeXR i := by
    unfold nodeXR
    rw [hi', hn', gc2A_refine hk hi, fine_cast hk]
    split_ifs
    · rw [Nat.cast_add, Nat.cast_sub hk]
      push_cast
      field_simp
      ring
    · rfl
  have hw : t'.nodeWR (k * i + (k - 1)) = t.nodeWR i / k := by
    unfold nodeWR
    rw [hi', hn', gc2A_refine hk hi, fine_cast hk]
    split_ifs
    · field_simp
    · field_simp
  refine ⟨(fine_lt hi).resolve_right (by omega), ?_, ?_⟩
  · rw [ht.1, hx]
  · rw [ht.2, hx, hw]
    ring

/-- **C94.**  Each radial rule with `n` points is contained in the rule of the same scheme and parameters with
`k (n + 1) - 1` points. -/
theorem C94_radial (b : Build) (n k : ℕ) (hk : 1 ≤ k) (hs : k * (n + 1) + 1 < sizeMod) (R alpha : ℝ) (M : ℕ) :
    (Returns (construct b (RadialTraits.becke n R).generate) fun q =>
      Returns (construct b (RadialTraits.becke (k * (n + 1) - 1) R).generate) fun q' => Refines k (k - 1) q q') ∧
    (Returns (construct b (RadialTraits.mhl M n R).generate) fun q =>
      Returns (construct b (RadialTraits.mhl M (k * (n + 1) - 1) R).generate) fun q' => Refines k (k - 1) q q') ∧
    (Returns (construct b (RadialTraits.mk n R).generate) fun q =>
      Returns (construct b (RadialTraits.mk (k * (n + 1) - 1) R).generate) fun q' => Refines k (k - 1) q q') ∧
    Returns (construct b (RadialTraits.ta n R alpha).generate) fun q =>
      Returns (construct b (RadialTraits.ta (k * (n + 1) - 1) R alpha).generate) fun q' => Refines k (k - 1) q q' :=
  ⟨radial_refines b (.becke n R) (.becke _ R) k hk hs rfl rfl ⟨rfl, rfl⟩,
    radial_refines b (.mhl M n R) (.mhl M _ R) k hk hs rfl rfl ⟨rfl, rfl⟩,
    radial_refines b (RadialTraits.mk n R) (RadialTraits.mk _ R) k hk hs rfl rfl ⟨rfl, rfl⟩,
    radial_refines b (.ta n R alpha) (.ta _ R alpha) k hk hs rfl rfl ⟨rfl, rfl⟩⟩

/-- A rule with 24 points in one with 49. -/
example : Returns (construct ⟨false⟩ (RadialTraits.becke 24 (1 : ℝ)).generate) fun q =>
    Returns (construct ⟨false⟩ (RadialTraits.becke 49 1).generate) fun q' => Refines 2 1 q q' :=
  (C94_radial ⟨false⟩ 24 2 (by norm_num) (by unfold sizeMod; norm_num) 1 0 0).1

/-! ## C95 -/

private theorem inversion_map {n : ℕ} {X W : ℕ → ℝ} {R : ℝ}
    (h : ∀ i < n, X i * X (n - 1 - i) = R ^ 2 ∧ W (n - 1 - i) * X i ^ 2 = W i * R ^ 2) :
    InversionSymmetric R ⟨(List.range n).map X, (List.range n).map W⟩ := by
  intro i hi
  simp only [List.length_map, List.length_range] at hi ⊢
  have hi' : n - 1 - i < n := by omega
  refine ⟨X i, W i, X (n - 1 - i), W (n - 1 - i), ?_, ?_, ?_, ?_, h i hi⟩ <;>
    simp only [getElem?_map_range, if_pos hi, if_pos hi']

/-- **C95.**  Becke. -/
theorem C95_becke (b : Build) (n : ℕ) (hn : n + 2 < sizeMod) (R : ℝ) :
    Returns (construct b (RadialTraits.becke n R).generate) (fun q => InversionSymmetric R q ∧
      ∀ i < n, q.points[i]? = some (R * tan ((i + 1) * π / (2 * (n + 1))) ^ 2)) := by
  refine ⟨_, by rw [generate_real (.becke n R) hn]; exact construct_ok b (by simp), ?_, ?_⟩
  · refine inversion_map (fun i hi => ?_)
    have hi : i < n := hi
    obtain ⟨h0, h1⟩ := nodeXR_mem (.becke n R) (i := i) hi
    have hr : (RadialTraits.becke n R).nodeXR (n - 1 - i) = -(RadialTraits.becke n R).nodeXR i := by
      show cos (gc2A n (n - 1 - i)) = -cos (gc2A n i)
      rw [gc2A_reflect hi, cos_pi_sub]
    have hw : (RadialTraits.becke n R).nodeWR (n - 1 - i) = (RadialTraits.becke n R).nodeWR i := by
      show π / (n + 1) * sin (gc2A n (n - 1 - i)) = π / (n + 1) * sin (gc2A n i)
      rw [gc2A_reflect hi, sin_pi_sub]
    have e : (RadialTraits.becke n R).npts = n := rfl
    rw [e, hr, hw]
    generalize (RadialTraits.becke n R).nodeXR i = x at *
    have a1 : 1 - x ≠ 0 := by linarith
    have a2 : 1 + x ≠ 0 := by linarith
    simp only [RadialTraits.transform, RadialTraits.jacobian, Arith.real_lit, Arith.real_pow, Arith.real_ofNat,
      rpow_natCast, Rat.cast_one, sub_neg_eq_add, Rat.cast_ofNat]
    constructor
    · field_simp
      ring
    · field_simp
  · intro i hi
    have e : (RadialTraits.becke n R).npts = n := rfl
    simp only [getElem?_map_range, e, if_pos hi]
    congr 1
    have hn0 : (n : ℝ) + 1 ≠ 0 := by positivity
    have hθ : gc2A n i = π - 2 * ((i + 1) * π / (2 * (n + 1))) := by
      unfold gc2A
      rw [Nat.cast_sub hi.le]
      field_simp
      ring
    obtain ⟨φ, hφ⟩ : ∃ φ : ℝ, φ = (i + 1) * π / (2 * (n + 1)) := ⟨_, rfl⟩
    have hx : (RadialTraits.becke n R).nodeXR i = -cos (2 * φ) := by
      show cos (gc2A n i) = _
      rw [hθ, cos_pi_sub, hφ]
    obtain ⟨h0, h1⟩ := nodeXR_mem (.becke n R) (i := i) hi
    rw [hx] at h0 h1
    rw [hx, ← hφ, tan_eq_sin_div_cos]
    have hs := sin_sq_add_cos_sq φ
    rw [cos_two_mul] at *
    have hc : cos φ ≠ 0 := by
      intro hc
      rw [hc] at h1
      norm_num at h1
    simp only [RadialTraits.transform, Arith.real_lit, Rat.cast_one]
    have e1 : 1 + -(2 * cos φ ^ 2 - 1) = 2 * sin φ ^ 2 := by linear_combination -2 * hs
    have e2 : 1 - -(2 * cos φ ^ 2 - 1) = 2 * cos φ ^ 2 := by ring
    rw [e1, e2]
    field_simp

/-- **C95.**  Murray-Handy-Laming. -/
theorem C95_mhl (b : Build) (M : ℕ) (hM : 1 ≤ M) (n : ℕ) (hn : n + 2 < sizeMod) (R : ℝ) :
    Returns (construct b (RadialTraits.mhl M n R).generate) (fun q => InversionSymmetric R q ∧
      ∀ i < n, q.points[i]? = some (R * ((i + 1) / (n - i)) ^ M)) := by
  refine ⟨_, by rw [generate_real (.mhl M n R) hn]; exact construct_ok b (by simp), ?_, ?_⟩
  · refine inversion_map (fun i hi => ?_)
    have hi : i < n := hi
    obtain ⟨h0, h1⟩ := nodeXR_mem (.mhl M n R) (i := i) hi
    have hr : (RadialTraits.mhl M n R).nodeXR (n - 1 - i) = 1 - (RadialTraits.mhl M n R).nodeXR i := by
      show (((n - 1 - i : ℕ) : ℝ) + 1) / (n + 1) = 1 - ((i : ℝ) + 1) / (n + 1)
      have : (n : ℝ) + 1 ≠ 0 := by positivity
      rw [show n - 1 - i = n - (i + 1) by omega, Nat.cast_sub (by omega : i + 1 ≤ n)]
      push_cast
      field_simp
      ring
    have hw : (RadialTraits.mhl M n R).nodeWR (n - 1 - i) = (RadialTraits.mhl M n R).nodeWR i := rfl
    have e : (RadialTraits.mhl M n R).npts = n := rfl
    rw [e, hr, hw]
    generalize (RadialTraits.mhl M n R).nodeXR i = x at *
    generalize (RadialTraits.mhl M n R).nodeWR i = v at *
    have a1 : 1 - x ≠ 0 := by linarith
    have a2 : x ≠ 0 := h0.ne'
    obtain ⟨m, rfl⟩ : ∃ m, M = m + 1 := ⟨M - 1, by omega⟩
    simp only [RadialTraits.transform, RadialTraits.jacobian, Arith.real_lit, Arith.real_pow, Arith.real_ofNat,
      rpow_natCast, Rat.cast_one, sub_sub_cancel, Nat.add_sub_cancel]
    constructor
    · rw [div_pow, div_pow]
      field_simp
    · rw [div_pow]
      field_simp
      ring
  · intro i hi
    have e : (RadialTraits.mhl M n R).npts = n := rfl
    simp only [getElem?_map_range, e, if_pos hi]
    congr 1
    have hn0 : (n : ℝ) + 1 ≠ 0 := by positivity
    have hi' : (i : ℝ) < n := by exact_mod_cast hi
    have hx : (RadialTraits.mhl M n R).nodeXR i = ((i : ℝ) + 1) / (n + 1) := rfl
    have hx' : 1 - ((i : ℝ) + 1) / (n + 1) = (n - i) / (n + 1) := by field_simp; ring
    simp only [RadialTraits.transform, Arith.real_lit, Arith.real_pow, Arith.real_ofNat, rpow_natCast, Rat.cast_one, hx, hx']
    congr 2
    have : (n : ℝ) - i ≠ 0 := by linarith
    field_simp

/-- For an odd number of points the middle one is the scale. -/
theorem C95_middle {R : ℝ} (hR : 0 < R) {q : Quad ℝ ℝ} (h : InversionSymmetric R q) (hp : ∀ r ∈ q.points, 0 < r)
    (ho : q.points.length % 2 = 1) : q.points[q.points.length / 2]? = some R := by
  obtain ⟨r, w, r', w', h1, -, h3, -, h5, -⟩ := h (q.points.length / 2) (by omega)
  have e : q.points.length - 1 - q.points.length / 2 = q.points.length / 2 := by omega
  rw [e, h1] at h3
  injection h3 with h3
  have hr := hp r (List.mem_of_getElem? h1)
  rw [h1]
  congr 1
  rw [← h3] at h5
  nlinarith

/-- Rules with 99 points. -/
example : ∃ n M : ℕ, n = 99 ∧ n % 2 = 1 ∧ n + 2 < sizeMod ∧ M = 2 ∧ 1 ≤ M :=
  ⟨99, 2, rfl, rfl, by unfold sizeMod; norm_num, rfl, by norm_num⟩

end IntegratorXX
