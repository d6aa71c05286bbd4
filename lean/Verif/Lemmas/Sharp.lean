import Verif.Lemmas.IcosaCheck
import Mathlib.Analysis.Complex.Norm
import Mathlib.Analysis.SpecialFunctions.Integrals.Basic
import Mathlib.RingTheory.MvPolynomial.Homogeneous

/-!
# Errors of angular grids one degree above their order

The polynomials `z^j Re (x+iy)^k` and `z^j Im (x+iy)^k` have integral zero over the sphere for `k ≥ 1`.  Their sums over
octahedral and icosahedral grids reduce to integers which the kernel can evaluate.
-/

namespace IntegratorXX

open Spec Arith

/-! ## The polynomials -/

/-- Real and imaginary part of `(x+iy)^k` as polynomials. -/
noncomputable def planePoly : Nat → MvPolynomial (Fin 3) ℝ × MvPolynomial (Fin 3) ℝ
  | 0 => (1, 0)
  | k + 1 => (MvPolynomial.X 0 * (planePoly k).1 - MvPolynomial.X 1 * (planePoly k).2,
      MvPolynomial.X 0 * (planePoly k).2 + MvPolynomial.X 1 * (planePoly k).1)

/-- The value of `z^j Re (x+iy)^k` or `z^j Im (x+iy)^k`. -/
noncomputable def planeVal (im : Bool) (j k : Nat) (x y z : ℝ) : ℝ :=
  z ^ j * bif im then ((⟨x, y⟩ : ℂ) ^ k).im else ((⟨x, y⟩ : ℂ) ^ k).re

/-- The polynomial with these values. -/
noncomputable def sharpPoly (im : Bool) (j k : Nat) : MvPolynomial (Fin 3) ℝ :=
  MvPolynomial.X 2 ^ j * bif im then (planePoly k).2 else (planePoly k).1

theorem planePoly_eval (k : Nat) (v : Fin 3 → ℝ) :
    MvPolynomial.eval v (planePoly k).1 = ((⟨v 0, v 1⟩ : ℂ) ^ k).re ∧
    MvPolynomial.eval v (planePoly k).2 = ((⟨v 0, v 1⟩ : ℂ) ^ k).im := by
  induction k with
  | zero => simp [planePoly]
  | succ k ih =>
    rw [pow_succ']
    simp only [planePoly, map_sub, map_add, map_mul, MvPolynomial.eval_X, ih.1, ih.2, Complex.mul_re,
      Complex.mul_im, and_self]

theorem sharpPoly_eval (im : Bool) (j k : Nat) (u : Pt ℝ) :
    polyAt (sharpPoly im j k) u = planeVal im j k u.x u.y u.z := by
  unfold polyAt sharpPoly planeVal
  obtain ⟨h1, h2⟩ := planePoly_eval k ![u.x, u.y, u.z]
  rw [map_mul, map_pow, MvPolynomial.eval_X]
  cases im
  · rw [cond_false, cond_false, h1]; rfl
  · rw [cond_true, cond_true, h2]; rfl

theorem planePoly_homogeneous (k : Nat) :
    (planePoly k).1.IsHomogeneous k ∧ (planePoly k).2.IsHomogeneous k := by
  induction k with
  | zero => exact ⟨MvPolynomial.isHomogeneous_one _ _, MvPolynomial.isHomogeneous_zero _ _ _⟩
  | succ k ih =>
    have hX : ∀ (i : Fin 3) (q : MvPolynomial (Fin 3) ℝ), q.IsHomogeneous k →
        (MvPolynomial.X i * q).IsHomogeneous (k + 1) := by
      intro i q hq
      rw [add_comm]
      exact (MvPolynomial.isHomogeneous_X ℝ i).mul hq
    exact ⟨(hX 0 _ ih.1).sub (hX 1 _ ih.2), (hX 0 _ ih.2).add (hX 1 _ ih.1)⟩

theorem sharpPoly_homogeneous (im : Bool) (j k : Nat) : (sharpPoly im j k).IsHomogeneous (j + k) := by
  unfold sharpPoly
  refine MvPolynomial.IsHomogeneous.mul ?_ ?_
  · simpa using (MvPolynomial.isHomogeneous_X ℝ (2 : Fin 3)).pow j
  · cases im
    · exact (planePoly_homogeneous k).1
    · exact (planePoly_homogeneous k).2

theorem planeVal_le (im : Bool) (j k : Nat) (x y z : ℝ) (h : x ^ 2 + y ^ 2 + z ^ 2 = 1) :
    |planeVal im j k x y z| ≤ 1 := by
  have hz : |z| ≤ 1 := by
    rw [abs_le]; constructor <;> nlinarith [sq_nonneg x, sq_nonneg y]
  have hn : ‖(⟨x, y⟩ : ℂ)‖ ≤ 1 := by
    have h1 : ‖(⟨x, y⟩ : ℂ)‖ ^ 2 = x ^ 2 + y ^ 2 := by
      rw [Complex.sq_norm, Complex.normSq_mk]; ring
    nlinarith [norm_nonneg (⟨x, y⟩ : ℂ), sq_nonneg z]
  have hk : ‖(⟨x, y⟩ : ℂ) ^ k‖ ≤ 1 := by
    rw [norm_pow]; exact pow_le_one₀ (norm_nonneg _) hn
  unfold planeVal
  rw [abs_mul, abs_pow]
  have h1 : |z| ^ j ≤ 1 := pow_le_one₀ (abs_nonneg _) hz
  have h2 : |bif im then ((⟨x, y⟩ : ℂ) ^ k).im else ((⟨x, y⟩ : ℂ) ^ k).re| ≤ 1 := by
    cases im
    · exact (Complex.abs_re_le_norm _).trans hk
    · exact (Complex.abs_im_le_norm _).trans hk
  calc _ ≤ 1 * 1 := mul_le_mul h1 h2 (abs_nonneg _) zero_le_one
    _ = 1 := one_mul 1

theorem planeVal_polar (im : Bool) (j k : Nat) (θ φ : ℝ) :
    planeVal im j k (Real.sin θ * Real.cos φ) (Real.sin θ * Real.sin φ) (Real.cos θ) =
      Real.cos θ ^ j * Real.sin θ ^ k * bif im then Real.sin (k * φ) else Real.cos (k * φ) := by
  have h : ∀ k : Nat, (⟨Real.sin θ * Real.cos φ, Real.sin θ * Real.sin φ⟩ : ℂ) ^ k =
      ⟨Real.sin θ ^ k * Real.cos (k * φ), Real.sin θ ^ k * Real.sin (k * φ)⟩ := by
    intro k
    induction k with
    | zero => apply Complex.ext <;> simp
    | succ k ih =>
      rw [pow_succ, ih]
      apply Complex.ext
      · rw [Complex.mul_re]; push_cast; rw [add_mul, one_mul, Real.cos_add]; ring
      · rw [Complex.mul_im]; push_cast; rw [add_mul, one_mul, Real.sin_add]; ring
  unfold planeVal
  rw [h k]
  cases im
  · simp only [cond_false]; ring
  · simp only [cond_true]; ring

theorem sharpPoly_int (im : Bool) (j k : Nat) (hk : 0 < k) :
    sphereInt (polyAt (sharpPoly im j k)) = 0 := by
  have hk' : (k : ℝ) ≠ 0 := by exact_mod_cast hk.ne'
  have hper : ∀ n : Nat, Real.cos (n * (2 * Real.pi)) = 1 := fun n => Real.cos_nat_mul_two_pi n
  have hsin : Real.sin (k * (2 * Real.pi)) = 0 := by
    have := Real.sin_nat_mul_pi (2 * k)
    push_cast at this
    rw [← this]; congr 1; ring
  unfold sphereInt
  have h0 : ∀ θ : ℝ, (∫ φ in (0 : ℝ)..(2 * Real.pi), polyAt (sharpPoly im j k)
      ⟨Real.sin θ * Real.cos φ, Real.sin θ * Real.sin φ, Real.cos θ⟩) = 0 := by
    intro θ
    simp only [sharpPoly_eval, planeVal_polar]
    rw [intervalIntegral.integral_const_mul]
    refine mul_eq_zero_of_right _ ?_
    cases im
    · simp only [cond_false]
      rw [intervalIntegral.integral_comp_mul_left (fun t => Real.cos t) hk', integral_cos, hsin]
      simp
    · simp only [cond_true]
      rw [intervalIntegral.integral_comp_mul_left (fun t => Real.sin t) hk', integral_sin, hper]
      simp
  simp only [h0, zero_mul, intervalIntegral.integral_zero]

/-! ## Symmetries -/

theorem planeVal_neg (im : Bool) (j k : Nat) (hk : Even k) (x y z : ℝ) :
    planeVal im j k (-x) (-y) z = planeVal im j k x y z := by
  unfold planeVal
  have : (⟨-x, -y⟩ : ℂ) = -⟨x, y⟩ := by apply Complex.ext <;> simp
  rw [this, hk.neg_pow]

theorem planeVal_conj (im : Bool) (j k : Nat) (x y z : ℝ) :
    planeVal im j k x (-y) z = (bif im then -1 else 1) * planeVal im j k x y z := by
  unfold planeVal
  have : (⟨x, -y⟩ : ℂ) = (starRingEnd ℂ) ⟨x, y⟩ := by apply Complex.ext <;> simp
  rw [this, ← map_pow]
  cases im
  · rw [cond_false, cond_false, cond_false, Complex.conj_re, one_mul]
  · rw [cond_true, cond_true, cond_true, Complex.conj_im]; ring

theorem planeVal_zneg (im : Bool) (j k : Nat) (x y z : ℝ) :
    planeVal im j k x y (-z) = (-1) ^ j * planeVal im j k x y z := by
  unfold planeVal
  rw [neg_pow]; ring

theorem planeVal_swap (j k : Nat) (hk : 4 ∣ k) (x y z : ℝ) :
    planeVal false j k y x z = planeVal false j k x y z := by
  unfold planeVal
  have : (⟨y, x⟩ : ℂ) = Complex.I * (starRingEnd ℂ) ⟨x, y⟩ := by apply Complex.ext <;> simp
  obtain ⟨m, rfl⟩ := hk
  rw [this, mul_pow, pow_mul Complex.I, Complex.I_pow_four, one_pow, one_mul, ← map_pow, cond_false,
    cond_false, Complex.conj_re]

/-- The three cyclic permutations. -/
noncomputable def cyc (g : ℝ → ℝ → ℝ → ℝ) (t : ℝ × ℝ × ℝ) : ℝ :=
  g t.1 t.2.1 t.2.2 + g t.2.1 t.2.2 t.1 + g t.2.2 t.1 t.2.1

/-- A pattern lists every signed permutation of the representative equally often. -/
theorem octa_orbit {fam : Bool} (g : ℝ → ℝ → ℝ → ℝ) (h1 : ∀ x y z, g (-x) y z = g x y z)
    (h2 : ∀ x y z, g x (-y) z = g x y z) (h3 : ∀ x y z, g x y (-z) = g x y z)
    (h4 : ∀ x y z, g y x z = g x y z) (r : OctaRow) :
    3 * (((octaPoints (bif fam then OctaKind.dePattern else OctaKind.llPattern) r : List (Pt ℝ))).map
      (fun u => g u.x u.y u.z)).sum =
    r.kind.size * cyc g (repR (bif fam then deRep r else llRep r)) := by
  obtain ⟨kind, a, b, c, w⟩ := r
  have hc : ((OctaRow.coord ⟨kind, a, b, c, w⟩ 1 : ℚ) : ℝ) = (a : ℝ) / 10 ^ 18 ∧
    ((OctaRow.coord ⟨kind, a, b, c, w⟩ (-1) : ℚ) : ℝ) = -((a : ℝ) / 10 ^ 18) ∧
    ((OctaRow.coord ⟨kind, a, b, c, w⟩ 2 : ℚ) : ℝ) = (b : ℝ) / 10 ^ 18 ∧
    ((OctaRow.coord ⟨kind, a, b, c, w⟩ (-2) : ℚ) : ℝ) = -((b : ℝ) / 10 ^ 18) ∧
    ((OctaRow.coord ⟨kind, a, b, c, w⟩ 3 : ℚ) : ℝ) = (c : ℝ) / 10 ^ 18 ∧
    ((OctaRow.coord ⟨kind, a, b, c, w⟩ (-3) : ℚ) : ℝ) = -((c : ℝ) / 10 ^ 18) ∧
    ((OctaRow.coord ⟨kind, a, b, c, w⟩ 0 : ℚ) : ℝ) = 0 := by
    refine ⟨?_, ?_, ?_, ?_, ?_, ?_, ?_⟩ <;> simp [OctaRow.coord]
  obtain ⟨c1, c2, c3, c4, c5, c6, c7⟩ := hc
  cases fam <;> cases kind <;>
  simp only [cond_false, cond_true, octaPoints, OctaKind.llPattern, OctaKind.dePattern, List.map_cons,
    List.map_nil, real_lit, c1, c2, c3, c4, c5, c6, c7, List.sum_cons, List.sum_nil, repR, llRep, deRep,
    OctaKind.size, Nat.cast_zero, zero_div, cyc, h1, h2, h3] <;>
  generalize (a : ℝ) / 10 ^ 18 = x <;> generalize (b : ℝ) / 10 ^ 18 = y <;>
  generalize (c : ℝ) / 10 ^ 18 = z <;>
  (try rw [h4 x y z]) <;> (try rw [h4 x z y]) <;> (try rw [h4 y z x]) <;>
  (try rw [h4 0 x y]) <;> (try rw [h4 0 y x]) <;> (try rw [h4 0 x x]) <;> (try rw [h4 0 x 0]) <;>
  (try rw [h4 x y 0]) <;> (try rw [h4 x y x]) <;> (try rw [h4 x y y]) <;> push_cast <;> ring

/-- The same for the blocks of the icosahedral grids. -/
theorem icosa_orbit (g : ℝ → ℝ → ℝ → ℝ) (h1 : ∀ x y z, g (-x) (-y) z = g x y z)
    (h2 : ∀ x y z, g x (-y) (-z) = g x y z) (h3 : ∀ x y z, g (-x) y (-z) = g x y z) (r : IcosaRow) :
    ((icosaPoints r : List (Pt ℝ)).map (fun u => g u.x u.y u.z)).sum =
      4 * (cyc g (tripleR r.p0) + cyc g (tripleR r.p1) + cyc g (tripleR r.p2) + cyc g (tripleR r.p3) +
        cyc g (tripleR r.p4)) := by
  obtain ⟨⟨a1, a2, a3⟩, ⟨b1, b2, b3⟩, ⟨c1, c2, c3⟩, ⟨d1, d2, d3⟩, ⟨e1, e2, e3⟩, w⟩ := r
  simp only [icosaPoints, icosaPattern, IcosaRow.triple, triplePoint, tripleAt_vals, List.map_cons,
    List.map_nil, List.sum_cons, List.sum_nil, decimal_real, Int.cast_neg, neg_div, cyc, tripleR, h1, h2,
    h3]
  ring

theorem icosa_vertex_orbit (g : ℝ → ℝ → ℝ → ℝ) (h1 : ∀ x y z, g (-x) (-y) z = g x y z)
    (h2 : ∀ x y z, g x (-y) (-z) = g x y z) (h3 : ∀ x y z, g (-x) y (-z) = g x y z) :
    ((icosaVertexPattern.map (triplePoint icosaVertex) : List (Pt ℝ)).map
      (fun u => g u.x u.y u.z)).sum = 4 * cyc g (tripleR icosaVertex) := by
  have h0 : ((icosaVertex.1 : ℤ) : ℝ) = 0 := by simp [icosaVertex]
  have z1 : ∀ y z, g 0 (-y) z = g 0 y z := fun y z => by have := h1 0 y z; rwa [neg_zero] at this
  have z2 : ∀ y z, g 0 y (-z) = g 0 y z := fun y z => by have := h3 0 y z; rwa [neg_zero] at this
  have z3 : ∀ x z, g (-x) 0 z = g x 0 z := fun x z => by have := h1 x 0 z; rwa [neg_zero] at this
  have z4 : ∀ x z, g x 0 (-z) = g x 0 z := fun x z => by have := h2 x 0 z; rwa [neg_zero] at this
  have z5 : ∀ x y, g (-x) y 0 = g x y 0 := fun x y => by have := h3 x y 0; rwa [neg_zero] at this
  have z6 : ∀ x y, g x (-y) 0 = g x y 0 := fun x y => by have := h2 x y 0; rwa [neg_zero] at this
  simp only [icosaVertexPattern, triplePoint, tripleAt_vals, List.map_cons, List.map_nil,
    List.sum_cons, List.sum_nil, decimal_real, Int.cast_neg, neg_div, cyc, tripleR, h0, zero_div, z1, z2,
    z3, z4, z5, z6]
  ring

/-! ## Sums over the grids -/

/-- Sum over orbits: representatives in units of `1/D` and weights. -/
noncomputable def orbitSum (D : ℝ) (g : ℝ → ℝ → ℝ → ℝ) (l : List ((Int × Int × Int) × Int)) : ℝ :=
  (l.map fun o => (o.2 : ℝ) * cyc g ((o.1.1 : ℝ) / D, (o.1.2.1 : ℝ) / D, (o.1.2.2 : ℝ) / D)).sum

/-- The orbits of an octahedral grid, weighted with their sizes. -/
def octaOrbits (rep : OctaRow → Nat × Nat × Nat) (rows : List OctaRow) :
    List ((Int × Int × Int) × Int) :=
  rows.map fun r => ((((rep r).1 : Int), ((rep r).2.1 : Int), ((rep r).2.2 : Int)), r.w * r.kind.size)

theorem octa_orbitSum {fam : Bool} (g : ℝ → ℝ → ℝ → ℝ) (h1 : ∀ x y z, g (-x) y z = g x y z)
    (h2 : ∀ x y z, g x (-y) z = g x y z) (h3 : ∀ x y z, g x y (-z) = g x y z)
    (h4 : ∀ x y z, g y x z = g x y z) (rows : List OctaRow) :
    3 * 10 ^ 21 * ruleSum
      (octaGrid (bif fam then OctaKind.dePattern else OctaKind.llPattern) rows : StaticGrid ℝ).points
      (octaGrid (bif fam then OctaKind.dePattern else OctaKind.llPattern) rows : StaticGrid ℝ).weights
      (fun u => g u.x u.y u.z) =
    orbitSum (10 ^ 18) g (octaOrbits (bif fam then deRep else llRep) rows) := by
  rw [octa_ruleSum]
  unfold orbitSum octaOrbits
  rw [List.map_map]
  induction rows with
  | nil => simp
  | cons r rows ih =>
    rw [List.map_cons, List.map_cons, List.sum_cons, List.sum_cons, mul_add, ih]
    congr 1
    have h := octa_orbit (fam := fam) g h1 h2 h3 h4 r
    have e : (bif fam then deRep r else llRep r) = (bif fam then deRep else llRep) r := by
      cases fam <;> rfl
    rw [e] at h
    dsimp only [Function.comp]
    unfold repR at h
    push_cast
    linear_combination (r.w : ℝ) * h

theorem icosa_orbitSum (g : ℝ → ℝ → ℝ → ℝ) (h1 : ∀ x y z, g (-x) (-y) z = g x y z)
    (h2 : ∀ x y z, g x (-y) (-z) = g x y z) (h3 : ∀ x y z, g (-x) y (-z) = g x y z) (G : IcosaGrid) :
    10 ^ 20 * ruleSum (icosaGrid G : StaticGrid ℝ).points (icosaGrid G : StaticGrid ℝ).weights
      (fun u => g u.x u.y u.z) = 4 * orbitSum (10 ^ 21) g (icosaOrbits G) := by
  unfold icosaGrid icosaOrbits orbitSum
  dsimp only
  rw [ruleSum_append _ _ _ _ (by simp), ruleSum_const, icosa_vertex_orbit g h1 h2 h3, decimal_real,
    ruleSum_flatMap _ _ _ (fun r _ => by simp [icosaPoints, icosaWeights]), List.map_cons,
    List.sum_cons, mul_add, mul_add]
  congr 1
  · unfold tripleR; dsimp only; ring
  · induction G.rows with
    | nil => simp
    | cons r rows ih =>
      rw [List.map_cons, List.sum_cons, mul_add, ih, List.flatMap_cons, List.map_append,
        List.sum_append, mul_add]
      congr 1
      have := icosa_orbit g h1 h2 h3 r
      unfold icosaPoints at this
      unfold icosaPoints icosaWeights
      rw [ruleSum_const, this, decimal_real]
      simp only [List.map_cons, List.map_nil, List.sum_cons, List.sum_nil]
      unfold tripleR
      ring

/-! ## Evaluation in integers

A number `v` is stored as `2^96 (v + 2)`, rounded down. -/

/-- Evaluates its argument before passing it on. -/
noncomputable def forceInt {α : Type} (x : Int) (f : Int → α) : α :=
  Int.rec (fun n => forceNat n fun n => f (Int.ofNat n)) (fun n => forceNat n fun n => f (Int.negSucc n)) x

theorem forceInt_eq {α : Type} (x : Int) (f : Int → α) : forceInt x f = f x := by
  cases x with
  | ofNat n => exact forceNat_eq n fun n => f (Int.ofNat n)
  | negSucc n => exact forceNat_eq n fun n => f (Int.negSucc n)

/-- The complex number stored as a pair. -/
noncomputable def zc (V W : Nat) : ℂ := ⟨(V : ℝ) / 2 ^ 96 - 2, (W : ℝ) / 2 ^ 96 - 2⟩

/-- Multiplies complex numbers, `p = 2·2^96`, `c = 2·2^192`, `c' = 10·2^192`. -/
noncomputable def cmulK (p c c' V₁ W₁ V₂ W₂ : Nat) (K : Nat → Nat → Bool) : Bool :=
  forceNat (Nat.shiftRight (Nat.sub (Nat.add (Nat.add (Nat.mul V₁ V₂) (Nat.mul p (Nat.add W₁ W₂))) c)
      (Nat.add (Nat.mul W₁ W₂) (Nat.mul p (Nat.add V₁ V₂)))) 96) fun V =>
    forceNat (Nat.shiftRight (Nat.sub (Nat.add (Nat.add (Nat.mul V₁ W₂) (Nat.mul W₁ V₂)) c')
        (Nat.mul p (Nat.add (Nat.add V₁ W₂) (Nat.add W₁ V₂)))) 96) fun W => K V W

theorem fxShift_close {N M : Nat} {t : ℝ} (h : (N : ℝ) - M = 2 ^ 192 * (t + 2)) (ht : -2 ≤ t) :
    |(((N - M) >>> 96 : Nat) : ℝ) / 2 ^ 96 - 2 - t| ≤ 1 / 2 ^ 96 := by
  have hle : M ≤ N := by
    have : (0 : ℝ) ≤ 2 ^ 192 * (t + 2) := mul_nonneg (by positivity) (by linarith)
    have h2 : (M : ℝ) ≤ N := by linarith
    exact_mod_cast h2
  rw [Nat.shiftRight_eq_div_pow]
  have h1 := floor_close (N - M) (2 ^ 96) (by positivity)
  rw [Nat.cast_sub hle, h, Nat.cast_pow, Nat.cast_ofNat] at h1
  generalize (((N - M) / 2 ^ 96 : Nat) : ℝ) = X at h1 ⊢
  have e : X / 2 ^ 96 - 2 - t = (X - 2 ^ 192 * (t + 2) / 2 ^ 96) / 2 ^ 96 := by
    field_simp
    ring
  rw [e, abs_div, abs_of_pos (by positivity : (0 : ℝ) < 2 ^ 96)]
  gcongr

theorem cmulK_spec {V₁ W₁ V₂ W₂ : Nat} (h₁ : ‖zc V₁ W₁‖ ≤ 11 / 10) (h₂ : ‖zc V₂ W₂‖ ≤ 11 / 10) :
    ∃ V W, (∀ K, cmulK (2 ^ 97) (2 ^ 193) (10 * 2 ^ 192) V₁ W₁ V₂ W₂ K = K V W) ∧
      ‖zc V W - zc V₁ W₁ * zc V₂ W₂‖ ≤ 2 / 2 ^ 96 := by
  refine ⟨_, _, fun K => by unfold cmulK; rw [forceNat_eq, forceNat_eq], ?_⟩
  have hp : ‖zc V₁ W₁ * zc V₂ W₂‖ ≤ 2 := by
    rw [norm_mul]
    nlinarith [norm_nonneg (zc V₁ W₁), norm_nonneg (zc V₂ W₂)]
  have hre := (Complex.abs_re_le_norm _).trans hp
  have him := (Complex.abs_im_le_norm _).trans hp
  have r1 : (zc V₁ W₁ * zc V₂ W₂).re = ((V₁ : ℝ) / 2 ^ 96 - 2) * ((V₂ : ℝ) / 2 ^ 96 - 2) -
      ((W₁ : ℝ) / 2 ^ 96 - 2) * ((W₂ : ℝ) / 2 ^ 96 - 2) := rfl
  have r2 : (zc V₁ W₁ * zc V₂ W₂).im = ((V₁ : ℝ) / 2 ^ 96 - 2) * ((W₂ : ℝ) / 2 ^ 96 - 2) +
      ((W₁ : ℝ) / 2 ^ 96 - 2) * ((V₂ : ℝ) / 2 ^ 96 - 2) := rfl
  refine (Complex.norm_le_abs_re_add_abs_im _).trans ?_
  have b1 : |(zc V₁ W₁ * zc V₂ W₂).re| ≤ 2 := hre
  have b2 : |(zc V₁ W₁ * zc V₂ W₂).im| ≤ 2 := him
  have g1 := fxShift_close (N := V₁ * V₂ + 2 ^ 97 * (W₁ + W₂) + 2 ^ 193)
    (M := W₁ * W₂ + 2 ^ 97 * (V₁ + V₂)) (t := (zc V₁ W₁ * zc V₂ W₂).re)
    (by rw [r1]; push_cast; field_simp; ring) (abs_le.1 b1).1
  have g2 := fxShift_close (N := V₁ * W₂ + W₁ * V₂ + 10 * 2 ^ 192)
    (M := 2 ^ 97 * (V₁ + W₂ + (W₁ + V₂))) (t := (zc V₁ W₁ * zc V₂ W₂).im)
    (by rw [r2]; push_cast; field_simp; ring) (abs_le.1 b2).1
  have := add_le_add g1 g2
  refine le_trans (le_of_eq ?_) (this.trans (le_of_eq (by ring)))
  rfl

/-- Squares a complex number. -/
noncomputable def csqK (p c c' V₁ W₁ : Nat) (K : Nat → Nat → Bool) : Bool :=
  forceNat (Nat.shiftRight (Nat.sub (Nat.add (Nat.add (Nat.mul V₁ V₁) (Nat.mul p (Nat.mul 2 W₁))) c)
      (Nat.add (Nat.mul W₁ W₁) (Nat.mul p (Nat.mul 2 V₁)))) 96) fun V =>
    forceNat (Nat.shiftRight (Nat.sub (Nat.add (Nat.mul 2 (Nat.mul V₁ W₁)) c')
        (Nat.mul p (Nat.mul 2 (Nat.add V₁ W₁)))) 96) fun W => K V W

theorem csqK_eq (p c c' V W : Nat) (K : Nat → Nat → Bool) : csqK p c c' V W K = cmulK p c c' V W V W K := by
  unfold csqK cmulK
  rw [forceNat_eq, forceNat_eq, forceNat_eq, forceNat_eq]
  have e1 : Nat.mul 2 W = Nat.add W W := by
    show 2 * W = W + W; omega
  have e2 : Nat.mul 2 V = Nat.add V V := by
    show 2 * V = V + V; omega
  have e3 : Nat.mul 2 (Nat.mul V W) = Nat.add (Nat.mul V W) (Nat.mul W V) := by
    show 2 * (V * W) = V * W + W * V; ring
  have e4 : Nat.mul 2 (Nat.add V W) = Nat.add (Nat.add V W) (Nat.add W V) := by
    show 2 * (V + W) = V + W + (W + V); ring
  rw [e1, e2, e3, e4]

/-- `(V+iW)^n` from `A+iB ≈ (V+iW)^(n/2^f)` by repeated squaring, passed to `K`. -/
noncomputable def fxPow (p c c' n V W f : Nat) : Nat → Nat → (Nat → Nat → Bool) → Bool :=
  Nat.rec (fun A B K => K A B) (fun f ih A B K =>
    csqK p c c' A B fun C D =>
      Bool.rec (ih C D K) (cmulK p c c' C D V W fun C' D' => ih C' D' K)
        (Nat.beq (Nat.mod (Nat.shiftRight n f) 2) 1)) f

theorem fxPow_spec {n V W : Nat} {ζ : ℂ} (hζ : ‖zc V W - ζ‖ ≤ 2 / 2 ^ 96)
    (hn : ∀ m, m ≤ n → ‖ζ ^ m‖ ≤ 101 / 100) (f : Nat) : ∀ (A B : Nat) (E : ℝ), 0 ≤ E →
    4 ^ f * (E + 3 / 2 ^ 96) ≤ 1 / 100 → ‖zc A B - ζ ^ (n / 2 ^ f)‖ ≤ E → (n ≠ 0) →
    ∃ A' B', (∀ K, fxPow (2 ^ 97) (2 ^ 193) (10 * 2 ^ 192) n V W f A B K = K A' B') ∧
      ‖zc A' B' - ζ ^ n‖ ≤ 4 ^ f * (E + 3 / 2 ^ 96) := by
  induction f with
  | zero =>
    intro A B E hE _ h _
    rw [pow_zero, Nat.div_one] at h
    refine ⟨A, B, fun K => rfl, h.trans ?_⟩
    rw [pow_zero, one_mul]
    have : (0 : ℝ) < 3 / 2 ^ 96 := by positivity
    linarith
  | succ f ih =>
    intro A B E hE hS h hn0
    have hs : n / 2 ^ f = 2 * (n / 2 ^ (f + 1)) + n / 2 ^ f % 2 := by
      rw [pow_succ, ← Nat.div_div_eq_div_mul]; omega
    have e : ∀ K, fxPow (2 ^ 97) (2 ^ 193) (10 * 2 ^ 192) n V W (f + 1) A B K =
      csqK (2 ^ 97) (2 ^ 193) (10 * 2 ^ 192) A B fun C D =>
        Bool.rec (fxPow (2 ^ 97) (2 ^ 193) (10 * 2 ^ 192) n V W f C D K)
          (cmulK (2 ^ 97) (2 ^ 193) (10 * 2 ^ 192) C D V W fun C' D' =>
            fxPow (2 ^ 97) (2 ^ 193) (10 * 2 ^ 192) n V W f C' D' K)
          (Nat.beq (n >>> f % 2) 1) := fun K => rfl
    have hsh : n >>> f = n / 2 ^ f := Nat.shiftRight_eq_div_pow n f
    have hfour : (1 : ℝ) ≤ 4 ^ f := one_le_pow₀ (by norm_num)
    have hP : (0 : ℝ) < 1 / 2 ^ 96 := by positivity
    have e3 : (3 : ℝ) / 2 ^ 96 = 3 * (1 / 2 ^ 96) := by ring
    have e2 : (2 : ℝ) / 2 ^ 96 = 2 * (1 / 2 ^ 96) := by ring
    rw [e3, pow_succ] at hS
    rw [e2] at hζ
    rw [e3]
    simp only [e3] at ih
    have hc := fun {V₁ W₁ V₂ W₂ : Nat} => @cmulK_spec V₁ W₁ V₂ W₂
    simp only [e2] at hc
    generalize (1 / 2 ^ 96 : ℝ) = δ at *
    have hδ : 4 * (E + 3 * δ) ≤ 1 / 100 := by nlinarith
    set m := n / 2 ^ (f + 1) with hm
    have hm2 : 2 * m ≤ n := by
      have := Nat.div_mul_le_self n (2 ^ f)
      have h1 : n / 2 ^ f ≤ n := Nat.div_le_self _ _
      omega
    have nm : ‖ζ ^ m‖ ≤ 101 / 100 := hn m (by omega)
    have nz : ‖zc A B‖ ≤ 11 / 10 := by
      have := norm_le_norm_add_norm_sub' (zc A B) (ζ ^ m)
      linarith
    obtain ⟨C, D, hCK, hCD⟩ := hc nz nz
    have hsq : ‖zc A B * zc A B - ζ ^ (2 * m)‖ ≤ 3 * E := by
      have e5 : zc A B * zc A B - ζ ^ (2 * m) = (zc A B - ζ ^ m) * (zc A B + ζ ^ m) := by ring
      rw [e5, norm_mul]
      have : ‖zc A B + ζ ^ m‖ ≤ 3 := (norm_add_le _ _).trans (by linarith)
      nlinarith [norm_nonneg (zc A B - ζ ^ m), norm_nonneg (zc A B + ζ ^ m)]
    have hC2 : ‖zc C D - ζ ^ (2 * m)‖ ≤ 3 * E + 2 * δ := by
      have := norm_sub_le_norm_sub_add_norm_sub (zc C D) (zc A B * zc A B) (ζ ^ (2 * m))
      linarith
    rcases Nat.mod_two_eq_zero_or_one (n / 2 ^ f) with hb | hb
    · have hb' : n / 2 ^ f = 2 * m := by omega
      obtain ⟨A', B', hK, hA⟩ := ih C D (3 * E + 2 * δ) (by linarith)
        (by nlinarith) (by rw [hb']; exact hC2) hn0
      refine ⟨A', B', fun K => ?_, hA.trans ?_⟩
      · rw [e, csqK_eq, hCK, hsh, hb]; exact hK K
      · rw [pow_succ]; nlinarith
    · have hb' : n / 2 ^ f = 2 * m + 1 := by omega
      have hone : ‖ζ‖ ≤ 101 / 100 := by have := hn 1 (by omega); rwa [pow_one] at this
      have n2 : ‖ζ ^ (2 * m)‖ ≤ 101 / 100 := hn _ hm2
      have nV : ‖zc V W‖ ≤ 11 / 10 := by
        have := norm_le_norm_add_norm_sub' (zc V W) ζ
        linarith
      have nC : ‖zc C D‖ ≤ 11 / 10 := by
        have := norm_le_norm_add_norm_sub' (zc C D) (ζ ^ (2 * m))
        linarith
      obtain ⟨C', D', hCK', hCD'⟩ := hc nC nV
      have hC3 : ‖zc C' D' - ζ ^ (2 * m + 1)‖ ≤ 4 * E + 8 * δ := by
        have e6 : zc C' D' - ζ ^ (2 * m + 1) = (zc C' D' - zc C D * zc V W) +
            ((zc C D - ζ ^ (2 * m)) * zc V W + ζ ^ (2 * m) * (zc V W - ζ)) := by ring
        have t1 : ‖(zc C D - ζ ^ (2 * m)) * zc V W‖ ≤ (3 * E + 2 * δ) * (11 / 10) := by
          rw [norm_mul]
          exact mul_le_mul hC2 nV (norm_nonneg _) (by linarith)
        have t2 : ‖ζ ^ (2 * m) * (zc V W - ζ)‖ ≤ 101 / 100 * (2 * δ) := by
          rw [norm_mul]
          exact mul_le_mul n2 hζ (norm_nonneg _) (by norm_num)
        rw [e6]
        refine (norm_add_le _ _).trans ?_
        have := norm_add_le ((zc C D - ζ ^ (2 * m)) * zc V W) (ζ ^ (2 * m) * (zc V W - ζ))
        linarith
      obtain ⟨A', B', hK, hA⟩ := ih C' D' (4 * E + 8 * δ) (by linarith)
        (by nlinarith) (by rw [hb']; exact hC3) hn0
      refine ⟨A', B', fun K => ?_, hA.trans ?_⟩
      · rw [e, csqK_eq, hCK, hsh, hb]
        show cmulK _ _ _ C D V W _ = _
        rw [hCK']; exact hK K
      · rw [pow_succ]; nlinarith

/-- A coordinate in units of `1/D` as a stored number. -/
def fxOf (D : Nat) (a : Int) : Nat := Nat.div (Nat.mul (Int.toNat (Int.add a (2 * D))) (2 ^ 96)) D

theorem fxOf_close {D : Nat} (hD : 0 < D) {a : Int} (ha : -(2 * D : Int) ≤ a) :
    |(fxOf D a : ℝ) / 2 ^ 96 - 2 - (a : ℝ) / D| ≤ 1 / 2 ^ 96 := by
  have h1 := floor_close ((a + 2 * D).toNat * 2 ^ 96) D hD
  have hD' : (0 : ℝ) < D := by exact_mod_cast hD
  have e0 : (((a + 2 * D).toNat : Nat) : ℝ) = a + 2 * D := by
    have : (((a + 2 * D).toNat : Int) : ℝ) = ((a + 2 * D : Int) : ℝ) := by
      rw [Int.toNat_of_nonneg (by omega)]
    push_cast at this
    exact this
  rw [Nat.cast_mul, e0, Nat.cast_pow, Nat.cast_ofNat] at h1
  have e1 : (fxOf D a : ℝ) = (((a + 2 * D).toNat * 2 ^ 96 / D : Nat) : ℝ) := rfl
  rw [e1]
  generalize (((a + 2 * D).toNat * 2 ^ 96 / D : Nat) : ℝ) = X at h1 ⊢
  have e : X / 2 ^ 96 - 2 - (a : ℝ) / D = (X - (a + 2 * D) * 2 ^ 96 / D) / 2 ^ 96 := by
    field_simp
    ring
  rw [e, abs_div, abs_of_pos (by positivity : (0 : ℝ) < 2 ^ 96)]
  gcongr

/-- `z^j` in integers. -/
noncomputable def zpowI (j : Nat) (z : Int) : Int := Nat.rec 1 (fun _ r => Int.mul r z) j

theorem zpowI_eq (j : Nat) (z : Int) : zpowI j z = z ^ j := by
  induction j with
  | zero => rw [pow_zero]; rfl
  | succ j ih => rw [pow_succ, ← ih]; rfl

/-- The contribution of an orbit in units of `1/(2^96 D^j)`, without the weight. -/
noncomputable def orbitK (p c c' D : Nat) (im : Bool) (j k f : Nat) (o : Int × Int × Int)
    (K : Int → Bool) : Bool :=
  forceInt o.1 fun x => forceInt o.2.1 fun y => forceInt o.2.2 fun z =>
    forceNat (fxOf D x) fun X => forceNat (fxOf D y) fun Y => forceNat (fxOf D z) fun Z =>
      fxPow p c c' k X Y f X Y fun A A' =>
        fxPow p c c' k Y Z f Y Z fun B B' =>
          fxPow p c c' k Z X f Z X fun C C' =>
            forceInt (Int.add (Int.mul (zpowI j z) (Int.sub (Int.ofNat (Bool.rec A A' im)) (Int.ofNat p)))
              (Int.add (Int.mul (zpowI j x) (Int.sub (Int.ofNat (Bool.rec B B' im)) (Int.ofNat p)))
                (Int.mul (zpowI j y) (Int.sub (Int.ofNat (Bool.rec C C' im)) (Int.ofNat p))))) K

theorem pow_one_plus {t : ℝ} (ht : 0 ≤ t) (h : t ^ 2 ≤ 1 + 1 / 10 ^ 6) {m : Nat} (hm : m ≤ 256) :
    t ^ m ≤ 101 / 100 := by
  have h1 : t ≤ 1 + 1 / 10 ^ 6 := by nlinarith
  calc t ^ m ≤ (1 + 1 / 10 ^ 6) ^ m := pow_le_pow_left₀ ht h1 m
    _ ≤ (1 + 1 / 10 ^ 6) ^ 256 := pow_le_pow_right₀ (by norm_num) hm
    _ ≤ 101 / 100 := by norm_num

theorem fxPow_plane {D : Nat} (hD : 0 < D) (im : Bool) (j k : Nat) (hj : j ≤ 256) (hk : 0 < k) (hk' : k < 256)
    {x y z : Int}
    (hn : ((x : ℝ) / D) ^ 2 + ((y : ℝ) / D) ^ 2 + ((z : ℝ) / D) ^ 2 ≤ 1 + 1 / 10 ^ 6) :
    ∃ A A', (∀ K, fxPow (2 ^ 97) (2 ^ 193) (10 * 2 ^ 192) k (fxOf D x) (fxOf D y) (Nat.log2 k)
      (fxOf D x) (fxOf D y) K =
      K A A') ∧
      |((z ^ j * (((bif im then A' else A : Nat) : Int) - 2 ^ 97) : Int) : ℝ) -
        2 ^ 96 * (D : ℝ) ^ j * planeVal im j k (x / D) (y / D) (z / D)| ≤ (D : ℝ) ^ j * (2 ^ 96 * (2 ^ 18 / 2 ^ 96)) := by
  have hD' : (0 : ℝ) < D := by exact_mod_cast hD
  have hb : ∀ a : Int, ((a : ℝ) / D) ^ 2 ≤ 1 + 1 / 10 ^ 6 → -(2 * D : Int) ≤ a := by
    intro a h
    have h1 : -2 ≤ (a : ℝ) / D := by nlinarith
    rw [le_div_iff₀ hD'] at h1
    have : ((-(2 * D) : Int) : ℝ) ≤ a := by push_cast; linarith
    exact_mod_cast this
  have sx := sq_nonneg ((x : ℝ) / D)
  have sy := sq_nonneg ((y : ℝ) / D)
  have sz := sq_nonneg ((z : ℝ) / D)
  have cx := fxOf_close hD (hb x (by linarith))
  have cy := fxOf_close hD (hb y (by linarith))
  set ζ : ℂ := ⟨(x : ℝ) / D, (y : ℝ) / D⟩ with hζd
  have hζ : ‖zc (fxOf D x) (fxOf D y) - ζ‖ ≤ 2 / 2 ^ 96 := by
    refine (Complex.norm_le_abs_re_add_abs_im _).trans ?_
    have e1 : (zc (fxOf D x) (fxOf D y) - ζ).re = (fxOf D x : ℝ) / 2 ^ 96 - 2 - (x : ℝ) / D := rfl
    have e2 : (zc (fxOf D x) (fxOf D y) - ζ).im = (fxOf D y : ℝ) / 2 ^ 96 - 2 - (y : ℝ) / D := rfl
    rw [e1, e2]
    have e3 : (2 : ℝ) / 2 ^ 96 = 1 / 2 ^ 96 + 1 / 2 ^ 96 := by ring
    rw [e3]
    exact add_le_add cx cy
  have hnorm : ‖ζ‖ ^ 2 = ((x : ℝ) / D) ^ 2 + ((y : ℝ) / D) ^ 2 := by
    rw [Complex.sq_norm, hζd, Complex.normSq_mk]; ring
  have hpw : ∀ m, m ≤ k → ‖ζ ^ m‖ ≤ 101 / 100 := by
    intro m hm
    rw [norm_pow]
    exact pow_one_plus (norm_nonneg _) (by rw [hnorm]; linarith) (by omega)
  have hl1 : 2 ^ Nat.log2 k ≤ k := Nat.log2_self_le hk.ne'
  have hl2 : k < 2 ^ (Nat.log2 k + 1) := Nat.lt_log2_self
  have hl3 : Nat.log2 k ≤ 7 := by
    by_contra hc
    have : 2 ^ 8 ≤ 2 ^ Nat.log2 k := Nat.pow_le_pow_right (by norm_num) (by omega)
    omega
  have hdiv : k / 2 ^ Nat.log2 k = 1 :=
    Nat.div_eq_of_lt_le (by omega) (by rw [pow_succ] at hl2; omega)
  have hpow : (4 : ℝ) ^ Nat.log2 k * (2 / 2 ^ 96 + 3 / 2 ^ 96) ≤ 4 ^ 7 * (2 / 2 ^ 96 + 3 / 2 ^ 96) :=
    mul_le_mul_of_nonneg_right (pow_le_pow_right₀ (by norm_num) hl3) (by positivity)
  obtain ⟨A, A', hK, hA⟩ := fxPow_spec hζ hpw (Nat.log2 k) (fxOf D x) (fxOf D y) (2 / 2 ^ 96) (by positivity)
    (hpow.trans (by norm_num)) (by rw [hdiv, pow_one]; exact hζ) hk.ne'
  replace hA := hA.trans hpow
  refine ⟨A, A', hK, ?_⟩
  have hE : ‖zc A A' - ζ ^ k‖ ≤ 26 / 100 * (2 ^ 18 / 2 ^ 96) * 3 := hA.trans (by norm_num)
  have hz : |(z : ℝ) / D| ^ j ≤ 101 / 100 := by
    refine pow_one_plus (abs_nonneg _) ?_ hj
    rw [sq_abs]; linarith
  have hsel : |(((bif im then A' else A : Nat) : ℝ) / 2 ^ 96 - 2) -
      (bif im then (ζ ^ k).im else (ζ ^ k).re)| ≤ 26 / 100 * (2 ^ 18 / 2 ^ 96) * 3 := by
    cases im
    · exact (Complex.abs_re_le_norm _).trans hE
    · exact (Complex.abs_im_le_norm _).trans hE
  have hDj : (0 : ℝ) < D ^ j := by positivity
  have e : ((z ^ j * (((bif im then A' else A : Nat) : Int) - 2 ^ 97) : Int) : ℝ) -
        2 ^ 96 * (D : ℝ) ^ j * planeVal im j k (x / D) (y / D) (z / D) =
      D ^ j * (2 ^ 96 * (((z : ℝ) / D) ^ j * ((((bif im then A' else A : Nat) : ℝ) / 2 ^ 96 - 2) -
      (bif im then (ζ ^ k).im else (ζ ^ k).re)))) := by
    unfold planeVal
    push_cast
    rw [div_pow]
    field_simp
    ring
  rw [e, abs_mul, abs_mul, abs_mul, abs_of_pos hDj, abs_of_pos (by positivity : (0 : ℝ) < 2 ^ 96), abs_pow]
  refine mul_le_mul_of_nonneg_left (mul_le_mul_of_nonneg_left ?_ (by positivity)) hDj.le
  calc _ ≤ 101 / 100 * (26 / 100 * (2 ^ 18 / 2 ^ 96) * 3) :=
        mul_le_mul hz hsel (abs_nonneg _) (by norm_num)
    _ ≤ 2 ^ 18 / 2 ^ 96 := by norm_num

/-- The squared norm of a representative is at most `1 + 10^-6`. -/
def NormLe (D : Nat) (o : Int × Int × Int) : Prop :=
  ((o.1 : ℝ) / D) ^ 2 + ((o.2.1 : ℝ) / D) ^ 2 + ((o.2.2 : ℝ) / D) ^ 2 ≤ 1 + 1 / 10 ^ 6

theorem orbitK_spec {D : Nat} (hD : 0 < D) (im : Bool) (j k : Nat) (hj : j ≤ 256) (hk : 0 < k) (hk' : k < 256)
    {o : Int × Int × Int} (hn : NormLe D o) :
    ∃ t : Int, (∀ K, orbitK (2 ^ 97) (2 ^ 193) (10 * 2 ^ 192) D im j k (Nat.log2 k) o K = K t) ∧
      |(t : ℝ) - 2 ^ 96 * (D : ℝ) ^ j * cyc (planeVal im j k) ((o.1 : ℝ) / D, (o.2.1 : ℝ) / D, (o.2.2 : ℝ) / D)|
        ≤ (D : ℝ) ^ j * 2 ^ 20 := by
  obtain ⟨x, y, z⟩ := o
  unfold NormLe at hn
  dsimp only at hn
  obtain ⟨A, A', hA, eA⟩ := fxPow_plane hD im j k hj hk hk' (x := x) (y := y) (z := z) hn
  obtain ⟨B, B', hB, eB⟩ := fxPow_plane hD im j k hj hk hk' (x := y) (y := z) (z := x) (by linarith)
  obtain ⟨C, C', hC, eC⟩ := fxPow_plane hD im j k hj hk hk' (x := z) (y := x) (z := y) (by linarith)
  refine ⟨z ^ j * (((bif im then A' else A : Nat) : Int) - 2 ^ 97) +
    (x ^ j * (((bif im then B' else B : Nat) : Int) - 2 ^ 97) +
      y ^ j * (((bif im then C' else C : Nat) : Int) - 2 ^ 97)), fun K => ?_, ?_⟩
  · unfold orbitK
    rw [forceInt_eq, forceInt_eq, forceInt_eq, forceNat_eq, forceNat_eq, forceNat_eq, hA, hB, hC,
      forceInt_eq, zpowI_eq, zpowI_eq, zpowI_eq]
    cases im <;> rfl
  · have e18 : (2 : ℝ) ^ 96 * (2 ^ 18 / 2 ^ 96) = 2 ^ 18 := by norm_num
    rw [e18] at eA eB eC
    unfold cyc
    dsimp only
    rw [Int.cast_add, Int.cast_add]
    have hDj : (0 : ℝ) < (D : ℝ) ^ j := by
      have : (0 : ℝ) < D := by exact_mod_cast hD
      positivity
    have a1 := abs_le.1 eA
    have a2 := abs_le.1 eB
    have a3 := abs_le.1 eC
    have e20 : (D : ℝ) ^ j * 2 ^ 20 = D ^ j * 2 ^ 18 + D ^ j * 2 ^ 18 + D ^ j * 2 ^ 18 + D ^ j * 2 ^ 18 := by
      ring
    have hp : 0 < (D : ℝ) ^ j * 2 ^ 18 := by positivity
    rw [e20]
    generalize (D : ℝ) ^ j * 2 ^ 18 = Q at *
    rw [abs_le]
    constructor <;> linarith [a1.1, a1.2, a2.1, a2.2, a3.1, a3.2]

/-- The sum over the orbits is at least `T` in absolute value: `acc` is the sum so far and `ws` the sum of
the absolute values of the weights. -/
noncomputable def sharpK (p c c' D : Nat) (im : Bool) (j k f T : Nat) (l : List ((Int × Int × Int) × Int)) :
    Int → Nat → Bool :=
  List.rec (fun acc ws => Nat.ble (D ^ j * (2 ^ 96 * T + 2 ^ 20 * ws)) (Int.natAbs acc))
    (fun o _ ih acc ws => orbitK p c c' D im j k f o.1 fun t => forceInt o.2 fun w =>
      forceInt (Int.add acc (Int.mul w t)) fun acc' => forceNat (Nat.add ws (Int.natAbs w)) fun ws' =>
        ih acc' ws') l

theorem sharpK_spec {D : Nat} (hD : 0 < D) {im : Bool} {j k T : Nat} (hj : j ≤ 256) (hk : 0 < k) (hk' : k < 256)
    {l : List ((Int × Int × Int) × Int)} : ∀ {acc : Int} {ws : Nat}, (∀ o ∈ l, NormLe D o.1) →
    sharpK (2 ^ 97) (2 ^ 193) (10 * 2 ^ 192) D im j k (Nat.log2 k) T l acc ws = true → ∀ s : ℝ,
    |(acc : ℝ) - 2 ^ 96 * (D : ℝ) ^ j * s| ≤ (D : ℝ) ^ j * (2 ^ 20 * (ws : ℝ)) →
    (T : ℝ) ≤ |s + orbitSum D (planeVal im j k) l| := by
  have hDj : (0 : ℝ) < (D : ℝ) ^ j := by
    have : (0 : ℝ) < D := by exact_mod_cast hD
    positivity
  induction l with
  | nil =>
    intro acc ws _ h s hs
    have h1 : D ^ j * (2 ^ 96 * T + 2 ^ 20 * ws) ≤ acc.natAbs := Nat.le_of_ble_eq_true h
    have h2 : (D : ℝ) ^ j * (2 ^ 96 * (T : ℝ) + 2 ^ 20 * (ws : ℝ)) ≤ ((acc.natAbs : Int) : ℝ) := by
      exact_mod_cast h1
    rw [Int.natCast_natAbs, Int.cast_abs] at h2
    have h3 : |(acc : ℝ)| ≤ |(acc : ℝ) - 2 ^ 96 * D ^ j * s| + |2 ^ 96 * D ^ j * s| := by
      have := abs_add_le ((acc : ℝ) - 2 ^ 96 * D ^ j * s) (2 ^ 96 * D ^ j * s)
      rwa [sub_add_cancel] at this
    rw [abs_mul, abs_of_pos (by positivity : (0 : ℝ) < 2 ^ 96 * D ^ j)] at h3
    have e0 : orbitSum D (planeVal im j k) [] = 0 := rfl
    rw [e0, add_zero]
    have h4 : (2 ^ 96 * D ^ j) * (T : ℝ) ≤ (2 ^ 96 * D ^ j) * |s| := by
      generalize (2 : ℝ) ^ 96 = P at *
      linarith
    exact le_of_mul_le_mul_left h4 (by positivity)
  | cons o l ih =>
    intro acc ws hn h s hs
    obtain ⟨t, hK, ht⟩ := orbitK_spec hD im j k hj hk hk' (hn o List.mem_cons_self)
    have e : sharpK (2 ^ 97) (2 ^ 193) (10 * 2 ^ 192) D im j k (Nat.log2 k) T (o :: l) acc ws =
      orbitK (2 ^ 97) (2 ^ 193) (10 * 2 ^ 192) D im j k (Nat.log2 k) o.1 fun t => forceInt o.2 fun w =>
        forceInt (acc + w * t) fun acc' => forceNat (ws + w.natAbs) fun ws' =>
          sharpK (2 ^ 97) (2 ^ 193) (10 * 2 ^ 192) D im j k (Nat.log2 k) T l acc' ws' := rfl
    rw [e, hK, forceInt_eq, forceInt_eq, forceNat_eq] at h
    have hc : orbitSum D (planeVal im j k) (o :: l) = (o.2 : ℝ) * cyc (planeVal im j k)
        ((o.1.1 : ℝ) / D, (o.1.2.1 : ℝ) / D, (o.1.2.2 : ℝ) / D) + orbitSum D (planeVal im j k) l := rfl
    rw [hc, ← add_assoc]
    refine ih (fun o ho => hn o (List.mem_cons_of_mem _ ho)) h _ ?_
    generalize cyc (planeVal im j k) ((o.1.1 : ℝ) / D, (o.1.2.1 : ℝ) / D, (o.1.2.2 : ℝ) / D) = g at ht ⊢
    have hw : ((o.2.natAbs : Nat) : ℝ) = |(o.2 : ℝ)| := by
      rw [Nat.cast_natAbs, Int.cast_abs]
    push_cast
    rw [hw]
    have e1 : (acc : ℝ) + o.2 * t - 2 ^ 96 * D ^ j * (s + o.2 * g) =
        ((acc : ℝ) - 2 ^ 96 * D ^ j * s) + o.2 * (t - 2 ^ 96 * D ^ j * g) := by ring
    rw [e1]
    refine (abs_add_le _ _).trans ?_
    rw [abs_mul]
    have := mul_le_mul_of_nonneg_left ht (abs_nonneg (o.2 : ℝ))
    calc _ ≤ D ^ j * (2 ^ 20 * ws) + |(o.2 : ℝ)| * (D ^ j * 2 ^ 20) := add_le_add hs this
      _ = _ := by ring

/-- The check with the constants put in. -/
noncomputable def sharpRun (D : Nat) (im : Bool) (j k T : Nat) (l : List ((Int × Int × Int) × Int)) : Bool :=
  forceNat (2 ^ 97) fun p => forceNat (2 ^ 193) fun c => forceNat (10 * 2 ^ 192) fun c' =>
    forceNat D fun D => forceNat k fun k => forceNat (Nat.log2 k) fun f =>
      sharpK p c c' D im j k f T l 0 0

theorem sharpRun_real {D : Nat} (hD : 0 < D) {im : Bool} {j k T : Nat} (hj : j ≤ 256) (hk : 0 < k)
    (hk' : k < 256) {l : List ((Int × Int × Int) × Int)} (hn : ∀ o ∈ l, NormLe D o.1)
    (h : sharpRun D im j k T l = true) : (T : ℝ) ≤ |orbitSum D (planeVal im j k) l| := by
  unfold sharpRun at h
  rw [forceNat_eq, forceNat_eq, forceNat_eq, forceNat_eq, forceNat_eq, forceNat_eq] at h
  have := sharpK_spec hD hj hk hk' hn h 0 (by simp)
  rwa [zero_add] at this

/-- The check for an octahedral grid at degree `d`. -/
noncomputable def octaSharp (rep : OctaRow → Nat × Nat × Nat) (rows : List OctaRow) (d : Nat) : Bool :=
  bif Nat.beq (d % 4) 0 then sharpRun (10 ^ 18) false 0 d (75 * 10 ^ 11) (octaOrbits rep rows)
  else sharpRun (10 ^ 18) false 2 (d - 2) (75 * 10 ^ 11) (octaOrbits rep rows)

/-- The check for an icosahedral grid at degree `d`. -/
noncomputable def icosaSharp (G : IcosaGrid) (d : Nat) : Bool :=
  bif Nat.beq (d % 2) 0 then sharpRun (10 ^ 21) false 0 d (10 ^ 12) (icosaOrbits G)
  else sharpRun (10 ^ 21) true 1 (d - 1) (10 ^ 12) (icosaOrbits G)

/-- A homogeneous polynomial of degree `d` and absolute value at most 1 on the sphere, whose integral is 0
but whose sum is not. -/
def Missed (d : Nat) (ε : ℝ) (S : (Pt ℝ → ℝ) → ℝ) : Prop :=
  ∃ p : MvPolynomial (Fin 3) ℝ, p.IsHomogeneous d ∧
    (∀ u : Pt ℝ, u.x ^ 2 + u.y ^ 2 + u.z ^ 2 = 1 → |polyAt p u| ≤ 1) ∧
    sphereInt (polyAt p) = 0 ∧ ε ≤ |S (polyAt p)|

theorem missed_of {d : Nat} {ε : ℝ} {S : (Pt ℝ → ℝ) → ℝ} (im : Bool) {j k : Nat} (hk : 0 < k)
    (hd : j + k = d) (h : ε ≤ |S (fun u => planeVal im j k u.x u.y u.z)|) : Missed d ε S := by
  refine ⟨sharpPoly im j k, hd ▸ sharpPoly_homogeneous im j k, ?_, sharpPoly_int im j k hk, ?_⟩
  · intro u hu
    rw [sharpPoly_eval]
    exact planeVal_le im j k _ _ _ hu
  · rw [show polyAt (sharpPoly im j k) = fun u => planeVal im j k u.x u.y u.z from
      funext (sharpPoly_eval im j k)]
    exact h

theorem octaSharp_missed {fam : Bool} {rows : List OctaRow} {d : Nat} (hd : 2 < d) (hd' : d < 256)
    (he : Even d) (hn : ∀ o ∈ octaOrbits (bif fam then deRep else llRep) rows, NormLe (10 ^ 18) o.1)
    (h : octaSharp (bif fam then deRep else llRep) rows d = true) :
    Missed d (25 / 10 ^ 10) (ruleSum
      (octaGrid (bif fam then OctaKind.dePattern else OctaKind.llPattern) rows : StaticGrid ℝ).points
      (octaGrid (bif fam then OctaKind.dePattern else OctaKind.llPattern) rows : StaticGrid ℝ).weights) := by
  have core : ∀ j k : Nat, Even j → 4 ∣ k → 0 < k → k < 256 → j + k = d →
      sharpRun (10 ^ 18) false j k (75 * 10 ^ 11) (octaOrbits (bif fam then deRep else llRep) rows) = true →
      Missed d (25 / 10 ^ 10) (ruleSum
      (octaGrid (bif fam then OctaKind.dePattern else OctaKind.llPattern) rows : StaticGrid ℝ).points
      (octaGrid (bif fam then OctaKind.dePattern else OctaKind.llPattern) rows : StaticGrid ℝ).weights) := by
    intro j k hj h4 hk hk' hjk hc
    refine missed_of false hk hjk ?_
    have hk2 : Even k := by obtain ⟨m, rfl⟩ := h4; exact ⟨2 * m, by ring⟩
    have s2 : ∀ x y z, planeVal false j k x (-y) z = planeVal false j k x y z := by
      intro x y z; rw [planeVal_conj, cond_false, one_mul]
    have s1 : ∀ x y z, planeVal false j k (-x) y z = planeVal false j k x y z := by
      intro x y z
      rw [← s2 (-x) y z, planeVal_neg _ _ _ hk2]
    have s3 : ∀ x y z, planeVal false j k x y (-z) = planeVal false j k x y z := by
      intro x y z; rw [planeVal_zneg, hj.neg_one_pow, one_mul]
    have hs := octa_orbitSum (fam := fam) (planeVal false j k) s1 s2 s3 (planeVal_swap j k h4) rows
    have hr := sharpRun_real (by positivity) (by omega) hk hk' hn hc
    rw [Nat.cast_pow, Nat.cast_ofNat, ← hs, abs_mul, abs_of_pos (by positivity : (0 : ℝ) < 3 * 10 ^ 21)] at hr
    generalize |ruleSum _ _ _| = X at hr ⊢
    rw [div_le_iff₀ (by positivity)]
    norm_num at hr ⊢
    linarith
  unfold octaSharp at h
  rcases hm : Nat.beq (d % 4) 0 with _ | _
  · rw [hm, cond_false] at h
    have h1 : d % 4 ≠ 0 := Nat.ne_of_beq_eq_false hm
    have h2 : d % 2 = 0 := Nat.even_iff.1 he
    exact core 2 (d - 2) even_two (by omega) (by omega) (by omega) (by omega) h
  · rw [hm, cond_true] at h
    have h1 : d % 4 = 0 := Nat.eq_of_beq_eq_true hm
    exact core 0 d Even.zero (by omega) (by omega) hd' (by omega) h

theorem icosaSharp_missed {G : IcosaGrid} {d : Nat} (hd : 1 < d) (hd' : d < 256)
    (hn : ∀ o ∈ icosaOrbits G, NormLe (10 ^ 21) o.1) (h : icosaSharp G d = true) :
    Missed d (4 / 10 ^ 8) (ruleSum (icosaGrid G : StaticGrid ℝ).points
      (icosaGrid G : StaticGrid ℝ).weights) := by
  have core : ∀ (im : Bool) (j k : Nat), ((-1 : ℝ) ^ j = bif im then -1 else 1) → Even k → 0 < k →
      k < 256 → j + k = d → sharpRun (10 ^ 21) im j k (10 ^ 12) (icosaOrbits G) = true →
      Missed d (4 / 10 ^ 8) (ruleSum (icosaGrid G : StaticGrid ℝ).points
        (icosaGrid G : StaticGrid ℝ).weights) := by
    intro im j k hj hk2 hk hk' hjk hc
    refine missed_of im hk hjk ?_
    have hh : (bif im then (-1 : ℝ) else 1) * (bif im then (-1 : ℝ) else 1) = 1 := by cases im <;> simp
    have s1 := planeVal_neg im j k hk2
    have s2 : ∀ x y z, planeVal im j k x (-y) (-z) = planeVal im j k x y z := by
      intro x y z; rw [planeVal_conj, planeVal_zneg, hj, ← mul_assoc, hh, one_mul]
    have s3 : ∀ x y z, planeVal im j k (-x) y (-z) = planeVal im j k x y z := by
      intro x y z
      rw [← s2 x y z, ← s1 x (-y) (-z), neg_neg]
    have hs := icosa_orbitSum (planeVal im j k) s1 s2 s3 G
    have hr := sharpRun_real (by positivity) (by omega) hk hk' hn hc
    rw [Nat.cast_pow, Nat.cast_pow, Nat.cast_ofNat] at hr
    have hs' : 10 ^ 20 * |ruleSum (icosaGrid G : StaticGrid ℝ).points
        (icosaGrid G : StaticGrid ℝ).weights (fun u => planeVal im j k u.x u.y u.z)| =
        4 * |orbitSum (10 ^ 21) (planeVal im j k) (icosaOrbits G)| := by
      have := congrArg _root_.abs hs
      rwa [abs_mul, abs_mul, abs_of_pos (by positivity : (0 : ℝ) < 10 ^ 20),
        abs_of_pos (by positivity : (0 : ℝ) < 4)] at this
    generalize |ruleSum _ _ _| = X at hs' ⊢
    generalize |orbitSum _ _ _| = Y at hs' hr
    rw [div_le_iff₀ (by positivity)]
    norm_num at hr hs' ⊢
    linarith
  unfold icosaSharp at h
  rcases hm : Nat.beq (d % 2) 0 with _ | _
  · rw [hm, cond_false] at h
    have h1 : d % 2 ≠ 0 := Nat.ne_of_beq_eq_false hm
    exact core true 1 (d - 1) (by simp) (by rw [Nat.even_iff]; omega) (by omega) (by omega) (by omega) h
  · rw [hm, cond_true] at h
    have h1 : d % 2 = 0 := Nat.eq_of_beq_eq_true hm
    exact core false 0 d (by simp) (by rw [Nat.even_iff]; omega) (by omega) hd' (by omega) h

end IntegratorXX
