import Verif.Lemmas.AngularGrids

/-!
# Properties of the tabulated angular grids

C63 normalisation of the weights, C64 points on the sphere, C65 signs of the weights, C66 low-degree
exactness, C67 exactness to the tabulated order.  All statements are about what the constructors return
for the shipped tables, the decimal literals read as real numbers and the arithmetic exact.  "Supported"
means that `algebraic_order_by_npts` knows the size.
-/

set_option maxRecDepth 20000

namespace IntegratorXX

open Arith Spec Tables

/-! ## C66 -/

private theorem scaled_real (w : List ℝ) :
    w.map (AngFam.scaled (F := ℝ) .lebedevLaikov) = w.map (· * (4 * Real.pi)) ∧
    w.map (AngFam.scaled (F := ℝ) .delley) = w.map (· * (4 * Real.pi)) ∧
    w.map (AngFam.scaled (F := ℝ) .ahrensBeylkin) = w ∧ w.map (AngFam.scaled (F := ℝ) .womersley) = w := by
  have hid : ∀ f : ℝ → ℝ, (∀ x, f x = x) → w.map f = w := fun f hf => by
    conv_rhs => rw [← List.map_id w]
    exact List.map_congr_left (fun x _ => hf x)
  refine ⟨?_, ?_, hid _ (fun _ => rfl), hid _ (fun _ => rfl)⟩ <;>
  refine List.map_congr_left (fun x _ => ?_) <;>
  simp [AngFam.scaled]

/-- Low-degree exactness: every supported grid except Ahrens-Beylkin 552 integrates every polynomial of
degree at most 3 (and at most the tabulated order) with an error of at most `4π·10⁻¹³` times the sum of
the absolute values of the coefficients. -/
theorem C66_low_degree (b : Build) (fam : AngFam) (n : Nat) (h : fam.orderByNpts n ≠ -1)
    (h552 : ¬ (fam = .ahrensBeylkin ∧ n = 552)) (p : MvPolynomial (Fin 3) ℝ)
    (hp : (p.totalDegree : Int) ≤ fam.orderByNpts n) (hp3 : p.totalDegree ≤ 3) :
    Returns (angConstruct b (angData ℝ) fam n) (fun q =>
      |ruleSum q.points q.weights (polyAt p) - sphereInt (polyAt p)| ≤
        4 * Real.pi / 10 ^ 13 * coeffSum p) := by
  refine ⟨_, angData_construct b fam n h, ?_⟩
  dsimp only
  have hc : 0 ≤ coeffSum p := Finset.sum_nonneg (fun _ _ => abs_nonneg _)
  have hπ := Real.pi_gt_three
  obtain ⟨s1, s2, s3, s4⟩ := scaled_real (angData ℝ fam n).weights
  rcases angData_supported ℝ fam n h with ⟨rfl, rows, h1, h2⟩ | ⟨rfl, rows, h1, h2⟩ |
    ⟨rfl, g, h1, h2⟩ | ⟨rfl, g, h1, h2⟩
  · rw [s1, h2]
    obtain ⟨D, hD, hE⟩ := llFacts _ h1 (by
      dsimp only; rintro rfl; exact h (by decide +kernel))
    dsimp only at hD hE
    exact poly_error (fun m hm => octa_mono llPattern_ok hE _ _ _ (by
      have := support_degree (le_refl _) hm
      omega))
  · rw [s2, h2]
    obtain ⟨D, hD, hE⟩ := deFacts _ h1
    dsimp only at hD hE
    exact poly_error (fun m hm => octa_mono dePattern_ok hE _ _ _ (by
      have := support_degree (le_refl _) hm
      omega))
  · rw [s3, h2]
    obtain ⟨L, hL, hE⟩ := abFacts _ h1 (fun h0 => h552 ⟨rfl, h0⟩)
    dsimp only at hL hE
    have hb := abBases _ h1
    have hE3 := hE.mono (L' := min L 3) (min_le_left _ _) le_rfl
    refine (hE3.poly_full (icosaNorm_real hb.norm) (icosaCoord hb.bEven) (icosaWeightSum_real hb.wsum)
      (by positivity) (m := 1) (by omega) (by omega)).trans
      (mul_le_mul_of_nonneg_right ?_ hc)
    norm_num
    linarith
  · rw [s4, h2]
    obtain ⟨L, hL, hE⟩ := woFacts _ h1
    dsimp only at hL hE
    have hb := (woBases _ h1).2
    have hE3 := hE.mono (L' := min L 3) (min_le_left _ _) le_rfl
    refine (hE3.poly_full hb.normOk hb.coordOk (wo_abs_sum hb)
      (by positivity) (m := 1) (by omega) (by omega)).trans
      (mul_le_mul_of_nonneg_right ?_ hc)
    norm_num
    linarith

/-- The hypotheses can be met: `x²` on the Womersley grid with 2114 points. -/
example : AngFam.womersley.orderByNpts (2114 : Nat) = 64 ∧
    (MvPolynomial.X 0 ^ 2 : MvPolynomial (Fin 3) ℝ).totalDegree ≤ 3 := by
  refine ⟨by decide +kernel, ?_⟩
  rw [MvPolynomial.totalDegree_X_pow]
  norm_num

/-! ## C63 -/

private theorem ruleSum_one {P : Type} (x : List P) (w : List ℝ) (h : x.length = w.length) :
    ruleSum x w (fun _ => 1) = w.sum := by
  unfold ruleSum
  simp only [mul_one]
  rw [show (fun e : P × ℝ => e.2) = Prod.snd from rfl, List.map_snd_zip h.ge]

/-- The weights of every supported grid except Ahrens-Beylkin 552 sum to `4π` up to a relative error of
`10⁻¹²`. -/
theorem C63_weights_sum (b : Build) (fam : AngFam) (n : Nat) (h : fam.orderByNpts n ≠ -1)
    (h552 : ¬ (fam = .ahrensBeylkin ∧ n = 552)) :
    Returns (angConstruct b (angData ℝ) fam n) (fun q =>
      |q.weights.sum - 4 * Real.pi| ≤ 1 / 10 ^ 12 * (4 * Real.pi)) := by
  have hm := (fam.orderByNpts_iff _ _).1 ⟨rfl, h⟩
  have hpos := (fam.entries_pos _ hm).1
  dsimp only at hpos
  obtain ⟨q, hq, hE⟩ := C66_low_degree b fam n h h552 1 (by simpa using hpos.le) (by simp)
  refine ⟨q, hq, ?_⟩
  have hk : fam.dispatch n = some n := by
    rw [fam.dispatch_iff]
    exact ⟨rfl, _, hm⟩
  obtain ⟨-, -, l1, l2, l3⟩ := angConstruct_supported b _ (angData_typed ℝ) fam n n hk
  have hlen : q.points.length = q.weights.length := by
    rw [l3] at hq
    injection hq with hq
    subst hq
    simp [l1, l2]
  have h1 : polyAt 1 = fun _ => 1 := by
    funext u; simp [polyAt]
  have h2 : coeffSum 1 = 1 := by
    unfold coeffSum
    rw [show (1 : MvPolynomial (Fin 3) ℝ) = MvPolynomial.monomial 0 1 from rfl,
      MvPolynomial.support_monomial]
    simp
  have h3 : sphereInt (fun _ => 1) = 4 * Real.pi := by
    have := sphereInt_mono_even 0 0 0
    simpa [meanEven, odf] using this
  rw [h1, h2, h3, ruleSum_one _ _ hlen] at hE
  refine hE.trans ?_
  have := Real.pi_pos
  rw [mul_one]
  linarith

/-- The shipped Ahrens-Beylkin grid with 552 points violates the normalisation: its weights sum to less
than `12.11`, while `4π > 12.56`. -/
theorem C63_ab552_violation (b : Build) :
    Returns (angConstruct b (angData ℝ) .ahrensBeylkin 552) (fun q =>
      q.weights.sum < 1211 / 100 ∧ ¬ |q.weights.sum - 4 * Real.pi| ≤ 3 / 100 * (4 * Real.pi)) := by
  have h : AngFam.ahrensBeylkin.orderByNpts (552 : Nat) ≠ -1 := by decide +kernel
  refine ⟨_, angData_construct b _ _ h, ?_⟩
  dsimp only
  obtain ⟨-, -, s3, -⟩ := scaled_real (angData ℝ .ahrensBeylkin 552).weights
  have hs : (angData ℝ .ahrensBeylkin 552).weights.sum < 1211 / 100 := by
    rcases angData_supported ℝ .ahrensBeylkin 552 h with ⟨h0, -⟩ | ⟨h0, -⟩ | ⟨-, g, h1, h2⟩ | ⟨h0, -⟩
    · exact absurd h0 (by decide)
    · exact absurd h0 (by decide)
    · rw [h2, icosa_weight_sum, div_lt_iff₀ (by positivity)]
      have h3 := ab552_sum _ h1 rfl
      dsimp only at h3
      calc _ < (((1211 * 10 ^ 18 : Int)) : ℝ) := by exact_mod_cast h3
        _ = _ := by norm_num
    · exact absurd h0 (by decide)
  rw [s3]
  refine ⟨hs, ?_⟩
  have := Real.pi_gt_d2
  rw [not_le, lt_abs]
  right
  linarith

/-- Supported sizes of each family, and one where the weights of the table are rescaled. -/
example : AngFam.lebedevLaikov.orderByNpts (302 : Nat) ≠ -1 ∧
    AngFam.delley.orderByNpts (302 : Nat) ≠ -1 ∧ AngFam.ahrensBeylkin.orderByNpts (72 : Nat) ≠ -1 ∧
    AngFam.womersley.orderByNpts (3 : Nat) ≠ -1 := by decide +kernel

/-! ## C64 -/

/-- Every point of every supported grid has squared norm 1 up to `10⁻¹⁴`. -/
theorem C64_unit_points (b : Build) (fam : AngFam) (n : Nat) (h : fam.orderByNpts n ≠ -1) :
    Returns (angConstruct b (angData ℝ) fam n) (fun q =>
      ∀ u ∈ q.points, |u.x ^ 2 + u.y ^ 2 + u.z ^ 2 - 1| ≤ 1 / 10 ^ 14) := by
  refine ⟨_, angData_construct b fam n h, ?_⟩
  dsimp only
  intro u hu
  have hfin : ∀ δ : ℝ, NormOk (angData ℝ fam n).points δ → δ ≤ 1 / 10 ^ 14 →
      |u.x ^ 2 + u.y ^ 2 + u.z ^ 2 - 1| ≤ 1 / 10 ^ 14 := fun δ h1 h2 => (h1 u hu).trans h2
  rcases angData_supported ℝ fam n h with ⟨rfl, rows, h1, h2⟩ | ⟨rfl, rows, h1, h2⟩ |
    ⟨rfl, g, h1, h2⟩ | ⟨rfl, g, h1, h2⟩ <;> rw [h2] at hfin
  · exact hfin _ (octa_normOk ll_pointNorm (ll_norm _ h1)) (by norm_num)
  · exact hfin _ (octa_normOk de_pointNorm (de_norm _ h1)) (by norm_num)
  · exact hfin _ (icosaNorm_real (abBases _ h1).norm) (by norm_num)
  · exact hfin _ (woBases _ h1).2.normOk (by norm_num)

/-- A supported size with points that are not on the axes. -/
example : AngFam.delley.orderByNpts (3470 : Nat) = 101 := by decide +kernel

/-! ## C65 -/

/-- All weights are positive except in four grids. -/
theorem C65_positive (b : Build) (fam : AngFam) (n : Nat) (h : fam.orderByNpts n ≠ -1)
    (hl : ¬ (fam = .lebedevLaikov ∧ (n = 74 ∨ n = 230 ∨ n = 266)))
    (ha : ¬ (fam = .ahrensBeylkin ∧ n = 1572)) :
    Returns (angConstruct b (angData ℝ) fam n) (fun q => ∀ w ∈ q.weights, 0 < w) := by
  refine ⟨_, angData_construct b fam n h, ?_⟩
  dsimp only
  have hπ := Real.pi_pos
  obtain ⟨s1, s2, s3, s4⟩ := scaled_real (angData ℝ fam n).weights
  have octa : ∀ (pattern : OctaKind → List (Int × Int × Int)) (rows : List OctaRow),
      (∀ r ∈ rows, 0 < r.w) →
      ∀ w ∈ (octaGrid pattern rows : StaticGrid ℝ).weights.map (· * (4 * Real.pi)), 0 < w := by
    intro pattern rows hr w hw
    obtain ⟨v, hv, rfl⟩ := List.mem_map.1 hw
    obtain ⟨r, hr', rfl⟩ := octa_weight_mem hv
    have : (0 : ℝ) < r.w := by exact_mod_cast hr r hr'
    positivity
  rcases angData_supported ℝ fam n h with ⟨rfl, rows, h1, h2⟩ | ⟨rfl, rows, h1, h2⟩ |
    ⟨rfl, g, h1, h2⟩ | ⟨rfl, g, h1, h2⟩
  · rw [s1, h2]
    exact octa _ _ (ll_sign _ h1 (by
      intro h0
      refine hl ⟨rfl, ?_⟩
      simpa using h0))
  · rw [s2, h2]
    exact octa _ _ (de_sign _ h1)
  · rw [s3, h2]
    obtain ⟨h3, h4⟩ := ab_sign _ h1 (fun h0 => ha ⟨rfl, h0⟩)
    intro w hw
    rcases icosa_weight_mem hw with rfl | ⟨r, hr, rfl⟩
    · have : (0 : ℝ) < g.w0 := by exact_mod_cast h3
      positivity
    · have : (0 : ℝ) < r.w := by exact_mod_cast h4 r hr
      positivity
  · rw [s4, h2]
    intro w hw
    rw [woGrid_weights (woBases _ h1).2.toWoShape] at hw
    obtain ⟨v, hv, rfl⟩ := List.mem_map.1 hw
    have : (0 : ℝ) < g.npts := by exact_mod_cast (woBases _ h1).2.pos
    positivity

/-- Those four grids have negative weights. -/
theorem C65_negative (b : Build) (fam : AngFam) (n : Nat)
    (h : (fam = .lebedevLaikov ∧ (n = 74 ∨ n = 230 ∨ n = 266)) ∨ (fam = .ahrensBeylkin ∧ n = 1572)) :
    Returns (angConstruct b (angData ℝ) fam n) (fun q => ∃ w ∈ q.weights, w < 0) := by
  have hπ := Real.pi_pos
  have hs : fam.orderByNpts n ≠ -1 := by
    rcases h with ⟨rfl, rfl | rfl | rfl⟩ | ⟨rfl, rfl⟩ <;> decide +kernel
  refine ⟨_, angData_construct b fam n hs, ?_⟩
  dsimp only
  obtain ⟨s1, s2, s3, s4⟩ := scaled_real (angData ℝ fam n).weights
  rcases angData_supported ℝ fam n hs with ⟨rfl, rows, h1, h2⟩ | ⟨rfl, rows, h1, h2⟩ |
    ⟨rfl, g, h1, h2⟩ | ⟨rfl, g, h1, h2⟩
  · rw [s1, h2]
    obtain ⟨r, hr, hw⟩ := ll_neg _ h1 (by simpa using h)
    refine ⟨_, List.mem_map.2 ⟨_, octa_weight_of llPattern_ok.1 hr, rfl⟩, ?_⟩
    have : (r.w : ℝ) < 0 := by exact_mod_cast hw
    have h5 : (r.w : ℝ) / 10 ^ 21 < 0 := div_neg_of_neg_of_pos this (by positivity)
    exact mul_neg_of_neg_of_pos h5 (by positivity)
  · simp at h
  · rw [s3, h2]
    have hw := ab_neg _ h1 (by simpa using h)
    refine ⟨_, icosa_weight_of g, ?_⟩
    have : (g.w0 : ℝ) < 0 := by exact_mod_cast hw
    exact div_neg_of_neg_of_pos this (by positivity)
  · simp at h

/-- The exceptions are supported sizes. -/
example : AngFam.lebedevLaikov.orderByNpts (74 : Nat) = 13 ∧
    AngFam.lebedevLaikov.orderByNpts (230 : Nat) = 25 ∧
    AngFam.lebedevLaikov.orderByNpts (266 : Nat) = 27 ∧
    AngFam.ahrensBeylkin.orderByNpts (1572 : Nat) = 67 := by decide +kernel

/-! ## C67 -/

/-- Lebedev-Laikov and Delley: every polynomial up to the tabulated order. -/
theorem C67_octahedral (b : Build) (fam : AngFam) (hf : fam = .lebedevLaikov ∨ fam = .delley) (n : Nat)
    (h : fam.orderByNpts n ≠ -1) (p : MvPolynomial (Fin 3) ℝ)
    (hp : (p.totalDegree : Int) ≤ fam.orderByNpts n) :
    Returns (angConstruct b (angData ℝ) fam n) (fun q =>
      |ruleSum q.points q.weights (polyAt p) - sphereInt (polyAt p)| ≤
        4 * Real.pi / 10 ^ 13 * coeffSum p) := by
  refine ⟨_, angData_construct b fam n h, ?_⟩
  dsimp only
  obtain ⟨s1, s2, -, -⟩ := scaled_real (angData ℝ fam n).weights
  rcases angData_supported ℝ fam n h with ⟨rfl, rows, h1, h2⟩ | ⟨rfl, rows, h1, h2⟩ |
    ⟨rfl, g, h1, h2⟩ | ⟨rfl, g, h1, h2⟩
  · rw [s1, h2]
    obtain ⟨D, hD, hE⟩ := llFacts _ h1 (by
      dsimp only; rintro rfl; exact h (by decide +kernel))
    dsimp only at hD hE
    exact poly_error (fun m hm => octa_mono llPattern_ok hE _ _ _ (by
      have := support_degree (le_refl _) hm
      omega))
  · rw [s2, h2]
    obtain ⟨D, hD, hE⟩ := deFacts _ h1
    dsimp only at hD hE
    exact poly_error (fun m hm => octa_mono dePattern_ok hE _ _ _ (by
      have := support_degree (le_refl _) hm
      omega))
  · simp at hf
  · simp at hf

/-- Ahrens-Beylkin except 552: every polynomial up to the tabulated order that is at most linear in `z`
(on the sphere every polynomial equals one of this form). -/
theorem C67_ahrens_beylkin (b : Build) (n : Nat) (h : AngFam.ahrensBeylkin.orderByNpts n ≠ -1)
    (h552 : n ≠ 552) (p : MvPolynomial (Fin 3) ℝ)
    (hp : (p.totalDegree : Int) ≤ AngFam.ahrensBeylkin.orderByNpts n) (hz : p.degreeOf 2 ≤ 1) :
    Returns (angConstruct b (angData ℝ) .ahrensBeylkin n) (fun q =>
      |ruleSum q.points q.weights (polyAt p) - sphereInt (polyAt p)| ≤ 5 / 10 ^ 14 * coeffSum p) := by
  refine ⟨_, angData_construct b _ n h, ?_⟩
  dsimp only
  obtain ⟨-, -, s3, -⟩ := scaled_real (angData ℝ .ahrensBeylkin n).weights
  rcases angData_supported ℝ .ahrensBeylkin n h with ⟨h0, -⟩ | ⟨h0, -⟩ | ⟨-, g, h1, h2⟩ | ⟨h0, -⟩
  · exact absurd h0 (by decide)
  · exact absurd h0 (by decide)
  · rw [s3, h2]
    obtain ⟨L, hL, hE⟩ := abFacts _ h1 h552
    dsimp only at hL hE
    exact hE.poly (by omega) hz
  · exact absurd h0 (by decide)

/-- The same for polynomials of any form; powers of `z` are removed with the equation of the sphere, each
pair at the cost of a factor 3. -/
theorem C67_ahrens_beylkin_general (b : Build) (n : Nat) (h : AngFam.ahrensBeylkin.orderByNpts n ≠ -1)
    (h552 : n ≠ 552) (p : MvPolynomial (Fin 3) ℝ) (m : Nat)
    (hp : (p.totalDegree : Int) ≤ AngFam.ahrensBeylkin.orderByNpts n) (hm : p.totalDegree ≤ 2 * m + 1) :
    Returns (angConstruct b (angData ℝ) .ahrensBeylkin n) (fun q =>
      |ruleSum q.points q.weights (polyAt p) - sphereInt (polyAt p)| ≤
        3 ^ m * (6 / 10 ^ 14) * coeffSum p) := by
  refine ⟨_, angData_construct b _ n h, ?_⟩
  dsimp only
  have hc : 0 ≤ coeffSum p := Finset.sum_nonneg (fun _ _ => abs_nonneg _)
  obtain ⟨-, -, s3, -⟩ := scaled_real (angData ℝ .ahrensBeylkin n).weights
  rcases angData_supported ℝ .ahrensBeylkin n h with ⟨h0, -⟩ | ⟨h0, -⟩ | ⟨-, g, h1, h2⟩ | ⟨h0, -⟩
  · exact absurd h0 (by decide)
  · exact absurd h0 (by decide)
  · rw [s3, h2]
    obtain ⟨L, hL, hE⟩ := abFacts _ h1 h552
    dsimp only at hL hE
    have hb := abBases _ h1
    have hE3 := hE.mono (L' := p.totalDegree) (by omega) le_rfl
    refine (hE3.poly_full (icosaNorm_real hb.norm) (icosaCoord hb.bEven) (icosaWeightSum_real hb.wsum)
      (by positivity) hm le_rfl).trans (mul_le_mul_of_nonneg_right ?_ hc)
    have h3 : (0 : ℝ) < 3 ^ m := by positivity
    generalize (3 : ℝ) ^ m = t at h3
    nlinarith
  · exact absurd h0 (by decide)

/-- The shipped Ahrens-Beylkin grid with 552 points is not even exact for constants. -/
theorem C67_ab552_violation (b : Build) :
    Returns (angConstruct b (angData ℝ) .ahrensBeylkin 552) (fun q =>
      1 / 3 < |ruleSum q.points q.weights (polyAt 1) - sphereInt (polyAt 1)|) := by
  obtain ⟨q, hq, h1, -⟩ := C63_ab552_violation b
  refine ⟨q, hq, ?_⟩
  have hk : AngFam.ahrensBeylkin.dispatch 552 = some 552 := by decide +kernel
  obtain ⟨-, -, l1, l2, l3⟩ := angConstruct_supported b _ (angData_typed ℝ) _ _ _ hk
  have hlen : q.points.length = q.weights.length := by
    rw [l3] at hq
    injection hq with hq
    subst hq
    simp [l1, l2]
  have e1 : polyAt 1 = fun _ => 1 := by
    funext u; simp [polyAt]
  have e3 : sphereInt (fun _ => 1) = 4 * Real.pi := by
    have := sphereInt_mono_even 0 0 0
    simpa [meanEven, odf] using this
  dsimp only
  rw [e1, e3, ruleSum_one _ _ hlen]
  have := Real.pi_gt_d2
  rw [lt_abs]
  right
  linarith

/-- Womersley. -/
theorem C67_womersley (b : Build) (n : Nat) (h : AngFam.womersley.orderByNpts n ≠ -1)
    (p : MvPolynomial (Fin 3) ℝ)
    (hp : (p.totalDegree : Int) ≤ AngFam.womersley.orderByNpts n) (hz : p.degreeOf 2 ≤ 1) :
    Returns (angConstruct b (angData ℝ) .womersley n) (fun q =>
      |ruleSum q.points q.weights (polyAt p) - sphereInt (polyAt p)| ≤ 5 / 10 ^ 14 * coeffSum p) := by
  refine ⟨_, angData_construct b _ n h, ?_⟩
  dsimp only
  obtain ⟨-, -, -, s4⟩ := scaled_real (angData ℝ .womersley n).weights
  rcases angData_supported ℝ .womersley n h with ⟨h0, -⟩ | ⟨h0, -⟩ | ⟨h0, -⟩ | ⟨-, g, h1, h2⟩
  · exact absurd h0 (by decide)
  · exact absurd h0 (by decide)
  · exact absurd h0 (by decide)
  · rw [s4, h2]
    obtain ⟨L, hL, hE⟩ := woFacts _ h1
    dsimp only at hL hE
    exact hE.poly (by omega) hz

/-- The same for polynomials of any form. -/
theorem C67_womersley_general (b : Build) (n : Nat) (h : AngFam.womersley.orderByNpts n ≠ -1)
    (p : MvPolynomial (Fin 3) ℝ) (m : Nat)
    (hp : (p.totalDegree : Int) ≤ AngFam.womersley.orderByNpts n) (hm : p.totalDegree ≤ 2 * m + 1) :
    Returns (angConstruct b (angData ℝ) .womersley n) (fun q =>
      |ruleSum q.points q.weights (polyAt p) - sphereInt (polyAt p)| ≤
        3 ^ m * (6 / 10 ^ 14) * coeffSum p) := by
  refine ⟨_, angData_construct b _ n h, ?_⟩
  dsimp only
  have hc : 0 ≤ coeffSum p := Finset.sum_nonneg (fun _ _ => abs_nonneg _)
  obtain ⟨-, -, -, s4⟩ := scaled_real (angData ℝ .womersley n).weights
  rcases angData_supported ℝ .womersley n h with ⟨h0, -⟩ | ⟨h0, -⟩ | ⟨h0, -⟩ | ⟨-, g, h1, h2⟩
  · exact absurd h0 (by decide)
  · exact absurd h0 (by decide)
  · exact absurd h0 (by decide)
  · rw [s4, h2]
    obtain ⟨L, hL, hE⟩ := woFacts _ h1
    dsimp only at hL hE
    have hb := (woBases _ h1).2
    have hE3 := hE.mono (L' := p.totalDegree) (by omega) le_rfl
    refine (hE3.poly_full hb.normOk hb.coordOk (wo_abs_sum hb)
      (by positivity) hm le_rfl).trans (mul_le_mul_of_nonneg_right ?_ hc)
    have h3 : (0 : ℝ) < 3 ^ m := by positivity
    generalize (3 : ℝ) ^ m = t at h3
    nlinarith

/-- Sizes and orders to which these apply, and a polynomial of degree 125 without `z`. -/
example : AngFam.lebedevLaikov.orderByNpts (5810 : Nat) = 131 ∧
    AngFam.ahrensBeylkin.orderByNpts (15012 : Nat) = 210 ∧
    AngFam.womersley.orderByNpts (7939 : Nat) = 125 ∧
    (MvPolynomial.X 0 ^ 125 : MvPolynomial (Fin 3) ℝ).totalDegree = 125 ∧
    (MvPolynomial.X 0 ^ 125 : MvPolynomial (Fin 3) ℝ).degreeOf 2 ≤ 1 := by
  refine ⟨by decide +kernel, by decide +kernel, by decide +kernel, ?_, ?_⟩
  · rw [MvPolynomial.totalDegree_X_pow]
  · refine (MvPolynomial.degreeOf_pow_le _ _ _).trans ?_
    rw [MvPolynomial.degreeOf_X_of_ne (by decide)]
    norm_num

end IntegratorXX
