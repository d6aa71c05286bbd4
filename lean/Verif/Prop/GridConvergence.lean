import Verif.Lemmas.GridConv
import Verif.Prop.RadialConvergence
import Verif.Prop.AngularData
import Verif.Prop.AngularStability

/-!
# C81: grids built by the factory integrate over space

The reference is Lebesgue measure of `EuclideanSpace ℝ (Fin 3)`.
-/

namespace IntegratorXX

open Spec RadialTraits Set Real MeasureTheory Metric

/-- The iterated integral in angles, used as the exact value in C63-C67, is the integral over the unit sphere in the
surface measure induced by Lebesgue measure of space. -/
theorem C81_sphereInt_is_surface_integral (p : MvPolynomial (Fin 3) ℝ) :
    sphereInt (polyAt p) = ∫ u : sphere (0 : E3) 1, polyAt p ⟨u.1 0, u.1 1, u.1 2⟩ ∂(volume : Measure E3).toSphere :=
  (toSphere_poly p).symm

theorem order_le (fam : AngFam) (n : Nat) (h : fam.orderByNpts n ≠ -1) : fam.orderByNpts n ≤ 10 ^ 6 := by
  have hm := (fam.orderByNpts_iff _ _).1 ⟨rfl, h⟩
  have : ∀ e ∈ fam.entries, e.1 ≤ (10 ^ 6 : Int) := by
    cases fam <;> decide +kernel
  exact this _ hm

/-- What is used of an angular grid. -/
theorem angular_facts (b : Build) (fam : AngFam) (nang : Nat) (h : fam.orderByNpts nang ≠ -1)
    (ha : ¬ (fam = .ahrensBeylkin ∧ nang = 552))
    {p : MvPolynomial (Fin 3) ℝ} {l : ℕ} (hp : p.IsHomogeneous l) (hdeg : (l : Int) ≤ fam.orderByNpts nang) :
    ∃ a, angConstruct b (angData ℝ) fam nang = .ok a ∧ Consistent a ∧
      (a.weights.map (|·|)).sum ≤ 8 * π ∧ (∀ u ∈ a.points, |normSq u - 1| ≤ 1 / 10 ^ 14) ∧
      |ruleSum a.points a.weights (polyAt p) - sphereInt (polyAt p)| ≤ tableErr fam l * coeffSum p := by
  have hk : fam.dispatch nang = some nang := by
    rw [fam.dispatch_iff]
    exact ⟨rfl, _, (fam.orderByNpts_iff _ _).1 ⟨rfl, h⟩⟩
  obtain ⟨-, -, l1, l2, l3⟩ := angConstruct_supported b _ (angData_typed ℝ) fam nang nang hk
  have htd : p.totalDegree ≤ l := hp.totalDegree_le
  obtain ⟨a, e, h1⟩ := C65_abs_sum b fam nang h
  obtain ⟨a', e', h2⟩ := C64_unit_points b fam nang h
  rw [e] at e'
  injection e' with e'
  rw [← e'] at h2
  obtain ⟨a', e', h4⟩ : Returns (angConstruct b (angData ℝ) fam nang) (fun q =>
      |ruleSum q.points q.weights (polyAt p) - sphereInt (polyAt p)| ≤ tableErr fam l * coeffSum p) := by
    cases fam with
    | lebedevLaikov => exact C67_octahedral b _ (Or.inl rfl) nang h p (by omega)
    | delley => exact C67_octahedral b _ (Or.inr rfl) nang h p (by omega)
    | ahrensBeylkin => exact C67_ahrens_beylkin_general b nang h (fun e => ha ⟨rfl, e⟩) p (l / 2) (by omega) (by omega)
    | womersley => exact C67_womersley_general b nang h p (l / 2) (by omega) (by omega)
  rw [e] at e'
  injection e' with e'
  rw [← e'] at h4
  refine ⟨a, e, ?_, h1, h2, h4⟩
  · rw [e] at l3
    injection l3 with l3
    subst l3
    simp [Consistent, l1, l2]

/-- **C81.**  A grid `Becke × angular` of the factory converges, as the number of radial points grows, to the integral
over space of `F(|x|) p(x)`, for `p` homogeneous of degree at most the order of the angular grid, up to the relative
error of about `1e-13` (per degree; more for the families without octahedral symmetry, see `tableErr`) with which the
angular tables are written down. -/
theorem C81_becke_grid_converges (b : Build) (fam : AngFam) (nang : Nat) (h : fam.orderByNpts nang ≠ -1)
    (ha : ¬ (fam = .ahrensBeylkin ∧ nang = 552))
    {p : MvPolynomial (Fin 3) ℝ} {l : ℕ} (hp : p.IsHomogeneous l) (hdeg : (l : Int) ≤ fam.orderByNpts nang)
    {R : ℝ} (hR : 0 < R) {F : ℝ → ℝ} (hF : ContinuousOn F (Ioi 0)) {C : ℝ}
    (hdecay : ∀ r > 0, r ^ (2 + l) * |F r| * (R + r) ^ 2 ≤ C) {ε : ℝ} (hε : 0 < ε) :
    Integrable (fun x : E3 => F ‖x‖ * polyAt p ⟨x 0, x 1, x 2⟩) ∧
    ∃ N : ℕ, ∀ n ≥ N,
      Returns (generateGridUnpruned b (angData ℝ) ⟨.becke, some (.becke n R), .fam fam, nang⟩) (fun s =>
        |ruleSum s.quad.points s.quad.weights (fun u => F (√(normSq u)) * polyAt p u) -
          ∫ x : E3, F ‖x‖ * polyAt p ⟨x 0, x 1, x 2⟩| ≤
          ε + (4 * π / 10 ^ 13 * (l + 3) + tableErr fam l) * coeffSum p * |∫ r in Ioi (0 : ℝ), r ^ (2 + l) * F r|) := by
  obtain ⟨a, e, a1, a2, a3, a4⟩ := angular_facts b fam nang h ha hp hdeg
  have hlb : l ≤ 10 ^ 6 := by
    have := order_le fam nang h
    omega
  have hcont : ∀ s : ℝ, 0 < s → ContinuousOn (fun r => r ^ (2 + l) * F (r * s)) (Ioi 0) := fun s hs =>
    (continuous_pow _).continuousOn.mul (hF.comp (by fun_prop) fun r hr => mul_pos hr hs)
  have hconv : ∀ s : ℝ, |s - 1| ≤ 1 / 10 ^ 14 → ∀ ε : ℝ, 0 < ε →
      IntegrableOn (fun r => r ^ (2 + l) * F (r * s)) (Ioi 0) ∧ ∃ N : ℕ, ∀ n ≥ N,
      Returns (construct b (becke n R).generate) (fun q =>
        |ruleSum q.points q.weights (fun r => r ^ (2 + l) * F (r * s)) - ∫ r in Ioi 0, r ^ (2 + l) * F (r * s)| ≤ ε) := by
    intro s hs ε hε
    have hs0 : 1 / 2 ≤ s := by
      have := (abs_le.1 hs).1
      have : (1 : ℝ) / 10 ^ 14 < 1 / 2 := by norm_num
      linarith
    have hs1 : 0 < s := by linarith
    refine C80_becke_converges b hR (hcont s hs1) (C := (s ^ (2 + l))⁻¹ * 4 * C) (fun r hr => ?_) hε
    have hd := hdecay (r * s) (mul_pos hr hs1)
    rw [abs_mul, abs_of_pos (by positivity : 0 < r ^ (2 + l))]
    have e1 : r ^ (2 + l) * |F (r * s)| * (R + r) ^ 2 ≤
        (s ^ (2 + l))⁻¹ * 4 * ((r * s) ^ (2 + l) * |F (r * s)| * (R + r * s) ^ 2) := by
      rw [mul_pow]
      have e2 : (s ^ (2 + l))⁻¹ * 4 * (r ^ (2 + l) * s ^ (2 + l) * |F (r * s)| * (R + r * s) ^ 2) =
          r ^ (2 + l) * |F (r * s)| * (4 * (R + r * s) ^ 2) := by field_simp
      rw [e2]
      refine mul_le_mul_of_nonneg_left ?_ (by positivity)
      have : R + r ≤ 2 * (R + r * s) := by nlinarith
      calc (R + r) ^ 2 ≤ (2 * (R + r * s)) ^ 2 := pow_le_pow_left₀ (by positivity) this 2
        _ = 4 * (R + r * s) ^ 2 := by ring
    exact e1.trans (mul_le_mul_of_nonneg_left hd (by positivity))
  refine ⟨space_integrable hp ?_, ?_⟩
  · have := (hconv 1 (by norm_num) 1 one_pos).1
    simpa using this
  obtain ⟨N, hN⟩ := grid_converges b a1 a2 a3 hp hlb a4 (fun n => becke n R) (fun _ => hR) (fun _ => rfl)
    (fun s hs ε hε => (hconv s hs ε hε).2) hε
  refine ⟨N, fun n hn => ?_⟩
  obtain ⟨r, hr, hs⟩ := hN n hn
  have e2 : generateGridUnpruned b (angData ℝ) ⟨.becke, some (.becke n R), .fam fam, nang⟩ =
      sphConstruct b r a (origin ℝ) := by
    simp only [generateGridUnpruned, generateUnprunedGrid, radialGenerate, e, hr]
    rfl
  rw [e2]
  exact hs

/-- The same for `TreutlerAhlrichs × angular`, for integrands with an exponential decay slightly faster than that of
the transformation. -/
theorem C81_ta_grid_converges (b : Build) (fam : AngFam) (nang : Nat) (h : fam.orderByNpts nang ≠ -1)
    (ha : ¬ (fam = .ahrensBeylkin ∧ nang = 552))
    {p : MvPolynomial (Fin 3) ℝ} {l : ℕ} (hp : p.IsHomogeneous l) (hdeg : (l : Int) ≤ fam.orderByNpts nang)
    {R α : ℝ} (hR : 0 < R) (hα : 0 ≤ α) {F : ℝ → ℝ} (hF : ContinuousOn F (Ioi 0)) {C κ : ℝ}
    (hκ : 0.6932 / R ≤ κ) (hdecay : ∀ r > 0, r ^ (2 + l) * |F r| ≤ C * exp (-(κ * r))) {ε : ℝ} (hε : 0 < ε) :
    Integrable (fun x : E3 => F ‖x‖ * polyAt p ⟨x 0, x 1, x 2⟩) ∧
    ∃ N : ℕ, ∀ n ≥ N,
      Returns (generateGridUnpruned b (angData ℝ) ⟨.treutlerAhlrichs, some (.ta n R α), .fam fam, nang⟩) (fun s =>
        |ruleSum s.quad.points s.quad.weights (fun u => F (√(normSq u)) * polyAt p u) -
          ∫ x : E3, F ‖x‖ * polyAt p ⟨x 0, x 1, x 2⟩| ≤
          ε + (4 * π / 10 ^ 13 * (l + 3) + tableErr fam l) * coeffSum p * |∫ r in Ioi (0 : ℝ), r ^ (2 + l) * F r|) := by
  obtain ⟨a, e, a1, a2, a3, a4⟩ := angular_facts b fam nang h ha hp hdeg
  have hlb : l ≤ 10 ^ 6 := by
    have := order_le fam nang h
    omega
  have hcont : ∀ s : ℝ, 0 < s → ContinuousOn (fun r => r ^ (2 + l) * F (r * s)) (Ioi 0) := fun s hs =>
    (continuous_pow _).continuousOn.mul (hF.comp (by fun_prop) fun r hr => mul_pos hr hs)
  have hC : 0 ≤ C := by
    have := hdecay 1 one_pos
    have h2 : 0 ≤ (1 : ℝ) ^ (2 + l) * |F 1| := by positivity
    have h3 := exp_pos (-(κ * 1))
    by_contra hneg
    push Not at hneg
    nlinarith
  have hconv : ∀ s : ℝ, |s - 1| ≤ 1 / 10 ^ 14 → ∀ ε : ℝ, 0 < ε →
      IntegrableOn (fun r => r ^ (2 + l) * F (r * s)) (Ioi 0) ∧ ∃ N : ℕ, ∀ n ≥ N,
      Returns (construct b (ta n R α).generate) (fun q =>
        |ruleSum q.points q.weights (fun r => r ^ (2 + l) * F (r * s)) - ∫ r in Ioi 0, r ^ (2 + l) * F (r * s)| ≤ ε) := by
    intro s hs ε hε
    have hsl := (abs_le.1 hs).1
    have hs0 : 1 / 2 ≤ s := by
      have : (1 : ℝ) / 10 ^ 14 < 1 / 2 := by norm_num
      linarith
    have hs1 : 0 < s := by linarith
    refine C80_ta_converges b hR hα (hcont s hs1) (C := (s ^ (2 + l))⁻¹ * C) (fun r hr => ?_) hε
    have hd := hdecay (r * s) (mul_pos hr hs1)
    rw [abs_mul, abs_of_pos (by positivity : 0 < r ^ (2 + l))]
    have e1 : r ^ (2 + l) * |F (r * s)| = (s ^ (2 + l))⁻¹ * ((r * s) ^ (2 + l) * |F (r * s)|) := by
      rw [mul_pow]
      field_simp
    rw [e1, mul_assoc]
    refine mul_le_mul_of_nonneg_left (hd.trans (mul_le_mul_of_nonneg_left ?_ hC)) (by positivity)
    rw [exp_le_exp, neg_le_neg_iff]
    have hlit : ln2Literal ≤ 0.6932 * s := by
      have : ln2Literal ≤ 0.69315 := by unfold ln2Literal; norm_num
      linarith
    have h1 : 0.6932 ≤ κ * R := by rwa [div_le_iff₀ hR] at hκ
    rw [div_le_iff₀ hR]
    have h2 : 0.6932 * s * r ≤ κ * R * s * r :=
      mul_le_mul_of_nonneg_right (mul_le_mul_of_nonneg_right h1 hs1.le) (le_of_lt hr)
    have h3 := mul_le_mul_of_nonneg_right hlit (le_of_lt hr)
    linarith
  refine ⟨space_integrable hp ?_, ?_⟩
  · have := (hconv 1 (by norm_num) 1 one_pos).1
    simpa using this
  obtain ⟨N, hN⟩ := grid_converges b a1 a2 a3 hp hlb a4 (fun n => ta n R α) (fun _ => ⟨hR, hα⟩) (fun _ => rfl)
    (fun s hs ε hε => (hconv s hs ε hε).2) hε
  refine ⟨N, fun n hn => ?_⟩
  obtain ⟨r, hr, hs⟩ := hN n hn
  have e2 : generateGridUnpruned b (angData ℝ) ⟨.treutlerAhlrichs, some (.ta n R α), .fam fam, nang⟩ =
      sphConstruct b r a (origin ℝ) := by
    simp only [generateGridUnpruned, generateUnprunedGrid, radialGenerate, e, hr]
    rfl
  rw [e2]
  exact hs

/-- Every hypothesis of the Becke theorem is met by the Gaussian `exp(-|x|²)`, times `x y`, on the 302-point
Lebedev-Laikov grid. -/
example (ε : ℝ) (hε : 0 < ε) (b : Build) :
    Integrable (fun x : E3 => exp (-‖x‖ ^ 2) * polyAt (MvPolynomial.X 0 * MvPolynomial.X 1) ⟨x 0, x 1, x 2⟩) ∧
    ∃ N : ℕ, ∀ n ≥ N,
      Returns (generateGridUnpruned b (angData ℝ) ⟨.becke, some (.becke n 1), .fam .lebedevLaikov, 302⟩) (fun s =>
        |ruleSum s.quad.points s.quad.weights
            (fun u => exp (-√(normSq u) ^ 2) * polyAt (MvPolynomial.X 0 * MvPolynomial.X 1) u) -
          ∫ x : E3, exp (-‖x‖ ^ 2) * polyAt (MvPolynomial.X 0 * MvPolynomial.X 1) ⟨x 0, x 1, x 2⟩| ≤
          ε + (4 * π / 10 ^ 13 * ((2 : ℕ) + 3) + 4 * π / 10 ^ 13) * coeffSum (MvPolynomial.X 0 * MvPolynomial.X 1) *
            |∫ r in Ioi (0 : ℝ), r ^ (2 + 2) * exp (-r ^ 2)|) := by
  refine C81_becke_grid_converges b .lebedevLaikov 302 (by decide +kernel) (by decide)
    (l := 2) ((MvPolynomial.isHomogeneous_X ℝ 0).mul (MvPolynomial.isHomogeneous_X ℝ 1)) (by decide +kernel)
    one_pos (F := fun r => exp (-r ^ 2)) (by fun_prop) (C := 4 * (2 + 6)) (fun r hr => ?_) hε
  rw [abs_of_pos (exp_pos _), exp_neg]
  have h1 := pow_div_factorial_le_exp (r ^ 2) (by positivity) 2
  have h2 := pow_div_factorial_le_exp (r ^ 2) (by positivity) 3
  have hE := exp_pos (r ^ 2)
  norm_num [Nat.factorial] at h1 h2
  have h3 : (1 + r) ^ 2 ≤ 4 * (1 + r ^ 2) := by nlinarith [sq_nonneg (1 - r)]
  have h4 : r ^ 4 * (1 + r) ^ 2 ≤ 4 * (2 + 6) * exp (r ^ 2) := by
    calc r ^ 4 * (1 + r) ^ 2 ≤ r ^ 4 * (4 * (1 + r ^ 2)) := mul_le_mul_of_nonneg_left h3 (by positivity)
      _ = 4 * ((r ^ 2) ^ 2 + (r ^ 2) ^ 3) := by ring
      _ ≤ _ := by linarith
  calc r ^ (2 + 2) * (exp (r ^ 2))⁻¹ * (1 + r) ^ 2 = r ^ 4 * (1 + r) ^ 2 / exp (r ^ 2) := by
        rw [div_eq_mul_inv]; ring
    _ ≤ _ := by rw [div_le_iff₀ hE]; exact h4

/-- The angular hypotheses are met by a polynomial of degree 7 on a Womersley grid. -/
example : AngFam.womersley.orderByNpts (128 : Nat) ≠ -1 ∧ ((7 : Nat) : Int) ≤ AngFam.womersley.orderByNpts (128 : Nat) ∧
    tableErr .womersley 7 < 4 * π / 10 ^ 12 := by
  refine ⟨by decide +kernel, by decide +kernel, ?_⟩
  have := pi_gt_three
  simp only [tableErr]
  norm_num
  linarith

/-- The decay hypothesis of the Treutler-Ahlrichs theorem is met by `exp(-2r)/r²` at `R = 1`. -/
example : ∀ r > (0 : ℝ), r ^ (2 + 0) * |exp (-(2 * r)) / r ^ 2| ≤ 1 * exp (-(2 * r)) := by
  intro r hr
  rw [abs_of_pos (by positivity)]
  apply le_of_eq
  field_simp

end IntegratorXX
