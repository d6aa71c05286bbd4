import Verif.Lemmas.SphereVolume
import Verif.Lemmas.RadialRiemann
import Verif.Lemmas.CompositeForms
import Verif.Lemmas.AngularGrids
import Verif.Model.Factory
import Verif.Spec.Composite

/-!
# Convergence of product grids in space
-/

namespace IntegratorXX

open Spec RadialTraits Set Real MeasureTheory

/-- Length of a vector. -/
noncomputable def len (u : Pt ℝ) : ℝ := √(normSq u)

theorem len_near {u : Pt ℝ} {δ : ℝ} (h : |normSq u - 1| ≤ δ) : |len u - 1| ≤ δ := by
  have hn : 0 ≤ normSq u := by unfold normSq; positivity
  have h0 : 0 ≤ len u := sqrt_nonneg _
  have e : normSq u - 1 = (len u - 1) * (len u + 1) := by
    have := Real.sq_sqrt hn
    unfold len
    linear_combination -this
  rw [e, abs_mul, abs_of_pos (by linarith : 0 < len u + 1)] at h
  nlinarith [abs_nonneg (len u - 1)]

theorem coord_le_len (u : Pt ℝ) : |u.x| ≤ len u ∧ |u.y| ≤ len u ∧ |u.z| ≤ len u := by
  unfold len normSq
  refine ⟨?_, ?_, ?_⟩ <;> (apply Real.abs_le_sqrt; nlinarith [sq_nonneg u.x, sq_nonneg u.y, sq_nonneg u.z])

theorem polyAt_le {p : MvPolynomial (Fin 3) ℝ} {l : ℕ} (hp : p.IsHomogeneous l) (u : Pt ℝ) :
    |polyAt p u| ≤ coeffSum p * len u ^ l := by
  obtain ⟨h1, h2, h3⟩ := coord_le_len u
  have h0 : 0 ≤ len u := sqrt_nonneg _
  rw [polyAt_sum]
  unfold coeffSum
  rw [Finset.sum_mul]
  refine (Finset.abs_sum_le_sum_abs _ _).trans (Finset.sum_le_sum fun m hm => ?_)
  have hd := hp (MvPolynomial.mem_support_iff.1 hm)
  rw [Finsupp.weight_apply, Finsupp.sum_fintype _ _ (by simp), Fin.sum_univ_three] at hd
  simp at hd
  rw [abs_mul, abs_mul, abs_mul, abs_pow, abs_pow, abs_pow, ← hd, pow_add, pow_add]
  have a1 := pow_le_pow_left₀ (abs_nonneg _) h1 (m 0)
  have a2 := pow_le_pow_left₀ (abs_nonneg _) h2 (m 1)
  have a3 := pow_le_pow_left₀ (abs_nonneg _) h3 (m 2)
  exact mul_le_mul_of_nonneg_left (mul_le_mul (mul_le_mul a1 a2 (by positivity) (by positivity)) a3
    (by positivity) (by positivity)) (abs_nonneg _)

/-- Powers of a number near one. -/
theorem pow_near {s δ : ℝ} (hs : |s - 1| ≤ δ) (h0 : 0 ≤ s) : ∀ m : ℕ, m * δ ≤ 1 / 2 → |s ^ m - 1| ≤ 2 * (m * δ)
  | 0, _ => by simp
  | m + 1, h => by
    have hδ : 0 ≤ δ := (abs_nonneg _).trans hs
    push_cast at h ⊢
    have ih := pow_near hs h0 m (by linarith)
    have e : s ^ (m + 1) - 1 = s ^ m * (s - 1) + (s ^ m - 1) := by ring
    have hm : |s ^ m| ≤ 2 := by
      have := abs_add_le (s ^ m - 1) 1
      rw [sub_add_cancel, abs_one] at this
      linarith
    rw [e]
    refine (abs_add_le _ _).trans ?_
    rw [abs_mul]
    have := mul_le_mul hm hs (abs_nonneg _) (by norm_num)
    linarith

/-- Scaling the argument of a radial integral. -/
theorem radial_scale (F : ℝ → ℝ) (k : ℕ) {s : ℝ} (hs : 0 < s) :
    ∫ r in Ioi (0 : ℝ), r ^ k * F (r * s) = (s ^ (k + 1))⁻¹ * ∫ r in Ioi (0 : ℝ), r ^ k * F r := by
  have := integral_comp_mul_right_Ioi (fun r => r ^ k * F r) 0 hs
  rw [zero_mul, smul_eq_mul] at this
  have e : ∀ r : ℝ, r ^ k * F (r * s) = (s ^ k)⁻¹ * ((r * s) ^ k * F (r * s)) := by
    intro r; rw [mul_pow]; field_simp
  simp only [e]
  rw [integral_const_mul, this, pow_succ, mul_inv]
  ring

theorem sph_sum (rl : List (ℝ × ℝ)) (al : List (Pt ℝ × ℝ)) (g : Pt ℝ → ℝ) :
    ruleSum (Quad.ofPairs ((sphEntries rl al).map (shiftEntry (origin ℝ)))).points
      (Quad.ofPairs ((sphEntries rl al).map (shiftEntry (origin ℝ)))).weights g =
    (al.map (fun a => a.2 * (rl.map (fun r =>
      r.2 * (r.1 ^ 2 * g ⟨r.1 * a.1.x, r.1 * a.1.y, r.1 * a.1.z⟩))).sum)).sum := by
  unfold Quad.ofPairs ruleSum
  rw [List.zip_map', List.map_map, List.map_map]
  unfold sphEntries
  rw [List.map_flatMap, List.flatMap_def, List.sum_flatten, List.map_map]
  congr 1
  apply List.map_congr_left
  intro a _
  simp only [Function.comp_def]
  rw [List.map_map, ← List.sum_map_mul_left]
  congr 1
  apply List.map_congr_left
  intro r _
  simp only [Function.comp_def, shiftEntry, sphEntry, combineWt, shiftPt, combinePt, origin, Arith.real_lit]
  simp
  ring

theorem list_sum_abs_sub_le {α : Type} (L : List α) (f g h : α → ℝ) (H : ∀ a ∈ L, |f a - g a| ≤ h a) :
    |(L.map f).sum - (L.map g).sum| ≤ (L.map h).sum := by
  induction L with
  | nil => simp
  | cons a L ih =>
    have h1 := H a (by simp)
    have h2 := ih (fun x hx => H x (by simp [hx]))
    simp only [List.map_cons, List.sum_cons]
    rw [show f a + (L.map f).sum - (g a + (L.map g).sum) = (f a - g a) + ((L.map f).sum - (L.map g).sum) by ring]
    exact (abs_add_le _ _).trans (add_le_add h1 h2)

theorem sum_abs_zip {a : Quad (Pt ℝ) ℝ} (ha : Consistent a) :
    ((a.points.zip a.weights).map (fun e => |e.2|)).sum = (a.weights.map (|·|)).sum := by
  rw [show (fun e : Pt ℝ × ℝ => |e.2|) = (|·|) ∘ Prod.snd from rfl, ← List.map_map,
    List.map_snd_zip (by rw [show a.points.length = a.weights.length from ha])]

/-- Angular part: dividing by powers of the lengths of the nodes hardly matters. -/
theorem angular_scaled {a : Quad (Pt ℝ) ℝ} (ha : Consistent a)
    (hW : (a.weights.map (|·|)).sum ≤ 8 * π) (hunit : ∀ u ∈ a.points, |normSq u - 1| ≤ 1 / 10 ^ 14)
    {p : MvPolynomial (Fin 3) ℝ} {l : ℕ} (hp : p.IsHomogeneous l) (hl : l ≤ 10 ^ 6)
    {τ : ℝ} (hδ : |ruleSum a.points a.weights (polyAt p) - sphereInt (polyAt p)| ≤ τ * coeffSum p) :
    |((a.points.zip a.weights).map (fun e => e.2 * (polyAt p e.1 * (len e.1 ^ (2 + l + 1))⁻¹))).sum -
      sphereInt (polyAt p)| ≤ (4 * π / 10 ^ 13 * (l + 3) + τ) * coeffSum p := by
  have hc : 0 ≤ coeffSum p := Finset.sum_nonneg (fun _ _ => abs_nonneg _)
  have hl' : (l : ℝ) ≤ 10 ^ 6 := by exact_mod_cast hl
  have hl0 : (0 : ℝ) ≤ l := by positivity
  have h1 := list_sum_abs_sub_le (a.points.zip a.weights)
    (fun e => e.2 * (polyAt p e.1 * (len e.1 ^ (2 + l + 1))⁻¹)) (fun e => e.2 * polyAt p e.1)
    (fun e => coeffSum p * (4 * ((l + 3) * (1 / 10 ^ 14))) * |e.2|) (by
      intro e he
      have hw := abs_nonneg e.2
      have hs := len_near (hunit _ (List.of_mem_zip he).1)
      have hp1 := polyAt_le hp e.1
      generalize hse : len e.1 = s at *
      have hs0 : 0 < s := by
        have := (abs_le.1 hs).1
        have : (1 : ℝ) / 10 ^ 14 < 1 := by norm_num
        linarith
      have h3 := pow_near hs hs0.le 3 (by norm_num)
      have hm := pow_near hs hs0.le (2 + l + 1) (by push_cast; linarith)
      have h3' : (1 : ℝ) / 2 ≤ s ^ 3 := by
        have := (abs_le.1 h3).1
        have : 2 * (((3 : ℕ) : ℝ) * (1 / 10 ^ 14)) ≤ 1 / 2 := by norm_num
        linarith
      rw [← mul_sub, abs_mul, mul_comm]
      refine mul_le_mul_of_nonneg_right ?_ hw
      have e1 : polyAt p e.1 * (s ^ (2 + l + 1))⁻¹ - polyAt p e.1 =
          polyAt p e.1 * (s ^ l)⁻¹ * ((s ^ 3)⁻¹ * (1 - s ^ (2 + l + 1))) := by
        rw [show 2 + l + 1 = l + 3 by ring, pow_add]
        field_simp
      rw [e1, abs_mul]
      refine mul_le_mul ?_ ?_ (abs_nonneg _) hc
      · rw [abs_mul, abs_of_pos (by positivity : 0 < (s ^ l)⁻¹), ← div_eq_mul_inv, div_le_iff₀ (by positivity)]
        exact hp1
      · rw [abs_mul, abs_of_pos (by positivity : 0 < (s ^ 3)⁻¹), abs_sub_comm]
        have h4 : (s ^ 3)⁻¹ ≤ 2 := by
          rw [inv_le_comm₀ (by positivity) (by norm_num)]
          linarith
        refine (mul_le_mul h4 hm (abs_nonneg _) (by norm_num)).trans (le_of_eq ?_)
        push_cast
        ring)
  rw [List.sum_map_mul_left, sum_abs_zip ha] at h1
  have h2 : coeffSum p * (4 * ((l + 3) * (1 / 10 ^ 14))) * (a.weights.map (|·|)).sum ≤
      coeffSum p * (4 * ((l + 3) * (1 / 10 ^ 14))) * (8 * π) :=
    mul_le_mul_of_nonneg_left hW (by positivity)
  unfold ruleSum at hδ
  have h3 := abs_sub_le ((a.points.zip a.weights).map
    (fun e => e.2 * (polyAt p e.1 * (len e.1 ^ (2 + l + 1))⁻¹))).sum
    ((a.points.zip a.weights).map (fun e => e.2 * polyAt p e.1)).sum (sphereInt (polyAt p))
  have h4 : coeffSum p * (4 * ((l + 3) * (1 / 10 ^ 14))) * (8 * π) + τ * coeffSum p ≤
      (4 * π / 10 ^ 13 * (l + 3) + τ) * coeffSum p := by
    have : 0 ≤ coeffSum p * π * (l + 3) := by have := pi_pos; positivity
    nlinarith
  linarith

/-- A product grid in space, given convergence of the radial rule. -/
theorem grid_converges (b : Build) {a : Quad (Pt ℝ) ℝ} (ha : Consistent a)
    (hW : (a.weights.map (|·|)).sum ≤ 8 * π) (hunit : ∀ u ∈ a.points, |normSq u - 1| ≤ 1 / 10 ^ 14)
    {p : MvPolynomial (Fin 3) ℝ} {l : ℕ} (hp : p.IsHomogeneous l) (hl : l ≤ 10 ^ 6)
    {τ : ℝ} (hδ : |ruleSum a.points a.weights (polyAt p) - sphereInt (polyAt p)| ≤ τ * coeffSum p)
    (t : ℕ → RadialTraits ℝ) (hv : ∀ n, radialValid (t n)) (hin : ∀ n, (t n).inclusive = false) {F : ℝ → ℝ}
    (hconv : ∀ s : ℝ, |s - 1| ≤ 1 / 10 ^ 14 → ∀ ε : ℝ, 0 < ε → ∃ N : ℕ, ∀ n ≥ N,
      Returns (construct b (t n).generate) (fun q =>
        |ruleSum q.points q.weights (fun r => r ^ (2 + l) * F (r * s)) - ∫ r in Ioi 0, r ^ (2 + l) * F (r * s)| ≤ ε))
    {ε : ℝ} (hε : 0 < ε) :
    ∃ N : ℕ, ∀ n ≥ N, ∃ r, construct b (t n).generate = .ok r ∧ Returns (sphConstruct b r a (origin ℝ)) (fun s =>
      |ruleSum s.quad.points s.quad.weights (fun u => F (√(normSq u)) * polyAt p u) -
        ∫ x : E3, F ‖x‖ * polyAt p (toPt x)| ≤
        ε + (4 * π / 10 ^ 13 * (l + 3) + τ) * coeffSum p * |∫ r in Ioi (0 : ℝ), r ^ (2 + l) * F r|) := by
  have hc : 0 ≤ coeffSum p := Finset.sum_nonneg (fun _ _ => abs_nonneg _)
  have hl' : (l : ℝ) ≤ 10 ^ 6 := by exact_mod_cast hl
  have hπ := pi_pos
  obtain ⟨κ, hκ⟩ : ∃ κ, κ = ε / (16 * π * coeffSum p + 1) := ⟨_, rfl⟩
  have hκ0 : 0 < κ := by rw [hκ]; positivity
  have hκ1 : coeffSum p * 2 * κ * (8 * π) ≤ ε := by
    have : κ * (16 * π * coeffSum p + 1) = ε := by rw [hκ]; field_simp
    nlinarith
  have hev : ∀ᶠ n in Filter.atTop, ∀ u ∈ {u | u ∈ a.points}, Returns (construct b (t n).generate) (fun q =>
      |ruleSum q.points q.weights (fun r => r ^ (2 + l) * F (r * len u)) -
        ∫ r in Ioi 0, r ^ (2 + l) * F (r * len u)| ≤ κ) := by
    rw [Filter.eventually_all_finite (List.finite_toSet a.points)]
    intro u hu
    obtain ⟨N, hN⟩ := hconv (len u) (len_near (hunit u hu)) κ hκ0
    exact Filter.eventually_atTop.2 ⟨N, hN⟩
  obtain ⟨N, hN⟩ := Filter.eventually_atTop.1 hev
  refine ⟨N, fun n hn => ?_⟩
  have hN := hN n hn
  have hgen := generate_real' (t n) (by simp [hin])
  rw [hgen, construct_ok b (by simp)] at hN ⊢
  refine ⟨_, rfl, ?_⟩
  obtain ⟨q, hq⟩ : ∃ q : Quad ℝ ℝ, q = ⟨(List.range (t n).npts).map (fun i => (t n).transform ((t n).nodeXR i)),
      (List.range (t n).npts).map (fun i => (t n).nodeWR i * (t n).jacobian ((t n).nodeXR i))⟩ := ⟨_, rfl⟩
  rw [← hq] at hN ⊢
  have hqc : q.points.length = q.weights.length := by rw [hq]; simp
  have hqpos : ∀ r ∈ q.points, 0 ≤ r := by
    intro r hr
    rw [hq] at hr
    obtain ⟨i, hi, rfl⟩ := List.mem_map.1 hr
    rw [transform_eq_radialMap]
    exact (radialMap_pos _ (hv n) (nodeXR_mem _ (List.mem_range.1 hi))).le
  refine ⟨_, by rw [Quad.eq_ofPairs q hqc, Quad.eq_ofPairs a ha]; exact sphConstruct_eq b _ _ _, ?_⟩
  dsimp only
  rw [sph_sum, space_integral hp]
  obtain ⟨I, hI⟩ : ∃ I, I = ∫ r in Ioi (0 : ℝ), r ^ (2 + l) * F r := ⟨_, rfl⟩
  rw [← hI]
  have hA := angular_scaled ha hW hunit hp hl hδ
  generalize hS : ((a.points.zip a.weights).map
    (fun e => e.2 * (polyAt p e.1 * (len e.1 ^ (2 + l + 1))⁻¹))).sum = S at hA
  have h1 := list_sum_abs_sub_le (a.points.zip a.weights)
    (fun e => e.2 * ((q.points.zip q.weights).map (fun r => r.2 * (r.1 ^ 2 *
      (fun u => F (√(normSq u)) * polyAt p u) ⟨r.1 * e.1.x, r.1 * e.1.y, r.1 * e.1.z⟩))).sum)
    (fun e => I * (e.2 * (polyAt p e.1 * (len e.1 ^ (2 + l + 1))⁻¹)))
    (fun e => coeffSum p * 2 * κ * |e.2|) (by
      intro e he
      have hw := abs_nonneg e.2
      have hs := len_near (hunit _ (List.of_mem_zip he).1)
      have hp1 := polyAt_le hp e.1
      obtain ⟨q', hq', hR⟩ := hN e.1 (List.of_mem_zip he).1
      injection hq' with hq'
      subst hq'
      have hs0 : 0 < len e.1 := by
        have := (abs_le.1 hs).1
        have : (1 : ℝ) / 10 ^ 14 < 1 := by norm_num
        linarith
      have hsum : ((q.points.zip q.weights).map (fun r => r.2 * (r.1 ^ 2 *
          (fun u => F (√(normSq u)) * polyAt p u) ⟨r.1 * e.1.x, r.1 * e.1.y, r.1 * e.1.z⟩))).sum =
          polyAt p e.1 * ruleSum q.points q.weights (fun r => r ^ (2 + l) * F (r * len e.1)) := by
        unfold ruleSum
        rw [← List.sum_map_mul_left]
        congr 1
        apply List.map_congr_left
        intro r hr
        have hr0 := hqpos _ (List.of_mem_zip hr).1
        have e1 : √(normSq ⟨r.1 * e.1.x, r.1 * e.1.y, r.1 * e.1.z⟩) = r.1 * len e.1 := by
          unfold len
          rw [← Real.sqrt_sq hr0, ← Real.sqrt_mul (sq_nonneg _), Real.sqrt_sq hr0]
          congr 1
          unfold normSq
          ring
        dsimp only
        rw [e1, polyAt_smul hp, pow_add]
        ring
      rw [hsum]
      rw [radial_scale F (2 + l) hs0, ← hI] at hR
      have hpl : |polyAt p e.1| ≤ coeffSum p * 2 := by
        refine hp1.trans (mul_le_mul_of_nonneg_left ?_ hc)
        have h5 := pow_near hs hs0.le l (by linarith)
        have := (abs_le.1 h5).2
        linarith
      have e2 : e.2 * (polyAt p e.1 * ruleSum q.points q.weights (fun r => r ^ (2 + l) * F (r * len e.1))) -
          I * (e.2 * (polyAt p e.1 * (len e.1 ^ (2 + l + 1))⁻¹)) =
          polyAt p e.1 * (ruleSum q.points q.weights (fun r => r ^ (2 + l) * F (r * len e.1)) -
            (len e.1 ^ (2 + l + 1))⁻¹ * I) * e.2 := by ring
      rw [e2, abs_mul, abs_mul]
      exact mul_le_mul_of_nonneg_right (mul_le_mul hpl hR (abs_nonneg _) (by positivity)) hw)
  rw [List.sum_map_mul_left, List.sum_map_mul_left, hS, sum_abs_zip ha] at h1
  have h2 : coeffSum p * 2 * κ * (a.weights.map (|·|)).sum ≤ ε :=
    (mul_le_mul_of_nonneg_left hW (by positivity)).trans hκ1
  have h3 : |I * S - sphereInt (polyAt p) * I| ≤ (4 * π / 10 ^ 13 * (l + 3) + τ) * coeffSum p * |I| := by
    rw [mul_comm I, ← sub_mul, abs_mul]
    exact mul_le_mul_of_nonneg_right hA (abs_nonneg _)
  refine (abs_sub_le _ (I * S) _).trans ?_
  linarith

end IntegratorXX
