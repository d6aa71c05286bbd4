import Verif.Lemmas.GridConv

/-!
# The error of pruned product grids in space
-/

namespace IntegratorXX

open Spec RadialTraits Set Real MeasureTheory

/-- The regions of a radial grid, put together, are the radial grid. -/
theorem tiles_slices {A α : Type} (l : List α) : ∀ (regions : List (Nat × A)) (i : Nat),
    (regions.map Prod.fst).head? = some i → (regions.map Prod.fst).Pairwise (· < ·) →
    (∀ e ∈ regions, e.1 < l.length) →
    (tiles l.length regions).flatMap (fun e => (l.take e.1.2).drop e.1.1) = l.drop i
  | [], _, h, _, _ => by simp at h
  | [(k, a)], i, h, _, _ => by
    obtain rfl : k = i := by simpa using h
    simp [tiles]
  | (k, a) :: (j, a') :: rest, i, h, hp, hlt => by
    obtain rfl : k = i := by simpa using h
    have hkj : k < j := by simp at hp; exact hp.1.1
    have ih := tiles_slices l ((j, a') :: rest) j (by simp) (by simp at hp ⊢; exact hp.2)
      (fun e he => hlt e (by simp at he ⊢; exact .inr he))
    have hj := hlt (j, a') (by simp)
    simp only [tiles, List.flatMap_cons, ih]
    dsimp only at hj
    have e1 : l.drop j = (l.drop k).drop (j - k) := by rw [List.drop_drop]; congr 1; omega
    rw [e1, List.drop_take, List.take_append_drop]

theorem sum_swap {α β : Type} (L : List α) (M : List β) (f : α → β → ℝ) :
    (L.map (fun a => (M.map (fun b => f a b)).sum)).sum = (M.map (fun b => (L.map (fun a => f a b)).sum)).sum := by
  induction L with
  | nil => simp
  | cons a L ih =>
    simp only [List.map_cons, List.sum_cons, ih]
    rw [← List.sum_map_add]

/-- What is needed of an angular rule for the integrand `p`. -/
structure AngOk (p : MvPolynomial (Fin 3) ℝ) (δ : ℝ) (a : Quad (Pt ℝ) ℝ) : Prop where
  len : Consistent a
  abs : (a.weights.map (|·|)).sum ≤ 8 * π
  unit : ∀ u ∈ a.points, |normSq u - 1| ≤ 1 / 10 ^ 14
  err : |ruleSum a.points a.weights (polyAt p) - sphereInt (polyAt p)| ≤ δ

/-- One shell. -/
theorem shell_error {p : MvPolynomial (Fin 3) ℝ} {l : ℕ} (hp : p.IsHomogeneous l) (hl : l ≤ 10 ^ 6) {δ : ℝ}
    {a : Quad (Pt ℝ) ℝ} (ha : AngOk p δ a) {F H : ℝ → ℝ} {ρ : ℝ} (hρ : 0 < ρ)
    (hH : ∀ s, |s - 1| ≤ 1 / 10 ^ 14 → |ρ ^ (2 + l) * (F (ρ * s) - F ρ)| ≤ H ρ) :
    |((a.points.zip a.weights).map (fun e => e.2 * (ρ ^ 2 *
        (fun u => F (√(normSq u)) * polyAt p u) ⟨ρ * e.1.x, ρ * e.1.y, ρ * e.1.z⟩))).sum -
      sphereInt (polyAt p) * (ρ ^ (2 + l) * F ρ)| ≤
      δ * |ρ ^ (2 + l) * F ρ| + 16 * π * coeffSum p * H ρ := by
  have hc : 0 ≤ coeffSum p := Finset.sum_nonneg (fun _ _ => abs_nonneg _)
  have hH0 : 0 ≤ H ρ := (abs_nonneg _).trans (hH 1 (by norm_num))
  have hl' : (l : ℝ) ≤ 10 ^ 6 := by exact_mod_cast hl
  have h1 := list_sum_abs_sub_le (a.points.zip a.weights)
    (fun e => e.2 * (ρ ^ 2 * (fun u => F (√(normSq u)) * polyAt p u) ⟨ρ * e.1.x, ρ * e.1.y, ρ * e.1.z⟩))
    (fun e => ρ ^ (2 + l) * F ρ * (e.2 * polyAt p e.1)) (fun e => coeffSum p * 2 * H ρ * |e.2|) (by
      intro e he
      have hs := len_near (ha.unit _ (List.of_mem_zip he).1)
      have hp1 := polyAt_le hp e.1
      have hs0 : 0 ≤ len e.1 := sqrt_nonneg _
      have e1 : √(normSq ⟨ρ * e.1.x, ρ * e.1.y, ρ * e.1.z⟩) = ρ * len e.1 := by
        unfold len
        rw [← Real.sqrt_sq hρ.le, ← Real.sqrt_mul (sq_nonneg _), Real.sqrt_sq hρ.le]
        congr 1
        unfold normSq
        ring
      dsimp only
      rw [e1, polyAt_smul hp]
      have hpl : |polyAt p e.1| ≤ coeffSum p * 2 := by
        refine hp1.trans (mul_le_mul_of_nonneg_left ?_ hc)
        have h5 := pow_near hs hs0 l (by linarith)
        have := (abs_le.1 h5).2
        linarith
      have e2 : e.2 * (ρ ^ 2 * (F (ρ * len e.1) * (ρ ^ l * polyAt p e.1))) -
          ρ ^ (2 + l) * F ρ * (e.2 * polyAt p e.1) =
          polyAt p e.1 * (ρ ^ (2 + l) * (F (ρ * len e.1) - F ρ)) * e.2 := by
        rw [pow_add]; ring
      rw [e2, abs_mul, abs_mul]
      exact mul_le_mul_of_nonneg_right (mul_le_mul hpl (hH _ hs) (abs_nonneg _) (by positivity)) (abs_nonneg _))
  rw [List.sum_map_mul_left, List.sum_map_mul_left, sum_abs_zip ha.len] at h1
  have h2 : coeffSum p * 2 * H ρ * (a.weights.map (|·|)).sum ≤ coeffSum p * 2 * H ρ * (8 * π) :=
    mul_le_mul_of_nonneg_left ha.abs (by positivity)
  have h3 := mul_le_mul_of_nonneg_right ha.err (abs_nonneg (ρ ^ (2 + l) * F ρ))
  unfold ruleSum at h3
  rw [← abs_mul, sub_mul, mul_comm _ (ρ ^ (2 + l) * F ρ)] at h3
  refine (abs_sub_le _ _ _).trans ((add_le_add h1 h3).trans ?_)
  linarith

/-- The value of a pruned grid. -/
theorem pruned_sum (rl : List (ℝ × ℝ)) (es : List ((Nat × Nat) × Quad (Pt ℝ) ℝ)) (g : Pt ℝ → ℝ) :
    ruleSum (Quad.ofPairs ((es.flatMap (regionEntries rl)).map (shiftEntry (origin ℝ)))).points
      (Quad.ofPairs ((es.flatMap (regionEntries rl)).map (shiftEntry (origin ℝ)))).weights g =
    (es.map (fun e => (((rl.take e.1.2).drop e.1.1).map (fun r => r.2 *
      ((e.2.points.zip e.2.weights).map (fun a => a.2 * (r.1 ^ 2 *
        g ⟨r.1 * a.1.x, r.1 * a.1.y, r.1 * a.1.z⟩))).sum)).sum)).sum := by
  induction es with
  | nil => simp [Quad.ofPairs, ruleSum]
  | cons e es ih =>
    have e1 : ∀ u v : List (Pt ℝ × ℝ), ruleSum (Quad.ofPairs (u ++ v)).points (Quad.ofPairs (u ++ v)).weights g =
        ruleSum (Quad.ofPairs u).points (Quad.ofPairs u).weights g +
        ruleSum (Quad.ofPairs v).points (Quad.ofPairs v).weights g := by
      intro u v
      simp only [Quad.ofPairs, ruleSum, List.zip_map', List.map_map]
      rw [List.map_append, List.sum_append]
    rw [List.flatMap_cons, List.map_append, e1, ih, List.map_cons, List.sum_cons]
    congr 1
    unfold regionEntries
    rw [sph_sum]
    simp only [← List.sum_map_mul_left]
    rw [sum_swap]
    congr 1
    apply List.map_congr_left
    intro r _
    congr 1
    apply List.map_congr_left
    intro a _
    ring

/-- The error of a pruned grid. -/
theorem pruned_error {p : MvPolynomial (Fin 3) ℝ} {l : ℕ} (hp : p.IsHomogeneous l) (hl : l ≤ 10 ^ 6) {δ : ℝ}
    {r : Quad ℝ ℝ} (hr : Consistent r) (hpos : ∀ x ∈ r.points, 0 < x) (hw : ∀ x ∈ r.weights, 0 ≤ x)
    {regions : List (Nat × Quad (Pt ℝ) ℝ)} (hs : StartsOk regions) (hlt : ∀ e ∈ regions, e.1 < r.npts)
    (ha : ∀ e ∈ regions, AngOk p δ e.2) {F H : ℝ → ℝ}
    (hH : ∀ ρ > 0, ∀ s, |s - 1| ≤ 1 / 10 ^ 14 → |ρ ^ (2 + l) * (F (ρ * s) - F ρ)| ≤ H ρ)
    {S : Quad (Pt ℝ) ℝ} (hS : S = Quad.ofPairs (((tiles r.npts regions).flatMap
      (regionEntries (r.points.zip r.weights))).map (shiftEntry (origin ℝ)))) :
    |ruleSum S.points S.weights (fun u => F (√(normSq u)) * polyAt p u) -
        ∫ x : E3, F ‖x‖ * polyAt p (toPt x)| ≤
      |sphereInt (polyAt p)| * |ruleSum r.points r.weights (fun ρ => ρ ^ (2 + l) * F ρ) -
        ∫ ρ in Ioi 0, ρ ^ (2 + l) * F ρ| +
      δ * ruleSum r.points r.weights (fun ρ => |ρ ^ (2 + l) * F ρ|) +
      16 * π * coeffSum p * ruleSum r.points r.weights H := by
  rw [hS, pruned_sum, space_integral hp]
  have hlen : (r.points.zip r.weights).length = r.npts := by
    have : r.points.length = r.weights.length := hr
    simp [Quad.npts, this]
  have htile : ∀ e ∈ tiles r.npts regions, ∃ e' ∈ regions, e'.2 = e.2 := by
    generalize r.npts = n
    clear hs hlt ha hS hlen
    induction regions with
    | nil => simp [tiles]
    | cons x rest ih =>
      intro e he
      cases rest with
      | nil =>
        simp only [tiles, List.mem_singleton] at he
        exact ⟨x, by simp, by rw [he]⟩
      | cons y rest =>
        simp only [tiles, List.mem_cons] at he
        rcases he with rfl | he
        · exact ⟨x, by simp, rfl⟩
        · obtain ⟨e', h1, h2⟩ := ih e (by simpa [tiles] using he)
          exact ⟨e', by simp at h1 ⊢; exact .inr h1, h2⟩
  have hcover := tiles_slices (r.points.zip r.weights) regions 0 hs.1 hs.2 (by rw [hlen]; exact hlt)
  rw [hlen, List.drop_zero] at hcover
  have hsum : ∀ G : ℝ × ℝ → ℝ, ((tiles r.npts regions).map (fun e =>
      ((((r.points.zip r.weights).take e.1.2).drop e.1.1).map G).sum)).sum = ((r.points.zip r.weights).map G).sum := by
    intro G
    conv_rhs => rw [← hcover]
    rw [List.map_flatMap, List.flatMap_def, List.sum_flatten, List.map_map]
    rfl
  have h1 := list_sum_abs_sub_le (tiles r.npts regions)
    (fun e => ((((r.points.zip r.weights).take e.1.2).drop e.1.1).map (fun x => x.2 *
      ((e.2.points.zip e.2.weights).map (fun a => a.2 * (x.1 ^ 2 *
        (fun u => F (√(normSq u)) * polyAt p u) ⟨x.1 * a.1.x, x.1 * a.1.y, x.1 * a.1.z⟩))).sum)).sum)
    (fun e => ((((r.points.zip r.weights).take e.1.2).drop e.1.1).map (fun x => x.2 *
      (sphereInt (polyAt p) * (x.1 ^ (2 + l) * F x.1)))).sum)
    (fun e => ((((r.points.zip r.weights).take e.1.2).drop e.1.1).map (fun x => x.2 *
      (δ * |x.1 ^ (2 + l) * F x.1| + 16 * π * coeffSum p * H x.1))).sum) (by
      intro e he
      obtain ⟨e', he', hee⟩ := htile e he
      refine list_sum_abs_sub_le _ _ _ _ fun x hx => ?_
      have hx := List.mem_of_mem_take (List.mem_of_mem_drop hx)
      have hx1 := hpos _ (List.of_mem_zip hx).1
      have hx2 := hw _ (List.of_mem_zip hx).2
      rw [← mul_sub, abs_mul, abs_of_nonneg hx2]
      refine mul_le_mul_of_nonneg_left ?_ hx2
      exact shell_error hp hl (hee ▸ ha e' he') hx1 (hH _ hx1))
  rw [hsum, hsum] at h1
  have e1 : ((r.points.zip r.weights).map (fun x => x.2 * (sphereInt (polyAt p) * (x.1 ^ (2 + l) * F x.1)))).sum =
      sphereInt (polyAt p) * ruleSum r.points r.weights (fun ρ => ρ ^ (2 + l) * F ρ) := by
    unfold ruleSum
    rw [← List.sum_map_mul_left]
    congr 1
    apply List.map_congr_left
    intro x _
    ring
  have e2 : ((r.points.zip r.weights).map (fun x => x.2 *
      (δ * |x.1 ^ (2 + l) * F x.1| + 16 * π * coeffSum p * H x.1))).sum =
      δ * ruleSum r.points r.weights (fun ρ => |ρ ^ (2 + l) * F ρ|) +
        16 * π * coeffSum p * ruleSum r.points r.weights H := by
    unfold ruleSum
    rw [← List.sum_map_mul_left, ← List.sum_map_mul_left, ← List.sum_map_add]
    congr 1
    apply List.map_congr_left
    intro x _
    ring
  rw [e1, e2] at h1
  refine (abs_sub_le _ (sphereInt (polyAt p) * ruleSum r.points r.weights (fun ρ => ρ ^ (2 + l) * F ρ)) _).trans ?_
  rw [← mul_sub, abs_mul]
  linarith

end IntegratorXX
