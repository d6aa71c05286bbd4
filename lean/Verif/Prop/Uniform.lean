import Verif.Lemmas.PrimitiveForms
import Verif.Lemmas.RuleSum
import Verif.XReal
import Mathlib.MeasureTheory.Integral.IntervalIntegral.TrapezoidalRule

/-!
# C17, C18: UniformTrapezoid
-/

namespace IntegratorXX

open Spec

/-- The rule value of UniformTrapezoid is Mathlib's composite trapezoidal sum. -/
private theorem uniform_sum (n : ℕ) (hn : 2 ≤ n) (lo up : ℝ) (f : ℝ → ℝ) :
    ruleSum ((List.range n).map (fun i => lo + Arith.ofNat i * ((up - lo) / Arith.ofNat (n - 1))))
      ((List.range n).map (utW n lo up)) f = trapezoidal_integral f (n - 1) lo up := by
  obtain ⟨m, rfl⟩ : ∃ m, n = m + 2 := ⟨n - 2, by omega⟩
  have hm : ((m : ℝ) + 1) ≠ 0 := by positivity
  rw [ruleSum_map_range, Finset.sum_range_succ, Finset.sum_range_succ', trapezoidal_integral]
  simp only [utW, Arith.real_ofNat, Arith.real_lit, show m + 2 - 1 = m + 1 by omega,
    show m + 1 - 1 = m by omega]
  rw [if_pos (by simp), if_pos (by simp)]
  have e : ∀ k ∈ Finset.range m, (if k + 1 = 0 ∨ k + 1 = m + 1 then
      (up - lo) / ((m + 1 : ℕ) : ℝ) * (((1 / 2 : ℚ)) : ℝ) else (up - lo) / ((m + 1 : ℕ) : ℝ)) *
        f (lo + ((k + 1 : ℕ) : ℝ) * ((up - lo) / ((m + 1 : ℕ) : ℝ))) =
      (up - lo) / ((m + 1 : ℕ) : ℝ) * f (lo + (k + 1) * (up - lo) / ((m + 1 : ℕ) : ℝ)) := by
    intro k hk
    have hk : k < m := by simpa using hk
    rw [if_neg (by omega)]
    congr 2
    push_cast; ring
  rw [Finset.sum_congr rfl e, ← Finset.mul_sum]
  have e0 : lo + ((0 : ℕ) : ℝ) * ((up - lo) / ((m + 1 : ℕ) : ℝ)) = lo := by simp
  have e1 : lo + ((m + 1 : ℕ) : ℝ) * ((up - lo) / ((m + 1 : ℕ) : ℝ)) = up := by
    push_cast; field_simp; ring
  rw [e0, e1]
  push_cast; ring

/-- **C17.**  UniformTrapezoid is the composite trapezoidal rule: equally spaced nodes from
`lo` to `up`, weights summing to `up - lo`, exact for affine integrands, and with the classical
error bound for `C²` integrands. -/
theorem C17_uniform_trapezoid (b : Build) (npts : ℕ) (hn : 2 ≤ npts) (hn' : npts < 2 ^ 64)
    (lo up : ℝ) :
    Returns (construct b (uniformTrapezoid npts lo up)) (fun q =>
      q.points.length = npts ∧ q.weights.length = npts ∧
      (∀ i, i < npts → q.points[i]? = some (lo + i * ((up - lo) / (npts - 1)))) ∧
      q.points[npts - 1]? = some up ∧
      q.weights.sum = up - lo ∧
      (∀ f, ruleSum q.points q.weights f = trapezoidal_integral f (npts - 1) lo up) ∧
      (∀ c d : ℝ, ruleSum q.points q.weights (fun x => c * x + d) = ∫ x in lo..up, c * x + d) ∧
      (∀ f M, lo ≤ up → ContDiffOn ℝ 2 f (Set.Icc lo up) →
        (∀ x ∈ Set.Icc lo up, |iteratedDerivWithin 2 f (Set.Icc lo up) x| ≤ M) →
        |ruleSum q.points q.weights f - ∫ x in lo..up, f x|
          ≤ (up - lo) ^ 3 * M / (12 * (npts - 1) ^ 2))) := by
  have hcast : ((npts - 1 : ℕ) : ℝ) = npts - 1 := by rw [Nat.cast_sub (by omega)]; simp
  have hne : (npts : ℝ) - 1 ≠ 0 := by
    rw [← hcast]; exact_mod_cast (by omega : npts - 1 ≠ 0)
  have hsum := uniform_sum npts hn lo up
  refine ⟨⟨_, _⟩, by
    rw [uniformTrapezoid_eq npts hn (by unfold sizeMod; omega) lo up]
    exact construct_ok b (by simp), by simp, by simp, ?_, ?_, ?_, hsum, ?_, ?_⟩
  · intro i hi
    simp only [getElem?_map_range, if_pos hi, Arith.real_ofNat, hcast]
  · simp only [getElem?_map_range, if_pos (show npts - 1 < npts by omega), Arith.real_ofNat, hcast]
    congr 1; field_simp; ring
  · have h1 := hsum (fun _ => 1)
    rw [ruleSum_map_range] at h1
    simp only [mul_one] at h1
    rw [list_sum_map_range, h1, trapezoidal_integral]
    simp only [Finset.sum_const, Finset.card_range, nsmul_eq_mul, mul_one, hcast]
    rw [Nat.sub_sub, Nat.cast_sub (by omega)]
    push_cast; field_simp; ring
  · intro c d
    rw [hsum]
    rcases eq_or_ne lo up with h | h
    · subst h; simp [trapezoidal_integral]
    have hbound : |trapezoidal_error (fun x => c * x + d) (npts - 1) lo up| ≤
        |up - lo| ^ 3 * 0 / (12 * ((npts - 1 : ℕ) : ℝ) ^ 2) := by
      apply trapezoidal_error_le_of_c2 (by fun_prop) _ (by omega)
      intro x
      have : iteratedDerivWithin 2 (fun x : ℝ => c * x + d) (Set.uIcc lo up) x = 0 := by
        have hu : UniqueDiffOn ℝ (Set.uIcc lo up) := uniqueDiffOn_uIcc h
        rw [iteratedDerivWithin_succ]
        by_cases hx : x ∈ Set.uIcc lo up
        · have : ∀ y ∈ Set.uIcc lo up,
              iteratedDerivWithin 1 (fun x : ℝ => c * x + d) (Set.uIcc lo up) y = c := by
            intro y hy
            rw [iteratedDerivWithin_one]
            have : HasDerivAt (fun x : ℝ => c * x + d) c y := by
              simpa using ((hasDerivAt_id y).const_mul c).add_const d
            exact this.hasDerivWithinAt.derivWithin (hu y hy)
          rw [derivWithin_congr this (this x hx)]
          simp
        · apply derivWithin_zero_of_notMem_closure
          rwa [Set.uIcc, closure_Icc]
      rw [this]; simp
    have h0 : trapezoidal_error (fun x => c * x + d) (npts - 1) lo up = 0 := by
      have : |trapezoidal_error (fun x => c * x + d) (npts - 1) lo up| ≤ 0 := by
        simpa using hbound
      exact abs_nonpos_iff.mp this
    rw [trapezoidal_error] at h0
    linarith
  · intro f M hle hf hM
    rw [hsum]
    have hu : Set.uIcc lo up = Set.Icc lo up := Set.uIcc_of_le hle
    have hM0 : 0 ≤ M := le_trans (abs_nonneg _) (hM lo ⟨le_rfl, hle⟩)
    have := trapezoidal_error_le_of_c2 (f := f) (a := lo) (b := up) (ζ := M) (by rwa [hu])
      (by
        intro x
        rw [hu]
        by_cases hx : x ∈ Set.Icc lo up
        · exact hM x hx
        · rw [iteratedDerivWithin_succ, derivWithin_zero_of_notMem_closure (by rwa [closure_Icc])]
          simpa using hM0) (N := npts - 1) (by omega)
    rw [trapezoidal_error, hcast, abs_of_nonneg (by linarith : 0 ≤ up - lo)] at this
    exact this

example : Returns (construct ⟨true⟩ (uniformTrapezoid 5 (-1 : ℝ) 3)) (fun q =>
    q.weights.sum = 4) := by
  obtain ⟨q, h, _, _, _, _, h', _⟩ := C17_uniform_trapezoid ⟨true⟩ 5 (by norm_num) (by norm_num) (-1) 3
  exact ⟨q, h, by dsimp only; rw [h']; norm_num⟩

/-- **C18.**  `UniformTrapezoid(0, lo, up)` is undefined behaviour in every arithmetic, and
`UniformTrapezoid(1, lo, up)` with finite `lo < up` stores a NaN node with an infinite
weight. -/
theorem C18_uniform_degenerate :
    (∀ (F : Type) [Add F] [Sub F] [Mul F] [Div F] [Arith F] (b : Build) (lo up : F),
      construct b (uniformTrapezoid 0 lo up) = .ub) ∧
    (∀ (b : Build) (lo up : ℝ), lo < up →
      construct b (uniformTrapezoid 1 (XReal.fin lo) (XReal.fin up)) =
        .ok ⟨[XReal.nan], [XReal.pinf]⟩) := by
  constructor
  · intro F _ _ _ _ _ b lo up
    have h : (uniformTrapezoid 0 lo up : Outcome (List F × List F)) = .ub := by
      unfold uniformTrapezoid
      dsimp only
      rw [show subWrap 0 1 + 1 = 18446744073709551615 + 1 by decide]
      have h1 : forRange 0 (18446744073709551615 + 1) (fun i (points : List F) =>
          vset points i (lo + Arith.ofNat i * ((up - lo) / Arith.ofNat (subWrap 0 1))))
          (List.replicate 0 (Arith.lit 0)) = .ub := by
        unfold forRange
        rw [show 18446744073709551615 + 1 - 0 = 18446744073709551615 + 1 by omega, forN,
          vset_ub (by simp)]
        rfl
      rw [h1]; rfl
    rw [h]; rfl
  · intro b lo up h
    have hd : (XReal.fin up - XReal.fin lo) / (Arith.ofNat 0 : XReal) = XReal.pinf := by
      rw [XReal.fin_sub, XReal.ofNat_eq, XReal.fin_div, if_pos (by simp), XReal.infMul,
        if_pos (by linarith)]
    have h0 : (Arith.ofNat 0 : XReal) * XReal.pinf = XReal.nan := by
      show XReal.infMul _ = _
      simp [XReal.infMul]
    have h1 : XReal.fin lo + XReal.nan = XReal.nan := rfl
    have h2 : XReal.pinf * (Arith.lit (1/2) : XReal) = XReal.pinf := by
      show XReal.infMul _ = _
      rw [XReal.infMul, if_pos (by norm_num)]
    have hg : uniformTrapezoid 1 (XReal.fin lo) (XReal.fin up) =
        .ok ([XReal.nan], [XReal.pinf]) := by
      unfold uniformTrapezoid
      dsimp only
      rw [show subWrap 1 1 = 0 by decide, hd]
      have h3 : forRange 0 (0 + 1) (fun i (points : List XReal) =>
          vset points i (XReal.fin lo + Arith.ofNat i * XReal.pinf))
          (List.replicate 1 (Arith.lit 0)) = .ok [XReal.nan] := by
        show vset _ _ _ >>= _ = _
        rw [vset_ok (by simp), h0, h1]; rfl
      rw [h3, Outcome.ok_bind, vget_ok (a := XReal.pinf) rfl, Outcome.ok_bind, vset_ok (by simp),
        Outcome.ok_bind, vget_ok (a := XReal.pinf) (by
          rw [h2]; rfl), Outcome.ok_bind, vset_ok (by simp),
        Outcome.ok_bind, h2]
      rfl
    rw [hg]
    exact construct_ok b rfl

example : construct ⟨true⟩ (uniformTrapezoid 1 (XReal.fin 0) (XReal.fin 1)) =
    .ok ⟨[XReal.nan], [XReal.pinf]⟩ := C18_uniform_degenerate.2 _ 0 1 one_pos

end IntegratorXX
