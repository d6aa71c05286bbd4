import Verif.Lemmas.RealRooted
import Verif.XReal
import Mathlib.Analysis.Calculus.Deriv.Inv
import Mathlib.Tactic.NormNum

/-!
# Contraction of Newton steps near a simple real root
-/

namespace IntegratorXX

open Polynomial

/-- `Σ 1/(r - x)` over the other roots. -/
noncomputable def rootSum (S : Finset ℝ) (r : ℝ) : ℝ := ∑ x ∈ S.erase r, 1 / (r - x)

/-- `Σ 1/(r - x)²` over the other roots. -/
noncomputable def rootSqSum (S : Finset ℝ) (r : ℝ) : ℝ := ∑ x ∈ S.erase r, 1 / (r - x) ^ 2

theorem rootSqSum_nonneg (S : Finset ℝ) (r : ℝ) : 0 ≤ rootSqSum S r :=
  Finset.sum_nonneg fun _ _ => by positivity

/-- Values of the derivatives at a root in terms of the other roots. -/
theorem nodal_derivs (c : ℝ) (S : Finset ℝ) (r : ℝ) (hr : r ∈ S) :
    (derivative (derivative (C c * Lagrange.nodal S id))).eval r =
      2 * (derivative (C c * Lagrange.nodal S id)).eval r * rootSum S r ∧
    (derivative (derivative (derivative (C c * Lagrange.nodal S id)))).eval r =
      3 * (derivative (C c * Lagrange.nodal S id)).eval r *
        (rootSum S r ^ 2 - rootSqSum S r) := by
  classical
  set T := S.erase r with hT
  set g := C c * Lagrange.nodal T id with hg
  have hrT : r ∉ T := by simp [hT]
  have hW : C c * Lagrange.nodal S id = (X - C r) * g := by
    rw [Lagrange.nodal_eq_mul_nodal_erase (v := id) hr]
    simp only [id]
    rw [hg]; ring
  have h1 : (derivative g).eval r = g.eval r * rootSum S r := eval_derivative_nodal c T r hrT
  have h2 : (derivative (derivative g)).eval r =
      (derivative g).eval r * rootSum S r - g.eval r * rootSqSum S r := by
    have hev : (fun z => (derivative g).eval z) =ᶠ[nhds r]
        (fun z => g.eval z * ∑ x ∈ T, 1 / (z - x)) := by
      have : (T : Set ℝ)ᶜ ∈ nhds r := T.finite_toSet.isClosed.isOpen_compl.mem_nhds (by simpa using hrT)
      filter_upwards [this] with z hz
      exact eval_derivative_nodal c T z (by simpa using hz)
    have hd1 := (derivative g).hasDerivAt r
    have hs : HasDerivAt (fun z => ∑ x ∈ T, 1 / (z - x)) (∑ x ∈ T, -(1 / (r - x) ^ 2)) r := by
      have := HasDerivAt.fun_sum (u := T) (A := fun x z => 1 / (z - x))
        (A' := fun x => -(1 / (r - x) ^ 2)) (x := r) (fun x hx => ?_)
      · exact this
      · have hne : r - x ≠ 0 := sub_ne_zero.2 (fun h => hrT (h ▸ hx))
        have := ((hasDerivAt_id r).sub_const x).inv hne
        simp only [id, one_div] at this ⊢
        refine this.congr_deriv ?_
        rw [neg_div, one_div]
    have hd2 := (g.hasDerivAt r).mul hs
    have := (hd1.congr_of_eventuallyEq hev.symm).unique hd2
    rw [this, Finset.sum_neg_distrib]
    unfold rootSum rootSqSum
    ring
  rw [hW]
  have hX : ∀ f : ℝ[X], derivative ((X - C r) * f) = f + (X - C r) * derivative f := by
    intro f
    rw [derivative_mul]; simp
  have e3 : derivative (derivative (derivative ((X - C r) * g))) =
      C 3 * derivative (derivative g) + (X - C r) * derivative (derivative (derivative g)) := by
    rw [hX, derivative_add, hX, derivative_add, derivative_add, hX,
      show (C 3 : ℝ[X]) = 3 from rfl]
    ring
  rw [e3, hX, derivative_add, hX]
  simp only [eval_add, eval_mul, eval_sub, eval_X, eval_C, sub_self, zero_mul, add_zero]
  rw [h2, h1]
  constructor <;> ring

/-- Bounds of `δ Σ 1/(z - x)` over the other roots, for `z = r + δ`. -/
theorem newton_t (S : Finset ℝ) (r δ ρ : ℝ) (hρ : ρ < 1)
    (hg : ∀ x ∈ S, (r < x → δ ≤ ρ * (x - r)) ∧ (x < r → -δ ≤ ρ * (r - x))) :
    δ * rootSum S r - δ ^ 2 * (rootSqSum S r / (1 - ρ)) ≤
      δ * ∑ x ∈ S.erase r, 1 / (r + δ - x) ∧
    δ * ∑ x ∈ S.erase r, 1 / (r + δ - x) ≤ δ * rootSum S r := by
  have key : ∀ x ∈ S.erase r, δ * (1 / (r - x)) - δ ^ 2 * (1 / (r - x) ^ 2 / (1 - ρ)) ≤
      δ * (1 / (r + δ - x)) ∧ δ * (1 / (r + δ - x)) ≤ δ * (1 / (r - x)) := by
    intro x hx
    have hxr : x ≠ r := Finset.ne_of_mem_erase hx
    have hxS := Finset.mem_of_mem_erase hx
    have hne : r - x ≠ 0 := sub_ne_zero.2 (Ne.symm hxr)
    have hsq : 0 < (r - x) ^ 2 := by positivity
    have hρ1 : 0 < 1 - ρ := by linarith
    have hprod : (1 - ρ) * (r - x) ^ 2 ≤ (r + δ - x) * (r - x) := by
      rcases lt_or_gt_of_ne hxr with h | h
      · have := (hg x hxS).2 h
        nlinarith
      · have := (hg x hxS).1 h
        nlinarith
    have hpos : 0 < (r + δ - x) * (r - x) := lt_of_lt_of_le (by positivity) hprod
    have hne2 : r + δ - x ≠ 0 := fun h => by rw [h, zero_mul] at hpos; exact hpos.false
    have hid : δ * (1 / (r + δ - x)) =
        δ * (1 / (r - x)) - δ ^ 2 * (1 / ((r + δ - x) * (r - x))) := by
      field_simp
      ring
    rw [hid]
    have hle : 1 / ((r + δ - x) * (r - x)) ≤ 1 / (r - x) ^ 2 / (1 - ρ) := by
      rw [div_div]
      exact one_div_le_one_div_of_le (by positivity) (by linarith)
    have h0 : 0 ≤ 1 / ((r + δ - x) * (r - x)) := by positivity
    have hd : 0 ≤ δ ^ 2 := sq_nonneg δ
    constructor
    · have := mul_le_mul_of_nonneg_left hle hd
      linarith
    · have := mul_nonneg hd h0
      linarith
  unfold rootSum rootSqSum
  rw [Finset.sum_div, Finset.mul_sum, Finset.mul_sum, Finset.mul_sum, ← Finset.sum_sub_distrib]
  exact ⟨Finset.sum_le_sum fun x hx => (key x hx).1, Finset.sum_le_sum fun x hx => (key x hx).2⟩

/-- Error after a Newton step. -/
theorem newton_error (c : ℝ) (hc : c ≠ 0) (S : Finset ℝ) (r δ t : ℝ) (hr : r ∈ S) (hδ : δ ≠ 0)
    (hz : ∀ x ∈ S, r + δ ≠ x) (ht : t = δ * ∑ x ∈ S.erase r, 1 / (r + δ - x)) (ht1 : 1 + t ≠ 0) :
    (derivative (C c * Lagrange.nodal S id)).eval (r + δ) ≠ 0 ∧
    r + δ - (C c * Lagrange.nodal S id).eval (r + δ) /
      (derivative (C c * Lagrange.nodal S id)).eval (r + δ) - r = δ * (t / (1 + t)) := by
  classical
  have hzS : r + δ ∉ S := fun h => hz _ h rfl
  have hlog := eval_derivative_nodal c S (r + δ) hzS
  set W := C c * Lagrange.nodal S id with hW
  have hWz : W.eval (r + δ) ≠ 0 := by
    rw [hW, eval_mul, eval_C]
    exact mul_ne_zero hc (Lagrange.eval_nodal_not_at_node (fun x hx => hz x hx))
  have hsum : ∑ x ∈ S, 1 / (r + δ - x) = (1 + t) / δ := by
    rw [← Finset.add_sum_erase S _ hr, ht]
    rw [add_sub_cancel_left]
    field_simp
  rw [hlog, hsum]
  refine ⟨by positivity, ?_⟩
  field_simp
  ring

/-- A Newton step contracts by `3/5` on an interval `[r - e, r + d]`. -/
theorem newton_contract (c : ℝ) (hc : c ≠ 0) (S : Finset ℝ) (r d e ρ σ : ℝ) (hr : r ∈ S)
    (hρ0 : 0 ≤ ρ) (hρ : ρ < 1) (hσ0 : 0 ≤ σ) (hσ : σ < 1)
    (hR : ∀ x ∈ S, r < x → d ≤ ρ * (x - r)) (hL : ∀ x ∈ S, x < r → e ≤ σ * (r - x))
    (hS0 : 0 ≤ rootSum S r) (hd1 : d * rootSum S r ≤ 1)
    (hd2 : d ^ 2 * (rootSqSum S r / (1 - ρ)) ≤ 3 / 8)
    (he : e * rootSum S r + e ^ 2 * (rootSqSum S r / (1 - σ)) ≤ 3 / 8)
    (z : ℝ) (hz0 : r - e ≤ z) (hz1 : z ≤ r + d) :
    (derivative (C c * Lagrange.nodal S id)).eval z ≠ 0 ∧
    |z - (C c * Lagrange.nodal S id).eval z / (derivative (C c * Lagrange.nodal S id)).eval z - r|
      ≤ 3 / 5 * |z - r| := by
  classical
  obtain ⟨δ, rfl⟩ : ∃ δ, z = r + δ := ⟨z - r, by ring⟩
  have hδd : δ ≤ d := by linarith
  have hδe : -δ ≤ e := by linarith
  have hQ := rootSqSum_nonneg S r
  by_cases hδ : δ = 0
  · subst hδ
    rw [add_zero]
    have hev : (C c * Lagrange.nodal S id).eval r = 0 := by
      rw [eval_mul, show (Lagrange.nodal S id).eval r = 0 from
        Lagrange.eval_nodal_at_node (v := id) hr, mul_zero]
    refine ⟨?_, by rw [hev]; simp⟩
    rw [derivative_C_mul, eval_mul, eval_C]
    refine mul_ne_zero hc ?_
    rw [Lagrange.nodal_eq_mul_nodal_erase (v := id) hr, derivative_mul]
    simp only [id, derivative_sub, derivative_X, derivative_C, sub_zero, one_mul, eval_add,
      eval_mul, eval_sub, eval_X, eval_C, sub_self, zero_mul, add_zero]
    exact Lagrange.eval_nodal_not_at_node fun x hx h => Finset.ne_of_mem_erase hx h.symm
  · -- choose the side
    obtain ⟨τ, hτ0, hτ1, hg, hlow⟩ : ∃ τ, 0 ≤ τ ∧ τ < 1 ∧
        (∀ x ∈ S, (r < x → δ ≤ τ * (x - r)) ∧ (x < r → -δ ≤ τ * (r - x))) ∧
        -(3 / 8) ≤ δ * rootSum S r - δ ^ 2 * (rootSqSum S r / (1 - τ)) := by
      rcases le_total 0 δ with h0 | h0
      · refine ⟨ρ, hρ0, hρ, fun x hx => ⟨fun h => hδd.trans (hR x hx h), fun h => ?_⟩, ?_⟩
        · have : 0 ≤ ρ * (r - x) := mul_nonneg hρ0 (by linarith)
          linarith
        · have h1 : 0 ≤ rootSqSum S r / (1 - ρ) := div_nonneg hQ (by linarith)
          have h2 : δ ^ 2 ≤ d ^ 2 := pow_le_pow_left₀ h0 hδd 2
          have h3 := mul_le_mul_of_nonneg_right h2 h1
          have h4 := mul_nonneg h0 hS0
          linarith
      · refine ⟨σ, hσ0, hσ, fun x hx => ⟨fun h => ?_, fun h => hδe.trans (hL x hx h)⟩, ?_⟩
        · have : 0 ≤ σ * (x - r) := mul_nonneg hσ0 (by linarith)
          linarith
        · have h1 : 0 ≤ rootSqSum S r / (1 - σ) := div_nonneg hQ (by linarith)
          have h2 : (-δ) ^ 2 ≤ e ^ 2 := pow_le_pow_left₀ (by linarith) hδe 2
          rw [neg_sq] at h2
          have h3 := mul_le_mul_of_nonneg_right h2 h1
          have h4 := mul_le_mul_of_nonneg_right hδe hS0
          linarith
    obtain ⟨ht1, ht2⟩ := newton_t S r δ τ hτ1 hg
    have hz : ∀ x ∈ S, r + δ ≠ x := by
      intro x hx h
      rcases lt_trichotomy r x with h1 | h1 | h1
      · have := (hg x hx).1 h1
        nlinarith
      · exact hδ (by linarith)
      · have := (hg x hx).2 h1
        nlinarith
    have hup : δ * rootSum S r ≤ 1 := by
      rcases le_total 0 δ with h0 | h0
      · exact (mul_le_mul_of_nonneg_right hδd hS0).trans hd1
      · nlinarith
    set t := δ * ∑ x ∈ S.erase r, 1 / (r + δ - x) with ht
    have htl : -(3 / 8) ≤ t := hlow.trans ht1
    have htu : t ≤ 1 := ht2.trans hup
    obtain ⟨hne, herr⟩ := newton_error c hc S r δ t hr hδ hz ht (by linarith)
    refine ⟨hne, ?_⟩
    rw [herr, abs_mul, add_sub_cancel_left, mul_comm]
    refine mul_le_mul_of_nonneg_right ?_ (abs_nonneg _)
    rw [abs_le]
    have h1t : 0 < 1 + t := by linarith
    constructor
    · rw [le_div_iff₀ h1t]; linarith
    · rw [div_le_iff₀ h1t]; linarith

/-- Newton iterations of the two generators, started in the contraction interval. -/
theorem newton_iterate (N g : ℝ → ℝ) (f : ℕ → XReal → Option (XReal × XReal)) (r d e : ℝ)
    (hf : ∀ k z, r - e ≤ z → z ≤ r + d → f (k + 1) (.fin z) =
      if |N z - z| ≤ (2 : ℝ)⁻¹ ^ 52 then some (.fin (N z), .fin (g z)) else f k (.fin (N z)))
    (hN : ∀ z, r - e ≤ z → z ≤ r + d → |N z - r| ≤ 3 / 5 * |z - r|) :
    ∀ k z, r - e ≤ z → z ≤ r + d → 3 / 5 * |z - r| ≤ d → 3 / 5 * |z - r| ≤ e →
      |z - r| ≤ (5 / 3) ^ k * (2 : ℝ)⁻¹ ^ 53 →
      ∃ a, r - e ≤ a ∧ a ≤ r + d ∧ f (k + 1) (.fin z) = some (.fin (N a), .fin (g a)) ∧
        |a - r| ≤ 5 / 2 * (2 : ℝ)⁻¹ ^ 52 ∧ 3 / 5 * |a - r| ≤ d ∧ 3 / 5 * |a - r| ≤ e ∧
        |N a - a| ≤ (2 : ℝ)⁻¹ ^ 52 := by
  intro k
  induction k with
  | zero =>
    intro z h1 h2 h3 h4 h5
    rw [hf 0 z h1 h2]
    have hn := hN z h1 h2
    have hs : |N z - z| ≤ 8 / 5 * |z - r| := by
      have : |N z - z| ≤ |N z - r| + |z - r| := by
        have := abs_sub (N z - r) (z - r)
        rwa [sub_sub_sub_cancel_right] at this
      linarith
    have e1 : (2 : ℝ)⁻¹ ^ 53 = 2⁻¹ ^ 52 / 2 := by rw [pow_succ]; ring
    have e0 : (0 : ℝ) < 2⁻¹ ^ 52 := by positivity
    generalize (2 : ℝ)⁻¹ ^ 52 = ε at *
    rw [e1, pow_zero, one_mul] at h5
    rw [if_pos (by linarith)]
    exact ⟨z, h1, h2, rfl, by linarith, h3, h4, by linarith⟩
  | succ k ih =>
    intro z h1 h2 h3 h4 h5
    rw [hf (k + 1) z h1 h2]
    have hn := hN z h1 h2
    split_ifs with hacc
    · refine ⟨z, h1, h2, rfl, ?_, h3, h4, hacc⟩
      have : |z - r| ≤ |N z - z| + |N z - r| := by
        have := abs_sub (N z - r) (N z - z)
        rw [sub_sub_sub_cancel_left] at this
        linarith
      linarith
    · have ha := abs_le.1 (le_refl |N z - r|)
      have hz := abs_nonneg (z - r)
      refine ih (N z) (by linarith) (by linarith) (by linarith) (by linarith) ?_
      rw [pow_succ] at h5
      linarith

end IntegratorXX
