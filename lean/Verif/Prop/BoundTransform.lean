import Verif.Model.BoundTransform
import Verif.XReal
import Mathlib.Analysis.Calculus.Deriv.MeanValue
import Mathlib.Analysis.Calculus.Deriv.Inv
import Mathlib.Analysis.SpecialFunctions.Sqrt
import Mathlib.Tactic.FieldSimp
import Mathlib.Tactic.LinearCombination

/-!
# C25: the bound transformation
-/

namespace IntegratorXX

open XReal

/-- A change of variables from `(-1,1)` onto the interval with the given (possibly infinite)
bounds: strictly increasing, onto, with derivative `m'` everywhere, `m' > 0`. -/
structure IsBoundMap (lo up : XReal) (m m' : ℝ → ℝ) : Prop where
  mono : StrictMonoOn m (Set.Ioo (-1) 1)
  onto : m '' Set.Ioo (-1) 1 = {y | XReal.Lt lo (fin y) ∧ XReal.Lt (fin y) up}
  deriv : ∀ x ∈ Set.Ioo (-1 : ℝ) 1, HasDerivAt m (m' x) x
  pos : ∀ x ∈ Set.Ioo (-1 : ℝ) 1, 0 < m' x

/-- The intended property: for all bounds `lo < up` the function applies a change of variables
to the node and multiplies the weight by its derivative. -/
def C25_full_statement : Prop :=
  ∀ (b : Build) (lo up : XReal), XReal.Lt lo up →
    ∃ m m', IsBoundMap lo up m m' ∧ ∀ x ∈ Set.Ioo (-1 : ℝ) 1, ∀ w : ℝ,
      boundTransform b pinf lo up (fin x) (fin w) = .ok (fin (m x), fin (w * m' x))

private theorem mkMap {lo up : XReal} {m m' : ℝ → ℝ}
    (hd : ∀ x ∈ Set.Ioo (-1 : ℝ) 1, HasDerivAt m (m' x) x)
    (hpos : ∀ x ∈ Set.Ioo (-1 : ℝ) 1, 0 < m' x)
    (hmaps : ∀ x ∈ Set.Ioo (-1 : ℝ) 1, XReal.Lt lo (fin (m x)) ∧ XReal.Lt (fin (m x)) up)
    (inv : ℝ → ℝ)
    (hinv : ∀ y, XReal.Lt lo (fin y) → XReal.Lt (fin y) up →
      inv y ∈ Set.Ioo (-1 : ℝ) 1 ∧ m (inv y) = y) : IsBoundMap lo up m m' := by
  refine ⟨?_, ?_, hd, hpos⟩
  · apply strictMonoOn_of_deriv_pos (convex_Ioo _ _)
    · exact fun x hx => (hd x hx).continuousAt.continuousWithinAt
    · intro x hx
      rw [interior_Ioo] at hx
      rw [(hd x hx).deriv]; exact hpos x hx
  · ext y
    constructor
    · rintro ⟨x, hx, rfl⟩; exact hmaps x hx
    · rintro ⟨h1, h2⟩
      obtain ⟨h3, h4⟩ := hinv y h1 h2
      exact ⟨inv y, h3, h4⟩

private theorem map_fin {lo up : ℝ} (h : lo < up) :
    IsBoundMap (fin lo) (fin up) (fun x => (up - lo) * x / 2 + (up + lo) / 2)
      (fun _ => (up - lo) / 2) := by
  refine mkMap (inv := fun y => (2 * y - up - lo) / (up - lo)) ?_ ?_ ?_ ?_
  · intro x _
    have := (((hasDerivAt_id x).const_mul (up - lo)).div_const 2).add_const ((up + lo) / 2)
    simpa using this
  · intro x _; linarith
  · rintro x ⟨h1, h2⟩
    simp only [XReal.Lt]
    constructor <;> nlinarith
  · intro y h1 h2
    simp only [XReal.Lt] at h1 h2
    have hp : 0 < up - lo := by linarith
    refine ⟨⟨?_, ?_⟩, ?_⟩
    · rw [lt_div_iff₀ hp]; linarith
    · rw [div_lt_iff₀ hp]; linarith
    · field_simp; ring

private theorem map_up (lo : ℝ) :
    IsBoundMap (fin lo) pinf (fun x => lo + (1 + x) / (1 - x))
      (fun x => 2 / ((1 - x) * (1 - x))) := by
  refine mkMap (inv := fun y => (y - lo - 1) / (y - lo + 1)) ?_ ?_ ?_ ?_
  · rintro x ⟨h1, h2⟩
    have hne : 1 - x ≠ 0 := by linarith
    have := (((hasDerivAt_id x).const_add 1).div ((hasDerivAt_id x).const_sub 1) hne).const_add lo
    refine this.congr_deriv ?_
    simp only [id]
    field_simp; ring
  · rintro x ⟨h1, h2⟩
    have : 0 < 1 - x := by linarith
    positivity
  · rintro x ⟨h1, h2⟩
    have h3 : 0 < 1 - x := by linarith
    have h4 : 0 < 1 + x := by linarith
    have : 0 < (1 + x) / (1 - x) := by positivity
    exact ⟨by simp only [XReal.Lt]; linarith, trivial⟩
  · intro y h1 _
    simp only [XReal.Lt] at h1
    have hp : 0 < y - lo + 1 := by linarith
    refine ⟨⟨?_, ?_⟩, ?_⟩
    · rw [lt_div_iff₀ hp]; linarith
    · rw [div_lt_iff₀ hp]; linarith
    · have e : 1 - (y - lo - 1) / (y - lo + 1) = 2 / (y - lo + 1) := by field_simp; ring
      rw [e]; field_simp; ring

private theorem map_lo (up : ℝ) :
    IsBoundMap ninf (fin up) (fun x => up - (1 - x) / (1 + x))
      (fun x => 2 / ((1 + x) * (1 + x))) := by
  refine mkMap (inv := fun y => (1 - (up - y)) / (1 + (up - y))) ?_ ?_ ?_ ?_
  · rintro x ⟨h1, h2⟩
    have hne : 1 + x ≠ 0 := by linarith
    have := (((hasDerivAt_id x).const_sub 1).div ((hasDerivAt_id x).const_add 1) hne).const_sub up
    refine this.congr_deriv ?_
    simp only [id]
    field_simp; ring
  · rintro x ⟨h1, h2⟩
    have : 0 < 1 + x := by linarith
    positivity
  · rintro x ⟨h1, h2⟩
    have h3 : 0 < 1 - x := by linarith
    have h4 : 0 < 1 + x := by linarith
    have : 0 < (1 - x) / (1 + x) := by positivity
    exact ⟨trivial, by simp only [XReal.Lt]; linarith⟩
  · intro y _ h1
    simp only [XReal.Lt] at h1
    have hp : 0 < 1 + (up - y) := by linarith
    refine ⟨⟨?_, ?_⟩, ?_⟩
    · rw [lt_div_iff₀ hp]; linarith
    · rw [div_lt_iff₀ hp]; linarith
    · have e : 1 + (1 - (up - y)) / (1 + (up - y)) = 2 / (1 + (up - y)) := by field_simp; ring
      rw [e]; field_simp; ring

private theorem map_inf :
    IsBoundMap ninf pinf (fun x => x / (1 + x) / (1 - x))
      (fun x => (1 + x * x) / ((x * x - 1) * (x * x - 1))) := by
  refine mkMap (inv := fun y => 2 * y / (1 + √(1 + 4 * y ^ 2))) ?_ ?_ ?_ ?_
  · rintro x ⟨h1, h2⟩
    have hne : 1 + x ≠ 0 := by linarith
    have hne' : 1 - x ≠ 0 := by linarith
    have hne'' : x * x - 1 ≠ 0 := by nlinarith
    have := ((hasDerivAt_id x).div ((hasDerivAt_id x).const_add 1) hne).div
      ((hasDerivAt_id x).const_sub 1) hne'
    refine this.congr_deriv ?_
    simp only [id, Pi.div_apply]
    rw [show x * x - 1 = -((1 - x) * (1 + x)) by ring]
    field_simp; ring
  · rintro x ⟨h1, h2⟩
    have hne'' : 0 < (x * x - 1) * (x * x - 1) := mul_pos_of_neg_of_neg (by nlinarith) (by nlinarith)
    have : 0 < 1 + x * x := by nlinarith
    positivity
  · exact fun x _ => ⟨trivial, trivial⟩
  · intro y _ _
    set s := √(1 + 4 * y ^ 2) with hs
    have hs2 : s ^ 2 = 1 + 4 * y ^ 2 := Real.sq_sqrt (by positivity)
    have hs0 : 0 ≤ s := Real.sqrt_nonneg _
    have hs1 : 1 ≤ s := by nlinarith
    have hp : 0 < 1 + s := by linarith
    have hya : (2 * y) ^ 2 < (1 + s) ^ 2 := by nlinarith
    have habs := abs_lt_of_sq_lt_sq hya hp.le
    rw [abs_lt] at habs
    refine ⟨⟨?_, ?_⟩, ?_⟩
    · rw [lt_div_iff₀ hp]; linarith [habs.1]
    · rw [div_lt_iff₀ hp]; linarith [habs.2]
    · have e : (1 + 2 * y / (1 + s)) * (1 - 2 * y / (1 + s)) = 2 / (1 + s) := by
        field_simp; linear_combination hs2
      rw [div_div, e]; field_simp

private theorem cassert_true (b : Build) {p : Bool} (h : p = true) : cassert b p = .ok () := by
  simp [cassert, h]

private theorem eval_fin (b : Build) {lo up : ℝ} (h : lo < up) (x w : ℝ) :
    boundTransform b pinf (fin lo) (fin up) (fin x) (fin w) =
      .ok (fin ((up - lo) * x / 2 + (up + lo) / 2), fin (w * ((up - lo) / 2))) := by
  have e1 : Arith.eq (fin up) pinf = false := by
    rw [Bool.eq_false_iff, Ne, eq_iff]; exact id
  have e2 : Arith.eq (fin lo) (-pinf) = false := by
    rw [Bool.eq_false_iff, Ne, eq_iff]; exact id
  unfold boundTransform
  rw [cassert_true b (show Arith.lt (fin lo) (fin up) = true from (lt_iff _ _).mpr h), e1, e2]
  simp [XReal.fin_div]

private theorem eval_up (b : Build) (lo : ℝ) {x : ℝ} (hx : x < 1) (w : ℝ) :
    boundTransform b pinf (fin lo) pinf (fin x) (fin w) =
      .ok (fin (lo + (1 + x) / (1 - x)), fin (w * (2 / ((1 - x) * (1 - x))))) := by
  have e1 : Arith.eq (pinf : XReal) pinf = true := by rw [eq_iff]; trivial
  have e2 : Arith.eq (fin lo) (-pinf) = false := by
    rw [Bool.eq_false_iff, Ne, eq_iff]; exact id
  have h1 : 1 - x ≠ 0 := by linarith
  unfold boundTransform
  rw [cassert_true b (show Arith.lt (fin lo) pinf = true from (lt_iff _ _).mpr trivial), e1, e2]
  simp [XReal.fin_div, h1]

private theorem eval_lo (b : Build) (up : ℝ) {x : ℝ} (hx : -1 < x) (w : ℝ) :
    boundTransform b pinf ninf (fin up) (fin x) (fin w) =
      .ok (fin (up - (1 - x) / (1 + x)), fin (w * (-2 / ((1 + x) * (1 + x))))) := by
  have e1 : Arith.eq (fin up) pinf = false := by
    rw [Bool.eq_false_iff, Ne, eq_iff]; exact id
  have e2 : Arith.eq (ninf : XReal) (-pinf) = true := by rw [eq_iff]; trivial
  have h1 : 1 + x ≠ 0 := by linarith
  unfold boundTransform
  rw [cassert_true b (show Arith.lt ninf (fin up) = true from (lt_iff _ _).mpr trivial), e1, e2]
  simp [XReal.fin_div, h1]

private theorem eval_inf (b : Build) {x : ℝ} (hx0 : -1 < x) (hx : x < 1) (w : ℝ) :
    boundTransform b pinf ninf pinf (fin x) (fin w) =
      .ok (fin (x / (1 + x) / (1 - x)), fin (w * ((1 + x * x) / ((x * x - 1) * (x * x - 1))))) := by
  have e1 : Arith.eq (pinf : XReal) pinf = true := by rw [eq_iff]; trivial
  have e2 : Arith.eq (ninf : XReal) (-pinf) = true := by rw [eq_iff]; trivial
  have h1 : 1 + x ≠ 0 := by linarith
  have h2 : 1 - x ≠ 0 := by linarith
  have h3 : x * x - 1 ≠ 0 := by nlinarith
  unfold boundTransform
  rw [cassert_true b (show Arith.lt ninf pinf = true from (lt_iff _ _).mpr trivial), e1, e2]
  simp [XReal.fin_div, h1, h2, h3]

/-- **C25 (partial).**  The intended property holds for every combination of bounds except
`lo = -inf` with a finite upper bound (for that combination see `C25_bound_transform_sign_error`
and `C25_bound_transform_violated`). -/
theorem C25_bound_transform_partial (b : Build) (lo up : XReal) (h : XReal.Lt lo up)
    (hgood : lo = ninf → up = pinf) :
    ∃ m m', IsBoundMap lo up m m' ∧ ∀ x ∈ Set.Ioo (-1 : ℝ) 1, ∀ w : ℝ,
      boundTransform b pinf lo up (fin x) (fin w) = .ok (fin (m x), fin (w * m' x)) := by
  cases lo with
  | fin lo =>
    cases up with
    | fin up => exact ⟨_, _, map_fin h, fun x _ w => eval_fin b h x w⟩
    | pinf => exact ⟨_, _, map_up lo, fun x hx w => eval_up b lo hx.2 w⟩
    | ninf => exact absurd h id
    | nan => exact absurd h id
  | ninf =>
    cases hgood rfl
    exact ⟨_, _, map_inf, fun x hx w => eval_inf b hx.1 hx.2 w⟩
  | pinf => cases up <;> exact absurd h id
  | nan => cases up <;> exact absurd h id

example : XReal.Lt (fin 2) pinf ∧ ((fin 2 : XReal) = ninf → (pinf : XReal) = pinf) :=
  ⟨trivial, fun _ => rfl⟩

/-- **C25 (the remaining combination).**  For `lo = -inf` and finite `up` the node map is the
intended one, but the weight is multiplied by *minus* its derivative. -/
theorem C25_bound_transform_sign_error (b : Build) (up : ℝ) :
    ∃ m m', IsBoundMap ninf (fin up) m m' ∧ ∀ x ∈ Set.Ioo (-1 : ℝ) 1, ∀ w : ℝ,
      boundTransform b pinf ninf (fin up) (fin x) (fin w) = .ok (fin (m x), fin (w * (-m' x))) := by
  refine ⟨_, _, map_lo up, fun x hx w => ?_⟩
  rw [eval_lo b up hx.1 w]
  congr 3; ring

/-- **C25 (violation).**  Hence the intended property fails: `lo = -inf`, `up = 0`, node 0 and
weight 1 give the weight `-2`. -/
theorem C25_bound_transform_violated : ¬ C25_full_statement := by
  intro h
  obtain ⟨m, m', hm, he⟩ := h ⟨true⟩ ninf (fin 0) trivial
  have h0 : (0 : ℝ) ∈ Set.Ioo (-1 : ℝ) 1 := ⟨by norm_num, by norm_num⟩
  have h1 := he 0 h0 1
  rw [eval_lo _ _ (by norm_num)] at h1
  have h2 := hm.pos 0 h0
  injection h1 with h1
  injection h1 with _ h1
  injection h1 with h1
  norm_num at h1
  linarith

example : boundTransform ⟨true⟩ pinf ninf (fin 0) (fin 0) (fin 1) = .ok (fin (-1), fin (-2)) := by
  rw [eval_lo _ _ (by norm_num)]; norm_num

end IntegratorXX
