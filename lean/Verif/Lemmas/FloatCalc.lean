import Verif.Lemmas.Round
import Mathlib.Analysis.SpecialFunctions.Sqrt

/-!
# Error propagation in `double` arithmetic

`Near a x e`: the `double` `a` is finite and differs from `x` by at most `e`.
`Rel a x k`: by at most `k` times `2⁻⁵³ |x|`.
-/

namespace IntegratorXX

/-- Unit roundoff. -/
@[irreducible] noncomputable def uro : ℝ := 2⁻¹ ^ 53

theorem uro_pos : 0 < uro := by unfold uro; positivity
theorem uro_def : (2⁻¹ : ℝ) ^ 53 = uro := by unfold uro; rfl
theorem uro_eq : uro = 1 / 9007199254740992 := by unfold uro; norm_num

/-- Far away from underflow and overflow. -/
structure Mid (x : ℝ) : Prop where
  lo : 2⁻¹ ^ 200 ≤ |x|
  hi : |x| ≤ 2 ^ 200

theorem f64Min_le : f64Min ≤ 2⁻¹ ^ 201 := by
  unfold f64Min
  rw [inv_pow, ← zpow_natCast, ← zpow_neg]
  exact two_zpow_mono (by norm_num)

theorem f64Tiny_le : f64Tiny ≤ 2⁻¹ ^ 200 := by
  unfold f64Tiny
  rw [inv_pow, ← zpow_natCast, ← zpow_neg]
  exact two_zpow_mono (by norm_num)

theorem le_f64Big : (2 : ℝ) ^ 201 ≤ f64Big := by
  unfold f64Big
  rw [← zpow_natCast]
  exact two_zpow_mono (by norm_num)

theorem Mid.ne {x : ℝ} (h : Mid x) : x ≠ 0 := by
  rintro rfl
  have := h.1
  rw [abs_zero] at this
  have : (0 : ℝ) < 2⁻¹ ^ 200 := by positivity
  linarith

theorem Mid.neg {x : ℝ} (h : Mid x) : Mid (-x) := ⟨by rw [abs_neg]; exact h.1, by rw [abs_neg]; exact h.2⟩

theorem mid_of {x : ℝ} (h0 : 2⁻¹ ^ 200 ≤ x) (h1 : x ≤ 2 ^ 200) : Mid x := by
  have : (0 : ℝ) < 2⁻¹ ^ 200 := by positivity
  have e : |x| = x := abs_of_pos (by linarith)
  exact ⟨by rw [e]; exact h0, by rw [e]; exact h1⟩

variable {L : Libm}

/-- A finite value close to `x`. -/
def Near (a : F64 L) (x e : ℝ) : Prop := ∃ v, a = F64.fin v ∧ IsF64 v ∧ |v - x| ≤ e

/-- A finite value with a small relative error. -/
def Rel (a : F64 L) (x k : ℝ) : Prop := Near a x (k * uro * |x|)

theorem Near.mono {a : F64 L} {x e f : ℝ} (h : Near a x e) (hf : e ≤ f) : Near a x f := by
  obtain ⟨v, h1, h2, h3⟩ := h
  exact ⟨v, h1, h2, h3.trans hf⟩

theorem Rel.mono {a : F64 L} {x k l : ℝ} (h : Rel a x k) (hl : k ≤ l) : Rel a x l := by
  refine Near.mono h ?_
  have := uro_pos
  gcongr

theorem Rel.near {a : F64 L} {x k B : ℝ} (h : Rel a x k) (hk : 0 ≤ k) (hx : |x| ≤ B) :
    Near a x (k * uro * B) := by
  refine Near.mono h ?_
  have := uro_pos
  gcongr

theorem near_self {v : ℝ} (h : IsF64 v) : Near (F64.fin v : F64 L) v 0 := ⟨v, rfl, h, by simp⟩

theorem Near.neg {a : F64 L} {x e : ℝ} (h : Near a x e) : Near (-a) (-x) e := by
  obtain ⟨v, rfl, h2, h3⟩ := h
  refine ⟨-v, rfl, isF64_neg h2, ?_⟩
  rw [show -v - -x = -(v - x) by ring, abs_neg]
  exact h3

theorem Rel.neg {a : F64 L} {x k : ℝ} (h : Rel a x k) : Rel (-a) (-x) k := by
  unfold Rel
  rw [abs_neg]
  exact Near.neg h

/-! ## Rounding of an approximate value -/

theorem of_near {t z e B : ℝ} (h : |t - z| ≤ e) (hB : |z| + e ≤ B) (hB' : B ≤ 2 ^ 200) :
    Near (F64.of t : F64 L) z (e + uro * B + 2⁻¹ ^ 200) := by
  have ht : |t| ≤ B := by
    have := abs_add_le (t - z) z
    rw [sub_add_cancel] at this
    linarith
  have hb : |t| ≤ f64Big := by
    have := le_f64Big
    have : (2 : ℝ) ^ 200 ≤ 2 ^ 201 := by norm_num
    linarith
  refine ⟨rnd t, F64.of_fin hb, isF64_rnd hb, ?_⟩
  have h1 := rnd_err t
  have h2 := f64Tiny_le
  have h3 := f64Tiny_pos
  have h4 : 2⁻¹ ^ 53 * |t| ≤ uro * B := by unfold uro; gcongr
  calc |rnd t - z| = |(rnd t - t) + (t - z)| := by ring_nf
    _ ≤ |rnd t - t| + |t - z| := abs_add_le _ _
    _ ≤ _ := by linarith

theorem of_rel {t z k : ℝ} (h : |t - z| ≤ k * uro * |z|) (_hk : 0 ≤ k) (hk' : k ≤ 4000000) (hz : Mid z) :
    Rel (F64.of t : F64 L) z (k + 5 / 4) := by
  have hu := uro_pos
  have hz0 := abs_pos.2 hz.ne
  have hku : k * uro ≤ 1 / 4 := by
    rw [uro_eq]
    linarith
  have hle : k * uro * |z| ≤ 1 / 4 * |z| := by gcongr
  have ht : |t| ≤ (1 + k * uro) * |z| := by
    have := abs_add_le (t - z) z
    rw [sub_add_cancel] at this
    linarith
  have ht' : |z| - k * uro * |z| ≤ |t| := by
    have := abs_sub_abs_le_abs_sub z t
    rw [abs_sub_comm] at this
    linarith
  obtain ⟨hz1, hz2⟩ := hz
  have hb : |t| ≤ f64Big := by
    have := le_f64Big
    have : (2 : ℝ) ^ 201 = 2 * 2 ^ 200 := by ring
    linarith
  have hmin : f64Min ≤ |t| := by
    have := f64Min_le
    have : (2⁻¹ : ℝ) ^ 201 = 2⁻¹ ^ 200 / 2 := by rw [pow_succ]; ring
    linarith
  refine ⟨rnd t, F64.of_fin hb, isF64_rnd hb, ?_⟩
  have h1 := rnd_err_normal hmin
  have h4 : 2⁻¹ ^ 53 * |t| ≤ uro * ((1 + k * uro) * |z|) := by
    rw [uro_def]
    gcongr
  have h5 : uro * ((1 + k * uro) * |z|) ≤ uro * ((1 + 1 / 4) * |z|) := by gcongr
  calc |rnd t - z| = |(rnd t - t) + (t - z)| := by ring_nf
    _ ≤ |rnd t - t| + |t - z| := abs_add_le _ _
    _ ≤ uro * ((1 + 1 / 4) * |z|) + k * uro * |z| := by linarith
    _ = _ := by ring

theorem of_rel' {z : ℝ} (hz : Mid z) : Rel (F64.of z : F64 L) z (5 / 4) := by
  have := of_rel (L := L) (t := z) (z := z) (k := 0) (by simp) le_rfl (by norm_num) hz
  simpa using this

/-- Values that are not changed by rounding. -/
theorem of_exact {z : ℝ} (h : rnd z = z) (hz : |z| ≤ 2 ^ 200) : (F64.of z : F64 L) = F64.fin z ∧ IsF64 z := by
  have hb : |z| ≤ f64Big := by
    have := le_f64Big
    have : (2 : ℝ) ^ 200 ≤ 2 ^ 201 := by norm_num
    linarith
  have h1 := F64.of_fin (L := L) hb
  have h2 := isF64_rnd hb
  rw [h] at h1 h2
  exact ⟨h1, h2⟩

theorem rel_exact {z : ℝ} (h : rnd z = z) (hz : |z| ≤ 2 ^ 200) : Rel (F64.of z : F64 L) z 0 := by
  obtain ⟨h1, h2⟩ := of_exact (L := L) h hz
  rw [h1]
  refine ⟨z, rfl, h2, ?_⟩
  rw [sub_self, abs_zero, zero_mul, zero_mul]

theorem rel_nat {n : ℕ} (h : n ≤ 2 ^ 53) : Rel (Arith.ofNat n : F64 L) n 0 := by
  refine rel_exact (rnd_nat h) ?_
  rw [Nat.abs_cast]
  calc (n : ℝ) ≤ ((2 ^ 53 : ℕ) : ℝ) := by exact_mod_cast h
    _ ≤ 2 ^ 200 := by norm_num

theorem near_nat {n : ℕ} (h : n ≤ 2 ^ 53) : Near (Arith.ofNat n : F64 L) n 0 := by
  have := rel_nat (L := L) h
  unfold Rel at this
  rwa [zero_mul, zero_mul] at this

/-- An integer literal. -/
theorem lit_nat (n : ℕ) (h : n ≤ 2 ^ 53) : Near (Arith.lit (n : ℚ) : F64 L) n 0 := by
  have := near_nat (L := L) h
  have e : (Arith.lit (n : ℚ) : F64 L) = Arith.ofNat n := by
    show F64.of _ = F64.of _
    push_cast
    rfl
  rwa [e]

/-! ## Relative errors -/

theorem abs_mul_sub {v w x y p q : ℝ} (h1 : |v - x| ≤ p * |x|) (h2 : |w - y| ≤ q * |y|) (hp : 0 ≤ p) :
    |v * w - x * y| ≤ (p + q + p * q) * |x * y| := by
  have hw : |w| ≤ (1 + q) * |y| := by
    have := abs_add_le (w - y) y
    rw [sub_add_cancel] at this
    linarith
  calc |v * w - x * y| = |(v - x) * w + x * (w - y)| := by ring_nf
    _ ≤ |v - x| * |w| + |x| * |w - y| := by
        refine (abs_add_le _ _).trans ?_
        rw [abs_mul, abs_mul]
    _ ≤ p * |x| * ((1 + q) * |y|) + |x| * (q * |y|) := by gcongr
    _ = _ := by rw [abs_mul]; ring

theorem Rel.mul {a b : F64 L} {x y k l : ℝ} (ha : Rel a x k) (hb : Rel b y l) (hk : 0 ≤ k)
    (hk' : k ≤ 1000000) (hl : 0 ≤ l) (hl' : l ≤ 1000000) (hm : Mid (x * y)) :
    Rel (a * b) (x * y) (k + l + 2) := by
  obtain ⟨v, rfl, hv, hvx⟩ := ha
  obtain ⟨w, rfl, hw, hwy⟩ := hb
  rw [F64.fin_mul]
  have hu := uro_pos
  have hkl : k * l * uro ≤ 1 / 2 := by
    have : k * l ≤ 1000000 * 1000000 := by gcongr
    rw [uro_eq]
    norm_num at this ⊢
    linarith
  refine (of_rel (k := k + l + 1 / 2) ?_ (by positivity) (by linarith) hm).mono (by linarith)
  refine (abs_mul_sub hvx hwy (by positivity)).trans ?_
  have : k * uro + l * uro + k * uro * (l * uro) = (k + l + k * l * uro) * uro := by ring
  rw [this]
  gcongr

theorem Rel.div {a b : F64 L} {x y k l : ℝ} (ha : Rel a x k) (hb : Rel b y l) (hk : 0 ≤ k)
    (hk' : k ≤ 1000000) (hl : 0 ≤ l) (hl' : l ≤ 1000000) (hy : y ≠ 0) (hm : Mid (x / y)) :
    Rel (a / b) (x / y) (k + l + 2) := by
  obtain ⟨v, rfl, hv, hvx⟩ := ha
  obtain ⟨w, rfl, hw, hwy⟩ := hb
  have hu := uro_pos
  have hlu : l * uro ≤ 1 / 2 ^ 30 := by
    rw [uro_eq]
    norm_num
    linarith
  have hy0 := abs_pos.2 hy
  have hwl : (1 - l * uro) * |y| ≤ |w| := by
    have := abs_sub_abs_le_abs_sub y w
    rw [abs_sub_comm] at this
    linarith
  have hwpos : 0 < |w| := by
    refine lt_of_lt_of_le ?_ hwl
    have : (0 : ℝ) < 1 - l * uro := by norm_num at hlu; linarith
    positivity
  have hw0 : w ≠ 0 := abs_pos.1 hwpos
  rw [F64.fin_div _ hw0]
  refine (of_rel (k := k + l + 1 / 2) ?_ (by positivity) (by linarith) hm).mono (by linarith)
  have e : v / w - x / y = ((v - x) * y - x * (w - y)) / (w * y) := by
    field_simp
    ring
  rw [e, abs_div, abs_mul, div_le_iff₀ (by positivity), abs_div]
  have e2 : (k + l + 1 / 2) * uro * (|x| / |y|) * (|w| * |y|) = (k + l + 1 / 2) * uro * |x| * |w| := by
    field_simp
  rw [e2]
  calc |(v - x) * y - x * (w - y)| ≤ |v - x| * |y| + |x| * |w - y| := by
        refine (abs_sub _ _).trans ?_
        rw [abs_mul, abs_mul]
    _ ≤ k * uro * |x| * |y| + |x| * (l * uro * |y|) := by gcongr
    _ = (k + l) * uro * |x| * |y| := by ring
    _ ≤ (k + l + 1 / 2) * uro * |x| * ((1 - l * uro) * |y|) := by
        have h1 : k + l ≤ (k + l + 1 / 2) * (1 - l * uro) := by
          have : (k + l + 1 / 2) * (l * uro) ≤ 4000000 * (1 / 2 ^ 30) := by
            have : k + l + 1 / 2 ≤ 4000000 := by linarith
            gcongr
          norm_num at this
          nlinarith
        calc (k + l) * uro * |x| * |y| = (k + l) * (uro * |x| * |y|) := by ring
          _ ≤ (k + l + 1 / 2) * (1 - l * uro) * (uro * |x| * |y|) := by gcongr
          _ = _ := by ring
    _ ≤ _ := by gcongr

theorem sqrt_near {v x p : ℝ} (hx : 0 < x) (hv : 0 ≤ v) (h : |v - x| ≤ p) :
    |Real.sqrt v - Real.sqrt x| ≤ p / Real.sqrt x := by
  have hs : 0 < Real.sqrt x := Real.sqrt_pos.2 hx
  have hs' := Real.sqrt_nonneg v
  rw [le_div_iff₀ hs]
  refine le_trans ?_ h
  have e : v - x = (Real.sqrt v - Real.sqrt x) * (Real.sqrt v + Real.sqrt x) := by
    have h1 := Real.mul_self_sqrt hv
    have h2 := Real.mul_self_sqrt hx.le
    linear_combination -h1 + h2
  rw [e, abs_mul, abs_of_pos (a := Real.sqrt v + Real.sqrt x) (by positivity)]
  gcongr
  linarith

theorem Rel.sqrt {a : F64 L} {x k : ℝ} (ha : Rel a x k) (hk : 0 ≤ k) (hk' : k ≤ 1000000) (hx : 0 < x)
    (hm : Mid (Real.sqrt x)) : Rel (Arith.sqrt a) (Real.sqrt x) (k + 2) := by
  obtain ⟨v, rfl, hv, hvx⟩ := ha
  have hu := uro_pos
  have hku : k * uro ≤ 1 / 2 := by
    rw [uro_eq]
    linarith
  rw [abs_of_pos hx] at hvx
  have hv0 : 0 ≤ v := by
    have := (abs_le.1 hvx).1
    have : k * uro * x ≤ 1 / 2 * x := by gcongr
    linarith
  rw [F64.fin_sqrt hv0]
  refine (of_rel (k := k) ?_ hk (by linarith) hm).mono (by linarith)
  refine (sqrt_near hx hv0 hvx).trans ?_
  rw [abs_of_pos (Real.sqrt_pos.2 hx), div_le_iff₀ (Real.sqrt_pos.2 hx), mul_assoc (k * uro),
    Real.mul_self_sqrt hx.le]

/-! ## Absolute errors -/

theorem Near.add {a b : F64 L} {x y e f B : ℝ} (ha : Near a x e) (hb : Near b y f)
    (hB : |x + y| + (e + f) ≤ B) (hB' : B ≤ 2 ^ 200) :
    Near (a + b) (x + y) (e + f + uro * B + 2⁻¹ ^ 200) := by
  obtain ⟨v, rfl, hv, hvx⟩ := ha
  obtain ⟨w, rfl, hw, hwy⟩ := hb
  rw [F64.fin_add]
  refine of_near ?_ hB hB'
  calc |v + w - (x + y)| = |(v - x) + (w - y)| := by ring_nf
    _ ≤ _ := (abs_add_le _ _).trans (by linarith)

theorem Near.sub {a b : F64 L} {x y e f B : ℝ} (ha : Near a x e) (hb : Near b y f)
    (hB : |x - y| + (e + f) ≤ B) (hB' : B ≤ 2 ^ 200) :
    Near (a - b) (x - y) (e + f + uro * B + 2⁻¹ ^ 200) := by
  obtain ⟨v, rfl, hv, hvx⟩ := ha
  obtain ⟨w, rfl, hw, hwy⟩ := hb
  rw [F64.fin_sub]
  refine of_near ?_ hB hB'
  calc |v - w - (x - y)| = |(v - x) - (w - y)| := by ring_nf
    _ ≤ _ := (abs_sub _ _).trans (by linarith)

theorem Near.mul {a b : F64 L} {x y e f B X Y : ℝ} (ha : Near a x e) (hb : Near b y f)
    (hX : |x| ≤ X) (hY : |y| ≤ Y) (hB : |x * y| + (e * (Y + f) + X * f) ≤ B) (hB' : B ≤ 2 ^ 200) :
    Near (a * b) (x * y) (e * (Y + f) + X * f + uro * B + 2⁻¹ ^ 200) := by
  obtain ⟨v, rfl, hv, hvx⟩ := ha
  obtain ⟨w, rfl, hw, hwy⟩ := hb
  rw [F64.fin_mul]
  refine of_near ?_ hB hB'
  have hw' : |w| ≤ Y + f := by
    have := abs_add_le (w - y) y
    rw [sub_add_cancel] at this
    linarith
  have he : 0 ≤ e := (abs_nonneg _).trans hvx
  have hX0 : 0 ≤ X := (abs_nonneg _).trans hX
  calc |v * w - x * y| = |(v - x) * w + x * (w - y)| := by ring_nf
    _ ≤ |v - x| * |w| + |x| * |w - y| := by
        refine (abs_add_le _ _).trans ?_
        rw [abs_mul, abs_mul]
    _ ≤ _ := by gcongr

end IntegratorXX
