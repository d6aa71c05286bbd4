import Verif.Lemmas.FloatBound

/-!
# C90: the bound transformation in `double` arithmetic
-/

namespace IntegratorXX

variable {L : Libm}

private theorem eq_fin_inf (x : ℝ) : Arith.eq (F64.fin x : F64 L) F64.inf = false := by
  rw [Bool.eq_false_iff, Ne]
  exact fun h => (XReal.eq_iff (XReal.fin x) XReal.pinf).1 h

private theorem eq_fin_ninf (x : ℝ) : Arith.eq (F64.fin x : F64 L) (-F64.inf) = false := by
  rw [Bool.eq_false_iff, Ne]
  exact fun h => (XReal.eq_iff (XReal.fin x) XReal.ninf).1 h

private theorem eq_inf_inf : Arith.eq (F64.inf : F64 L) F64.inf = true :=
  (XReal.eq_iff XReal.pinf XReal.pinf).2 trivial

private theorem eq_ninf_ninf : Arith.eq (-F64.inf : F64 L) (-F64.inf) = true :=
  (XReal.eq_iff XReal.ninf XReal.ninf).2 trivial

private theorem eval_fin (b : Build) {lo up : ℝ} (h : lo < up) (p w : F64 L) :
    boundTransform b F64.inf (F64.fin lo) (F64.fin up) p w =
      .ok ((F64.fin up - F64.fin lo) * p / Arith.lit 2 + (F64.fin up + F64.fin lo) / Arith.lit 2,
        w * ((F64.fin up - F64.fin lo) / Arith.lit 2)) := by
  unfold boundTransform
  rw [eq_fin_inf, eq_fin_ninf]
  simp [cassert, (F64.lt_iff (L := L) lo up).2 h]

private theorem eval_up (b : Build) (lo : ℝ) (p w : F64 L) :
    boundTransform b F64.inf (F64.fin lo) F64.inf p w =
      .ok (F64.fin lo + (Arith.lit 1 + p) / (Arith.lit 1 - p),
        w * (Arith.lit 2 / ((Arith.lit 1 - p) * (Arith.lit 1 - p)))) := by
  have h : Arith.lt (F64.fin lo : F64 L) F64.inf = true := (XReal.lt_iff (XReal.fin lo) XReal.pinf).2 trivial
  unfold boundTransform
  rw [eq_inf_inf, eq_fin_ninf]
  simp [cassert, h]

private theorem eval_lo (b : Build) (up : ℝ) (p w : F64 L) :
    boundTransform b F64.inf (-F64.inf) (F64.fin up) p w =
      .ok (F64.fin up - (Arith.lit 1 - p) / (Arith.lit 1 + p),
        w * (Arith.lit (-2) / ((Arith.lit 1 + p) * (Arith.lit 1 + p)))) := by
  have h : Arith.lt (-F64.inf : F64 L) (F64.fin up) = true := (XReal.lt_iff XReal.ninf (XReal.fin up)).2 trivial
  unfold boundTransform
  rw [eq_fin_inf, eq_ninf_ninf]
  simp [cassert, h]

private theorem eval_inf (b : Build) (p w : F64 L) :
    boundTransform b F64.inf (-F64.inf) F64.inf p w =
      .ok (p / (Arith.lit 1 + p) / (Arith.lit 1 - p),
        w * ((Arith.lit 1 + p * p) / ((p * p - Arith.lit 1) * (p * p - Arith.lit 1)))) := by
  have h : Arith.lt (-F64.inf : F64 L) F64.inf = true := (XReal.lt_iff XReal.ninf XReal.pinf).2 trivial
  unfold boundTransform
  rw [eq_inf_inf, eq_ninf_ninf]
  simp [cassert, h]

private theorem near_half {a : F64 L} {x e B : ℝ} (h : Near a x e) (hB : |x| / 2 + e / 2 ≤ B) (hB' : B ≤ 2 ^ 200) :
    Near (a / Arith.lit 2) (x / 2) (e / 2 + uro * B + 2⁻¹ ^ 200) := by
  obtain ⟨v, rfl, hv, hvx⟩ := h
  rw [(lit_two_eq (L := L)).1, F64.fin_div _ (by norm_num)]
  have h2 : |(2 : ℝ)| = 2 := abs_of_pos (by norm_num)
  refine of_near ?_ ?_ hB'
  · rw [← sub_div, abs_div, h2]
    linarith
  · rw [abs_div, h2]
    exact hB

private theorem mid_two : ZRng 1 (2 : ℝ) := .inr ⟨by norm_num, by norm_num⟩

private theorem close_two : Close 0 (Arith.lit 2 : F64 L) 2 := by
  rw [(lit_two_eq (L := L)).1]
  exact close_self (lit_two_eq (L := L)).2

/-- Both bounds finite: the node is mapped with an error of at most eight units in the last place of the larger
bound, the weight with a small relative error. -/
theorem C90_finite_double (b : Build) {lo up x w M : ℝ} (hlo : IsF64 lo) (hup : IsF64 up) (hx : IsF64 x)
    (hw : IsF64 w) (hgap : lo + 2⁻¹ ^ 100 ≤ up) (hloM : |lo| ≤ M) (hupM : |up| ≤ M) (hM : M ≤ 2 ^ 100)
    (hx1 : |x| ≤ 1) (hw1 : w = 0 ∨ (2⁻¹ ^ 100 ≤ |w| ∧ |w| ≤ 2 ^ 100)) :
    ∃ y v, boundTransform b F64.inf (F64.fin lo) (F64.fin up) (F64.fin x) (F64.fin w : F64 L) =
        .ok (F64.fin y, F64.fin v) ∧ IsF64 y ∧ IsF64 v ∧
      |y - ((up - lo) * x / 2 + (up + lo) / 2)| ≤ 2⁻¹ ^ 50 * M ∧
      |v - w * ((up - lo) / 2)| ≤ 2⁻¹ ^ 51 * |w * ((up - lo) / 2)| := by
  have hu := uro_pos
  have hu2 := uro_eq
  have h100 : (0 : ℝ) < 2⁻¹ ^ 100 := by positivity
  have a1 := abs_le.1 hloM
  have a2 := abs_le.1 hupM
  have ax := abs_le.1 hx1
  have hM0 : 2⁻¹ ^ 101 ≤ M := by
    have : (2⁻¹ : ℝ) ^ 101 = 2⁻¹ ^ 100 / 2 := by rw [pow_succ]; ring
    rw [this]
    linarith
  have ht : (2⁻¹ : ℝ) ^ 200 ≤ uro / 1000000 * M := by
    have e : (2⁻¹ : ℝ) ^ 200 ≤ uro / 1000000 * 2⁻¹ ^ 101 := by rw [hu2]; norm_num
    exact e.trans (by gcongr)
  have hMpos : 0 < M := lt_of_lt_of_le (by positivity) hM0
  have h200 : 4 * M ≤ 2 ^ 200 := by
    have : (4 : ℝ) * 2 ^ 100 ≤ 2 ^ 200 := by norm_num
    linarith
  have huM : uro * M ≤ M / 1000000 := by
    rw [hu2]
    linarith
  have h51 : (2⁻¹ : ℝ) ^ 51 = 4 * uro := by rw [hu2]; norm_num
  have h50 : (2⁻¹ : ℝ) ^ 50 = 8 * uro := by rw [hu2]; norm_num
  obtain ⟨t, htd⟩ : ∃ t : ℝ, t = 2⁻¹ ^ 200 := ⟨_, rfl⟩
  rw [← htd] at ht
  obtain ⟨κ, hκ⟩ : ∃ κ : ℝ, κ = uro * M := ⟨_, rfl⟩
  rw [eval_fin b (by linarith)]
  have hd : |up - lo| ≤ 2 * M := by rw [abs_le]; constructor <;> linarith
  have hs : |up + lo| ≤ 2 * M := by rw [abs_le]; constructor <;> linarith
  have n1 := (near_self (L := L) hup).sub (near_self (L := L) hlo) (B := 2 * M) (by linarith) (by linarith)
  have n1 := n1.mono (f := 2.001 * κ) (by rw [← htd, hκ]; linarith)
  have hdx : |(up - lo) * x| ≤ 2 * M := by
    rw [abs_mul]
    calc |up - lo| * |x| ≤ 2 * M * 1 := by gcongr
      _ = 2 * M := by ring
  have n2 := n1.mul (near_self (L := L) hx) (X := 2 * M) (Y := 1) (B := 2.1 * M) hd hx1 (by
    rw [hκ]; linarith) (by linarith)
  have n2 := n2.mono (f := 4.2 * κ) (by rw [← htd, hκ]; linarith)
  have n3 := near_half n2 (B := 1.1 * M) (by rw [hκ]; linarith) (by linarith)
  have n3 := n3.mono (f := 3.3 * κ) (by rw [← htd, hκ]; linarith)
  have n4 := (near_self (L := L) hup).add (near_self (L := L) hlo) (B := 2 * M) (by linarith) (by linarith)
  have n4 := n4.mono (f := 2.001 * κ) (by rw [← htd, hκ]; linarith)
  have n5 := near_half n4 (B := 1.1 * M) (by rw [hκ]; linarith) (by linarith)
  have n5 := n5.mono (f := 2.2 * κ) (by rw [← htd, hκ]; linarith)
  have hy : |(up - lo) * x / 2 + (up + lo) / 2| ≤ M := by
    have e : (up - lo) * x / 2 + (up + lo) / 2 = up * ((1 + x) / 2) + lo * ((1 - x) / 2) := by ring
    rw [e]
    have b1 : |up * ((1 + x) / 2)| ≤ M * ((1 + x) / 2) := by
      rw [abs_mul, abs_of_nonneg (show (0 : ℝ) ≤ (1 + x) / 2 by linarith)]
      exact mul_le_mul_of_nonneg_right hupM (by linarith)
    have b2 : |lo * ((1 - x) / 2)| ≤ M * ((1 - x) / 2) := by
      rw [abs_mul, abs_of_nonneg (show (0 : ℝ) ≤ (1 - x) / 2 by linarith)]
      exact mul_le_mul_of_nonneg_right hloM (by linarith)
    refine (abs_add_le _ _).trans ?_
    linarith
  have n6 := n3.add n5 (B := 1.1 * M) (by rw [hκ]; linarith) (by linarith)
  have n6 := n6.mono (f := 8 * κ) (by rw [← htd, hκ]; linarith)
  obtain ⟨y, hy1, hy2, hy3⟩ := n6
  -- the weight
  have hgz : ZRng 101 (up - lo) := by
    right
    rw [abs_of_pos (by linarith)]
    have : (2⁻¹ : ℝ) ^ 101 ≤ 2⁻¹ ^ 100 := by norm_num
    refine ⟨by linarith, ?_⟩
    have : (2 : ℝ) ^ 101 = 2 * 2 ^ 100 := by ring
    linarith
  have c1 : Close (1.1 * uro) (F64.fin up - F64.fin lo : F64 L) (up - lo) := by
    rw [F64.fin_sub]
    exact close_of (hgz.mono (by norm_num))
  have hus : uro ≤ 1 / 1000000 := by rw [hu2]; norm_num
  have hgz2 := hgz.div mid_two (g := 102) (by norm_num)
  -- division by two is exact up to underflow
  have c2 : Close (1.1 * uro) ((F64.fin up - F64.fin lo) / Arith.lit 2 : F64 L) ((up - lo) / 2) := by
    obtain ⟨v, hv1, hv2, hv3⟩ := c1
    rw [hv1, (lit_two_eq (L := L)).1, F64.fin_div _ (by norm_num)]
    have hvlo : 2⁻¹ ^ 101 ≤ |v| ∧ |v| ≤ 2 ^ 102 := by
      rcases hgz with h | ⟨h1, h2⟩
      · linarith
      have b1 := abs_sub_abs_le_abs_sub (up - lo) v
      rw [abs_sub_comm (up - lo) v] at b1
      have b2 := abs_sub_abs_le_abs_sub v (up - lo)
      have b3 : 1.1 * uro * |up - lo| ≤ 1 / 4 * |up - lo| := by gcongr; linarith
      have b4 : 2⁻¹ ^ 100 ≤ |up - lo| := by rw [abs_of_pos (by linarith)]; linarith
      have b5 : (2⁻¹ : ℝ) ^ 101 = 2⁻¹ ^ 100 / 2 := by rw [pow_succ]; ring
      have b6 : (2 : ℝ) ^ 102 = 2 * 2 ^ 101 := by ring
      rw [b5, b6]
      constructor <;> linarith
    have hr : rnd (v / 2) = v / 2 := by
      obtain ⟨m, e, hm, he, hve⟩ := rnd_is_rep v
      rw [hv2.1] at hve
      by_cases he2 : -1073 ≤ e
      · refine rnd_rep m (e - 1) hm (by omega) ?_
        rw [hve, zpow_sub_one₀ (by norm_num)]
        ring
      · exfalso
        have e1 : e = -1074 := by omega
        have : |v| ≤ 2 ^ 53 * (2 : ℝ) ^ (-1074 : ℤ) := by
          rw [hve, e1, abs_mul, abs_of_pos (show (0 : ℝ) < 2 ^ (-1074 : ℤ) by positivity)]
          have : |(m : ℝ)| ≤ 2 ^ 53 := by exact_mod_cast hm
          exact mul_le_mul_of_nonneg_right this (by positivity)
        have h2 : (2 : ℝ) ^ 53 * 2 ^ (-1074 : ℤ) ≤ 2 ^ (-1000 : ℤ) := by
          rw [← zpow_natCast, ← zpow_add₀ (by norm_num)]
          exact two_zpow_mono (by norm_num)
        have h3 : (2 : ℝ) ^ (-1000 : ℤ) < 2⁻¹ ^ 101 := by
          rw [inv_pow, ← zpow_natCast, ← zpow_neg]
          exact zpow_lt_zpow_right₀ (by norm_num) (by norm_num)
        linarith [hvlo.1]
    have hb : |v / 2| ≤ 2 ^ 200 := by
      rw [abs_div, abs_of_pos (show (0 : ℝ) < 2 by norm_num)]
      have : (2 : ℝ) ^ 102 ≤ 2 ^ 200 := by norm_num
      linarith [hvlo.2, abs_nonneg v]
    obtain ⟨hf1, hf2⟩ := of_exact (L := L) hr hb
    refine ⟨v / 2, hf1, hf2, ?_⟩
    rw [← sub_div, abs_div, abs_div, abs_of_pos (show (0 : ℝ) < 2 by norm_num)]
    linarith
  have c3 := (close_self (L := L) hw).mul c2 le_rfl (by linarith) ((show ZRng 100 w from hw1).mul hgz2 (by norm_num))
    (r := 4 * uro) (by nlinarith)
  obtain ⟨v, hv1, hv2, hv3⟩ := c3
  refine ⟨y, v, by rw [hy1, hv1], hy2, hv2, ?_, ?_⟩
  · rw [h50]
    rw [hκ] at hy3
    linarith
  · rw [h51]
    exact hv3

/-- A case with bounds of opposite sign. -/
example : ∃ y v, boundTransform ⟨true⟩ F64.inf (F64.fin (-1)) (F64.fin 4) (F64.fin (1 / 2)) (F64.fin 1 : F64 L) =
      .ok (F64.fin y, F64.fin v) ∧ IsF64 y ∧ IsF64 v ∧
    |y - ((4 - -1) * (1 / 2) / 2 + (4 + -1) / 2)| ≤ 2⁻¹ ^ 50 * 4 ∧
    |v - 1 * ((4 - -1) / 2)| ≤ 2⁻¹ ^ 51 * |1 * ((4 - -1 : ℝ) / 2)| := by
  have h1 : IsF64 (1 : ℝ) := by simpa using isF64_nat (n := 1) (by norm_num)
  have h4 : IsF64 (4 : ℝ) := by simpa using isF64_nat (n := 4) (by norm_num)
  have hh : IsF64 (1 / 2 : ℝ) := (of_exact (L := L) (rnd_rep 1 (-1) (by norm_num) (by norm_num) (by norm_num))
    (by norm_num [abs_of_pos])).2
  exact C90_finite_double ⟨true⟩ (isF64_neg h1) h4 hh h1 (by norm_num) (by norm_num) (by norm_num) (by norm_num)
    (by norm_num [abs_of_pos]) (.inr ⟨by norm_num, by norm_num⟩)

/-- One infinite bound above. -/
theorem C90_upper_infinite_double (b : Build) {lo x w : ℝ} (hlo : IsF64 lo) (hx : IsF64 x) (hw : IsF64 w)
    (hlo1 : |lo| ≤ 2 ^ 100) (h0 : -1 < x) (h1 : x < 1) (hw1 : w = 0 ∨ (2⁻¹ ^ 100 ≤ |w| ∧ |w| ≤ 2 ^ 100)) :
    ∃ y v, boundTransform b F64.inf (F64.fin lo) F64.inf (F64.fin x) (F64.fin w : F64 L) =
        .ok (F64.fin y, F64.fin v) ∧ IsF64 y ∧ IsF64 v ∧
      |y - (lo + (1 + x) / (1 - x))| ≤ 2⁻¹ ^ 50 * (|lo| + (1 + x) / (1 - x)) ∧
      |v - w * (2 / ((1 - x) * (1 - x)))| ≤ 2⁻¹ ^ 50 * |w * (2 / ((1 - x) * (1 - x)))| := by
  have hu := uro_pos
  have hu2 := uro_eq
  have hus : uro ≤ 1 / 1000000 := by rw [hu2]; norm_num
  have h50 : (2⁻¹ : ℝ) ^ 50 = 8 * uro := by rw [hu2]; norm_num
  obtain ⟨s1, z1⟩ := close_one_sub (L := L) hx h0.le h1
  obtain ⟨s2, z2⟩ := close_one_add (L := L) hx h0 h1.le
  rw [eval_up]
  have c1 := s1.mul s1 (by positivity) (by nlinarith) ((z1.mul z1 (g := 106) (by norm_num)).mono (by norm_num))
    (r := 3.3 * uro) (by nlinarith)
  have hne : 1 - x ≠ 0 := by linarith
  have zq := mid_two.div (z1.mul z1 (g := 106) (by norm_num)) (g := 107) (by norm_num)
  have c2 := close_two.div c1 le_rfl (by positivity) (by norm_num) (by linarith) (mul_ne_zero hne hne)
    (zq.mono (by norm_num)) (r := 4.5 * uro) (by linarith)
  have c3 := (close_self (L := L) hw).mul c2 le_rfl (by linarith) ((show ZRng 100 w from hw1).mul zq (by norm_num))
    (r := 8 * uro) (by nlinarith)
  obtain ⟨v, hv1, hv2, hv3⟩ := c3
  have zr := z2.div z1 (g := 106) (by norm_num)
  have d1 := s2.div s1 (by positivity) (by positivity) (by linarith) (by linarith) hne (zr.mono (by norm_num))
    (r := 3.4 * uro) (by linarith)
  have hzpos : 0 < (1 + x) / (1 - x) := div_pos (by linarith) (by linarith)
  obtain ⟨z, hz⟩ : ∃ z : ℝ, z = (1 + x) / (1 - x) := ⟨_, rfl⟩
  rw [← hz] at d1 zr hzpos ⊢
  have zb : 2⁻¹ ^ 106 ≤ z ∧ z ≤ 2 ^ 106 := by
    rcases zr with h | h
    · linarith
    · rwa [abs_of_pos hzpos] at h
  have ht : (2⁻¹ : ℝ) ^ 200 ≤ uro / 1000000 * z := by
    have e : (2⁻¹ : ℝ) ^ 200 ≤ uro / 1000000 * 2⁻¹ ^ 106 := by rw [hu2]; norm_num
    exact e.trans (mul_le_mul_of_nonneg_left zb.1 (by positivity))
  have d1' := d1.near
  rw [abs_of_pos hzpos] at d1'
  have hl0 := abs_nonneg lo
  have d2 := (near_self (L := L) hlo).add d1' (B := 1.01 * (|lo| + z)) (by
    have := abs_add_le lo z
    rw [abs_of_pos hzpos] at this
    have : 3.4 * uro * z ≤ 0.01 * z := mul_le_mul_of_nonneg_right (by linarith) hzpos.le
    linarith) (by
    have : (1.01 : ℝ) * (2 ^ 100 + 2 ^ 106) ≤ 2 ^ 200 := by norm_num
    linarith [zb.2])
  have d3 := d2.mono (f := 8 * uro * (|lo| + z)) (by
    have : 0 ≤ uro * |lo| := by positivity
    have : 0 ≤ uro * z := by positivity
    linarith)
  obtain ⟨y, hy1, hy2, hy3⟩ := d3
  refine ⟨y, v, by rw [hy1, hv1], hy2, hv2, ?_, ?_⟩
  · rw [h50]; exact hy3
  · rw [h50]; exact hv3

/-- One infinite bound below (with the negative weight of C25). -/
theorem C90_lower_infinite_double (b : Build) {up x w : ℝ} (hup : IsF64 up) (hx : IsF64 x) (hw : IsF64 w)
    (hup1 : |up| ≤ 2 ^ 100) (h0 : -1 < x) (h1 : x < 1) (hw1 : w = 0 ∨ (2⁻¹ ^ 100 ≤ |w| ∧ |w| ≤ 2 ^ 100)) :
    ∃ y v, boundTransform b F64.inf (-F64.inf) (F64.fin up) (F64.fin x) (F64.fin w : F64 L) =
        .ok (F64.fin y, F64.fin v) ∧ IsF64 y ∧ IsF64 v ∧
      |y - (up - (1 - x) / (1 + x))| ≤ 2⁻¹ ^ 50 * (|up| + (1 - x) / (1 + x)) ∧
      |v - w * (-2 / ((1 + x) * (1 + x)))| ≤ 2⁻¹ ^ 50 * |w * (-2 / ((1 + x) * (1 + x)))| := by
  have hu := uro_pos
  have hu2 := uro_eq
  have hus : uro ≤ 1 / 1000000 := by rw [hu2]; norm_num
  have h50 : (2⁻¹ : ℝ) ^ 50 = 8 * uro := by rw [hu2]; norm_num
  obtain ⟨s1, z1⟩ := close_one_sub (L := L) hx h0.le h1
  obtain ⟨s2, z2⟩ := close_one_add (L := L) hx h0 h1.le
  rw [eval_lo]
  have c1 := s2.mul s2 (by positivity) (by nlinarith) ((z2.mul z2 (g := 106) (by norm_num)).mono (by norm_num))
    (r := 3.3 * uro) (by nlinarith)
  have hne : 1 + x ≠ 0 := by linarith
  have zq := (show ZRng 1 (-2 : ℝ) from .inr ⟨by norm_num, by norm_num⟩).div (z2.mul z2 (g := 106) (by norm_num))
    (g := 107) (by norm_num)
  have hm2 : IsF64 (-2 : ℝ) := isF64_neg (lit_two_eq (L := L)).2
  have c0 : Close 0 (Arith.lit (-2) : F64 L) (-2) := by
    have e : (Arith.lit (-2) : F64 L) = F64.fin (-2) := by
      rw [F64.lit_eq]
      push_cast
      exact of_self hm2
    rw [e]
    exact close_self hm2
  have c2 := c0.div c1 le_rfl (by positivity) (by norm_num) (by linarith) (mul_ne_zero hne hne)
    (zq.mono (by norm_num)) (r := 4.5 * uro) (by linarith)
  have c3 := (close_self (L := L) hw).mul c2 le_rfl (by linarith) ((show ZRng 100 w from hw1).mul zq (by norm_num))
    (r := 8 * uro) (by nlinarith)
  obtain ⟨v, hv1, hv2, hv3⟩ := c3
  have zr := z1.div z2 (g := 106) (by norm_num)
  have d1 := s1.div s2 (by positivity) (by positivity) (by linarith) (by linarith) hne (zr.mono (by norm_num))
    (r := 3.4 * uro) (by linarith)
  have hzpos : 0 < (1 - x) / (1 + x) := div_pos (by linarith) (by linarith)
  obtain ⟨z, hz⟩ : ∃ z : ℝ, z = (1 - x) / (1 + x) := ⟨_, rfl⟩
  rw [← hz] at d1 zr hzpos ⊢
  have zb : 2⁻¹ ^ 106 ≤ z ∧ z ≤ 2 ^ 106 := by
    rcases zr with h | h
    · linarith
    · rwa [abs_of_pos hzpos] at h
  have ht : (2⁻¹ : ℝ) ^ 200 ≤ uro / 1000000 * z := by
    have e : (2⁻¹ : ℝ) ^ 200 ≤ uro / 1000000 * 2⁻¹ ^ 106 := by rw [hu2]; norm_num
    exact e.trans (mul_le_mul_of_nonneg_left zb.1 (by positivity))
  have d1' := d1.near
  rw [abs_of_pos hzpos] at d1'
  have hl0 := abs_nonneg up
  have d2 := (near_self (L := L) hup).sub d1' (B := 1.01 * (|up| + z)) (by
    have := abs_sub up z
    rw [abs_of_pos hzpos] at this
    have : 3.4 * uro * z ≤ 0.01 * z := mul_le_mul_of_nonneg_right (by linarith) hzpos.le
    linarith) (by
    have : (1.01 : ℝ) * (2 ^ 100 + 2 ^ 106) ≤ 2 ^ 200 := by norm_num
    linarith [zb.2])
  have d3 := d2.mono (f := 8 * uro * (|up| + z)) (by
    have : 0 ≤ uro * |up| := by positivity
    have : 0 ≤ uro * z := by positivity
    linarith)
  obtain ⟨y, hy1, hy2, hy3⟩ := d3
  refine ⟨y, v, by rw [hy1, hv1], hy2, hv2, ?_, ?_⟩
  · rw [h50]; exact hy3
  · rw [h50]; exact hv3

/-- Both bounds infinite: `x * x - 1` cancels, the weight keeps about half of its digits. -/
theorem C90_both_infinite_double (b : Build) {x w : ℝ} (hx : IsF64 x) (hw : IsF64 w)
    (hx1 : x = 0 ∨ 2⁻¹ ^ 100 ≤ |x|) (h0 : -1 < x) (h1 : x < 1)
    (hw1 : w = 0 ∨ (2⁻¹ ^ 100 ≤ |w| ∧ |w| ≤ 2 ^ 100)) :
    ∃ y v, boundTransform b F64.inf (-F64.inf) F64.inf (F64.fin x) (F64.fin w : F64 L) =
        .ok (F64.fin y, F64.fin v) ∧ IsF64 y ∧ IsF64 v ∧
      |y - x / (1 + x) / (1 - x)| ≤ 2⁻¹ ^ 50 * |x / (1 + x) / (1 - x)| ∧
      |v - w * ((1 + x * x) / ((x * x - 1) * (x * x - 1)))| ≤
        2⁻¹ ^ 26 * |w * ((1 + x * x) / ((x * x - 1) * (x * x - 1)))| := by
  have hu := uro_pos
  have hu2 := uro_eq
  have hus : uro ≤ 1 / 1000000 := by rw [hu2]; norm_num
  have h50 : (2⁻¹ : ℝ) ^ 50 = 8 * uro := by rw [hu2]; norm_num
  obtain ⟨s1, z1⟩ := close_one_sub (L := L) hx h0.le h1
  obtain ⟨s2, z2⟩ := close_one_add (L := L) hx h0 h1.le
  rw [eval_inf]
  have zx : ZRng 100 x := by
    rcases hx1 with h | h
    · exact .inl h
    · exact .inr ⟨h, (abs_le.2 ⟨h0.le, h1.le⟩).trans (by norm_num)⟩
  have hne : 1 - x ≠ 0 := by linarith
  have hne' : 1 + x ≠ 0 := by linarith
  have za := zx.div z2 (g := 153) (by norm_num)
  have d1 := (close_self (L := L) hx).div s2 le_rfl (by positivity) (by norm_num) (by linarith) hne'
    (za.mono (by norm_num)) (r := 2.3 * uro) (by linarith)
  have d2 := d1.div s1 (by positivity) (by positivity) (by linarith) (by linarith) hne
    ((za.div z1 (g := 206) (by norm_num)).mono (by norm_num)) (r := 8 * uro) (by linarith)
  obtain ⟨y, hy1, hy2, hy3⟩ := d2
  -- the square
  have hxx : 0 ≤ x * x := mul_self_nonneg x
  have hxx1 : x * x < 1 := by nlinarith
  have hsq : (F64.fin x * F64.fin x : F64 L) = F64.fin (rnd (x * x)) := by
    rw [F64.fin_mul]
    exact of_small hxx (by linarith)
  have hcan := sq_cancel hx h0 h1
  have hb1 : uro ≤ 1 - x * x := by
    have g1 := f64_lt_one hx h1
    have g2 := f64_lt_one (isF64_neg hx) (by linarith)
    nlinarith
  obtain ⟨δ, hδ⟩ : ∃ δ : ℝ, δ = 1 - x * x := ⟨_, rfl⟩
  obtain ⟨s, hs⟩ : ∃ s : ℝ, s = rnd (x * x) := ⟨_, rfl⟩
  rw [hsq, ← hs]
  rw [← hδ] at hb1 hcan
  rw [← hs] at hcan
  have hδ2 : δ ≤ 1 := by linarith
  have hxx' : x * x = 1 - δ := by linarith
  rw [hxx'] at hcan ⊢
  have zδ := zrng_unit hb1 (by linarith)
  -- x² - 1
  have e1 : (1 - δ : ℝ) - 1 = -δ := by ring
  rw [e1, neg_mul_neg]
  have m1 : Close (1.02 * 2⁻¹ ^ 28) (F64.fin s - Arith.lit 1 : F64 L) (-δ) := by
    rw [lit_one_eq, F64.fin_sub]
    refine of_close (p := 1.01 * 2⁻¹ ^ 28) ?_ (by norm_num) ?_ ?_
    · rw [abs_neg, abs_of_pos (show 0 < δ by linarith), show s - 1 - -δ = s - (1 - δ) by ring]
      exact hcan
    · rcases zδ.mono (f := 900) (by norm_num) with h | h
      · exact .inl (by rw [h, neg_zero])
      · exact .inr (by rwa [abs_neg])
    · rw [hu2]; norm_num
  have m2 := m1.mul m1 (by norm_num) (by norm_num) (by
      rw [neg_mul_neg]
      exact (zδ.mul zδ (g := 106) (by norm_num)).mono (by norm_num)) (r := 2.05 * 2⁻¹ ^ 28) (by rw [hu2]; norm_num)
  rw [neg_mul_neg] at m2
  -- 1 + x²
  have hhalf : |s - (1 - δ)| ≤ uro := by
    have hh := rnd_err (x * x)
    rw [uro_def, ← hs, hxx', abs_of_nonneg (show (0 : ℝ) ≤ 1 - δ by linarith)] at hh
    have h1 := f64Tiny_le
    have h2 : (2⁻¹ : ℝ) ^ 200 ≤ uro * uro := by rw [hu2]; norm_num
    have : uro * uro ≤ uro * δ := by gcongr
    linarith [f64Tiny_pos]
  have m3 : Close (2.2 * uro) (Arith.lit 1 + F64.fin s : F64 L) (1 + (1 - δ)) := by
    rw [lit_one_eq, F64.fin_add]
    refine of_close (p := uro) ?_ (by linarith) ?_ (by nlinarith)
    · rw [abs_of_pos (show 0 < 1 + (1 - δ) by linarith), show 1 + s - (1 + (1 - δ)) = s - (1 - δ) by ring]
      refine hhalf.trans ?_
      nlinarith
    · exact (zrng_unit (by linarith) (by linarith)).mono (by norm_num)
  have hδ0 : δ ≠ 0 := by linarith
  have zq := (zrng_unit (t := 1 + (1 - δ)) (by linarith) (by linarith)).div (zδ.mul zδ (g := 106) (by norm_num))
    (g := 159) (by norm_num)
  have m4 := m3.div m2 (by positivity) (by norm_num) (by linarith) (by norm_num) (mul_ne_zero hδ0 hδ0)
    (zq.mono (by norm_num)) (r := 3 * 2⁻¹ ^ 28) (by rw [hu2]; norm_num)
  have m5 := (close_self (L := L) hw).mul m4 le_rfl (by norm_num)
    ((show ZRng 100 w from hw1).mul zq (by norm_num)) (r := 2⁻¹ ^ 26) (by rw [hu2]; norm_num)
  obtain ⟨v, hv1, hv2, hv3⟩ := m5
  exact ⟨y, v, by rw [hy1, hv1], hy2, hv2, by rw [h50]; exact hy3, hv3⟩

/-- Admissible nodes and weights. -/
example : IsF64 (1 / 2 : ℝ) ∧ (2⁻¹ ^ 100 ≤ |(1 / 2 : ℝ)|) ∧ (-1 : ℝ) < 1 / 2 ∧ (1 / 2 : ℝ) < 1 :=
  ⟨(of_exact (L := Libm.correct) (rnd_rep 1 (-1) (by norm_num) (by norm_num) (by norm_num))
    (by norm_num [abs_of_pos])).2, by norm_num [abs_of_pos], by norm_num, by norm_num⟩

private theorem of_pinf {x : ℝ} (h : 2 * f64Big ≤ x) : (F64.of x : F64 L) = F64.inf := by
  show XReal.round x = XReal.pinf
  unfold XReal.round
  rw [if_pos]
  refine le_rnd ?_ h
  have : (2 : ℝ) * f64Big = 2 ^ (1024 : ℤ) := by
    unfold f64Big
    rw [show (1024 : ℤ) = 1 + 1023 by norm_num, zpow_add₀ (by norm_num), zpow_one]
  rw [this]
  exact rnd_two_zpow (by norm_num)

/-- Finite bounds so far apart that `up - lo` overflows: the weight becomes infinite, the node 0 becomes NaN and all
other nodes become infinite. -/
theorem C90_overflow (b : Build) {lo up x w : ℝ} (hlo : IsF64 lo) (hup : IsF64 up) (hfar : 2 * f64Big ≤ up - lo)
    (hw : 0 < w) :
    ∃ y, boundTransform b F64.inf (F64.fin lo) (F64.fin up) (F64.fin x) (F64.fin w : F64 L) = .ok (y, F64.inf) ∧
      (x = 0 → y = F64.nan) ∧ (0 < x → y = F64.inf) ∧ (x < 0 → y = -F64.inf) := by
  have hb := f64Big_pos
  have h1 := abs_lt.1 hlo.2
  have h2 := abs_lt.1 hup.2
  rw [eval_fin b (by linarith), F64.fin_sub, of_pinf hfar, (lit_two_eq (L := L)).1]
  have e1 : (F64.inf / F64.fin 2 : F64 L) = F64.inf := by
    show (if (2 : ℝ) < 0 then XReal.ninf else XReal.pinf).roundX = XReal.pinf
    rw [if_neg (show ¬ (2 : ℝ) < 0 by norm_num)]
    rfl
  have e1' : (-F64.inf / F64.fin 2 : F64 L) = -F64.inf := by
    show (if (2 : ℝ) < 0 then XReal.pinf else XReal.ninf).roundX = XReal.ninf
    rw [if_neg (show ¬ (2 : ℝ) < 0 by norm_num)]
    rfl
  have e2 : (F64.fin w * F64.inf : F64 L) = F64.inf := by
    show (XReal.infMul w).roundX = XReal.pinf
    unfold XReal.infMul
    rw [if_pos hw]
    rfl
  -- the sum of the bounds does not overflow
  have hsum : ∃ s, (F64.fin up + F64.fin lo : F64 L) / F64.fin 2 = F64.fin s := by
    have hs : ∃ s, (F64.of (up + lo) : F64 L) = F64.fin s ∧ |s| < 2 * f64Big := by
      refine ⟨rnd (up + lo), ?_, ?_⟩
      · show XReal.round _ = _
        unfold XReal.round
        have a1 : rnd (up + lo) ≤ up := rnd_le hup.1 (by linarith)
        have a2 : lo ≤ rnd (up + lo) := le_rnd hlo.1 (by linarith)
        rw [if_neg (by linarith), if_neg (by linarith)]
        rfl
      · have a1 : rnd (up + lo) ≤ up := rnd_le hup.1 (by linarith)
        have a2 : lo ≤ rnd (up + lo) := le_rnd hlo.1 (by linarith)
        rw [abs_lt]
        constructor <;> linarith
    obtain ⟨s, hs1, hs2⟩ := hs
    rw [F64.fin_add, hs1, F64.fin_div _ (by norm_num)]
    refine ⟨rnd (s / 2), F64.of_fin ?_⟩
    rw [abs_div, abs_of_pos (show (0 : ℝ) < 2 by norm_num)]
    linarith
  obtain ⟨s, hs⟩ := hsum
  rw [hs, e1, e2]
  refine ⟨_, rfl, ?_, ?_, ?_⟩
  · rintro rfl
    have : (F64.inf * F64.fin 0 : F64 L) = F64.nan := by
      show (XReal.infMul 0).roundX = XReal.nan
      unfold XReal.infMul
      rw [if_neg (lt_irrefl _), if_neg (lt_irrefl _)]
      rfl
    rw [this]
    rfl
  · intro hx
    have : (F64.inf * F64.fin x : F64 L) = F64.inf := by
      show (XReal.infMul x).roundX = XReal.pinf
      unfold XReal.infMul
      rw [if_pos hx]
      rfl
    rw [this, e1]
    rfl
  · intro hx
    have : (F64.inf * F64.fin x : F64 L) = -F64.inf := by
      show (XReal.infMul x).roundX = XReal.ninf
      unfold XReal.infMul
      rw [if_neg (by linarith), if_pos hx]
      rfl
    rw [this, e1']
    rfl

/-- Bounds `-2^1023` and `2^1023`. -/
example : ∃ y, boundTransform ⟨true⟩ F64.inf (F64.fin (-f64Big)) (F64.fin f64Big) (F64.fin 0) (F64.fin 1 : F64 L) =
      .ok (y, F64.inf) ∧ y = F64.nan := by
  have hb := f64Big_pos
  have h : IsF64 f64Big := ⟨rnd_big, by rw [abs_of_pos hb]; linarith⟩
  obtain ⟨y, h1, h2, -⟩ := C90_overflow (L := L) ⟨true⟩ (x := 0) (w := 1) (isF64_neg h) h (by linarith) one_pos
  exact ⟨y, h1, h2 rfl⟩

private theorem rnd_near_one {t : ℝ} (h0 : 0 ≤ t) (h : t < 2⁻¹ ^ 54) : rnd (1 - t) = 1 ∧ rnd (1 + t) = 1 := by
  have hu := uro_pos
  have hu2 := uro_eq
  have ht : t < uro / 2 := by
    rw [hu2]
    norm_num at h ⊢
    linarith
  constructor
  · by_cases ht0 : t = 0
    · rw [ht0, sub_zero, rnd_one]
    have htpos : 0 < t := lt_of_le_of_ne h0 (Ne.symm ht0)
    have hgrid : ∃ n : ℤ, rnd (1 - t) = n * uro := by
      have hlogx : Int.log 2 |1 - t| = -1 := by
        rw [abs_of_pos (by linarith [uro_lt])]
        have b1 : (-1 : ℤ) ≤ Int.log 2 (1 - t) := by
          rw [← Int.zpow_le_iff_le_log (by norm_num) (by linarith [uro_lt])]
          norm_num
          linarith [uro_lt]
        have b2 : Int.log 2 (1 - t) < 0 := by
          rw [← Int.lt_zpow_iff_log_lt (by norm_num) (by linarith [uro_lt])]
          norm_num
          linarith
        omega
      have hulpv : ulp (1 - t) = uro := by
        unfold ulp ulpExp
        rw [hlogx, hu2]
        norm_num
      refine ⟨rne ((1 - t) / ulp (1 - t)), ?_⟩
      conv_rhs => rw [← hulpv]
      rfl
    have hle : rnd (1 - t) ≤ 1 := rnd_le rnd_one (by linarith)
    have herr := (abs_le.1 (rnd_err_normal (x := 1 - t) (by
      rw [abs_of_pos (by linarith [uro_lt])]
      refine f64Min_le.trans ?_
      have : (2⁻¹ : ℝ) ^ 201 ≤ 1 / 2 := by norm_num
      linarith [uro_lt]))).1
    rw [uro_def, abs_of_pos (by linarith [uro_lt])] at herr
    obtain ⟨n, hn⟩ := hgrid
    rw [hn] at hle herr ⊢
    have h3 : (9007199254740991 - 1 / 2 : ℝ) < n := by
      rw [hu2] at herr ht
      nlinarith
    have h4 : (n : ℝ) ≤ 9007199254740992 := by
      rw [hu2] at hle
      linarith
    have h5 : (9007199254740990 : ℝ) < n := by linarith
    have h6 : n ≤ 9007199254740992 := by exact_mod_cast h4
    have h7 : 9007199254740990 < n := by exact_mod_cast h5
    obtain h8 | h8 : n = 9007199254740991 ∨ n = 9007199254740992 := by omega
    · exfalso
      -- one unit below 1 is further away than half a unit
      have hhalf := (abs_le.1 (abs_rnd_sub (1 - t))).1
      have hulp : ulp (1 - t) ≤ uro := by
        have h9 := ulp_le_of_normal (x := 1 - t) (by
          rw [abs_of_pos (by linarith [uro_lt])]
          refine f64Min_le.trans ?_
          have : (2⁻¹ : ℝ) ^ 201 ≤ 1 / 2 := by norm_num
          linarith [uro_lt])
        have hlogx : Int.log 2 |1 - t| ≤ -1 := by
          rw [abs_of_pos (by linarith [uro_lt])]
          have b2 : Int.log 2 (1 - t) < 0 := by
            rw [← Int.lt_zpow_iff_log_lt (by norm_num) (by linarith [uro_lt])]
            norm_num
            linarith
          omega
        have : ulp (1 - t) ≤ (2 : ℝ) ^ (-53 : ℤ) := by
          unfold ulp ulpExp
          exact two_zpow_mono (by omega)
        rw [hu2]
        norm_num at this ⊢
        linarith
      rw [hn, h8, hu2] at hhalf
      rw [hu2] at hulp ht
      push_cast at hhalf
      linarith
    · rw [h8, hu2]
      norm_num
  · have h1 : 1 ≤ rnd (1 + t) := le_rnd rnd_one (by linarith)
    have h2 : rnd (1 + t) ≤ rnd (1 + uro) := rnd_mono (by linarith)
    rw [rnd_one_add] at h2
    linarith

/-- A node may be mapped outside of the interval: for `0 < lo < 2^-54` and `up = 1` the node `-1` is mapped to 0. -/
theorem C90_leaves_interval (b : Build) {lo : ℝ} (h0 : 0 < lo) (h : lo < 2⁻¹ ^ 54) :
    ∃ v, boundTransform b F64.inf (F64.fin lo) (F64.fin 1) (F64.fin (-1)) (F64.fin 1 : F64 L) =
      .ok (F64.fin 0, F64.fin v) ∧ Arith.lt (F64.fin 0 : F64 L) (F64.fin lo) = true := by
  obtain ⟨r1, r2⟩ := rnd_near_one h0.le h
  have h54 : (2⁻¹ : ℝ) ^ 54 ≤ 1 / 2 := by norm_num
  have hr : rnd (1 / 2) = 1 / 2 := rnd_rep 1 (-1) (by norm_num) (by norm_num) (by norm_num)
  have g1 : (F64.fin 1 - F64.fin lo : F64 L) = F64.fin 1 := by
    rw [F64.fin_sub, of_small (by linarith) (by linarith), r1]
  have g2 : (F64.fin 1 + F64.fin lo : F64 L) = F64.fin 1 := by
    rw [F64.fin_add, of_small (by linarith) (by linarith), r2]
  have g3 : (F64.fin 1 / F64.fin 2 : F64 L) = F64.fin (1 / 2) := by
    rw [F64.fin_div _ (by norm_num), of_small (by norm_num) (by norm_num), hr]
  have g4 : (F64.fin 1 * F64.fin (-1) / F64.fin 2 : F64 L) = F64.fin (-(1 / 2)) := by
    have e : (F64.fin 1 * F64.fin (-1) : F64 L) = F64.fin (-1) := by
      rw [F64.fin_mul, one_mul]
      exact of_self (isF64_neg (by simpa using isF64_nat (n := 1) (by norm_num)))
    rw [e, F64.fin_div _ (by norm_num), show (-1 : ℝ) / 2 = -(1 / 2) by norm_num]
    exact of_self (isF64_neg (of_exact (L := L) hr (by norm_num [abs_of_pos])).2)
  have g5 : (F64.fin (-(1 / 2)) + F64.fin (1 / 2) : F64 L) = F64.fin 0 := by
    rw [F64.fin_add, neg_add_cancel, of_small le_rfl (by norm_num), rnd_zero]
  have g6 : (F64.fin 1 * F64.fin (1 / 2) : F64 L) = F64.fin (1 / 2) := by
    rw [F64.fin_mul, one_mul, of_small (by norm_num) (by norm_num), hr]
  refine ⟨1 / 2, ?_, (F64.lt_iff _ _).2 h0⟩
  rw [eval_fin b (by linarith), (lit_two_eq (L := L)).1, g1, g2, g3, g4, g5, g6]

/-- The interval from `2^-60` to 1. -/
example : ∃ v, boundTransform ⟨true⟩ F64.inf (F64.fin (2⁻¹ ^ 60)) (F64.fin 1) (F64.fin (-1)) (F64.fin 1 : F64 L) =
      .ok (F64.fin 0, F64.fin v) ∧ Arith.lt (F64.fin 0 : F64 L) (F64.fin (2⁻¹ ^ 60)) = true :=
  C90_leaves_interval ⟨true⟩ (by positivity) (by norm_num)

/-- The cancellation is real: for `x = 1 - 2^-28` and bounds `-inf`, `inf` the weight is too small by a relative error
of more than `2^-29`. -/
theorem C90_both_infinite_loss (b : Build) :
    ∃ y v, boundTransform b F64.inf (-F64.inf) F64.inf (F64.fin (1 - 2⁻¹ ^ 28)) (F64.fin 1 : F64 L) =
        .ok (y, F64.fin v) ∧ IsF64 (1 - 2⁻¹ ^ 28) ∧
      ∀ x : ℝ, x = 1 - 2⁻¹ ^ 28 →
        v < (1 - 2⁻¹ ^ 29) * ((1 + x * x) / ((x * x - 1) * (x * x - 1))) := by
  obtain ⟨x, hx⟩ : ∃ x : ℝ, x = 1 - 2⁻¹ ^ 28 := ⟨_, rfl⟩
  have hxf : IsF64 (1 - 2⁻¹ ^ 28) := (of_exact (L := L) (rnd_rep 268435455 (-28) (by norm_num) (by norm_num)
    (by norm_num)) (by norm_num [abs_of_pos])).2
  rw [eval_inf]
  have hsq : (F64.fin (1 - 2⁻¹ ^ 28) * F64.fin (1 - 2⁻¹ ^ 28) : F64 L) = F64.fin (1 - 2⁻¹ ^ 27) := by
    rw [F64.fin_mul, of_small (by norm_num) (by norm_num)]
    congr 1
    rw [rnd_down (9007199254740992 - 67108864) (-53) (by norm_num) (by norm_num)]
    all_goals norm_num [zpow_neg]
  have g1 : (F64.fin (1 - 2⁻¹ ^ 27) - Arith.lit 1 : F64 L) = F64.fin (-(2⁻¹ ^ 27)) := by
    rw [lit_one_eq, F64.fin_sub, show (1 : ℝ) - 2⁻¹ ^ 27 - 1 = -(2⁻¹ ^ 27) by ring]
    refine of_self (isF64_neg ?_)
    exact (of_exact (L := L) (rnd_rep 1 (-27) (by norm_num) (by norm_num) (by norm_num))
      (by norm_num [abs_of_pos])).2
  have g2 : (F64.fin (-(2⁻¹ ^ 27)) * F64.fin (-(2⁻¹ ^ 27)) : F64 L) = F64.fin (2⁻¹ ^ 54) := by
    rw [F64.fin_mul, neg_mul_neg, ← pow_add]
    exact (of_exact (L := L) (rnd_rep 1 (-54) (by norm_num) (by norm_num) (by norm_num))
      (by norm_num [abs_of_pos])).1
  have g3 : (Arith.lit 1 + F64.fin (1 - 2⁻¹ ^ 27) : F64 L) = F64.fin (2 - 2⁻¹ ^ 27) := by
    rw [lit_one_eq, F64.fin_add, show (1 : ℝ) + (1 - 2⁻¹ ^ 27) = 2 - 2⁻¹ ^ 27 by ring]
    exact (of_exact (L := L) (rnd_rep 268435455 (-27) (by norm_num) (by norm_num) (by norm_num))
      (by norm_num [abs_of_pos])).1
  have g4 : (F64.fin (2 - 2⁻¹ ^ 27) / F64.fin (2⁻¹ ^ 54) : F64 L) = F64.fin (2 ^ 55 - 2 ^ 27) := by
    rw [F64.fin_div _ (by positivity), show ((2 : ℝ) - 2⁻¹ ^ 27) / 2⁻¹ ^ 54 = 2 ^ 55 - 2 ^ 27 by norm_num]
    exact (of_exact (L := L) (rnd_rep 268435455 27 (by norm_num) (by norm_num) (by norm_num))
      (by norm_num [abs_of_pos])).1
  have g5 : (F64.fin 1 * F64.fin (2 ^ 55 - 2 ^ 27) : F64 L) = F64.fin (2 ^ 55 - 2 ^ 27) := by
    rw [F64.fin_mul, one_mul]
    exact (of_exact (L := L) (rnd_rep 268435455 27 (by norm_num) (by norm_num) (by norm_num))
      (by norm_num [abs_of_pos])).1
  rw [hsq, g1, g2, g3, g4, g5]
  refine ⟨_, _, rfl, hxf, ?_⟩
  rintro x rfl
  norm_num

private theorem one_sub_one : (Arith.lit 1 - F64.fin 1 : F64 L) = F64.fin 0 := by
  rw [lit_one_eq, F64.fin_sub, sub_self, of_small le_rfl (by norm_num), rnd_zero]

private theorem one_add_neg : (Arith.lit 1 + F64.fin (-1) : F64 L) = F64.fin 0 := by
  rw [lit_one_eq, F64.fin_add, add_neg_cancel, of_small le_rfl (by norm_num), rnd_zero]

private theorem zero_mul_zero : (F64.fin 0 * F64.fin 0 : F64 L) = F64.fin 0 := by
  rw [F64.fin_mul, mul_zero, of_small le_rfl (by norm_num), rnd_zero]

private theorem div_zero_pos {x : ℝ} (h : 0 < x) : (F64.fin x / F64.fin 0 : F64 L) = F64.inf := by
  show (if (0 : ℝ) = 0 then XReal.infMul x else XReal.fin (x / 0)).roundX = XReal.pinf
  unfold XReal.infMul
  rw [if_pos rfl, if_pos h]
  rfl

private theorem div_zero_neg {x : ℝ} (h : x < 0) : (F64.fin x / F64.fin 0 : F64 L) = -F64.inf := by
  show (if (0 : ℝ) = 0 then XReal.infMul x else XReal.fin (x / 0)).roundX = XReal.ninf
  unfold XReal.infMul
  rw [if_pos rfl, if_neg (by linarith), if_pos h]
  rfl

private theorem mul_inf {w : ℝ} (h : 0 < w) : (F64.fin w * F64.inf : F64 L) = F64.inf := by
  show (XReal.infMul w).roundX = XReal.pinf
  unfold XReal.infMul
  rw [if_pos h]
  rfl

private theorem mul_ninf {w : ℝ} (h : 0 < w) : (F64.fin w * -F64.inf : F64 L) = -F64.inf := by
  show (XReal.infMul (-w)).roundX = XReal.ninf
  unfold XReal.infMul
  rw [if_neg (by linarith), if_pos (by linarith)]
  rfl

/-- Nodes at the ends of `[-1,1]` (Gauss-Lobatto rules have them) are mapped to an infinite bound and get an infinite
weight; for a lower bound `-inf` and a finite upper bound this weight is `-inf`. -/
theorem C90_end_nodes (b : Build) {c w : ℝ} (hw : 0 < w) :
    boundTransform b F64.inf (F64.fin c) F64.inf (F64.fin 1) (F64.fin w : F64 L) = .ok (F64.inf, F64.inf) ∧
    boundTransform b F64.inf (-F64.inf) (F64.fin c) (F64.fin (-1)) (F64.fin w : F64 L) =
      .ok (-F64.inf, -F64.inf) ∧
    boundTransform b F64.inf (-F64.inf) F64.inf (F64.fin 1) (F64.fin w : F64 L) = .ok (F64.inf, F64.inf) ∧
    boundTransform b F64.inf (-F64.inf) F64.inf (F64.fin (-1)) (F64.fin w : F64 L) = .ok (-F64.inf, F64.inf) := by
  have i1 : IsF64 (1 : ℝ) := by simpa using isF64_nat (n := 1) (by norm_num)
  have i2 : IsF64 (2 : ℝ) := (lit_two_eq (L := L)).2
  have e11 : (Arith.lit 1 + F64.fin 1 : F64 L) = F64.fin 2 := by
    rw [lit_one_eq, F64.fin_add, show (1 : ℝ) + 1 = 2 by norm_num]
    exact of_self i2
  have e12 : (Arith.lit 1 - F64.fin (-1) : F64 L) = F64.fin 2 := by
    rw [lit_one_eq, F64.fin_sub, show (1 : ℝ) - -1 = 2 by norm_num]
    exact of_self i2
  have em2 : (Arith.lit (-2) : F64 L) = F64.fin (-2) := by
    rw [F64.lit_eq]
    push_cast
    exact of_self (isF64_neg i2)
  have s1 : (F64.fin 1 * F64.fin 1 : F64 L) = F64.fin 1 := by
    rw [F64.fin_mul, one_mul]
    exact of_self i1
  have s2 : (F64.fin (-1) * F64.fin (-1) : F64 L) = F64.fin 1 := by
    rw [F64.fin_mul, neg_mul_neg, one_mul]
    exact of_self i1
  have z : (F64.fin 1 - Arith.lit 1 : F64 L) = F64.fin 0 := by
    rw [lit_one_eq, F64.fin_sub, sub_self, of_small le_rfl (by norm_num), rnd_zero]
  have hh : rnd (1 / 2) = 1 / 2 := rnd_rep 1 (-1) (by norm_num) (by norm_num) (by norm_num)
  refine ⟨?_, ?_, ?_, ?_⟩
  · rw [eval_up, one_sub_one, zero_mul_zero, e11, (lit_two_eq (L := L)).1, div_zero_pos (by norm_num), mul_inf hw]
    rfl
  · rw [eval_lo, one_add_neg, zero_mul_zero, e12, em2, div_zero_neg (x := -2) (by norm_num), div_zero_pos (x := 2) (by norm_num),
      mul_ninf hw]
    rfl
  · rw [eval_inf, s1, one_sub_one, z, zero_mul_zero, e11, div_zero_pos (by norm_num), mul_inf hw,
      F64.fin_div _ (by norm_num), of_small (by norm_num) (by norm_num), hh, div_zero_pos (by norm_num)]
  · rw [eval_inf, s2, one_add_neg, z, zero_mul_zero, e11, e12, div_zero_pos (x := 2) (by norm_num), mul_inf hw,
      div_zero_neg (x := -1) (by norm_num)]
    have : (-F64.inf / F64.fin 2 : F64 L) = -F64.inf := by
      show (if (2 : ℝ) < 0 then XReal.pinf else XReal.ninf).roundX = XReal.ninf
      rw [if_neg (show ¬ (2 : ℝ) < 0 by norm_num)]
      rfl
    rw [this]

end IntegratorXX
