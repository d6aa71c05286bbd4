import Verif.Lemmas.FloatUniform
import Mathlib.Analysis.SpecialFunctions.Pow.Real
import Mathlib.Analysis.Complex.ExponentialBounds

/-!
# Relative errors of positive quantities in `double` arithmetic

`RelP a x p e`: the `double` `a` approximates the positive number `x` with relative error at most `p`, and
`x` lies between `2⁻ᵉ` and `2ᵉ`.
-/

namespace IntegratorXX

open Real

variable {L : Libm}

/-- Relative error of a positive quantity of known magnitude. -/
structure RelP (a : F64 L) (x p : ℝ) (e : ℕ) : Prop where
  lo : 2⁻¹ ^ e ≤ x
  hi : x ≤ 2 ^ e
  near : Near a x (p * x)
  p0 : 0 ≤ p
  p1 : p ≤ 1 / 200

namespace RelP

theorem pos {a : F64 L} {x p : ℝ} {e : ℕ} (h : RelP a x p e) : 0 < x :=
  lt_of_lt_of_le (by positivity) h.lo

theorem mono {a : F64 L} {x p q : ℝ} {e f : ℕ} (h : RelP a x p e) (hq : p ≤ q) (hq' : q ≤ 1 / 200)
    (hf : e ≤ f) : RelP a x q f := by
  have := h.pos
  refine ⟨?_, ?_, h.near.mono (by gcongr), h.p0.trans hq, hq'⟩
  · refine le_trans ?_ h.lo
    exact pow_le_pow_of_le_one (by norm_num) (by norm_num) hf
  · exact h.hi.trans (pow_le_pow_right₀ (by norm_num) hf)

end RelP

theorem pow_bounds {x : ℝ} {e : ℕ} (lo : 2⁻¹ ^ e ≤ x) (hi : x ≤ 2 ^ e) (he : e ≤ 190) :
    2⁻¹ ^ 200 ≤ x ∧ x ≤ 2 ^ 200 :=
  ⟨le_trans (pow_le_pow_of_le_one (by norm_num) (by norm_num) (by omega)) lo,
    hi.trans (pow_le_pow_right₀ (by norm_num) (by omega))⟩

/-- Rounding of an approximate value, large relative errors allowed. -/
theorem of_relA {t z p : ℝ} (h : |t - z| ≤ p * |z|) (_hp : 0 ≤ p) (hp' : p ≤ 1 / 4) (hz : Mid z) :
    Near (F64.of t : F64 L) z ((p + 5 / 4 * uro) * |z|) := by
  have hu := uro_pos
  have hz0 := abs_pos.2 hz.ne
  have hle : p * |z| ≤ 1 / 4 * |z| := by gcongr
  have ht : |t| ≤ 5 / 4 * |z| := by
    have := abs_add_le (t - z) z
    rw [sub_add_cancel] at this
    linarith
  have ht' : |z| - p * |z| ≤ |t| := by
    have := abs_sub_abs_le_abs_sub z t
    rw [abs_sub_comm] at this
    linarith
  obtain ⟨hz1, hz2⟩ := hz
  have hb : |t| ≤ f64Big := by
    have := le_f64Big
    have : (2 : ℝ) ^ 201 = 2 * 2 ^ 200 := by ring
    linarith
  have hmin : f64Min ≤ |t| := by
    have := f64Min_le
    have : (2⁻¹ : ℝ) ^ 201 = 2⁻¹ ^ 200 / 2 := by rw [pow_succ]; ring
    linarith
  refine ⟨rnd t, F64.of_fin hb, isF64_rnd hb, ?_⟩
  have h1 := rnd_err_normal hmin
  have h4 : 2⁻¹ ^ 53 * |t| ≤ uro * (5 / 4 * |z|) := by
    rw [uro_def]
    gcongr
  calc |rnd t - z| = |(rnd t - t) + (t - z)| := by ring_nf
    _ ≤ |rnd t - t| + |t - z| := abs_add_le _ _
    _ ≤ uro * (5 / 4 * |z|) + p * |z| := by linarith
    _ = _ := by ring

theorem of_relP {t z p q : ℝ} {e : ℕ} (h : |t - z| ≤ p * z) (hp : 0 ≤ p) (hq : p + 5 / 4 * uro ≤ q)
    (hq' : q ≤ 1 / 200) (lo : 2⁻¹ ^ e ≤ z) (hi : z ≤ 2 ^ e) (he : e ≤ 190) :
    RelP (F64.of t : F64 L) z q e := by
  have hu := uro_pos
  have hz : 0 < z := lt_of_lt_of_le (by positivity) lo
  have hb := pow_bounds lo hi he
  have hm := mid_of hb.1 hb.2
  have ez : |z| = z := abs_of_pos hz
  have := of_relA (L := L) (t := t) (z := z) (p := p) (by rwa [ez]) hp (by linarith) hm
  rw [ez] at this
  exact ⟨lo, hi, this.mono (mul_le_mul_of_nonneg_right hq hz.le), by linarith, hq'⟩

theorem relP_exact {v : ℝ} {e : ℕ} (h : IsF64 v) (lo : 2⁻¹ ^ e ≤ v) (hi : v ≤ 2 ^ e) :
    RelP (F64.fin v : F64 L) v 0 e := by
  refine ⟨lo, hi, ?_, le_rfl, by norm_num⟩
  rw [zero_mul]
  exact near_self h

theorem relP_of_near {a : F64 L} {x p q : ℝ} {e : ℕ} (h : Near a x q) (hq : q ≤ p * x) (hp : 0 ≤ p)
    (hp' : p ≤ 1 / 200) (lo : 2⁻¹ ^ e ≤ x) (hi : x ≤ 2 ^ e) : RelP a x p e :=
  ⟨lo, hi, h.mono hq, hp, hp'⟩

namespace RelP

theorem mul {a b : F64 L} {x y p q r : ℝ} {e f g : ℕ} (ha : RelP a x p e) (hb : RelP b y q f)
    (hr : 101 / 100 * (p + q) + 2 * uro ≤ r) (hr' : r ≤ 1 / 200) (he : e + f ≤ g) (hg : g ≤ 190) :
    RelP (a * b) (x * y) r g := by
  have hx := ha.pos
  have hy := hb.pos
  have hu := uro_pos
  have lo : 2⁻¹ ^ (e + f) ≤ x * y := by
    rw [pow_add]
    have := ha.lo
    have := hb.lo
    gcongr
  have hi : x * y ≤ 2 ^ (e + f) := by
    rw [pow_add]
    have := ha.hi
    have := hb.hi
    gcongr
  have p0 := ha.p0
  have p1 := ha.p1
  have q0 := hb.p0
  have q1 := hb.p1
  obtain ⟨v, rfl, hv, hvx⟩ := ha.near
  obtain ⟨w, rfl, hw, hwy⟩ := hb.near
  rw [F64.fin_mul]
  have ex : |x| = x := abs_of_pos hx
  have ey : |y| = y := abs_of_pos hy
  have h := abs_mul_sub (v := v) (w := w) (x := x) (y := y) (p := p) (q := q) (by rwa [ex]) (by rwa [ey]) p0
  rw [abs_of_pos (mul_pos hx hy)] at h
  have hpq : p * q ≤ p * (1 / 200) := by gcongr
  refine (of_relP (p := p + q + p * q) h (by positivity) (q := r) (by linarith) hr' lo hi
    (by omega)).mono le_rfl hr' he

theorem inv_lo {x : ℝ} {e : ℕ} (hi : x ≤ 2 ^ e) (hx : 0 < x) : 2⁻¹ ^ e ≤ x⁻¹ := by
  rw [inv_pow]
  exact inv_anti₀ hx hi

theorem inv_hi {x : ℝ} {e : ℕ} (lo : 2⁻¹ ^ e ≤ x) : x⁻¹ ≤ 2 ^ e := by
  have h := inv_anti₀ (by positivity) lo
  rwa [inv_pow, inv_inv] at h

theorem div {a b : F64 L} {x y p q r : ℝ} {e f g : ℕ} (ha : RelP a x p e) (hb : RelP b y q f)
    (hr : 101 / 100 * (p + q) + 2 * uro ≤ r) (hr' : r ≤ 1 / 200) (he : e + f ≤ g) (hg : g ≤ 190) :
    RelP (a / b) (x / y) r g := by
  have hx := ha.pos
  have hy := hb.pos
  have hu := uro_pos
  have lo : 2⁻¹ ^ (e + f) ≤ x / y := by
    rw [pow_add, div_eq_mul_inv]
    have := ha.lo
    have := inv_lo hb.hi hy
    gcongr
  have hi : x / y ≤ 2 ^ (e + f) := by
    rw [pow_add, div_eq_mul_inv]
    have := ha.hi
    have := inv_hi hb.lo
    gcongr
  have p0 := ha.p0
  have p1 := ha.p1
  have q0 := hb.p0
  have q1 := hb.p1
  obtain ⟨v, rfl, hv, hvx⟩ := ha.near
  obtain ⟨w, rfl, hw, hwy⟩ := hb.near
  have hqy : q * y ≤ 1 / 200 * y := by gcongr
  have hwl : 199 / 200 * y ≤ w := by
    have := (abs_le.1 hwy).1
    linarith
  have hw0 : 0 < w := by linarith
  rw [F64.fin_div _ hw0.ne']
  refine (of_relP (p := 101 / 100 * (p + q)) ?_ (by positivity) (q := r) (by linarith) hr' lo hi
    (by omega)).mono le_rfl hr' he
  have ee : v / w - x / y = ((v - x) * y - x * (w - y)) / (w * y) := by
    field_simp
    ring
  rw [ee, abs_div, abs_of_pos (mul_pos hw0 hy), div_le_iff₀ (mul_pos hw0 hy)]
  have e2 : 101 / 100 * (p + q) * (x / y) * (w * y) = 101 / 100 * (p + q) * x * w := by
    field_simp
  rw [e2]
  calc |(v - x) * y - x * (w - y)| ≤ |v - x| * y + x * |w - y| := by
        refine (abs_sub _ _).trans ?_
        rw [abs_mul, abs_mul, abs_of_pos hx, abs_of_pos hy]
    _ ≤ p * x * y + x * (q * y) := by gcongr
    _ = (p + q) * x * y := by ring
    _ ≤ 101 / 100 * (p + q) * x * (199 / 200 * y) := by
        have : 0 ≤ (p + q) * x * y := by positivity
        linarith
    _ ≤ _ := by gcongr

theorem add {a b : F64 L} {x y p q r : ℝ} {e f g : ℕ} (ha : RelP a x p e) (hb : RelP b y q f)
    (hr : p + 2 * uro ≤ r) (hr2 : q + 2 * uro ≤ r) (hr' : r ≤ 1 / 200) (he : e + 1 ≤ g) (hf : f + 1 ≤ g)
    (hg : g ≤ 190) : RelP (a + b) (x + y) r g := by
  have hx := ha.pos
  have hy := hb.pos
  have hu := uro_pos
  have lo : 2⁻¹ ^ g ≤ x + y := by
    have h1 : (2⁻¹ : ℝ) ^ g ≤ 2⁻¹ ^ e := pow_le_pow_of_le_one (by norm_num) (by norm_num) (by omega)
    have := ha.lo
    linarith
  have hi : x + y ≤ 2 ^ g := by
    have h1 : (2 : ℝ) ^ (e + 1) ≤ 2 ^ g := pow_le_pow_right₀ (by norm_num) he
    have h2 : (2 : ℝ) ^ (f + 1) ≤ 2 ^ g := pow_le_pow_right₀ (by norm_num) hf
    have := ha.hi
    have := hb.hi
    rw [pow_succ] at h1 h2
    linarith
  obtain ⟨v, rfl, hv, hvx⟩ := ha.near
  obtain ⟨w, rfl, hw, hwy⟩ := hb.near
  rw [F64.fin_add]
  have p0 := ha.p0
  have h1 : p * x ≤ (r - 2 * uro) * x := by gcongr; linarith
  have h2 : q * y ≤ (r - 2 * uro) * y := by gcongr; linarith
  refine of_relP (p := r - 2 * uro) ?_ (by linarith) (by linarith) hr' lo hi hg
  calc |v + w - (x + y)| = |(v - x) + (w - y)| := by ring_nf
    _ ≤ |v - x| + |w - y| := abs_add_le _ _
    _ ≤ (r - 2 * uro) * (x + y) := by linarith

end RelP

/-! ## Logarithm and powers -/

theorem abs_log_one_add {s p : ℝ} (h : |s| ≤ p) (hp : p ≤ 1 / 200) : |log (1 + s)| ≤ 101 / 100 * p := by
  obtain ⟨h1, h2⟩ := abs_le.1 h
  have hp0 : 0 ≤ p := (abs_nonneg s).trans h
  have hpos : 0 < 1 + s := by linarith
  rw [abs_le]
  constructor
  · have := one_sub_inv_le_log_of_pos hpos
    have h3 : -(101 / 100 * p) ≤ 1 - (1 + s)⁻¹ := by
      have : (1 + s)⁻¹ ≤ 1 + 101 / 100 * p := by
        rw [inv_le_comm₀ hpos (by positivity), inv_le_comm₀ (by positivity) hpos]
        rw [inv_eq_one_div, div_le_iff₀ hpos]
        nlinarith
      linarith
    linarith
  · have := log_le_sub_one_of_pos hpos
    linarith

theorem abs_log_sub {v x p : ℝ} (hx : 0 < x) (h : |v - x| ≤ p * x) (hp : p ≤ 1 / 200) :
    0 < v ∧ |log v - log x| ≤ 101 / 100 * p := by
  have hs : |(v - x) / x| ≤ p := by
    rw [abs_div, abs_of_pos hx, div_le_iff₀ hx]
    exact h
  have h1 := (abs_le.1 hs).1
  have e : v = x * (1 + (v - x) / x) := by field_simp; ring
  have hpos : 0 < 1 + (v - x) / x := by linarith
  refine ⟨by rw [e]; positivity, ?_⟩
  have := abs_log_one_add hs hp
  rwa [show log v - log x = log (1 + (v - x) / x) by
    conv_lhs => rw [e, log_mul hx.ne' hpos.ne']
    ring]

/-- The logarithm of an approximate value. -/
theorem log_near (hL : L.Accurate) {a : F64 L} {x p q : ℝ} (ha : Near a x (p * x)) (hx : 0 < x)
    (hp : p ≤ 1 / 200) (hq : 101 / 100 * p ≤ q * |log x|) (hq0 : 0 ≤ q) (hq' : q ≤ 1 / 200) (hm : Mid (log x)) :
    Near (Arith.log a) (log x) ((q + 4 * uro) * |log x|) := by
  obtain ⟨v, rfl, hv, hvx⟩ := ha
  obtain ⟨hv0, h1⟩ := abs_log_sub hx hvx hp
  rw [F64.fin_log hv0]
  have hu := uro_pos
  have hu' := uro_lt
  have h2 := hL.log_err v hv hv0
  have h3 := abs_pos.2 hm.ne
  have hlv : |log v| ≤ (1 + 1 / 200) * |log x| := by
    have := abs_add_le (log v - log x) (log x)
    rw [sub_add_cancel] at this
    have : q * |log x| ≤ 1 / 200 * |log x| := by gcongr
    linarith
  have e52 : (2⁻¹ : ℝ) ^ 52 = 2 * uro := by rw [uro_eq]; norm_num
  rw [e52] at h2
  have h4 : 2 * uro * |log v| ≤ 2 * uro * ((1 + 1 / 200) * |log x|) := by gcongr
  refine (of_relA (p := q + 2 * uro * (1 + 1 / 200)) ?_ (by positivity) (by linarith) hm).mono ?_
  · calc |L.log v - log x| = |(L.log v - log v) + (log v - log x)| := by ring_nf
      _ ≤ |L.log v - log v| + |log v - log x| := abs_add_le _ _
      _ ≤ _ := by linarith
  · exact mul_le_mul_of_nonneg_right (by linarith) h3.le

theorem abs_rpow_sub {v x p y : ℝ} (hx : 0 < x) (h : |v - x| ≤ p * x) (hp0 : 0 ≤ p) (hp : p ≤ 1 / 200)
    (hy : 0 ≤ y) (hy' : y ≤ 5) : 0 < v ∧ |v ^ y - x ^ y| ≤ 104 / 100 * (y * p) * x ^ y := by
  obtain ⟨hv, h1⟩ := abs_log_sub hx h hp
  refine ⟨hv, ?_⟩
  have e : v ^ y = x ^ y * exp (y * (log v - log x)) := by
    rw [rpow_def_of_pos hv, rpow_def_of_pos hx, ← exp_add]
    ring_nf
  have hxy : 0 < x ^ y := rpow_pos_of_pos hx y
  have h2 : |y * (log v - log x)| ≤ 101 / 100 * (y * p) := by
    rw [abs_mul, abs_of_nonneg hy]
    calc y * |log v - log x| ≤ y * (101 / 100 * p) := by gcongr
      _ = _ := by ring
  have hyp : y * p ≤ 5 * (1 / 200) := by gcongr
  have hyp0 : 0 ≤ y * p := by positivity
  have h3 := abs_exp_sub_one_sub_id_le (x := y * (log v - log x)) (by linarith)
  have h4 : |exp (y * (log v - log x)) - 1| ≤ 104 / 100 * (y * p) := by
    have h5 : (y * (log v - log x)) ^ 2 ≤ (101 / 100 * (y * p)) ^ 2 := by
      rw [← sq_abs]
      gcongr
    have h6 : (101 / 100 * (y * p)) ^ 2 ≤ 3 / 100 * (y * p) := by nlinarith
    calc |exp (y * (log v - log x)) - 1|
        = |(exp (y * (log v - log x)) - 1 - y * (log v - log x)) + y * (log v - log x)| := by ring_nf
      _ ≤ _ := abs_add_le _ _
      _ ≤ _ := by linarith
  rw [e, show x ^ y * exp (y * (log v - log x)) - x ^ y = (exp (y * (log v - log x)) - 1) * x ^ y by ring,
    abs_mul, abs_of_pos hxy]
  gcongr

theorem RelP.rpow (hL : L.Accurate) {a : F64 L} {x p y r : ℝ} {e k g : ℕ} (ha : RelP a x p e) (hf : IsF64 y)
    (hy : 0 ≤ y) (hyk : y ≤ k) (hk : k ≤ 5) (hr : 105 / 100 * (k * p) + 4 * uro ≤ r) (hr' : r ≤ 1 / 200)
    (he : k * e ≤ g) (hg : g ≤ 190) : RelP (Arith.pow a (F64.fin y)) (x ^ y) r g := by
  have hx := ha.pos
  have hu := uro_pos
  have hu' := uro_lt
  have hk' : (k : ℝ) ≤ 5 := by exact_mod_cast hk
  have hi : x ^ y ≤ 2 ^ (k * e) := by
    have h1 : (1 : ℝ) ≤ 2 ^ e := one_le_pow₀ (by norm_num)
    calc x ^ y ≤ ((2 : ℝ) ^ e) ^ y := rpow_le_rpow hx.le ha.hi hy
      _ ≤ ((2 : ℝ) ^ e) ^ (k : ℝ) := rpow_le_rpow_of_exponent_le h1 hyk
      _ = _ := by rw [rpow_natCast, ← pow_mul, mul_comm]
  have lo : 2⁻¹ ^ (k * e) ≤ x ^ y := by
    have h1 : (2⁻¹ : ℝ) ^ e ≤ 1 := pow_le_one₀ (by norm_num) (by norm_num)
    calc (2⁻¹ : ℝ) ^ (k * e) = ((2⁻¹ : ℝ) ^ e) ^ (k : ℝ) := by rw [rpow_natCast, ← pow_mul, mul_comm]
      _ ≤ ((2⁻¹ : ℝ) ^ e) ^ y := rpow_le_rpow_of_exponent_ge (by positivity) h1 hyk
      _ ≤ x ^ y := rpow_le_rpow (by positivity) ha.lo hy
  obtain ⟨v, rfl, hv, hvx⟩ := ha.near
  obtain ⟨hv0, h1⟩ := abs_rpow_sub hx hvx ha.p0 ha.p1 hy (hyk.trans hk')
  rw [F64.fin_pow hv0]
  have hxy : 0 < x ^ y := rpow_pos_of_pos hx y
  have p0 := ha.p0
  have p1 := ha.p1
  have hyp : y * p ≤ k * p := by gcongr
  have hyp' : (k : ℝ) * p ≤ 5 * (1 / 200) := by gcongr
  have hyp0 : 0 ≤ y * p := by positivity
  have h2 : 104 / 100 * (y * p) * x ^ y ≤ 3 / 100 * x ^ y := by
    gcongr
    linarith
  obtain ⟨h3, h4⟩ := abs_le.1 h1
  have h5 := hL.pow_err v y hv hf hv0 (by
      have hb := pow_bounds lo hi (by omega)
      have := f64Min_le
      have : (2⁻¹ : ℝ) ^ 201 = 2⁻¹ ^ 200 / 2 := by rw [pow_succ]; ring
      linarith) (by
      have hb := pow_bounds lo hi (by omega)
      have := le_f64Big
      have : (2 : ℝ) ^ 201 = 2 * 2 ^ 200 := by ring
      linarith)
  have e52 : (2⁻¹ : ℝ) ^ 52 = 2 * uro := by rw [uro_eq]; norm_num
  rw [e52] at h5
  have h6 : 2 * uro * v ^ y ≤ 2 * uro * ((1 + 3 / 100) * x ^ y) := by
    gcongr
    linarith
  refine (of_relP (p := 104 / 100 * (y * p) + 2 * uro * (1 + 3 / 100)) ?_ (by positivity) (q := r) (by linarith)
    hr' lo hi (by omega)).mono le_rfl hr' he
  calc |L.pow v y - x ^ y| = |(L.pow v y - v ^ y) + (v ^ y - x ^ y)| := by ring_nf
    _ ≤ |L.pow v y - v ^ y| + |v ^ y - x ^ y| := abs_add_le _ _
    _ ≤ _ := by linarith

theorem isF64_nat {n : ℕ} (h : n ≤ 2 ^ 53) : IsF64 (n : ℝ) := by
  refine (of_exact (L := Libm.correct) (rnd_nat h) ?_).2
  rw [Nat.abs_cast]
  calc (n : ℝ) ≤ ((2 ^ 53 : ℕ) : ℝ) := by exact_mod_cast h
    _ ≤ 2 ^ 200 := by norm_num

theorem RelP.pow (hL : L.Accurate) {a : F64 L} {x p r : ℝ} {e g : ℕ} (k : ℕ) (ha : RelP a x p e) (hk : k ≤ 5)
    (hr : 105 / 100 * (k * p) + 4 * uro ≤ r) (hr' : r ≤ 1 / 200)
    (he : k * e ≤ g) (hg : g ≤ 190) : RelP (Arith.pow a (Arith.ofNat k)) (x ^ k) r g := by
  have hk2 : k ≤ 2 ^ 53 := hk.trans (by norm_num)
  have := RelP.rpow hL ha (isF64_nat hk2) (Nat.cast_nonneg k) le_rfl hk hr hr' he hg
  rwa [rpow_natCast, ← ofNat_fin hk2] at this

theorem relP_nat {n e : ℕ} (h0 : 1 ≤ n) (h : n ≤ 2 ^ e) (he : e ≤ 53) :
    RelP (Arith.ofNat n : F64 L) n 0 e := by
  have h1 : n ≤ 2 ^ 53 := h.trans (Nat.pow_le_pow_right (by norm_num) he)
  rw [ofNat_fin h1]
  refine relP_exact (isF64_nat h1) ?_ (by exact_mod_cast h)
  have : (2⁻¹ : ℝ) ^ e ≤ 1 := pow_le_one₀ (by norm_num) (by norm_num)
  have : (1 : ℝ) ≤ n := by exact_mod_cast h0
  linarith

end IntegratorXX
