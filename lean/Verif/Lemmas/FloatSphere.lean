import Verif.Lemmas.FloatAngular
import Verif.Lemmas.CompositeForms
import Verif.Lemmas.FactoryForms
import Verif.Prop.FloatRadial

/-!
# Products of rules in `double` arithmetic

Radii and weights of the radial rules lie between `2^-200` and `2^200`, so products with angular weights and squares of
radii neither overflow nor become subnormal.
-/

namespace IntegratorXX

open Real

variable {L : Libm}

theorem Close.mono {a : F64 L} {x p q : ℝ} (h : Close p a x) (hq : p ≤ q) : Close q a x := by
  obtain ⟨v, h1, h2, h3⟩ := h
  exact ⟨v, h1, h2, h3.trans (by gcongr)⟩

theorem of_self {v : ℝ} (h : IsF64 v) : (F64.of v : F64 L) = F64.fin v := by
  obtain ⟨h1, h2⟩ := h
  have := abs_lt.1 h2
  show XReal.round v = _
  unfold XReal.round
  rw [h1, if_neg (by linarith), if_neg (by linarith)]
  rfl

theorem wide_min : f64Min ≤ 2⁻¹ ^ 901 := by
  unfold f64Min
  rw [inv_pow, ← zpow_natCast, ← zpow_neg]
  exact two_zpow_mono (by norm_num)

theorem wide_big : (2 : ℝ) ^ 901 ≤ f64Big := by
  unfold f64Big
  rw [← zpow_natCast]
  exact two_zpow_mono (by norm_num)

/-- Zero or of a size between `2^-e` and `2^e`. -/
def ZRng (e : ℕ) (x : ℝ) : Prop := x = 0 ∨ (2⁻¹ ^ e ≤ |x| ∧ |x| ≤ 2 ^ e)

theorem ZRng.mul {e f g : ℕ} {x y : ℝ} (hx : ZRng e x) (hy : ZRng f y) (hg : e + f ≤ g) : ZRng g (x * y) := by
  rcases hx with rfl | ⟨h1, h2⟩
  · left; rw [zero_mul]
  rcases hy with rfl | ⟨h3, h4⟩
  · left; rw [mul_zero]
  right
  rw [abs_mul]
  constructor
  · calc (2⁻¹ : ℝ) ^ g ≤ 2⁻¹ ^ (e + f) := pow_le_pow_of_le_one (by norm_num) (by norm_num) hg
      _ = 2⁻¹ ^ e * 2⁻¹ ^ f := pow_add _ _ _
      _ ≤ |x| * |y| := by gcongr
  · calc |x| * |y| ≤ 2 ^ e * 2 ^ f := by gcongr
      _ = 2 ^ (e + f) := (pow_add _ _ _).symm
      _ ≤ 2 ^ g := pow_le_pow_right₀ (by norm_num) hg

/-- Rounding a number close to one of moderate size. -/
theorem of_close {t z p r : ℝ} (h : |t - z| ≤ p * |z|) (hp : p ≤ 1 / 2) (hz : ZRng 900 z)
    (hr : p + uro * (1 + p) ≤ r) : Close r (F64.of t : F64 L) z := by
  rcases hz with rfl | ⟨z1, z2⟩
  · rw [abs_zero, mul_zero, sub_zero] at h
    have ht : t = 0 := abs_nonpos_iff.1 h
    subst ht
    have h0 : IsF64 (0 : ℝ) := ⟨rnd_zero, by rw [abs_zero]; have := f64Big_pos; linarith⟩
    exact ⟨0, of_self h0, h0, by simp⟩
  · have hz0 : 0 < |z| := lt_of_lt_of_le (by positivity) z1
    have hlo : |z| / 2 ≤ |t| := by
      have h1 := abs_sub_abs_le_abs_sub z t
      rw [abs_sub_comm] at h1
      nlinarith
    have hhi : |t| ≤ (1 + p) * |z| := by
      have h1 := abs_sub_abs_le_abs_sub t z
      linarith
    have hmin : f64Min ≤ |t| := by
      refine wide_min.trans (le_trans ?_ hlo)
      rw [pow_succ]
      clear hr
      generalize (2⁻¹ : ℝ) ^ 900 = Z at *
      linarith
    have hbig : |t| ≤ f64Big := by
      refine hhi.trans (le_trans ?_ wide_big)
      rw [pow_succ]
      clear z1 hmin
      generalize (2 : ℝ) ^ 900 = Z at *
      nlinarith
    refine ⟨rnd t, F64.of_fin hbig, isF64_rnd hbig, ?_⟩
    have h1 := rnd_err_normal hmin
    rw [uro_def] at h1
    have hu := uro_pos
    calc |rnd t - z| = |(rnd t - t) + (t - z)| := by ring_nf
      _ ≤ |rnd t - t| + |t - z| := abs_add_le _ _
      _ ≤ uro * ((1 + p) * |z|) + p * |z| := by
          have : uro * |t| ≤ uro * ((1 + p) * |z|) := by gcongr
          linarith
      _ = (p + uro * (1 + p)) * |z| := by ring
      _ ≤ r * |z| := by gcongr

theorem Close.mul {a b : F64 L} {x y p q r : ℝ} (ha : Close p a x) (hb : Close q b y) (hp : 0 ≤ p)
    (hpq : p + q + p * q ≤ 1 / 2) (hz : ZRng 900 (x * y))
    (hr : p + q + p * q + uro * (1 + (p + q + p * q)) ≤ r) : Close r (a * b) (x * y) := by
  obtain ⟨v, rfl, hv, hvx⟩ := ha
  obtain ⟨w, rfl, hw, hwy⟩ := hb
  rw [F64.fin_mul]
  exact of_close (abs_mul_sub hvx hwy hp) hpq hz hr

/-- An entry of a radial rule. -/
structure RadE (p w : ℝ) (a : F64 L × F64 L) (x : ℝ × ℝ) : Prop where
  pt : Close p a.1 x.1
  wt : Close w a.2 x.2
  rp : ZRng 200 x.1
  rw : ZRng 200 x.2

/-- An entry of an angular rule. -/
structure AngE (a : Pt (F64 L) × F64 L) (x : Pt ℝ × ℝ) : Prop where
  pt : ClosePt (2⁻¹ ^ 52) a.1 x.1
  wt : Close (2⁻¹ ^ 50) a.2 x.2
  rx : ZRng 150 x.1.x
  ry : ZRng 150 x.1.y
  rz : ZRng 150 x.1.z
  rw : ZRng 150 x.2

/-- An entry of a grid. -/
structure EntE (p w : ℝ) (a : Pt (F64 L) × F64 L) (x : Pt ℝ × ℝ) : Prop where
  pt : ClosePt p a.1 x.1
  wt : Close w a.2 x.2

theorem sphEntry_close {p w : ℝ} {r : F64 L × F64 L} {x : ℝ × ℝ} {a : Pt (F64 L) × F64 L} {y : Pt ℝ × ℝ}
    (hr : RadE p w r x) (ha : AngE a y) (hp0 : 0 ≤ p) (hp : p ≤ 1 / 200) (hw0 : 0 ≤ w) (hw : w ≤ 1 / 200) :
    EntE (p + 2⁻¹ ^ 50) (11 / 10 * (w + 2 * p) + 2⁻¹ ^ 49) (sphEntry r a) (sphEntry x y) := by
  have hu := uro_pos
  have hu1 : uro ≤ 1 / 2 ^ 40 := by rw [uro_eq]; norm_num
  have e52 : (2⁻¹ : ℝ) ^ 52 = 2 * uro := by rw [uro_eq]; norm_num
  have e50 : (2⁻¹ : ℝ) ^ 50 = 8 * uro := by rw [uro_eq]; norm_num
  have e49 : (2⁻¹ : ℝ) ^ 49 = 16 * uro := by rw [uro_eq]; norm_num
  have hpu : 0 ≤ p * uro := by positivity
  have hwu : 0 ≤ w * uro := by positivity
  have hpu1 : p * uro ≤ 1 / 200 * uro := by gcongr
  have hwu1 : w * uro ≤ 1 / 200 * uro := by gcongr
  have huu : uro * uro ≤ 1 / 2 ^ 40 * uro := by gcongr
  have huu0 : 0 ≤ uro * uro := by positivity
  have hpuu : p * uro * uro ≤ 1 / 200 * uro * (1 / 2 ^ 40) := by gcongr
  have hwuu : w * uro * uro ≤ 1 / 200 * uro * (1 / 2 ^ 40) := by gcongr
  have pt : ∀ {b : F64 L} {z : ℝ}, Close (2⁻¹ ^ 52) b z → ZRng 150 z → Close (p + 2⁻¹ ^ 50) (r.1 * b) (x.1 * z) := by
    intro b z hb hz
    refine hr.pt.mul hb hp0 ?_ (hr.rp.mul hz (by norm_num)) ?_
    · rw [e52]; norm_num at hu1; nlinarith
    · rw [e52, e50]
      norm_num at hpuu huu
      nlinarith
  refine ⟨⟨pt ha.pt.1 ha.rx, pt ha.pt.2.1 ha.ry, pt ha.pt.2.2 ha.rz⟩, ?_⟩
  have m1 : Close (w + 10 * uro) (r.2 * a.2) (x.2 * y.2) := by
    refine hr.wt.mul ha.wt hw0 ?_ (hr.rw.mul ha.rw (by norm_num)) ?_
    · rw [e50]; norm_num at hu1; nlinarith
    · rw [e50]
      norm_num at hwuu huu
      nlinarith
  have hpp : p * p ≤ 1 / 200 * p := by gcongr
  have hpp0 : 0 ≤ p * p := by positivity
  have m2 : Close (201 / 100 * p + 2 * uro) (r.1 * r.1) (x.1 * x.1) := by
    refine hr.pt.mul hr.pt hp0 ?_ (hr.rp.mul hr.rp (by norm_num)) ?_
    · nlinarith
    · have : uro * (1 + (p + p + p * p)) ≤ 2 * uro := by
        have : p + p + p * p ≤ 1 := by nlinarith
        nlinarith
      nlinarith
  obtain ⟨A, hA⟩ : ∃ A, A = w + 10 * uro := ⟨_, rfl⟩
  obtain ⟨B, hB⟩ : ∃ B, B = 201 / 100 * p + 2 * uro := ⟨_, rfl⟩
  rw [← hA] at m1
  rw [← hB] at m2
  have hA0 : 0 ≤ A := by rw [hA]; positivity
  have hB0 : 0 ≤ B := by rw [hB]; positivity
  have hB1 : B ≤ 1 / 50 := by rw [hB]; norm_num at hu1; linarith
  have hA1 : A ≤ 1 / 50 := by rw [hA]; norm_num at hu1; linarith
  have hAB : A * B ≤ A * (1 / 50) := by gcongr
  refine m1.mul m2 hA0 (by nlinarith) ?_ ?_
  · exact (hr.rw.mul ha.rw (le_refl (200 + 150))).mul (hr.rp.mul hr.rp (le_refl (200 + 200))) (by norm_num)
  · have h1 : uro * (1 + (A + B + A * B)) ≤ uro * (11 / 10) := by
      gcongr
      nlinarith
    rw [e49]
    have : A + B + A * B ≤ 51 / 50 * A + B := by linarith
    rw [hA, hB] at this ⊢
    rw [hA, hB] at h1
    linarith

theorem forall₂_flatMap {α β γ δ : Type} {R : α → β → Prop} {S : γ → δ → Prop} {f : α → List γ} {g : β → List δ}
    {l : List α} {m : List β} (h : List.Forall₂ R l m) (hf : ∀ a b, R a b → List.Forall₂ S (f a) (g b)) :
    List.Forall₂ S (l.flatMap f) (m.flatMap g) := by
  induction h with
  | nil => exact .nil
  | cons h1 _ ih =>
    rw [List.flatMap_cons, List.flatMap_cons]
    exact List.rel_append (hf _ _ h1) ih

theorem forall₂_map {α β γ δ : Type} {R : α → β → Prop} {S : γ → δ → Prop} {f : α → γ} {g : β → δ}
    {l : List α} {m : List β} (h : List.Forall₂ R l m) (hf : ∀ a b, R a b → S (f a) (g b)) :
    List.Forall₂ S (l.map f) (m.map g) := by
  rw [List.forall₂_map_left_iff, List.forall₂_map_right_iff]
  exact h.imp hf

theorem sphEntries_close {p w : ℝ} {rl : List (F64 L × F64 L)} {xl : List (ℝ × ℝ)} {al : List (Pt (F64 L) × F64 L)}
    {yl : List (Pt ℝ × ℝ)} (hr : List.Forall₂ (RadE p w) rl xl) (ha : List.Forall₂ AngE al yl) (hp0 : 0 ≤ p)
    (hp : p ≤ 1 / 200) (hw0 : 0 ≤ w) (hw : w ≤ 1 / 200) :
    List.Forall₂ (EntE (p + 2⁻¹ ^ 50) (11 / 10 * (w + 2 * p) + 2⁻¹ ^ 49)) (sphEntries rl al) (sphEntries xl yl) :=
  forall₂_flatMap ha fun _ _ hab => forall₂_map hr fun _ _ hrx => sphEntry_close hrx hab hp0 hp hw0 hw

theorem lit_zero_fin : (Arith.lit 0 : F64 L) = F64.fin 0 := by
  rw [F64.lit_eq, Rat.cast_zero]
  exact of_self ⟨rnd_zero, by rw [abs_zero]; have := f64Big_pos; linarith⟩

theorem Close.add_zero {p : ℝ} {a : F64 L} {x : ℝ} (h : Close p a x) : Close p (a + Arith.lit 0) (x + Arith.lit 0) := by
  obtain ⟨v, rfl, h2, h3⟩ := h
  rw [lit_zero_fin, F64.fin_add, _root_.add_zero, of_self h2]
  refine ⟨v, rfl, h2, ?_⟩
  simpa using h3

theorem shift_close {p w : ℝ} {l : List (Pt (F64 L) × F64 L)} {m : List (Pt ℝ × ℝ)} (h : List.Forall₂ (EntE p w) l m) :
    CloseGrid p w (Quad.ofPairs (l.map (shiftEntry (origin (F64 L))))) (Quad.ofPairs (m.map (shiftEntry (origin ℝ)))) := by
  unfold CloseGrid Quad.ofPairs
  dsimp only
  rw [List.map_map, List.map_map, List.map_map, List.map_map]
  exact ⟨forall₂_map h fun _ _ e => ⟨e.pt.1.add_zero, e.pt.2.1.add_zero, e.pt.2.2.add_zero⟩,
    forall₂_map h fun _ _ e => e.wt⟩

theorem forall₂_zip {α β γ δ : Type} {R : α → γ → Prop} {S : β → δ → Prop} {l : List α} {m : List γ} {k : List β}
    {o : List δ} (h1 : List.Forall₂ R l m) (h2 : List.Forall₂ S k o) (_hl : l.length = k.length) :
    List.Forall₂ (fun a x => R a.1 x.1 ∧ S a.2 x.2) (l.zip k) (m.zip o) := by
  induction h1 generalizing k o with
  | nil => simp
  | cons e _ ih =>
    cases h2 with
    | nil => simp
    | cons e2 h2 => exact .cons ⟨e, e2⟩ (ih h2 (by simpa using _hl))

end IntegratorXX
