import Mathlib.Data.List.Pairwise
import Verif.Spec.Apart
import Verif.Spec.FloatApart
import Verif.Lemmas.FloatSphere
import Verif.Lemmas.PrunedConv

/-!
# Distance of the points of a grid in `double`
-/

namespace IntegratorXX

open Spec

variable {L : Libm}

/-- The two points are finite and apart. -/
def SepPt (P Q : Pt (F64 L)) : Prop := ∃ u v, P = finPt u ∧ Q = finPt v ∧ PtGap u v

/-- Finite and of moderate size. -/
def ModP (P : Pt (F64 L)) : Prop := ∃ u, P = finPt u ∧ ModeratePt u

/-- Points times radii differ. -/
theorem shells_apart {v w : ℝ} (hv : 0 < v) (hvw : v ≤ (1 - 2⁻¹ ^ 18) * w) {y z : Pt ℝ}
    (hy : |y.x ^ 2 + y.y ^ 2 + y.z ^ 2 - 1| ≤ 1 / 10 ^ 14) (hz : |z.x ^ 2 + z.y ^ 2 + z.z ^ 2 - 1| ≤ 1 / 10 ^ 14) :
    PtApart (2⁻¹ ^ 36 * w) ⟨v * y.x, v * y.y, v * y.z⟩ ⟨w * z.x, w * z.y, w * z.z⟩ := by
  by_contra hc
  unfold PtApart at hc
  push Not at hc
  dsimp only at hc
  obtain ⟨c1, c2, c3⟩ := hc
  have hw : 0 < w := by
    by_contra h
    have : (1 - (2⁻¹ : ℝ) ^ 18) * w ≤ 0 := mul_nonpos_of_nonneg_of_nonpos (by norm_num) (by linarith)
    linarith
  have hvw' : v ≤ w := by
    have : (0 : ℝ) ≤ 2⁻¹ ^ 18 * w := by positivity
    linarith
  have le1 : ∀ {a b c : ℝ}, |a ^ 2 + b ^ 2 + c ^ 2 - 1| ≤ 1 / 10 ^ 14 → |a| ≤ 11 / 10 := by
    intro a b c h
    have h1 := (abs_le.1 h).2
    refine abs_le_of_sq_le_sq (a := a) (b := 11 / 10) ?_ (by norm_num)
    nlinarith [sq_nonneg b, sq_nonneg c]
  have rot : ∀ {a b c : ℝ}, a ^ 2 + b ^ 2 + c ^ 2 - 1 = b ^ 2 + c ^ 2 + a ^ 2 - 1 := by intros; ring
  have y1 := le1 hy
  have y2 := le1 (rot ▸ hy)
  have y3 := le1 (rot ▸ rot ▸ hy)
  have z1 := le1 hz
  have z2 := le1 (rot ▸ hz)
  have z3 := le1 (rot ▸ rot ▸ hz)
  have term : ∀ {a b : ℝ}, |a| ≤ 11 / 10 → |b| ≤ 11 / 10 → |v * a - w * b| < 2⁻¹ ^ 36 * w →
      (w * b) ^ 2 - (v * a) ^ 2 ≤ 3 * 2⁻¹ ^ 36 * w ^ 2 := by
    intro a b ha hb h
    have h1 : (w * b) ^ 2 - (v * a) ^ 2 = (w * b - v * a) * (w * b + v * a) := by ring
    have h2 : |w * b + v * a| ≤ 3 * w := by
      calc |w * b + v * a| ≤ |w * b| + |v * a| := abs_add_le _ _
        _ = w * |b| + v * |a| := by rw [abs_mul, abs_mul, abs_of_pos hw, abs_of_pos hv]
        _ ≤ w * (11 / 10) + w * (11 / 10) := by gcongr
        _ ≤ 3 * w := by linarith
    rw [h1]
    calc (w * b - v * a) * (w * b + v * a) ≤ |w * b - v * a| * |w * b + v * a| := by
          rw [← abs_mul]; exact le_abs_self _
      _ ≤ 2⁻¹ ^ 36 * w * (3 * w) := by
          rw [abs_sub_comm]
          gcongr
      _ = _ := by ring
  have t1 := term y1 z1 c1
  have t2 := term y2 z2 c2
  have t3 := term y3 z3 c3
  obtain ⟨Y, hY⟩ : ∃ Y, Y = y.x ^ 2 + y.y ^ 2 + y.z ^ 2 := ⟨_, rfl⟩
  obtain ⟨Z, hZ⟩ : ∃ Z, Z = z.x ^ 2 + z.y ^ 2 + z.z ^ 2 := ⟨_, rfl⟩
  rw [← hY] at hy
  rw [← hZ] at hz
  have hy' := abs_le.1 hy
  have hz' := abs_le.1 hz
  have hsum : w ^ 2 * Z - v ^ 2 * Y ≤ 9 * 2⁻¹ ^ 36 * w ^ 2 := by
    rw [hY, hZ]
    nlinarith
  have hw2 : 0 < w ^ 2 := by positivity
  have h1 : v ^ 2 ≤ (1 - 2⁻¹ ^ 18) ^ 2 * w ^ 2 := by
    rw [← mul_pow]
    gcongr
  have h2 : v ^ 2 * Y ≤ (1 - 2⁻¹ ^ 18) ^ 2 * w ^ 2 * (1 + 1 / 10 ^ 14) := by
    refine mul_le_mul h1 (by linarith) ?_ (by positivity)
    linarith [hy'.1, (by norm_num : (1 : ℝ) / 10 ^ 14 ≤ 1)]
  have h3 : w ^ 2 * (1 - 1 / 10 ^ 14) ≤ w ^ 2 * Z := by
    refine mul_le_mul_of_nonneg_left (by linarith) hw2.le
  norm_num at h2 h3 hsum
  nlinarith

theorem coord_le {y : Pt ℝ} (hy : |y.x ^ 2 + y.y ^ 2 + y.z ^ 2 - 1| ≤ 1 / 10 ^ 14) :
    |y.x| ≤ 11 / 10 ∧ |y.y| ≤ 11 / 10 ∧ |y.z| ≤ 11 / 10 := by
  have h1 := (abs_le.1 hy).2
  have h2 : y.x ^ 2 + y.y ^ 2 + y.z ^ 2 ≤ (11 / 10) ^ 2 := by norm_num at h1 ⊢; linarith
  refine ⟨abs_le_of_sq_le_sq ?_ (by norm_num), abs_le_of_sq_le_sq ?_ (by norm_num), abs_le_of_sq_le_sq ?_ (by norm_num)⟩ <;>
    nlinarith [sq_nonneg y.x, sq_nonneg y.y, sq_nonneg y.z]

/-- Rounding keeps the gap. -/
theorem gap_of {p q P Q m : ℝ} (hm : 2⁻¹ ^ 120 ≤ m) (hP : |P| ≤ 11 / 10 * m) (hQ : |Q| ≤ 11 / 10 * m)
    (h1 : |p - P| ≤ 2⁻¹ ^ 50 * |P|) (h2 : |q - Q| ≤ 2⁻¹ ^ 50 * |Q|) (h : 2⁻¹ ^ 36 * m ≤ |P - Q|) : Gap p q := by
  have hm0 : 0 < m := lt_of_lt_of_le (by positivity) hm
  have e1 : |p - P| ≤ 2⁻¹ ^ 49 * m := by
    refine h1.trans ?_
    calc (2⁻¹ : ℝ) ^ 50 * |P| ≤ 2⁻¹ ^ 50 * (11 / 10 * m) := by gcongr
      _ ≤ 2⁻¹ ^ 49 * m := by
          have : (2⁻¹ : ℝ) ^ 49 = 2 * 2⁻¹ ^ 50 := by norm_num
          rw [this]
          have : (0 : ℝ) < 2⁻¹ ^ 50 := by positivity
          nlinarith
  have e2 : |q - Q| ≤ 2⁻¹ ^ 49 * m := by
    refine h2.trans ?_
    calc (2⁻¹ : ℝ) ^ 50 * |Q| ≤ 2⁻¹ ^ 50 * (11 / 10 * m) := by gcongr
      _ ≤ 2⁻¹ ^ 49 * m := by
          have : (2⁻¹ : ℝ) ^ 49 = 2 * 2⁻¹ ^ 50 := by norm_num
          rw [this]
          have : (0 : ℝ) < 2⁻¹ ^ 50 := by positivity
          nlinarith
  have e3 : 2⁻¹ ^ 37 * m ≤ |p - q| := by
    have t : |P - Q| ≤ |p - P| + |p - q| + |q - Q| := by
      calc |P - Q| = |(P - p) + (p - q) + (q - Q)| := by ring_nf
        _ ≤ |(P - p) + (p - q)| + |q - Q| := abs_add_le _ _
        _ ≤ |P - p| + |p - q| + |q - Q| := by gcongr; exact abs_add_le _ _
        _ = _ := by rw [abs_sub_comm P p]
    have e : (2⁻¹ : ℝ) ^ 36 = 2 * 2⁻¹ ^ 37 := by norm_num
    have e' : (2⁻¹ : ℝ) ^ 37 = 4096 * 2⁻¹ ^ 49 := by norm_num
    rw [e] at h
    rw [e'] at h ⊢
    have : (0 : ℝ) < 2⁻¹ ^ 49 := by positivity
    nlinarith
  have small : ∀ {x X : ℝ}, |X| ≤ 11 / 10 * m → |x - X| ≤ 2⁻¹ ^ 49 * m → |x| ≤ 2 * m := by
    intro x X hX hx
    have t : |x| ≤ |x - X| + |X| := by
      calc |x| = |(x - X) + X| := by ring_nf
        _ ≤ _ := abs_add_le _ _
    have : (2⁻¹ : ℝ) ^ 49 * m ≤ 1 / 10 * m := by gcongr; norm_num
    linarith
  constructor
  · refine le_trans ?_ e3
    calc (2⁻¹ : ℝ) ^ 49 * max |p| |q| ≤ 2⁻¹ ^ 49 * (2 * m) := by
          gcongr
          exact max_le (small hP e1) (small hQ e2)
      _ = 2⁻¹ ^ 48 * m := by ring
      _ ≤ 2⁻¹ ^ 37 * m := mul_le_mul_of_nonneg_right (by norm_num) hm0.le
  · refine le_trans ?_ e3
    calc (2⁻¹ : ℝ) ^ 190 ≤ 2⁻¹ ^ 37 * 2⁻¹ ^ 120 := by norm_num
      _ ≤ 2⁻¹ ^ 37 * m := by gcongr

theorem ptApart_symm {δ : ℝ} {u v : Pt ℝ} (h : PtApart δ u v) : PtApart δ v u := by
  unfold PtApart at *
  rwa [abs_sub_comm v.x, abs_sub_comm v.y, abs_sub_comm v.z]

/-- The points computed from two radii and two directions. -/
theorem sep_of {v w : ℝ} (hv : 2⁻¹ ^ 120 ≤ v) (hw : 2⁻¹ ^ 120 ≤ w) {y z : Pt ℝ}
    (hy : |y.x ^ 2 + y.y ^ 2 + y.z ^ 2 - 1| ≤ 1 / 10 ^ 14) (hz : |z.x ^ 2 + z.y ^ 2 + z.z ^ 2 - 1| ≤ 1 / 10 ^ 14)
    (h : (v = w ∧ PtApart (2⁻¹ ^ 36) y z) ∨ v ≤ (1 - 2⁻¹ ^ 18) * w ∨ w ≤ (1 - 2⁻¹ ^ 18) * v) {P Q : Pt (F64 L)}
    (hP : ClosePt (2⁻¹ ^ 50) P (combinePt v y)) (hQ : ClosePt (2⁻¹ ^ 50) Q (combinePt w z)) : SepPt P Q := by
  obtain ⟨⟨p1, a1, -, b1⟩, ⟨p2, a2, -, b2⟩, ⟨p3, a3, -, b3⟩⟩ := hP
  obtain ⟨⟨q1, c1, -, d1⟩, ⟨q2, c2, -, d2⟩, ⟨q3, c3, -, d3⟩⟩ := hQ
  have hv0 : 0 < v := lt_of_lt_of_le (by positivity) hv
  have hw0 : 0 < w := lt_of_lt_of_le (by positivity) hw
  refine ⟨⟨p1, p2, p3⟩, ⟨q1, q2, q3⟩, ?_, ?_, ?_⟩
  · show P = ⟨F64.fin p1, F64.fin p2, F64.fin p3⟩
    rw [← a1, ← a2, ← a3]
  · show Q = ⟨F64.fin q1, F64.fin q2, F64.fin q3⟩
    rw [← c1, ← c2, ← c3]
  obtain ⟨m, hm⟩ : ∃ m, m = max v w := ⟨_, rfl⟩
  have hvm : v ≤ m := hm ▸ le_max_left _ _
  have hwm : w ≤ m := hm ▸ le_max_right _ _
  have hap : PtApart (2⁻¹ ^ 36 * m) (combinePt v y) (combinePt w z) := by
    rcases h with ⟨rfl, h⟩ | h | h
    · rw [max_self] at hm
      have e : ∀ a b : ℝ, |v * a - v * b| = v * |a - b| := by
        intro a b
        rw [← mul_sub, abs_mul, abs_of_pos hv0]
      have g : ∀ {a b : ℝ}, (2⁻¹ : ℝ) ^ 36 ≤ |a - b| → 2⁻¹ ^ 36 * m ≤ |v * a - v * b| := by
        intro a b h
        rw [e, hm, mul_comm]
        gcongr
      rcases h with h | h | h
      · exact .inl (g h)
      · exact .inr (.inl (g h))
      · exact .inr (.inr (g h))
    · have hvw : v ≤ w := by
        have : (0 : ℝ) ≤ 2⁻¹ ^ 18 * w := by positivity
        linarith
      rw [hm, max_eq_right hvw]
      exact shells_apart hv0 h hy hz
    · have hvw : w ≤ v := by
        have : (0 : ℝ) ≤ 2⁻¹ ^ 18 * v := by positivity
        linarith
      rw [hm, max_eq_left hvw]
      exact ptApart_symm (shells_apart hw0 h hz hy)
  have bnd : ∀ {t x : ℝ}, 0 < t → t ≤ m → |x| ≤ 11 / 10 → |t * x| ≤ 11 / 10 * m := by
    intro t x h0 h1 h2
    rw [abs_mul, abs_of_pos h0, mul_comm]
    gcongr
  obtain ⟨y1, y2, y3⟩ := coord_le hy
  obtain ⟨z1, z2, z3⟩ := coord_le hz
  have hm1 : 2⁻¹ ^ 120 ≤ m := hv.trans hvm
  rcases hap with h | h | h
  · exact .inl (gap_of hm1 (bnd hv0 hvm y1) (bnd hw0 hwm z1) b1 d1 h)
  · exact .inr (.inl (gap_of hm1 (bnd hv0 hvm y2) (bnd hw0 hwm z2) b2 d2 h))
  · exact .inr (.inr (gap_of hm1 (bnd hv0 hvm y3) (bnd hw0 hwm z3) b3 d3 h))

theorem mod_of {v : ℝ} (hv0 : 0 < v) (hv : v ≤ 2 ^ 120) {y : Pt ℝ}
    (hy : |y.x ^ 2 + y.y ^ 2 + y.z ^ 2 - 1| ≤ 1 / 10 ^ 14) {P : Pt (F64 L)}
    (hP : ClosePt (2⁻¹ ^ 50) P (combinePt v y)) : ModP P := by
  obtain ⟨⟨p1, a1, f1, b1⟩, ⟨p2, a2, f2, b2⟩, ⟨p3, a3, f3, b3⟩⟩ := hP
  obtain ⟨y1, y2, y3⟩ := coord_le hy
  have small : ∀ {p x : ℝ}, |p - v * x| ≤ 2⁻¹ ^ 50 * |v * x| → |x| ≤ 11 / 10 → |p| ≤ 2 ^ 150 := by
    intro p x h hx
    have t : |p| ≤ |p - v * x| + |v * x| := by
      calc |p| = |(p - v * x) + v * x| := by ring_nf
        _ ≤ _ := abs_add_le _ _
    have t2 : |v * x| ≤ 2 ^ 120 * (11 / 10) := by
      rw [abs_mul, abs_of_pos hv0]
      gcongr
    have t3 : (2⁻¹ : ℝ) ^ 50 * |v * x| ≤ 1 * |v * x| := by gcongr; norm_num
    have : (2 : ℝ) ^ 120 * (11 / 10) + 2 ^ 120 * (11 / 10) ≤ 2 ^ 150 := by norm_num
    linarith
  refine ⟨⟨p1, p2, p3⟩, ?_, ⟨f1, f2, f3⟩, small b1 y1, small b2 y2, small b3 y3⟩
  show P = ⟨F64.fin p1, F64.fin p2, F64.fin p3⟩
  rw [← a1, ← a2, ← a3]

/-! ### Lists -/

/-- The radii of a shell list. -/
def Shell (r : F64 L × F64 L) (v : ℝ) : Prop := r.1 = F64.fin v ∧ IsF64 v ∧ 2⁻¹ ^ 120 ≤ v ∧ v ≤ 2 ^ 120

/-- Radii increase by a factor. -/
def ShellsD (rl : List (F64 L × F64 L)) : Prop :=
  (∀ r ∈ rl, ∃ v, Shell r v) ∧ rl.Pairwise (fun r s => ∀ v w, Shell r v → Shell s w → v ≤ (1 - 2⁻¹ ^ 18) * w)

/-- Directions of a double angular rule. -/
def Dir (a : Pt (F64 L) × F64 L) (y : Pt ℝ) : Prop :=
  ClosePt (2⁻¹ ^ 52) a.1 y ∧ (ZRng 150 y.x ∧ ZRng 150 y.y ∧ ZRng 150 y.z) ∧
    |y.x ^ 2 + y.y ^ 2 + y.z ^ 2 - 1| ≤ 1 / 10 ^ 14

/-- Directions are apart. -/
def DirsD (al : List (Pt (F64 L) × F64 L)) : Prop :=
  (∀ a ∈ al, ∃ y, Dir a y) ∧ al.Pairwise (fun a b => ∃ y z, Dir a y ∧ Dir b z ∧ PtApart (2⁻¹ ^ 36) y z)

theorem entry_close {r : F64 L × F64 L} {v : ℝ} {a : Pt (F64 L) × F64 L} {y : Pt ℝ} (hr : Shell r v) (ha : Dir a y) :
    ClosePt (2⁻¹ ^ 50) (shiftEntry (origin (F64 L)) (sphEntry r a)).1 (combinePt v y) := by
  obtain ⟨hr1, hr2, hr3, hr4⟩ := hr
  obtain ⟨⟨h1, h2, h3⟩, ⟨z1, z2, z3⟩, -⟩ := ha
  have hv0 : 0 < v := lt_of_lt_of_le (by positivity) hr3
  have c : Close 0 r.1 v := ⟨v, hr1, hr2, by simp⟩
  have zv : ZRng 120 v := .inr (by rw [abs_of_pos hv0]; exact ⟨hr3, hr4⟩)
  have key : ∀ {b : F64 L} {x : ℝ}, Close (2⁻¹ ^ 52) b x → ZRng 150 x → Close (2⁻¹ ^ 50) (r.1 * b + Arith.lit 0) (v * x) := by
    intro b x hb hx
    have := (c.mul hb (r := 2⁻¹ ^ 50) le_rfl (by norm_num) (zv.mul hx (by norm_num)) (by rw [uro_eq]; norm_num)).add_zero
    rwa [Arith.real_lit, Rat.cast_zero, add_zero] at this
  exact ⟨key h1 z1, key h2 z2, key h3 z3⟩

theorem shell_unique {r : F64 L × F64 L} {v w : ℝ} (h1 : Shell r v) (h2 : Shell r w) : v = w := by
  have : (F64.fin v : F64 L) = F64.fin w := h1.1.symm.trans h2.1
  injection this

theorem SepPt.symm {P Q : Pt (F64 L)} (h : SepPt P Q) : SepPt Q P := by
  obtain ⟨u, v, h1, h2, h3⟩ := h
  refine ⟨v, u, h2, h1, ?_⟩
  have g : ∀ {a b : ℝ}, Gap a b → Gap b a := by
    intro a b h
    unfold Gap at *
    rwa [abs_sub_comm, max_comm]
  rcases h3 with h | h | h
  · exact .inl (g h)
  · exact .inr (.inl (g h))
  · exact .inr (.inr (g h))

theorem shells_cases {rl : List (F64 L × F64 L)} (h : ShellsD rl) {r s : F64 L × F64 L} (hr : r ∈ rl) (hs : s ∈ rl)
    {v w : ℝ} (hv : Shell r v) (hw : Shell s w) :
    v = w ∨ v ≤ (1 - 2⁻¹ ^ 18) * w ∨ w ≤ (1 - 2⁻¹ ^ 18) * v := by
  have hp := List.pairwise_iff_getElem.1 h.2
  obtain ⟨i, hi, rfl⟩ := List.getElem_of_mem hr
  obtain ⟨j, hj, rfl⟩ := List.getElem_of_mem hs
  rcases Nat.lt_trichotomy i j with hij | rfl | hij
  · exact .inr (.inl (hp i j hi hj hij _ _ hv hw))
  · exact .inl (shell_unique hv hw)
  · exact .inr (.inr (hp j i hj hi hij _ _ hw hv))

/-- The points of a product grid. -/
theorem sphEntries_sep {rl : List (F64 L × F64 L)} (hr : ShellsD rl) {al : List (Pt (F64 L) × F64 L)} (ha : DirsD al) :
    (((sphEntries rl al).map (shiftEntry (origin (F64 L)))).map Prod.fst).Pairwise SepPt ∧
      ∀ P ∈ ((sphEntries rl al).map (shiftEntry (origin (F64 L)))).map Prod.fst, ModP P := by
  constructor
  · rw [List.map_map, List.pairwise_map]
    unfold sphEntries
    rw [List.pairwise_flatMap]
    constructor
    · intro a hma
      obtain ⟨y, hy⟩ := ha.1 a hma
      rw [List.pairwise_map]
      refine hr.2.imp_of_mem (fun {r s} hmr hms h => ?_)
      obtain ⟨v, hv⟩ := hr.1 r hmr
      obtain ⟨w, hw⟩ := hr.1 s hms
      exact sep_of hv.2.2.1 hw.2.2.1 hy.2.2 hy.2.2 (.inr (.inl (h v w hv hw))) (entry_close hv hy) (entry_close hw hy)
    · refine ha.2.imp (fun {a b} h => ?_)
      obtain ⟨y, z, hy, hz, h⟩ := h
      intro P hP Q hQ
      rw [List.mem_map] at hP hQ
      obtain ⟨r, hmr, rfl⟩ := hP
      obtain ⟨s, hms, rfl⟩ := hQ
      obtain ⟨v, hv⟩ := hr.1 r hmr
      obtain ⟨w, hw⟩ := hr.1 s hms
      refine sep_of hv.2.2.1 hw.2.2.1 hy.2.2 hz.2.2 ?_ (entry_close hv hy) (entry_close hw hz)
      rcases shells_cases hr hmr hms hv hw with e | e | e
      · exact .inl ⟨e, h⟩
      · exact .inr (.inl e)
      · exact .inr (.inr e)
  · intro P hP
    rw [List.map_map, List.mem_map] at hP
    obtain ⟨e, he, rfl⟩ := hP
    unfold sphEntries at he
    rw [List.mem_flatMap] at he
    obtain ⟨a, hma, he⟩ := he
    rw [List.mem_map] at he
    obtain ⟨r, hmr, rfl⟩ := he
    obtain ⟨y, hy⟩ := ha.1 a hma
    obtain ⟨v, hv⟩ := hr.1 r hmr
    exact mod_of (lt_of_lt_of_le (by positivity) hv.2.2.1) hv.2.2.2 hy.2.2 (entry_close hv hy)

theorem ShellsD.sublist {rl sl : List (F64 L × F64 L)} (h : ShellsD rl) (hs : sl.Sublist rl) : ShellsD sl :=
  ⟨fun r hr => h.1 r (hs.subset hr), h.2.sublist hs⟩

/-- The points of a pruned grid. -/
theorem regions_sep {rl : List (F64 L × F64 L)} (hr : ShellsD rl) {regions : List (Nat × Quad (Pt (F64 L)) (F64 L))}
    (hst : StartsOk regions) (hlt : ∀ e ∈ regions, e.1 < rl.length)
    (hA : ∀ e ∈ tiles rl.length regions, DirsD (e.2.points.zip e.2.weights)) :
    ((((tiles rl.length regions).flatMap (regionEntries rl)).map (shiftEntry (origin (F64 L)))).map Prod.fst).Pairwise SepPt ∧
      ∀ P ∈ (((tiles rl.length regions).flatMap (regionEntries rl)).map (shiftEntry (origin (F64 L)))).map Prod.fst,
        ModP P := by
  have hsl := tiles_slices rl regions 0 hst.1 hst.2 hlt
  rw [List.drop_zero] at hsl
  have hsub : ∀ i j : Nat, ((rl.take j).drop i).Sublist rl := fun i j =>
    (List.drop_sublist _ _).trans (List.take_sublist _ _)
  have hpw := hr.2
  rw [← hsl, List.pairwise_flatMap] at hpw
  have key := fun e (he : e ∈ tiles rl.length regions) => sphEntries_sep (hr.sublist (hsub e.1.1 e.1.2)) (hA e he)
  constructor
  · rw [List.map_map, List.pairwise_map, List.pairwise_flatMap]
    constructor
    · intro e he
      have := (key e he).1
      rw [List.map_map, List.pairwise_map] at this
      exact this
    · refine hpw.2.imp_of_mem (fun {e f} he hf h P hP Q hQ => ?_)
      unfold regionEntries sphEntries at hP hQ
      rw [List.mem_flatMap] at hP hQ
      obtain ⟨a, hma, hP⟩ := hP
      obtain ⟨b, hmb, hQ⟩ := hQ
      rw [List.mem_map] at hP hQ
      obtain ⟨r, hmr, rfl⟩ := hP
      obtain ⟨s, hms, rfl⟩ := hQ
      obtain ⟨v, hv⟩ := hr.1 r ((hsub _ _).subset hmr)
      obtain ⟨w, hw⟩ := hr.1 s ((hsub _ _).subset hms)
      obtain ⟨y, hy⟩ := (hA e he).1 a hma
      obtain ⟨z, hz⟩ := (hA f hf).1 b hmb
      exact sep_of hv.2.2.1 hw.2.2.1 hy.2.2 hz.2.2 (.inr (.inl (h r hmr s hms v w hv hw))) (entry_close hv hy)
        (entry_close hw hz)
  · intro P hP
    rw [List.map_map, List.mem_map] at hP
    obtain ⟨x, hx, rfl⟩ := hP
    rw [List.mem_flatMap] at hx
    obtain ⟨e, he, hx⟩ := hx
    exact (key e he).2 _ (by rw [List.map_map]; exact List.mem_map.2 ⟨x, hx, rfl⟩)

/-- The real points of such a list. -/
theorem sep_points {l : List (Pt (F64 L))} (h : l.Pairwise SepPt ∧ ∀ P ∈ l, ModP P) :
    ∃ ps : List (Pt ℝ), l = ps.map finPt ∧ (∀ u ∈ ps, ModeratePt u) ∧ ps.Pairwise PtGap := by
  have hex : ∀ l : List (Pt (F64 L)), (∀ P ∈ l, ModP P) →
      ∃ ps : List (Pt ℝ), l = ps.map finPt ∧ ∀ u ∈ ps, ModeratePt u := by
    intro l
    induction l with
    | nil => intro _; exact ⟨[], rfl, fun u hu => absurd hu List.not_mem_nil⟩
    | cons P l ih =>
      intro h
      obtain ⟨u, hu, hm⟩ := h P (by simp)
      obtain ⟨ps, hps, hm'⟩ := ih (fun Q hQ => h Q (by simp [hQ]))
      refine ⟨u :: ps, by rw [List.map_cons, hu, hps], ?_⟩
      intro w hw
      rcases List.mem_cons.1 hw with rfl | hw
      · exact hm
      · exact hm' w hw
  obtain ⟨ps, hps, hm⟩ := hex l h.2
  refine ⟨ps, hps, hm, ?_⟩
  have hp := h.1
  rw [hps, List.pairwise_map] at hp
  refine hp.imp (fun {u v} h => ?_)
  obtain ⟨u', v', h1, h2, h3⟩ := h
  have inj : ∀ {a b : Pt ℝ}, (finPt a : Pt (F64 L)) = finPt b → a = b := by
    intro a b h
    have hf : ∀ {x y : ℝ}, (F64.fin x : F64 L) = F64.fin y → x = y := by
      intro x y h
      injection h
    injection h with h1 h2 h3
    have g1 := hf h1
    have g2 := hf h2
    have g3 := hf h3
    cases a; cases b
    simp_all
  rw [inj h1, inj h2]
  exact h3

end IntegratorXX
