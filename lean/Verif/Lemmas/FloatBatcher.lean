import Verif.Lemmas.BatcherStuck
import Verif.Lemmas.FloatUniform

/-!
# The batcher in `double` arithmetic (helper lemmas)
-/

namespace IntegratorXX

open Spec Arith

variable {L : Libm}

theorem of_isF64 {x : ℝ} (h : IsF64 x) : (F64.of x : F64 L) = F64.fin x := by
  have h2 := abs_lt.1 h.2
  show XReal.round x = _
  unfold XReal.round
  rw [h.1, if_neg (by linarith), if_neg (by linarith)]
  rfl

theorem f64lt_false (a b : F64 L) : lt a b = false ↔ ¬XReal.Lt a b := by
  have : lt a b = true ↔ XReal.Lt a b := XReal.lt_iff a b
  rw [← this, Bool.not_eq_true]

theorem fin_lt_false (x y : ℝ) : lt (F64.fin x : F64 L) (F64.fin y) = false ↔ y ≤ x := by
  rw [← not_lt, ← F64.lt_iff (L := L), Bool.not_eq_true]

theorem f64_boxArith : BoxArith (F64 L) NotNaN where
  asymm a b h := by
    have h : XReal.Lt a b := (XReal.lt_iff a b).1 h
    rw [f64lt_false]
    cases a <;> cases b <;> simp_all [XReal.Lt]
    exact h.le
  negTrans a b c ha hb hc h1 h2 := by
    rw [f64lt_false] at *
    rcases ha with ⟨x, rfl, -⟩ | rfl | rfl <;> rcases hb with ⟨y, rfl, -⟩ | rfl | rfl <;>
      rcases hc with ⟨z, rfl, -⟩ | rfl | rfl <;> simp_all [XReal.Lt, F64.fin]
    exact h2.trans h1
  zeroStep lo up x n hlo hup hx h := by
    have e0 : (ofNat 0 : F64 L) = F64.fin 0 := by
      have := ofNat_fin (L := L) (n := 0) (by norm_num)
      rw [this, Nat.cast_zero]
    rw [e0]
    generalize hd : (up - lo) / (ofNat n : F64 L) = d
    have hnan : ∀ a b c : F64 L, c = XReal.nan → lt a (b + c) = false := by
      rintro a b c rfl
      rw [f64lt_false]
      cases a <;> cases b <;> exact fun h => h
    have hinf : ∀ c : F64 L, c = XReal.pinf ∨ c = XReal.ninf → F64.fin 0 * c = XReal.nan := by
      rintro c (rfl | rfl)
      · show XReal.roundX (XReal.infMul _) = _
        simp [XReal.infMul, XReal.roundX]
      · show XReal.roundX (XReal.infMul _) = _
        simp [XReal.infMul, XReal.roundX]
    have hfin : ∀ y : ℝ, (F64.fin 0 * F64.fin y : F64 L) = F64.fin 0 := by
      intro y
      rw [F64.fin_mul, zero_mul]
      exact (of_exact rnd_zero (by norm_num)).1
    cases d with
    | fin d =>
      have : lo + F64.fin 0 * F64.fin d = lo := by
        rw [hfin]
        rcases hlo with ⟨l, rfl, hl⟩ | rfl | rfl
        · rw [F64.fin_add, add_zero, of_isF64 hl]
        · rfl
        · rfl
      have h2 : lt x (lo + F64.fin 0 * F64.fin d) = false := by rwa [this]
      exact h2
    | pinf => exact hnan _ _ _ (hinf _ (.inl rfl))
    | ninf => exact hnan _ _ _ (hinf _ (.inr rfl))
    | nan => exact hnan _ _ _ rfl

/-- The inner cuts of an interval that is not too short lie strictly inside. -/
theorem cut_between {lo up : ℝ} (hl : |lo| ≤ 2 ^ 150) (hu : |up| ≤ 2 ^ 150)
    (h1 : 2⁻¹ ^ 50 * max |lo| |up| ≤ up - lo) (h2 : 2⁻¹ ^ 190 ≤ up - lo) {n i : ℕ} (hn : n = 2 ∨ n = 3)
    (hi0 : 0 < i) (hin : i < n) :
    ∃ c, (cut n (F64.fin lo) (F64.fin up) i : F64 L) = F64.fin c ∧ lo < c ∧ c < up := by
  have hD : |up - lo| ≤ 2 ^ 200 := by
    have := abs_sub up lo
    have e : (2 : ℝ) ^ 150 + 2 ^ 150 ≤ 2 ^ 200 := by norm_num
    linarith
  set M := max |lo| |up| with hM
  have hMl : |lo| ≤ M := le_max_left _ _
  have hMu : |up| ≤ M := le_max_right _ _
  have hDp : 0 < up - lo := lt_of_lt_of_le (by positivity) h2
  set D := up - lo with hDdef
  have aD : |D| = D := abs_of_pos hDp
  have b1 : (2⁻¹ : ℝ) ^ 198 ≤ 2⁻¹ ^ 190 := by norm_num
  have midD : Mid D := mid_of (le_trans (by norm_num) h2) (by rwa [aD] at hD)
  have hn3 : (n : ℝ) ≤ 3 ∧ (2 : ℝ) ≤ n := by rcases hn with rfl | rfl <;> norm_num
  have hi1 : (1 : ℝ) ≤ i := by exact_mod_cast hi0
  have hr : (1 : ℝ) / 3 ≤ i / n ∧ (i : ℝ) / n ≤ 2 / 3 := by
    have : (n = 2 ∧ i = 1) ∨ (n = 3 ∧ i = 1) ∨ (n = 3 ∧ i = 2) := by omega
    rcases this with ⟨rfl, rfl⟩ | ⟨rfl, rfl⟩ | ⟨rfl, rfl⟩ <;> norm_num
  have e1 : Rel (F64.fin up - F64.fin lo : F64 L) D (5 / 4) := by
    rw [F64.fin_sub]
    exact of_rel' midD
  have midDn : Mid (D / n) := by
    refine mid_of ?_ ?_
    · rw [le_div_iff₀ (by linarith)]
      refine le_trans ?_ h2
      calc (2⁻¹ : ℝ) ^ 200 * n ≤ 2⁻¹ ^ 200 * 3 := by gcongr; exact hn3.1
        _ ≤ 2⁻¹ ^ 190 := by norm_num
    · rw [div_le_iff₀ (by linarith)]
      rw [aD] at hD
      have : (2 : ℝ) ^ 200 * 1 ≤ 2 ^ 200 * n := by gcongr; linarith
      linarith
  have e2 := e1.div (rel_nat (L := L) (n := n) (by omega)) (by norm_num) (by norm_num) le_rfl (by norm_num)
    (by linarith [hn3.2]) midDn
  have eid : (i : ℝ) * (D / n) = i / n * D := by ring
  have hw1 : 1 / 3 * D ≤ i * (D / n) := by
    rw [eid]
    exact mul_le_mul_of_nonneg_right hr.1 hDp.le
  have hw2 : i * (D / n) ≤ 2 / 3 * D := by
    rw [eid]
    exact mul_le_mul_of_nonneg_right hr.2 hDp.le
  have midw : Mid ((i : ℝ) * (D / n)) := by
    refine mid_of (le_trans ?_ hw1) ?_
    · have : (2⁻¹ : ℝ) ^ 200 ≤ 1 / 3 * 2⁻¹ ^ 190 := by norm_num
      linarith
    · rw [aD] at hD
      linarith
  have e3 := (rel_nat (L := L) (n := i) (by omega)).mul e2 le_rfl (by norm_num) (by norm_num) (by norm_num) midw
  obtain ⟨w, hw, -, hwerr⟩ := e3
  have hwp : 0 < (i : ℝ) * (D / n) := by linarith
  rw [abs_of_pos hwp] at hwerr
  have hsmall : (0 + (5 / 4 + 0 + 2) + 2) * uro * (i * (D / n)) ≤ 1 / 100 * D := by
    have hu := uro_pos
    have h6 : (0 + (5 / 4 + 0 + 2) + 2) * uro ≤ 1 / 100 := by rw [uro_eq]; norm_num
    calc (0 + (5 / 4 + 0 + 2) + 2) * uro * (i * (D / n)) ≤ 1 / 100 * (i * (D / n)) := by gcongr
      _ ≤ 1 / 100 * D := by linarith
  have hwa := abs_le.1 (hwerr.trans hsmall)
  have hlw : |lo + w| ≤ M := by
    have a1 := abs_le.1 hMl
    have a2 := abs_le.1 hMu
    rw [abs_le]
    constructor <;> linarith
  have herr := rnd_err (lo + w)
  have hMD : uro * M ≤ 1 / 8 * D := by
    rw [uro_eq]
    have : (2⁻¹ : ℝ) ^ 50 * M = 8 * (1 / 9007199254740992 * M) := by
      norm_num
      ring
    linarith
  have ht : f64Tiny ≤ 1 / 100 * D := by
    have := f64Tiny_le
    have : (2⁻¹ : ℝ) ^ 200 ≤ 1 / 100 * 2⁻¹ ^ 190 := by norm_num
    linarith
  have hu0 := uro_pos
  have herr2 : |rnd (lo + w) - (lo + w)| ≤ 1 / 8 * D + 1 / 100 * D := by
    rw [uro_def] at herr
    have : uro * |lo + w| ≤ uro * M := by gcongr
    have ht0 : 0 < f64Tiny := by unfold f64Tiny; positivity
    linarith
  have herr3 := abs_le.1 herr2
  refine ⟨rnd (lo + w), ?_, by linarith, by linarith⟩
  unfold cut
  rw [if_pos hin, hw, F64.fin_add]
  refine F64.of_fin (le_big_of (hlw.trans ?_))
  have : (2 : ℝ) ^ 150 ≤ 2 ^ 200 := by norm_num
  exact (max_le hl hu).trans this

theorem f64_splitArith {C : Set ℝ} (hC : Separated C) :
    SplitArith (F64 L) (fun a => ∃ x ∈ C, a = F64.fin x) where
  asymm := f64_boxArith.asymm
  negTrans a b c ha hb hc := by
    obtain ⟨x, hx, rfl⟩ := ha
    obtain ⟨y, hy, rfl⟩ := hb
    obtain ⟨z, hz, rfl⟩ := hc
    simp only [fin_lt_false]
    exact fun h1 h2 => h2.trans h1
  zeroStep lo up x n hlo hup hx := by
    obtain ⟨x, hx, rfl⟩ := hx
    obtain ⟨y, hy, rfl⟩ := hlo
    obtain ⟨z, hz, rfl⟩ := hup
    exact f64_boxArith.zeroStep _ _ _ n (.inl ⟨_, rfl, hC.f64 _ hy⟩) (.inl ⟨_, rfl, hC.f64 _ hz⟩)
      (.inl ⟨_, rfl, hC.f64 _ hx⟩)
  tri a b ha hb := by
    obtain ⟨x, hx, rfl⟩ := ha
    obtain ⟨y, hy, rfl⟩ := hb
    simp only [fin_lt_false]
    intro h1 h2
    rw [le_antisymm h2 h1]
  split lo up hlo hup h n hn i hi := by
    obtain ⟨x, hx, rfl⟩ := hlo
    obtain ⟨y, hy, rfl⟩ := hup
    rw [F64.lt_iff] at h
    obtain ⟨s1, s2⟩ := hC.sep x hx y hy h
    have key := fun j (h0 : 0 < j) (hj : j < n) =>
      cut_between (L := L) ((hC.le x hx).trans (by norm_num)) ((hC.le y hy).trans (by norm_num)) s1
        (le_trans (by norm_num) s2) hn h0 hj
    rintro ⟨h1, h2⟩
    rcases Nat.eq_zero_or_pos i with rfl | h0
    · obtain ⟨c, hc, -, hc2⟩ := key 1 (by norm_num) (by omega)
      rw [hc, fin_lt_false] at h2
      linarith
    · obtain ⟨c, hc, hc1, -⟩ := key i h0 hi
      rw [hc, fin_lt_false] at h1
      linarith

/-! ### Points that differ enough in a coordinate -/

/-- Finite of moderate size. -/
def Moderate (a : F64 L) : Prop := ∃ x, a = F64.fin x ∧ IsF64 x ∧ |x| ≤ 2 ^ 150

theorem f64_moderate : BoxArith (F64 L) Moderate where
  asymm := f64_boxArith.asymm
  negTrans a b c ha hb hc := by
    obtain ⟨x, rfl, hx, -⟩ := ha
    obtain ⟨y, rfl, hy, -⟩ := hb
    obtain ⟨z, rfl, hz, -⟩ := hc
    exact f64_boxArith.negTrans _ _ _ (.inl ⟨_, rfl, hx⟩) (.inl ⟨_, rfl, hy⟩) (.inl ⟨_, rfl, hz⟩)
  zeroStep lo up x n hlo hup hx := by
    obtain ⟨x, rfl, hx, -⟩ := hx
    obtain ⟨y, rfl, hy, -⟩ := hlo
    obtain ⟨z, rfl, hz, -⟩ := hup
    exact f64_boxArith.zeroStep _ _ _ n (.inl ⟨_, rfl, hy⟩) (.inl ⟨_, rfl, hz⟩) (.inl ⟨_, rfl, hx⟩)

theorem f64_parted {a b : ℝ} (h1 : 2⁻¹ ^ 49 * max |a| |b| ≤ |a - b|) (h2 : 2⁻¹ ^ 190 ≤ |a - b|) :
    Parted Moderate (F64.fin a : F64 L) (F64.fin b) := by
  rintro _ _ ⟨lo, rfl, -, hlo⟩ ⟨up, rfl, -, hup⟩ g1 g2 g3 g4 n hn i hi
  rw [fin_lt_false] at g1 g2 g3 g4
  have hd : |a - b| ≤ up - lo := by rw [abs_le]; constructor <;> linarith
  have hab : max |a| |b| ≤ max |lo| |up| := max_le (abs_le_max_abs_abs g1 g3) (abs_le_max_abs_abs g2 g4)
  have hrel : 2⁻¹ ^ 50 * max |lo| |up| ≤ up - lo := by
    obtain ⟨m, hm⟩ : ∃ m, m = max |a| |b| := ⟨_, rfl⟩
    have a1 := abs_le.1 (hm ▸ le_max_left |a| |b|)
    have e : (2⁻¹ : ℝ) ^ 49 = 2 * 2⁻¹ ^ 50 := by norm_num
    have e2 : (2⁻¹ : ℝ) ^ 50 ≤ 1 / 4 := by norm_num
    have e0 : (0 : ℝ) < 2⁻¹ ^ 50 := by positivity
    rw [← hm, e] at h1
    generalize (2⁻¹ : ℝ) ^ 50 = κ at *
    have hm0 : 0 ≤ m := by rw [hm]; exact le_trans (abs_nonneg a) (le_max_left _ _)
    have hM0 : 0 ≤ max |lo| |up| := le_trans (abs_nonneg lo) (le_max_left _ _)
    by_cases hc : max |lo| |up| ≤ 2 * m
    · nlinarith
    · have h3 : max |lo| |up| - m ≤ up - lo := by
        rcases le_total |lo| |up| with h | h
        · rw [max_eq_right h] at hc ⊢
          rcases le_total 0 up with h0 | h0
          · rw [abs_of_nonneg h0]
            linarith
          · rw [abs_of_nonpos h0] at hc ⊢
            linarith
        · rw [max_eq_left h] at hc ⊢
          rcases le_total 0 lo with h0 | h0
          · rw [abs_of_nonneg h0] at hc ⊢
            linarith
          · rw [abs_of_nonpos h0]
            linarith
      nlinarith
  have key := fun j (h0 : 0 < j) (hj : j < n) => cut_between (L := L) hlo hup hrel (h2.trans hd) hn h0 hj
  rintro ⟨k1, k2⟩
  rcases Nat.eq_zero_or_pos i with rfl | h0
  · obtain ⟨c, hc, -, hc2⟩ := key 1 (by norm_num) (by omega)
    rw [hc, fin_lt_false] at k2
    linarith
  · obtain ⟨c, hc, hc1, -⟩ := key i h0 hi
    rw [hc, fin_lt_false] at k1
    linarith

/-! ### Three points that are never separated -/

theorem isF64_of_le {x : ℝ} (h : rnd x = x) (hx : |x| ≤ 2 ^ 200) : IsF64 x := (of_exact (L := Libm.correct) h hx).2

theorem rnd_near1 : rnd (1 + 2 * uro) = 1 + 2 * uro := by
  refine rnd_rep (2 ^ 52 + 1) (-52) (by norm_num) (by norm_num) ?_
  rw [uro_eq, zpow_neg]
  norm_num

theorem rnd_near2 : rnd (1 + 4 * uro) = 1 + 4 * uro := by
  refine rnd_rep (2 ^ 52 + 2) (-52) (by norm_num) (by norm_num) ?_
  rw [uro_eq, zpow_neg]
  norm_num

theorem rnd_tie : rnd (1 + 3 * uro) = 1 + 4 * uro := by
  have hu := uro_pos
  have hlog : Int.log 2 |1 + 3 * uro| = 0 := by
    rw [abs_of_pos (by linarith)]
    have h1 : (0 : ℤ) ≤ Int.log 2 (1 + 3 * uro) := by
      rw [← Int.zpow_le_iff_le_log (by norm_num) (by linarith)]
      norm_num
      exact hu.le
    have h2 : Int.log 2 (1 + 3 * uro) < 1 := by
      rw [← Int.lt_zpow_iff_log_lt (by norm_num) (by linarith)]
      have := uro_lt
      norm_num
      linarith
    omega
  have he : ulpExp (1 + 3 * uro) = -52 := by unfold ulpExp; rw [hlog]; norm_num
  have hu2 : ulp (1 + 3 * uro) = 2 * uro := by
    unfold ulp
    rw [he, uro_eq, zpow_neg]
    norm_num
  unfold rnd
  rw [hu2]
  have e : (1 + 3 * uro) / (2 * uro) = ((2 ^ 52 + 1 : ℤ) : ℝ) + 1 / 2 := by
    rw [uro_eq]
    norm_num
  have hfl : ⌊((2 ^ 52 + 1 : ℤ) : ℝ) + 1 / 2⌋ = 2 ^ 52 + 1 := by
    rw [Int.floor_intCast_add]
    norm_num
  have hr : rne (((2 ^ 52 + 1 : ℤ) : ℝ) + 1 / 2) = 2 ^ 52 + 2 := by
    unfold rne
    have hf : Int.fract (((2 ^ 52 + 1 : ℤ) : ℝ) + 1 / 2) = 1 / 2 := by
      rw [Int.fract_intCast_add]
      norm_num
    rw [hf, hfl, if_neg (by norm_num), if_neg (by norm_num), if_neg]
    · norm_num
    · rw [Int.not_even_iff_odd]
      exact ⟨2 ^ 51, by norm_num⟩
  rw [e, hr, uro_eq]
  norm_num

theorem cut_same {y : ℝ} (hy : IsF64 y) {n i : ℕ} (hn : n ≤ 2 ^ 53) (hi : i ≤ n) :
    (cut n (F64.fin y) (F64.fin y) i : F64 L) = F64.fin y := by
  unfold cut
  split_ifs with h
  · have hn0 : (n : ℝ) ≠ 0 := by
      have : n ≠ 0 := by omega
      exact_mod_cast this
    have h0 : (F64.of 0 : F64 L) = F64.fin 0 := (of_exact rnd_zero (by norm_num)).1
    rw [F64.fin_sub, sub_self, h0, ofNat_fin hn, F64.fin_div _ hn0, zero_div, h0, ofNat_fin (hi.trans hn),
      F64.fin_mul, mul_zero, h0, F64.fin_add, add_zero, of_isF64 hy]
  · rfl

/-- The midpoint of these neighbours is the upper one. -/
theorem cut_half : (cut 2 (F64.fin (1 + 2 * uro)) (F64.fin (1 + 4 * uro)) 1 : F64 L) = F64.fin (1 + 4 * uro) := by
  have hu := uro_pos
  have hu1 := uro_lt
  have h200 : (2 : ℝ) ≤ 2 ^ 200 := by norm_num
  have hp : ∀ k : ℤ, -1000 ≤ k → rnd ((2 : ℝ) ^ k) = 2 ^ k := fun k hk => rnd_two_zpow (by omega)
  have e1 : rnd (2 * uro) = 2 * uro := by
    have : 2 * uro = (2 : ℝ) ^ (-52 : ℤ) := by rw [uro_eq, zpow_neg]; norm_num
    rw [this, hp _ (by norm_num)]
  have e2 : rnd uro = uro := by
    have : uro = (2 : ℝ) ^ (-53 : ℤ) := by rw [uro_eq, zpow_neg]; norm_num
    rw [this, hp _ (by norm_num)]
  unfold cut
  rw [if_pos (by norm_num), F64.fin_sub, show 1 + 4 * uro - (1 + 2 * uro) = 2 * uro by ring,
    (of_exact e1 (by rw [abs_of_pos (by linarith)]; linarith)).1, ofNat_fin (n := 2) (by norm_num),
    F64.fin_div _ (by norm_num), show 2 * uro / ((2 : ℕ) : ℝ) = uro by push_cast; ring,
    (of_exact e2 (by rw [abs_of_pos (by linarith)]; linarith)).1, ofNat_fin (n := 1) (by norm_num), F64.fin_mul,
    Nat.cast_one, one_mul, (of_exact e2 (by rw [abs_of_pos (by linarith)]; linarith)).1, F64.fin_add,
    show 1 + 2 * uro + uro = 1 + 3 * uro by ring, of_small (by linarith) (by linarith), rnd_tie]

/-- The first third of `[1 + 2u, 2]`. -/
theorem cut_third : ∃ c, (cut 3 (F64.fin (1 + 2 * uro)) (F64.fin 2) 1 : F64 L) = F64.fin c ∧ 1 + 4 * uro ≤ c ∧ c < 2 := by
  have hu := uro_pos
  have hu1 := uro_lt
  have hq : ∀ (a : ℤ) (x : ℝ), 0 ≤ a → a ≤ 8 → x = a / 4 → rnd x = x := by
    intro a x h0 h1 hx
    refine rnd_rep a (-2) ?_ (by norm_num) ?_
    · rw [abs_of_nonneg h0]
      omega
    · rw [hx, zpow_neg]
      norm_num
      ring
  have q1 : rnd ((1 : ℝ) / 4) = 1 / 4 := hq 1 _ (by norm_num) (by norm_num) (by norm_num)
  have q2 : rnd ((2 : ℝ) / 4) = 2 / 4 := hq 2 _ (by norm_num) (by norm_num) (by norm_num)
  have q3 : rnd ((3 : ℝ) / 4) = 3 / 4 := hq 3 _ (by norm_num) (by norm_num) (by norm_num)
  have q4 : rnd ((4 : ℝ) / 4) = 4 / 4 := hq 4 _ (by norm_num) (by norm_num) (by norm_num)
  have q5 : rnd ((5 : ℝ) / 4) = 5 / 4 := hq 5 _ (by norm_num) (by norm_num) (by norm_num)
  have q7 : rnd ((7 : ℝ) / 4) = 7 / 4 := hq 7 _ (by norm_num) (by norm_num) (by norm_num)
  have a1 : 3 / 4 ≤ rnd (2 - (1 + 2 * uro)) := le_rnd q3 (by linarith)
  have a2 : rnd (2 - (1 + 2 * uro)) ≤ 4 / 4 := rnd_le q4 (by linarith)
  set d := rnd (2 - (1 + 2 * uro)) with hd
  have b1 : 1 / 4 ≤ rnd (d / 3) := le_rnd q1 (by linarith)
  have b2 : rnd (d / 3) ≤ 2 / 4 := rnd_le q2 (by linarith)
  set f := rnd (d / 3) with hf
  have hff : rnd f = f := rnd_rnd _
  have c1 : 5 / 4 ≤ rnd (1 + 2 * uro + f) := le_rnd q5 (by linarith)
  have c2 : rnd (1 + 2 * uro + f) ≤ 7 / 4 := rnd_le q7 (by linarith)
  refine ⟨rnd (1 + 2 * uro + f), ?_, by linarith, by linarith⟩
  unfold cut
  rw [if_pos (by norm_num), F64.fin_sub, of_small (by linarith) (by linarith), ofNat_fin (n := 3) (by norm_num),
    F64.fin_div _ (by norm_num), ← hd, show d / ((3 : ℕ) : ℝ) = d / 3 by norm_num,
    of_small (by linarith) (by linarith), ← hf, ofNat_fin (n := 1) (by norm_num), F64.fin_mul,
    Nat.cast_one, one_mul, of_small (by linarith) (by linarith), hff, F64.fin_add,
    of_small (by linarith) (by linarith)]

end IntegratorXX
