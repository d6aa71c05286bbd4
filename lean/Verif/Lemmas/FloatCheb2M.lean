import Verif.Lemmas.FloatCheb3
import Mathlib.Analysis.Calculus.MeanValue

/-!
# GaussChebyshev2Modified in `double` arithmetic
-/

namespace IntegratorXX

open Real

variable {L : Libm}

theorem abs_sin_sub (x y : ℝ) : |sin x - sin y| ≤ |x - y| := by
  have := abs_sin_sub_sin_le x y
  exact this

theorem Near.sin {a : F64 L} {t e : ℝ} (hL : L.Accurate) (h : Near a t e) (he : e ≤ 1 / 4) :
    Near (Arith.sin a) (sin t) (e + 4 * uro) := by
  obtain ⟨v, rfl, hv, hvt⟩ := h
  rw [F64.fin_sin]
  have hu := uro_pos
  have h1 := hL.sin_err v hv
  have h2 := abs_sin_sub v t
  have h3 := abs_sin_le_one v
  have ht : f64Tiny ≤ uro / 4 := f64Tiny_le.trans (by rw [uro_eq]; norm_num)
  have h5 : |L.sin v - Real.sin v| ≤ 2 * uro + uro / 4 := by
    refine h1.trans ?_
    have : (2⁻¹ : ℝ) ^ 52 = 2 * uro := by rw [← uro_def, pow_succ]; ring
    rw [this]
    nlinarith
  have h6 : |L.sin v - Real.sin t| ≤ e + (2 * uro + uro / 4) := by
    calc |L.sin v - Real.sin t| = |(L.sin v - Real.sin v) + (Real.sin v - Real.sin t)| := by ring_nf
      _ ≤ _ := (abs_add_le _ _).trans (by linarith)
  have h7 := abs_sin_le_one t
  have h8 : uro ≤ 1 / 16 := by rw [uro_eq]; norm_num
  refine (of_near h6 (B := 3 / 2) (by linarith) (by norm_num)).mono ?_
  have : (2⁻¹ : ℝ) ^ 200 ≤ uro / 8 := by rw [uro_eq]; norm_num
  linarith

theorem relP_lit_one : RelP (Arith.lit 1 : F64 L) 1 0 0 := by
  rw [lit_one_eq]
  exact relP_exact (by simpa using isF64_nat (n := 1) (by norm_num)) (by norm_num) (by norm_num)

theorem relP_lit_nat (n : ℕ) {e : ℕ} (h0 : 1 ≤ n) (h : n ≤ 2 ^ e) (he : e ≤ 53) :
    RelP (Arith.lit (n : ℚ) : F64 L) n 0 e := by
  have h1 : (Arith.lit (n : ℚ) : F64 L) = Arith.ofNat n := by
    show F64.of _ = F64.of _
    norm_num
  rw [h1]
  exact relP_nat h0 h he

theorem gc2m_oon {n : ℕ} (hn : n ≤ 1048576) :
    RelP (Arith.lit 1 / Arith.ofNat (n + 1) : F64 L) (1 / (n + 1)) (2.1 * uro) 21 := by
  have hu := uro_pos
  have h := (relP_lit_one (L := L)).div (relP_nat (L := L) (n := n + 1) (e := 21) (by omega) (by norm_num; omega)
    (by norm_num)) (r := 2.1 * uro) (g := 21) (by linarith) (by rw [uro_eq]; norm_num) (by norm_num) (by norm_num)
  push_cast at h
  exact h

theorem relP_pi : RelP (Arith.pi : F64 L) π (2 * uro) 2 := by
  have := pi_gt_three
  have := pi_le_four
  exact (rel_pi (L := L)).toP (by norm_num) (by norm_num) (by norm_num; linarith) (by norm_num; linarith)

theorem gc2m_angle {n j : ℕ} (hn : n ≤ 1048576) (hj : j < n) :
    Near (gc2mT (F64 L) n j) (gc2A n j) (26.5 * uro) := by
  have hu := uro_pos
  have h1 := (relP_nat (L := L) (n := n - j) (e := 21) (by omega) (by norm_num; omega) (by norm_num)).mul
    (relP_pi (L := L)) (r := 4.1 * uro) (g := 23) (by linarith) (by rw [uro_eq]; norm_num) (by norm_num) (by norm_num)
  have h2 := h1.mul (gc2m_oon (L := L) hn) (r := 8.4 * uro) (g := 44) (by linarith) (by rw [uro_eq]; norm_num)
    (by norm_num) (by norm_num)
  have e : ((n - j : ℕ) : ℝ) * π * (1 / (n + 1)) = gc2A n j := by unfold gc2A; ring
  rw [e] at h2
  refine h2.near.mono ?_
  have h3 := gc2A_lt (n := n) (j := j)
  have h4 := pi_lt_d2
  have : 8.4 * uro * gc2A n j ≤ 8.4 * uro * 3.15 := by
    gcongr
    linarith
  linarith

theorem gc2m_sin (hL : L.Accurate) {n j : ℕ} (hn : n ≤ 1048576) (hj : j < n) :
    Near (Arith.sin (gc2mT (F64 L) n j)) (sin (gc2A n j)) (31 * uro) :=
  ((gc2m_angle hn hj).sin hL (by rw [uro_eq]; norm_num)).mono (by have := uro_pos; linarith)

theorem gc2m_cos (hL : L.Accurate) {n j : ℕ} (hn : n ≤ 1048576) (hj : j < n) :
    Near (Arith.cos (gc2mT (F64 L) n j)) (cos (gc2A n j)) (31 * uro) :=
  ((gc2m_angle hn hj).cos hL (by rw [uro_eq]; norm_num)).mono (by have := uro_pos; linarith)

theorem gc2m_sinsq (hL : L.Accurate) {n j : ℕ} (hn : n ≤ 1048576) (hj : j < n) :
    Near (Arith.sin (gc2mT (F64 L) n j) * Arith.sin (gc2mT (F64 L) n j)) (sin (gc2A n j) * sin (gc2A n j))
      (64 * uro) := by
  have hu := uro_pos
  have hs := gc2m_sin (L := L) hL hn hj
  have hs1 := abs_sin_le_one (gc2A n j)
  have t200 : (2⁻¹ : ℝ) ^ 200 ≤ uro / 1000000 := by rw [uro_eq]; norm_num
  have hss : |sin (gc2A n j) * sin (gc2A n j)| ≤ 1 := by rw [abs_mul]; nlinarith [abs_nonneg (sin (gc2A n j))]
  have hu6 : uro ≤ 1 / 1000000 := by rw [uro_eq]; norm_num
  exact (Near.mul hs hs hs1 hs1 (B := 11 / 10) (by nlinarith) (by norm_num)).mono (by nlinarith)

theorem near_twoOverPi : Near (Arith.twoOverPi : F64 L) (2 / π) (1.3 * uro) := by
  have h1 := pi_gt_d20
  have h2 := pi_lt_d20
  have hp := pi_pos
  have hu := uro_pos
  have e : (Arith.twoOverPi : F64 L) = F64.of 0.63661977236758134308 := rfl
  rw [e]
  have hlt : 2 / π ≤ 0.637 := by
    rw [div_le_iff₀ hp]
    norm_num at h1 ⊢
    linarith
  refine (of_near (z := 2 / π) (e := uro / 2) (B := 0.65) ?_ ?_ (by norm_num)).mono ?_
  · rw [uro_eq, abs_le]
    have a : 2 / π ≤ 0.6366197723675813431 := by
      rw [div_le_iff₀ hp]
      norm_num at h1 ⊢
      linarith
    have b : 0.636619772367581343 ≤ 2 / π := by
      rw [le_div_iff₀ hp]
      norm_num at h2 ⊢
      linarith
    norm_num at a b ⊢
    constructor <;> linarith
  · rw [abs_of_pos (by positivity), uro_eq]
    norm_num at hlt ⊢
    linarith
  · have : (2⁻¹ : ℝ) ^ 200 ≤ uro / 1000000 := by rw [uro_eq]; norm_num
    linarith

theorem gc2m_node (hL : L.Accurate) {n j : ℕ} (hn : n ≤ 1048576) (hj : j < n) :
    Near (gc2mX (F64 L) n j) (gmap (gc2A n j)) (120 * uro) := by
  have hu := uro_pos
  have hp := pi_pos
  have t200 : (2⁻¹ : ℝ) ^ 200 ≤ uro / 1000000 := by rw [uro_eq]; norm_num
  have hu6 : uro ≤ 1 / 1000000 := by rw [uro_eq]; norm_num
  have hn' : (n : ℝ) ≤ 1048576 := by exact_mod_cast hn
  -- the linear part
  have l1 := (relP_lit_nat (L := L) 2 (e := 1) (by norm_num) (by norm_num) (by norm_num)).mul
    (relP_nat (L := L) (n := n - j) (e := 21) (by omega) (by norm_num; omega) (by norm_num))
    (r := 2 * uro) (g := 22) (by linarith) (by rw [uro_eq]; norm_num) (by norm_num) (by norm_num)
  have l2 := l1.mul (gc2m_oon (L := L) hn) (r := 6.2 * uro) (g := 43) (by linarith) (by rw [uro_eq]; norm_num)
    (by norm_num) (by norm_num)
  obtain ⟨y, hy⟩ : ∃ y, y = ((2 : ℕ) : ℝ) * ((n - j : ℕ) : ℝ) * (1 / (n + 1)) := ⟨_, rfl⟩
  rw [← hy] at l2
  have hy2 : y ≤ 2 := by
    rw [hy, mul_one_div, div_le_iff₀ (by positivity)]
    have : ((n - j : ℕ) : ℝ) ≤ n := by exact_mod_cast (by omega : n - j ≤ n)
    push_cast
    linarith
  have hy0 := l2.pos
  have l3 := l2.near.mono (f := 12.4 * uro) (by
    have : 6.2 * uro * y ≤ 6.2 * uro * 2 := by gcongr
    linarith)
  have hy1 : |1 - y| ≤ 1 := abs_le.2 ⟨by linarith, by linarith⟩
  have l4 := (Near.sub near_lit_one l3 (B := 11 / 10) (by linarith) (by norm_num)).mono
    (f := 13.6 * uro) (by linarith)
  -- the rest
  have s1 := abs_sin_le_one (gc2A n j)
  have c1 := abs_cos_le_one (gc2A n j)
  have hs := gc2m_sin (L := L) hL hn hj
  have hc := gc2m_cos (L := L) hL hn hj
  have hss := gc2m_sinsq (L := L) hL hn hj
  obtain ⟨s, hsd⟩ : ∃ s, s = sin (gc2A n j) := ⟨_, rfl⟩
  obtain ⟨c, hcd⟩ : ∃ c, c = cos (gc2A n j) := ⟨_, rfl⟩
  rw [← hsd] at s1 hs hss
  rw [← hcd] at c1 hc
  have hs2 : |s * s| ≤ 1 := by rw [abs_mul]; nlinarith [abs_nonneg s]
  have hs20 : 0 ≤ s * s := mul_self_nonneg s
  have hs21 : s * s ≤ 1 := (le_abs_self _).trans hs2
  have m1 : Near (Arith.lit 2 / Arith.lit 3 : F64 L) (2 / 3) (1.4 * uro) := by
    have := (relP_lit_nat (L := L) 2 (e := 1) (by norm_num) (by norm_num) (by norm_num)).div
      (relP_lit_nat (L := L) 3 (e := 2) (by norm_num) (by norm_num) (by norm_num)) (r := 2.1 * uro) (g := 3)
      (by linarith) (by rw [uro_eq]; norm_num) (by norm_num) (by norm_num)
    have h := this.near
    push_cast at h
    exact h.mono (by linarith)
  have m2 := (Near.mul m1 hss (X := 2 / 3) (Y := 1) (by norm_num) hs2 (B := 1)
    (by rw [abs_of_nonneg (by positivity)]; nlinarith) (by norm_num)).mono (f := 45.2 * uro) (by nlinarith)
  have m3 := (Near.add near_lit_one m2 (B := 1.7) (by
    rw [abs_of_nonneg (by positivity)]
    linarith) (by norm_num)).mono (f := 47 * uro) (by linarith)
  have hb3 : |1 + 2 / 3 * (s * s)| ≤ 5 / 3 := by
    rw [abs_of_nonneg (by positivity)]
    linarith
  have hpi : |2 / π| ≤ 0.637 := by
    rw [abs_of_pos (by positivity), div_le_iff₀ hp]
    have := pi_gt_d4
    norm_num at this ⊢
    linarith
  have hb4 : |2 / π * (1 + 2 / 3 * (s * s))| ≤ 1.07 := by
    rw [abs_mul]
    calc |2 / π| * |1 + 2 / 3 * (s * s)| ≤ 0.637 * (5 / 3) := by gcongr
      _ ≤ _ := by norm_num
  have m4 := (Near.mul near_twoOverPi m3 hpi hb3 (B := 1.1) (by nlinarith) (by norm_num)).mono (f := 33.5 * uro)
    (by nlinarith)
  have hb5 : |2 / π * (1 + 2 / 3 * (s * s)) * c| ≤ 1.07 := by
    rw [abs_mul]
    calc |2 / π * (1 + 2 / 3 * (s * s))| * |c| ≤ 1.07 * 1 := by gcongr
      _ ≤ _ := by norm_num
  have m5 := (Near.mul m4 hc hb4 c1 (B := 1.1) (by nlinarith) (by norm_num)).mono (f := 68 * uro) (by nlinarith)
  have hb6 : |2 / π * (1 + 2 / 3 * (s * s)) * c * s| ≤ 1.07 := by
    rw [abs_mul]
    calc |2 / π * (1 + 2 / 3 * (s * s)) * c| * |s| ≤ 1.07 * 1 := by gcongr
      _ ≤ _ := by norm_num
  have m6 := (Near.mul m5 hs hb5 s1 (B := 1.1) (by nlinarith) (by norm_num)).mono (f := 102.5 * uro) (by nlinarith)
  have hfin := (Near.add l4 m6 (B := 2.1) (by
    have := abs_add_le (1 - y) (2 / π * (1 + 2 / 3 * (s * s)) * c * s)
    linarith) (by norm_num)).mono (f := 120 * uro) (by linarith)
  have e : 1 - y + 2 / π * (1 + 2 / 3 * (s * s)) * c * s = gmap (gc2A n j) := by
    unfold gmap
    rw [← hsd, ← hcd, hy, gc2A, sq]
    field_simp
    push_cast
    ring
  rw [e] at hfin
  exact hfin

/-- The common factor of the weights. -/
theorem gc2m_factor {n : ℕ} (hn : n ≤ 1048576) :
    RelP (Arith.lit 16 / Arith.lit 3 / (Arith.ofNat n + Arith.lit 1) : F64 L) (16 / (3 * (n + 1))) (6.4 * uro) 27 := by
  have hu := uro_pos
  have h1 := (relP_lit_nat (L := L) 16 (e := 4) (by norm_num) (by norm_num) (by norm_num)).div
      (relP_lit_nat (L := L) 3 (e := 2) (by norm_num) (by norm_num) (by norm_num)) (r := 2.1 * uro) (g := 6)
      (by linarith) (by rw [uro_eq]; norm_num) (by norm_num) (by norm_num)
  have h2 : (Arith.ofNat n + Arith.lit 1 : F64 L) = Arith.ofNat (n + 1) := by
    have a : (Arith.ofNat n : F64 L) = F64.fin n := by
      refine (of_exact (rnd_nat (by omega)) ?_).1
      rw [Nat.abs_cast]
      have : (n : ℝ) ≤ 1048576 := by exact_mod_cast hn
      exact this.trans (by norm_num)
    rw [a, lit_one_eq, F64.fin_add]
    show F64.of _ = F64.of _
    congr 1
    push_cast
    rfl
  rw [h2]
  have h3 := h1.div (relP_nat (L := L) (n := n + 1) (e := 21) (by omega) (by norm_num; omega) (by norm_num))
    (r := 6.4 * uro) (g := 27) (by linarith) (by rw [uro_eq]; norm_num) (by norm_num) (by norm_num)
  have e : ((16 : ℕ) : ℝ) / ((3 : ℕ) : ℝ) / ((n + 1 : ℕ) : ℝ) = 16 / (3 * (n + 1)) := by
    push_cast
    rw [div_div]
  rw [e] at h3
  exact h3

theorem gc2m_weight (hL : L.Accurate) {n j : ℕ} (hn : n ≤ 1048576) (hj : j < n) (hn2 : 2 ≤ n) :
    RelP (gc2mW (F64 L) n j) (16 / (3 * (n + 1)) * sin (gc2A n j) ^ 4) (2⁻¹ ^ 26) 112 ∧
    Near (gc2mW (F64 L) n j) (16 / (3 * (n + 1)) * sin (gc2A n j) ^ 4) (250 * uro) := by
  have hu := uro_pos
  have hn' : (n : ℝ) ≤ 1048576 := by exact_mod_cast hn
  have hn2' : (2 : ℝ) ≤ n := by exact_mod_cast hn2
  have t200 : (2⁻¹ : ℝ) ^ 200 ≤ uro / 1000000 := by rw [uro_eq]; norm_num
  have hu6 : uro ≤ 1 / 1000000 := by rw [uro_eq]; norm_num
  have hs0 := gc2_sin hj
  have s1 := abs_sin_le_one (gc2A n j)
  have hs := gc2m_sin (L := L) hL hn hj
  have hss := gc2m_sinsq (L := L) hL hn hj
  obtain ⟨s, hsd⟩ : ∃ s, s = sin (gc2A n j) := ⟨_, rfl⟩
  rw [← hsd] at s1 hs hss hs0
  rw [← hsd]
  have hfac := gc2m_factor (L := L) hn
  obtain ⟨c, hcd⟩ : ∃ c : ℝ, c = 16 / (3 * (n + 1)) := ⟨_, rfl⟩
  rw [← hcd] at hfac
  rw [← hcd]
  have lo : 2⁻¹ ^ 20 ≤ s := by
    refine le_trans ?_ hs0
    rw [le_div_iff₀ (by positivity)]
    norm_num
    linarith
  have sp : 0 < s := lt_of_lt_of_le (by positivity) lo
  have s1' : s ≤ 1 := (le_abs_self _).trans s1
  have e : c * (s * s) * (s * s) = c * s ^ 4 := by ring
  have hs2 : |s * s| ≤ 1 := by rw [abs_mul]; nlinarith [abs_nonneg s]
  have hc0 : 0 < c := by rw [hcd]; positivity
  have hc1 : c ≤ 16 / 9 := by
    rw [hcd, div_le_div_iff₀ (by positivity) (by norm_num)]
    linarith
  constructor
  · have r1 : RelP (Arith.sin (gc2mT (F64 L) n j)) s (2⁻¹ ^ 29) 20 :=
      relP_of_near hs (by
        have h1 : (2⁻¹ : ℝ) ^ 29 * (2 / (n + 1)) ≤ 2⁻¹ ^ 29 * s := by gcongr
        refine le_trans ?_ h1
        rw [uro_eq, ← mul_div_assoc (2⁻¹ ^ 29 : ℝ), le_div_iff₀ (by positivity)]
        norm_num
        linarith) (by positivity) (by norm_num) lo (s1'.trans (by norm_num))
    have r2 := r1.mul r1 (r := 2.1 * 2⁻¹ ^ 29) (g := 40) (by rw [uro_eq]; norm_num) (by norm_num) (by norm_num)
      (by norm_num)
    have r3 := hfac.mul r2 (r := 2.3 * 2⁻¹ ^ 29) (g := 67) (by rw [uro_eq]; norm_num) (by norm_num) (by norm_num)
      (by norm_num)
    have r4 := r3.mul r2 (r := 2⁻¹ ^ 26) (g := 112) (by rw [uro_eq]; norm_num) (by norm_num) (by norm_num)
      (by norm_num)
    rw [e] at r4
    exact r4
  · have n1 := hfac.near.mono (f := 12 * uro) (by
      have : 6.4 * uro * c ≤ 6.4 * uro * (16 / 9) := by gcongr
      linarith)
    have hca : |c| ≤ 16 / 9 := by rwa [abs_of_pos hc0]
    have hb1 : |c * (s * s)| ≤ 16 / 9 := by
      rw [abs_mul]
      calc |c| * |s * s| ≤ 16 / 9 * 1 := by gcongr
        _ ≤ _ := by norm_num
    have n2 := (Near.mul n1 hss hca hs2 (B := 2) (by nlinarith) (by norm_num)).mono (f := 128 * uro) (by nlinarith)
    have hb2 : |c * (s * s) * (s * s)| ≤ 16 / 9 := by
      rw [abs_mul]
      calc |c * (s * s)| * |s * s| ≤ 16 / 9 * 1 := by gcongr
        _ ≤ _ := by norm_num
    have n3 := (Near.mul n2 hss hb1 hs2 (B := 2) (by nlinarith) (by norm_num)).mono (f := 250 * uro) (by nlinarith)
    rw [e] at n3
    exact n3

theorem pos_of_rel {z x : ℝ} (h : |z - x| ≤ 2⁻¹ ^ 26 * x) (hx : 0 < x) : 0 < z := by
  have := (abs_le.1 h).1
  norm_num at this
  linarith

/-- The computed rule. -/
theorem gc2m_double (hL : L.Accurate) {n : ℕ} (hn : n ≤ 1048576) :
    ∃ xs ws, Doubles ((List.range n).map (mirrorFn n (gc2mX (F64 L) n) (fun x => -x) (Arith.lit 0))) xs ∧
      Doubles ((List.range n).map (mirrorFn n (gc2mW (F64 L) n) id
        (Arith.lit 16 / Arith.lit 3 / (Arith.ofNat n + Arith.lit 1)))) ws ∧
      (∀ y ∈ ws, 0 < y) ∧
      Within (2⁻¹ ^ 46) xs ((List.range n).map fun j => gmap (gc2A n j)) ∧
      Within (2⁻¹ ^ 45) ws ((List.range n).map fun j => 16 / (3 * (n + 1)) * sin (gc2A n j) ^ 4) ∧
      WithinRel (2⁻¹ ^ 26) ws ((List.range n).map fun j => 16 / (3 * (n + 1)) * sin (gc2A n j) ^ 4) := by
  have hu := uro_pos
  have hu2 : uro = 1 / 9007199254740992 := uro_eq
  have hx : ∀ j, j < n → Near (mirrorFn n (gc2mX (F64 L) n) (fun x => -x) (Arith.lit 0) j) (gmap (gc2A n j))
      (120 * uro) := fun j hj => near_mirror (X := fun j => gmap (gc2A n j)) (by positivity)
    (fun j hj => gc2m_node hL hn (by omega)) (fun j hj => by rw [gc2A_reflect hj, gmap_reflect]) hj
  have hw : ∀ j, j < n → ∃ z, mirrorFn n (gc2mW (F64 L) n) id
      (Arith.lit 16 / Arith.lit 3 / (Arith.ofNat n + Arith.lit 1)) j = F64.fin z ∧ IsF64 z ∧ 0 < z ∧
      |z - 16 / (3 * (n + 1)) * sin (gc2A n j) ^ 4| ≤ 250 * uro ∧
      |z - 16 / (3 * (n + 1)) * sin (gc2A n j) ^ 4| ≤ 2⁻¹ ^ 26 * (16 / (3 * (n + 1)) * sin (gc2A n j) ^ 4) ∧
      0 < 16 / (3 * ((n : ℝ) + 1)) * sin (gc2A n j) ^ 4 := by
    have half : ∀ j, j < n / 2 → ∃ z, gc2mW (F64 L) n j = F64.fin z ∧ IsF64 z ∧ 0 < z ∧
        |z - 16 / (3 * (n + 1)) * sin (gc2A n j) ^ 4| ≤ 250 * uro ∧
        |z - 16 / (3 * (n + 1)) * sin (gc2A n j) ^ 4| ≤ 2⁻¹ ^ 26 * (16 / (3 * (n + 1)) * sin (gc2A n j) ^ 4) ∧
        0 < 16 / (3 * ((n : ℝ) + 1)) * sin (gc2A n j) ^ 4 := by
      intro j hj
      obtain ⟨h1, h2⟩ := gc2m_weight (L := L) hL hn (by omega : j < n) (by omega)
      obtain ⟨z, z1, z2, z3⟩ := h2
      obtain ⟨y, y1, y2, y3⟩ := h1.near
      rw [y1] at z1
      injection z1 with z1
      subst z1
      exact ⟨y, y1, y2, pos_of_rel y3 h1.pos, z3, y3, h1.pos⟩
    intro j hj
    unfold mirrorFn
    split_ifs with h1 h2
    · exact half j h1
    · rw [h2.2, gc2A_mid h2.1, sin_pi_div_two, one_pow, mul_one]
      have hf := gc2m_factor (L := L) hn
      obtain ⟨z, z1, z2, z3⟩ := hf.near
      have hz0 := hf.pos
      have hle : 6.4 * uro * (16 / (3 * ((n : ℝ) + 1))) ≤ 6.4 * uro * (16 / 3) := by
        gcongr
        have : (0 : ℝ) ≤ n := by positivity
        linarith
      have hle2 : 6.4 * uro * (16 / (3 * ((n : ℝ) + 1))) ≤ 2⁻¹ ^ 26 * (16 / (3 * ((n : ℝ) + 1))) := by
        gcongr
        rw [hu2]
        norm_num
      exact ⟨z, z1, z2, pos_of_rel (z3.trans hle2) hz0, z3.trans (by linarith), z3.trans hle2, hz0⟩
    · have := half (n - 1 - j) (by omega)
      rw [gc2A_reflect hj, sin_pi_sub] at this
      exact this
  obtain ⟨v, -, hv1, hv2⟩ := doubles_of_near hx
  choose! z hz using hw
  refine ⟨_, (List.range n).map z, hv1, ⟨?_, ?_⟩, ?_, ?_, ?_, ?_⟩
  · rw [List.map_map]
    exact List.map_congr_left (fun j hj => (hz j (List.mem_range.1 hj)).1)
  · intro y hy
    obtain ⟨j, hj, rfl⟩ := List.mem_map.1 hy
    exact (hz j (List.mem_range.1 hj)).2.1
  · intro y hy
    obtain ⟨j, hj, rfl⟩ := List.mem_map.1 hy
    exact (hz j (List.mem_range.1 hj)).2.2.1
  · refine List.Forall₂.imp (fun a b h => h.trans ?_) hv2
    rw [hu2]
    norm_num
  · unfold Within
    rw [List.forall₂_map_left_iff, List.forall₂_map_right_iff, List.forall₂_same]
    intro j hj
    refine (hz j (List.mem_range.1 hj)).2.2.2.1.trans ?_
    rw [hu2]
    norm_num
  · unfold WithinRel
    rw [List.forall₂_map_left_iff, List.forall₂_map_right_iff, List.forall₂_same]
    intro j hj
    rw [abs_of_pos (hz j (List.mem_range.1 hj)).2.2.2.2.2]
    exact (hz j (List.mem_range.1 hj)).2.2.2.2.1

/-! ## Nodes near the end points -/

theorem gmap_hasDerivAt (t : ℝ) : HasDerivAt gmap (-(16 / (3 * π)) * sin t ^ 4) t := by
  have hs := hasDerivAt_sin t
  have hc := hasDerivAt_cos t
  have h1 : HasDerivAt (fun t : ℝ => 1 - 2 * t / π) (-(2 / π)) t := by
    have := (((hasDerivAt_id t).const_mul 2).div_const π).const_sub 1
    simpa using this
  have h2 : HasDerivAt (fun t : ℝ => 2 / π * (1 + 2 / 3 * sin t ^ 2))
      (2 / π * (2 / 3 * (2 * sin t * cos t))) t := by
    have := (((hs.pow 2).const_mul (2 / 3)).const_add 1).const_mul (2 / π)
    refine this.congr_deriv ?_
    push_cast; ring
  refine (h1.add ((h2.mul hc).mul hs)).congr_deriv ?_
  have := pi_ne_zero
  have hcs : cos t ^ 2 = 1 - sin t ^ 2 := cos_sq' t
  field_simp
  simp only [Pi.mul_apply]
  field_simp
  linear_combination (12 * sin t ^ 2 + 6) * hcs

/-- Nodes crowd at the end point `-1`. -/
theorem gmap_end {u : ℝ} (h0 : 0 ≤ u) : |gmap (π - u) + 1| ≤ 2 * u ^ 5 := by
  have hp := pi_gt_three
  have hder : ∀ t ∈ Set.Icc (π - u) π, HasDerivWithinAt gmap (-(16 / (3 * π)) * sin t ^ 4) (Set.Icc (π - u) π) t :=
    fun t _ => (gmap_hasDerivAt t).hasDerivWithinAt
  have hb : ∀ t ∈ Set.Icc (π - u) π, ‖-(16 / (3 * π)) * sin t ^ 4‖ ≤ 2 * u ^ 4 := by
    intro t ht
    have hs : |sin t| ≤ u := by
      have := abs_sin_sub t π
      rw [sin_pi, sub_zero] at this
      refine this.trans ?_
      rw [abs_le]
      constructor <;> linarith [ht.1, ht.2]
    rw [Real.norm_eq_abs, abs_mul, abs_neg, abs_pow, abs_of_pos (by positivity)]
    have : 16 / (3 * π) ≤ 2 := by
      rw [div_le_iff₀ (by positivity)]
      linarith
    gcongr
  have h := (convex_Icc (π - u) π).norm_image_sub_le_of_norm_hasDerivWithin_le hder hb
    (Set.right_mem_Icc.2 (by linarith)) (Set.left_mem_Icc.2 (by linarith))
  have e : gmap π = -1 := by
    unfold gmap
    simp
    field_simp
    ring
  rw [e, Real.norm_eq_abs, Real.norm_eq_abs, sub_neg_eq_add, show π - u - π = -u by ring, abs_neg, abs_of_nonneg h0] at h
  refine h.trans (le_of_eq ?_)
  ring

/-- A `double` of magnitude at least 1/2 is a multiple of `2^-53`. -/
theorem isF64_grid {v : ℝ} (h : IsF64 v) (hv : 1 / 2 ≤ |v|) : ∃ m : ℤ, v = m * uro := by
  obtain ⟨m, hm⟩ : ∃ m : ℤ, v = m * ulp v := ⟨rne (v / ulp v), h.1.symm⟩
  have hlog : (-1 : ℤ) ≤ Int.log 2 |v| := by
    rw [← Int.zpow_le_iff_le_log (by norm_num) (by linarith)]
    norm_num
    linarith
  have he : (-53 : ℤ) ≤ ulpExp v := by
    unfold ulpExp
    exact le_max_of_le_left (by linarith)
  obtain ⟨k, hk⟩ : ∃ k : ℕ, ulpExp v = -53 + k := ⟨(ulpExp v + 53).toNat, by omega⟩
  refine ⟨m * 2 ^ k, ?_⟩
  rw [hm]
  unfold ulp
  rw [hk, zpow_add₀ (by norm_num), ← uro_def]
  push_cast
  rw [zpow_natCast, show (-53 : ℤ) = -((53 : ℕ) : ℤ) by norm_num, zpow_neg, zpow_natCast, inv_pow]
  ring

theorem gc2m_collide (hL : L.Accurate) {n : ℕ} (h0 : 1000000 ≤ n) (hn : n ≤ 1048576) :
    ∃ i j, i < j ∧ j < n / 2 ∧ gc2mX (F64 L) n i = gc2mX (F64 L) n j := by
  have hu := uro_pos
  have hu2 : uro = 1 / 9007199254740992 := uro_eq
  have h0' : (1000000 : ℝ) ≤ n := by exact_mod_cast h0
  have hp := pi_lt_d4
  have hp0 := pi_pos
  have key : ∀ j, j < 400 → ∃ m : ℤ, gc2mX (F64 L) n j = F64.fin (m * uro) ∧
      -(9007199254740992 + 180) ≤ m ∧ m ≤ -(9007199254740992 - 180) := by
    intro j hj
    obtain ⟨v, hv, hvf, hve⟩ := gc2m_node (L := L) hL hn (by omega : j < n)
    obtain ⟨u, hud⟩ : ∃ u : ℝ, u = π * (j + 1) / (n + 1) := ⟨_, rfl⟩
    have hA : gc2A n j = π - u := by
      rw [hud, gc2A, Nat.cast_sub (by omega)]
      field_simp
      ring
    have hu0 : 0 ≤ u := by rw [hud]; positivity
    have hu1 : u ≤ 1.26e-3 := by
      rw [hud, div_le_iff₀ (by positivity)]
      have hj' : (j : ℝ) + 1 ≤ 400 := by exact_mod_cast hj
      have : π * (j + 1) ≤ 3.1416 * 400 := by gcongr
      norm_num at this ⊢
      linarith
    have hg := gmap_end hu0
    rw [← hA] at hg
    have hu5 : 2 * u ^ 5 ≤ 2 * 1.26e-3 ^ 5 := by gcongr
    have hd : |v + 1| ≤ 180 * uro := by
      have := abs_add_le (v - gmap (gc2A n j)) (gmap (gc2A n j) + 1)
      rw [show v - gmap (gc2A n j) + (gmap (gc2A n j) + 1) = v + 1 by ring] at this
      refine this.trans ?_
      rw [hu2] at hve ⊢
      norm_num at hu5 hve ⊢
      linarith
    obtain ⟨d1, d2⟩ := abs_le.1 hd
    have hv2 : 1 / 2 ≤ |v| := by
      rw [abs_of_neg]
      · rw [hu2] at d2; linarith
      · rw [hu2] at d2; linarith
    obtain ⟨m, hm⟩ := isF64_grid hvf hv2
    refine ⟨m, by rw [hv, hm], ?_, ?_⟩
    · have : (-(9007199254740992 + 180) : ℝ) ≤ m := by
        rw [hm, hu2] at d1
        linarith
      exact_mod_cast this
    · have : (m : ℝ) ≤ -(9007199254740992 - 180) := by
        rw [hm, hu2] at d2
        linarith
      exact_mod_cast this
  choose! m hm using key
  obtain ⟨i, hi, j, hj, hij, he⟩ := Finset.exists_ne_map_eq_of_card_lt_of_maps_to
    (s := Finset.range 400) (t := Finset.Icc (-(9007199254740992 + 180) : ℤ) (-(9007199254740992 - 180))) (f := m) (by
      rw [Int.card_Icc, Finset.card_range]
      norm_num) (by
      intro j hj
      have hj := hm j (by simpa using hj)
      exact Finset.mem_coe.2 (Finset.mem_Icc.2 hj.2))
  have hi' := hm i (by simpa using hi)
  have hj' := hm j (by simpa using hj)
  rw [he] at hi'
  have : i < 400 := by simpa using hi
  have : j < 400 := by simpa using hj
  rcases lt_or_gt_of_ne hij with h | h
  · exact ⟨i, j, h, by omega, hi'.1.trans hj'.1.symm⟩
  · exact ⟨j, i, h, by omega, hj'.1.trans hi'.1.symm⟩

end IntegratorXX
