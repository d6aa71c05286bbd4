import Verif.Lemmas.WoCheck

/-!
# Womersley grids: points, norms and exactness from the moments
-/

namespace IntegratorXX

open Spec Arith Finset

theorem woDigits_length (b k v : Nat) : (woDigits b k v).length = k := by
  induction k generalizing v with
  | zero => rfl
  | succ k ih => rw [woDigits, List.length_cons, ih]

theorem woRaw_length_le (b n : Nat) (l : List Nat) : ∀ c ∈ woRaw b n l, c.length ≤ 64 := by
  induction l generalizing n with
  | nil => intro c hc; cases hc
  | cons v l ih =>
    intro c hc
    rcases List.mem_cons.1 hc with rfl | hc
    · rw [woDigits_length]; exact Nat.min_le_right _ _
    · exact ih _ c hc

theorem woRaw_chunks (b n : Nat) (l : List Nat) : (woRaw b n l).length = l.length := by
  induction l generalizing n with
  | nil => rfl
  | cons v l ih => rw [woRaw, List.length_cons, List.length_cons, ih]

theorem woRaw_length (b : Nat) (l : List Nat) (n : Nat) (h : n ≤ 64 * l.length) :
    (woRaw b n l).flatten.length = n := by
  induction l generalizing n with
  | nil => simp at h; subst h; rfl
  | cons v l ih =>
    rw [List.length_cons] at h
    rw [woRaw, List.flatten_cons, List.length_append, woDigits_length, ih _ (by omega)]
    omega

/-- The shape of a table: enough digits, not too many points. -/
structure WoShape (g : WoGrid) : Prop where
  pos : 0 < g.npts
  npts : g.npts ≤ 10000
  len : g.npts ≤ 64 * g.chunks.length
  chunks : g.chunks.length ≤ 1000

theorem WoShape.length {g : WoGrid} (h : WoShape g) : (woAll g).length = g.npts :=
  woRaw_length _ _ _ h.len

/-! ## Norms -/

theorem allL_iff {E : Type} (p : E → Bool) (l : List E) : allL p l = true ↔ ∀ e ∈ l, p e = true := by
  induction l with
  | nil => simp [allL]
  | cons e l ih =>
    have h : allL p (e :: l) = Bool.rec false (allL p l) (p e) := rfl
    rw [h, List.forall_mem_cons, ← ih]
    cases p e <;> simp

theorem near_iff (tol a b : Nat) : near tol a b = true ↔ b ≤ a + tol ∧ a ≤ b + tol := by
  unfold near
  cases h : Nat.ble b (Nat.add a tol)
  · simp only [Bool.false_eq_true, false_iff, not_and]
    intro h'
    have h'' : Nat.ble b (Nat.add a tol) = true := Nat.ble_eq_true_of_le h'
    rw [h''] at h; cases h
  · have h' : b ≤ a + tol := Nat.le_of_ble_eq_true h
    simp only [Nat.ble_eq, h', true_and]
    rfl

theorem woNorm_spec {g : WoGrid} (h : woNorm g = true) : ∀ d ∈ woAll g, WoIn (10 ^ g.s) d ∧
    |woReal (10 ^ g.s) d.1 ^ 2 + woReal (10 ^ g.s) d.2.1 ^ 2 + woReal (10 ^ g.s) d.2.2 ^ 2 - 1| ≤
      4 / 10 ^ 16 := by
  intro d hd
  have ht : 0 < 10 ^ g.s := by positivity
  unfold woNorm at h
  simp only [forceNat_eq] at h
  have e : (woPts (Nat.pow 16 g.h) g.chunks g.npts).flatten = woAll g := by
    rw [woPts_eq]; rfl
  rw [← e] at hd
  obtain ⟨l, hl, hdl⟩ := List.mem_flatten.1 hd
  rw [allL_iff] at h
  have h1 := h l hl
  rw [allL_iff] at h1
  have h2 := h1 d hdl
  have hp : Nat.pow 10 g.s = 10 ^ g.s := rfl
  rw [hp] at h2
  rw [← sq_abs, ← sq_abs (woReal _ d.2.1), ← sq_abs (woReal _ d.2.2), ← woAbs_real ht, ← woAbs_real ht,
    ← woAbs_real ht]
  unfold WoIn
  generalize woAbs (10 ^ g.s) d.1 = x at *
  generalize woAbs (10 ^ g.s) d.2.1 = y at *
  generalize woAbs (10 ^ g.s) d.2.2 = z at *
  generalize 10 ^ g.s = t at *
  cases hx : Nat.ble x t
  · rw [hx] at h2; cases h2
  cases hy : Nat.ble y t
  · rw [hx, hy] at h2; cases h2
  cases hz : Nat.ble z t
  · rw [hx, hy, hz] at h2; cases h2
  rw [hx, hy, hz] at h2
  dsimp only at h2
  rw [near_iff] at h2
  refine ⟨⟨Nat.le_of_ble_eq_true hx, Nat.le_of_ble_eq_true hy, Nat.le_of_ble_eq_true hz⟩, ?_⟩
  obtain ⟨h3, h4⟩ := h2
  have h3 : t * t ≤ x * x + (y * y + z * z) + t * t / 2500000000000000 := h3
  have h4 : x * x + (y * y + z * z) ≤ t * t + t * t / 2500000000000000 := h4
  have ht' : (0 : ℝ) < t := by exact_mod_cast ht
  have h5 : ((t * t / 2500000000000000 : Nat) : ℝ) ≤ (t : ℝ) * t / 2500000000000000 := by
    have := Nat.cast_div_le (α := ℝ) (m := t * t) (n := 2500000000000000)
    push_cast at this
    exact this
  have h3' : (t : ℝ) * t ≤ x * x + (y * y + z * z) + ((t * t / 2500000000000000 : Nat) : ℝ) := by
    exact_mod_cast h3
  have h4' : (x : ℝ) * x + (y * y + z * z) ≤ t * t + ((t * t / 2500000000000000 : Nat) : ℝ) := by
    exact_mod_cast h4
  have e2 : ((x : ℝ) / t) ^ 2 + ((y : ℝ) / t) ^ 2 + ((z : ℝ) / t) ^ 2 - 1 =
      (x * x + (y * y + z * z) - t * t) / (t * t) := by field_simp; ring
  rw [e2, abs_div, abs_of_pos (by positivity : (0 : ℝ) < t * t), div_le_iff₀ (by positivity), abs_le]
  generalize ((t * t / 2500000000000000 : Nat) : ℝ) = R at *
  generalize (t : ℝ) * t = T at *
  constructor <;> linarith

/-! ## The grid -/

theorem woPoint_real (s : Nat) (d : Nat × Nat × Nat) :
    (woPoint s d : Pt ℝ) = ⟨woReal (10 ^ s) d.1, woReal (10 ^ s) d.2.1, woReal (10 ^ s) d.2.2⟩ := by
  unfold woPoint woReal
  simp only [decimal_real]
  push_cast
  rfl

theorem woGrid_points (g : WoGrid) :
    (woGrid g : StaticGrid ℝ).points = (woAll g).map (woPoint g.s) := rfl

theorem woGrid_weights {g : WoGrid} (hg : WoShape g) :
    (woGrid g : StaticGrid ℝ).weights = (woAll g).map (fun _ => 4 * Real.pi / g.npts) := by
  rw [List.map_const', hg.length]
  unfold woGrid
  simp

theorem wo_ruleSum {g : WoGrid} (hg : WoShape g) (i j k : Nat) :
    ruleSum (woGrid g : StaticGrid ℝ).points (woGrid g : StaticGrid ℝ).weights
      (fun u => u.x ^ i * u.y ^ j * u.z ^ k) = 4 * Real.pi / g.npts * woSum g i j k := by
  rw [woGrid_points, woGrid_weights hg, ruleSum_const, List.map_map]
  unfold woSum
  congr 2
  refine List.map_congr_left (fun d _ => ?_)
  simp only [Function.comp, woPoint_real]

/-- The checks of every grid. -/
structure WoBase (g : WoGrid) : Prop extends WoShape g where
  norm : woNorm g = true

theorem WoBase.bounded {g : WoGrid} (h : WoBase g) : WoBounded g := fun d hd => (woNorm_spec h.norm d hd).1

theorem WoBase.normOk {g : WoGrid} (h : WoBase g) : NormOk (woGrid g : StaticGrid ℝ).points (4 / 10 ^ 16) := by
  intro u hu
  rw [woGrid_points] at hu
  obtain ⟨d, hd, rfl⟩ := List.mem_map.1 hu
  rw [woPoint_real]
  exact (woNorm_spec h.norm d hd).2

theorem WoBase.coordOk {g : WoGrid} (h : WoBase g) : CoordOk (woGrid g : StaticGrid ℝ).points := by
  intro u hu
  rw [woGrid_points] at hu
  obtain ⟨d, hd, rfl⟩ := List.mem_map.1 hu
  rw [woPoint_real]
  obtain ⟨h1, h2, h3⟩ := h.bounded d hd
  have ht : 0 < 10 ^ g.s := by positivity
  have ht' : (0 : ℝ) < ((10 ^ g.s : Nat) : ℝ) := by exact_mod_cast ht
  dsimp only
  rw [← woAbs_real ht, ← woAbs_real ht, ← woAbs_real ht, div_le_one ht', div_le_one ht', div_le_one ht']
  exact ⟨by exact_mod_cast h1, by exact_mod_cast h2, by exact_mod_cast h3⟩

private theorem mean_step {g : WoGrid} (hg : WoShape g) {X m ε : ℝ}
    (h : |X - g.npts * m| ≤ g.npts * ε) (hε : 0 ≤ ε) :
    |4 * Real.pi / g.npts * X - 4 * Real.pi * m| ≤ 13 * ε := by
  have hn : (0 : ℝ) < g.npts := by exact_mod_cast hg.pos
  have e : 4 * Real.pi / g.npts * X - 4 * Real.pi * m = 4 * Real.pi / g.npts * (X - g.npts * m) := by
    field_simp
  have hp : (0 : ℝ) < 4 * Real.pi / g.npts := by have := Real.pi_pos; positivity
  rw [e, abs_mul, abs_of_pos hp]
  calc _ ≤ 4 * Real.pi / g.npts * (g.npts * ε) := mul_le_mul_of_nonneg_left h hp.le
    _ = 4 * Real.pi * ε := by field_simp
    _ ≤ 13 * ε := by
      refine mul_le_mul_of_nonneg_right ?_ hε
      have := Real.pi_lt_d4
      linarith

/-- A grid with the right moments is exact. -/
theorem woSum_exact {g : WoGrid} {L : Nat} (hg : WoBase g)
    (h : ∀ (c : Bool) (i j : Nat), i + j + c.toNat ≤ L →
      |woSum g i j c.toNat - g.npts * woMean c i j| ≤ g.npts * (32 / 10 ^ 16) + 1 / 10 ^ 18) :
    ReducedExact (woGrid g : StaticGrid ℝ).points (woGrid g : StaticGrid ℝ).weights L (5 / 10 ^ 14) := by
  intro p q s hs hd
  rw [wo_ruleSum hg.toWoShape]
  have hn : (1 : ℝ) ≤ g.npts := by exact_mod_cast hg.pos
  obtain ⟨c, rfl⟩ : ∃ c : Bool, s = c.toNat := by
    rcases Nat.lt_or_ge s 1 with h | h
    · exact ⟨false, by simp; omega⟩
    · exact ⟨true, by simp; omega⟩
  have h1 := h c p q hd
  have h2 : |woSum g p q c.toNat - g.npts * woMean c p q| ≤ g.npts * (33 / 10 ^ 16) := by
    refine h1.trans ?_
    norm_num
    linarith
  have h3 := mean_step hg.toWoShape h2 (by norm_num)
  have e : sphereInt (fun u => u.x ^ p * u.y ^ q * u.z ^ c.toNat) = 4 * Real.pi * woMean c p q := by
    unfold woMean
    split
    · rename_i hodd
      rw [mul_zero, sphereInt_mono_odd]
      rcases hodd with h | h | h
      · exact Or.inl h
      · exact Or.inr (Or.inl h)
      · right; right; rw [h]; rfl
    · rename_i hev
      push Not at hev
      obtain ⟨a1, a2, a3⟩ := hev
      obtain rfl : c = false := by simpa using a3
      have := sphereInt_mono_even (p / 2) (q / 2) 0
      rw [show 2 * (p / 2) = p by omega, show 2 * (q / 2) = q by omega] at this
      exact this
  rw [e]
  refine h3.trans ?_
  norm_num

end IntegratorXX
