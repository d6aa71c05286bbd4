import Verif.Lemmas.IcosaCheck

/-!
# From the checked moments of a grid to polynomials
-/

namespace IntegratorXX

open Spec Arith

/-! ## Reduced monomials -/

/-- The monomials `x^p y^q z^s` with `s ≤ 1` up to degree `L` are integrated up to `ε`. -/
def ReducedExact (x : List (Pt ℝ)) (w : List ℝ) (L : Nat) (ε : ℝ) : Prop :=
  ∀ p q s, s ≤ 1 → p + q + s ≤ L →
    |ruleSum x w (fun u => u.x ^ p * u.y ^ q * u.z ^ s) -
      sphereInt (fun u => u.x ^ p * u.y ^ q * u.z ^ s)| ≤ ε

private theorem tetra_even (t : ℝ × ℝ × ℝ) (i j : Nat) :
    tetraSum t (2 * i) (2 * j) 0 = 4 * (oddFactor false t *
      ((t.1 ^ 2) ^ i * (t.2.1 ^ 2) ^ j + (t.2.1 ^ 2) ^ i * (t.2.2 ^ 2) ^ j +
        (t.2.2 ^ 2) ^ i * (t.1 ^ 2) ^ j)) := by
  unfold tetraSum oddFactor
  simp only [← pow_mul, cond_false, pow_zero, mul_one, one_mul, add_zero,
    Even.neg_one_pow (even_two_mul i), Even.neg_one_pow (even_two_mul j), pow_add]
  ring

private theorem tetra_odd (t : ℝ × ℝ × ℝ) (i j : Nat) :
    tetraSum t (2 * i + 1) (2 * j + 1) 1 = 4 * (oddFactor true t *
      ((t.1 ^ 2) ^ i * (t.2.1 ^ 2) ^ j + (t.2.1 ^ 2) ^ i * (t.2.2 ^ 2) ^ j +
        (t.2.2 ^ 2) ^ i * (t.1 ^ 2) ^ j)) := by
  unfold tetraSum oddFactor
  simp only [← pow_mul, cond_true, pow_one,
    Even.neg_one_pow (even_two_mul i), Even.neg_one_pow (even_two_mul j), pow_add]
  ring

private theorem tetra_mixed (t : ℝ × ℝ × ℝ) (p q s : Nat)
    (h : ¬ (p % 2 = q % 2 ∧ q % 2 = s % 2)) : tetraSum t p q s = 0 := by
  unfold tetraSum
  have e : ∀ n : Nat, (n % 2 = 0 ∧ (-1 : ℝ) ^ n = 1) ∨ (n % 2 = 1 ∧ (-1 : ℝ) ^ n = -1) := by
    intro n
    rcases Nat.mod_two_eq_zero_or_one n with h | h
    · exact .inl ⟨h, (Nat.even_iff.2 h).neg_one_pow⟩
    · exact .inr ⟨h, (Nat.odd_iff.2 h).neg_one_pow⟩
  rcases e p with ⟨p1, p2⟩ | ⟨p1, p2⟩ <;> rcases e q with ⟨q1, q2⟩ | ⟨q1, q2⟩ <;>
    rcases e s with ⟨s1, s2⟩ | ⟨s1, s2⟩ <;> simp only [pow_add, p2, q2, s2] <;>
    first
      | (exfalso; omega)
      | (norm_num)

/-- The absolute values of the weights sum to at most 13. -/
def icosaWeightSum (g : IcosaGrid) : Bool :=
  decide (12 * g.w0.natAbs + 60 * (g.rows.map fun r => r.w.natAbs).sum ≤ 13 * 10 ^ 20)

/-- The checks of a grid that do not depend on the degree. -/
structure IcosaBase (g : IcosaGrid) : Prop where
  len : 1 + 5 * g.rows.length ≤ 1300
  bEven : icosaBound false g = true
  bOdd : icosaBound true g = true
  norm : icosaNorm g = true
  wsum : icosaWeightSum g = true

/-- All pairs of blocks of size `B` of one class. -/
def ClassCheck (odd : Bool) (g : IcosaGrid) (L B m : Nat) : Prop :=
  ∀ a b, a + b ≤ m → icosaCheck odd g L (m * B + B + 1) B (a * B) (b * B) = true

theorem classCheck_zero {odd : Bool} {g : IcosaGrid} {L B : Nat}
    (h : icosaCheck odd g L (0 * B + B + 1) B (0 * B) (0 * B) = true) : ClassCheck odd g L B 0 := by
  intro a b hab
  obtain ⟨rfl, rfl⟩ : a = 0 ∧ b = 0 := by omega
  exact h

theorem classCheck_one {odd : Bool} {g : IcosaGrid} {L B : Nat}
    (h00 : icosaCheck odd g L (1 * B + B + 1) B (0 * B) (0 * B) = true)
    (h01 : icosaCheck odd g L (1 * B + B + 1) B (0 * B) (1 * B) = true)
    (h10 : icosaCheck odd g L (1 * B + B + 1) B (1 * B) (0 * B) = true) : ClassCheck odd g L B 1 := by
  intro a b hab
  rcases (by omega : (a = 0 ∧ b = 0) ∨ (a = 0 ∧ b = 1) ∨ (a = 1 ∧ b = 0)) with
    ⟨rfl, rfl⟩ | ⟨rfl, rfl⟩ | ⟨rfl, rfl⟩
  · exact h00
  · exact h01
  · exact h10

theorem ClassCheck.real {odd : Bool} {g : IcosaGrid} {L B m : Nat} (h : ClassCheck odd g L B m)
    (hb : icosaBound odd g = true) (hg : 1 + 5 * g.rows.length ≤ 1300) (hn : m * B + B + 1 ≤ 128)
    (hL : L < m * B + B) (i j : Nat) (hij : i + j ≤ L) :
    |classSum odd g i j - (if odd then 0 else Real.pi * meanEven i j 0)| ≤ 12 / 10 ^ 15 := by
  have hB : 0 < B := by
    rcases Nat.eq_zero_or_pos B with rfl | h
    · simp at hL
    · exact h
  have d1 := Nat.div_add_mod i B
  have d2 := Nat.div_add_mod j B
  have m1 := Nat.mod_lt i hB
  have m2 := Nat.mod_lt j hB
  have hab : i / B + j / B ≤ m := by
    by_contra hc
    have : (m + 1) * B ≤ (i / B + j / B) * B := Nat.mul_le_mul_right _ (by omega)
    have e1 : (m + 1) * B = m * B + B := by ring
    have e2 : (i / B + j / B) * B = B * (i / B) + B * (j / B) := by ring
    omega
  have ha : i / B * B ≤ m * B := Nat.mul_le_mul_right _ ((Nat.le_add_right _ _).trans hab)
  have hb' : j / B * B ≤ m * B := Nat.mul_le_mul_right _ ((Nat.le_add_left _ _).trans hab)
  have e3 : i / B * B = B * (i / B) := mul_comm _ _
  have e4 : j / B * B = B * (j / B) := mul_comm _ _
  exact icosaCheck_real (h _ _ hab) hb (by rw [icosaOrbits_length]; exact hg) (by omega) (by omega) hn
    i j (by omega) (by omega) (by omega) (by omega) hij

/-- The checks of a grid. -/
structure IcosaOk (g : IcosaGrid) (Le Be Lo Bo m : Nat) : Prop extends IcosaBase g where
  even : ClassCheck false g Le Be m
  odd : ClassCheck true g Lo Bo m

theorem IcosaOk.reduced {g : IcosaGrid} {Le Be Lo Bo m L : Nat} (h : IcosaOk g Le Be Lo Bo m)
    (he : L ≤ 2 * Le + 1) (ho : L ≤ 2 * Lo + 4) (he1 : Le < m * Be + Be) (ho1 : Lo < m * Bo + Bo)
    (he2 : m * Be + Be + 1 ≤ 128) (ho2 : m * Bo + Bo + 1 ≤ 128) :
    ReducedExact (icosaGrid g : StaticGrid ℝ).points (icosaGrid g : StaticGrid ℝ).weights L
      (5 / 10 ^ 14) := by
  intro p q s hs hL
  rw [icosa_ruleSum]
  by_cases hp : p % 2 = q % 2 ∧ q % 2 = s % 2
  · obtain ⟨hp1, hp2⟩ := hp
    rcases Nat.lt_or_ge s 1 with h0 | h0
    · obtain rfl : s = 0 := by omega
      obtain ⟨i, rfl⟩ : ∃ i, p = 2 * i := ⟨p / 2, by omega⟩
      obtain ⟨j, rfl⟩ : ∃ j, q = 2 * j := ⟨q / 2, by omega⟩
      have h1 := h.even.real h.bEven h.len he2 he1 i j (by omega)
      unfold classSum at h1
      have h2 := sphereInt_mono_even i j 0
      rw [mul_zero] at h2
      rw [h2]
      simp only [tetra_even]
      have e1 : ((icosaOrbits g).map (fun o => (o.2 : ℝ) / 10 ^ 20 * (4 * (oddFactor false (tripleR o.1) *
          (((tripleR o.1).1 ^ 2) ^ i * ((tripleR o.1).2.1 ^ 2) ^ j +
          ((tripleR o.1).2.1 ^ 2) ^ i * ((tripleR o.1).2.2 ^ 2) ^ j +
          ((tripleR o.1).2.2 ^ 2) ^ i * ((tripleR o.1).1 ^ 2) ^ j))))).sum =
          4 * ((icosaOrbits g).map (fun o => (o.2 : ℝ) / 10 ^ 20 * (oddFactor false (tripleR o.1) *
          (((tripleR o.1).1 ^ 2) ^ i * ((tripleR o.1).2.1 ^ 2) ^ j +
          ((tripleR o.1).2.1 ^ 2) ^ i * ((tripleR o.1).2.2 ^ 2) ^ j +
          ((tripleR o.1).2.2 ^ 2) ^ i * ((tripleR o.1).1 ^ 2) ^ j)))).sum := by
        rw [← List.sum_map_mul_left]
        congr 1
        refine List.map_congr_left (fun o _ => ?_)
        ring
      rw [e1]
      simp only [Bool.false_eq_true, if_false] at h1
      rw [abs_le] at h1 ⊢
      constructor <;> linarith
    · obtain rfl : s = 1 := by omega
      obtain ⟨i, rfl⟩ : ∃ i, p = 2 * i + 1 := ⟨p / 2, by omega⟩
      obtain ⟨j, rfl⟩ : ∃ j, q = 2 * j + 1 := ⟨q / 2, by omega⟩
      have h1 := h.odd.real h.bOdd h.len ho2 ho1 i j (by omega)
      unfold classSum at h1
      rw [sphereInt_mono_odd _ _ _ (by omega)]
      simp only [tetra_odd]
      have e1 : ((icosaOrbits g).map (fun o => (o.2 : ℝ) / 10 ^ 20 * (4 * (oddFactor true (tripleR o.1) *
          (((tripleR o.1).1 ^ 2) ^ i * ((tripleR o.1).2.1 ^ 2) ^ j +
          ((tripleR o.1).2.1 ^ 2) ^ i * ((tripleR o.1).2.2 ^ 2) ^ j +
          ((tripleR o.1).2.2 ^ 2) ^ i * ((tripleR o.1).1 ^ 2) ^ j))))).sum =
          4 * ((icosaOrbits g).map (fun o => (o.2 : ℝ) / 10 ^ 20 * (oddFactor true (tripleR o.1) *
          (((tripleR o.1).1 ^ 2) ^ i * ((tripleR o.1).2.1 ^ 2) ^ j +
          ((tripleR o.1).2.1 ^ 2) ^ i * ((tripleR o.1).2.2 ^ 2) ^ j +
          ((tripleR o.1).2.2 ^ 2) ^ i * ((tripleR o.1).1 ^ 2) ^ j)))).sum := by
        rw [← List.sum_map_mul_left]
        congr 1
        refine List.map_congr_left (fun o _ => ?_)
        ring
      rw [e1]
      simp only [if_true] at h1
      rw [abs_le] at h1 ⊢
      constructor <;> linarith
  · rw [sphereInt_mono_odd _ _ _ (by omega)]
    simp only [tetra_mixed _ p q s hp, mul_zero]
    rw [List.map_const', List.sum_replicate]
    norm_num

/-! ## Norms -/

/-- Every point is on the unit sphere up to `δ`, measured by the squared norm. -/
def NormOk (x : List (Pt ℝ)) (δ : ℝ) : Prop := ∀ u ∈ x, |u.x ^ 2 + u.y ^ 2 + u.z ^ 2 - 1| ≤ δ

/-- All coordinates are at most 1. -/
def CoordOk (x : List (Pt ℝ)) : Prop := ∀ u ∈ x, |u.x| ≤ 1 ∧ |u.y| ≤ 1 ∧ |u.z| ≤ 1

theorem icosaPattern_ok : ∀ e ∈ icosaPattern, e.1 ≤ 4 ∧
    ∃ σ ∈ [(1, 2, 3), (2, 3, 1), (3, 1, 2)],
      e.2.1.natAbs = σ.1 ∧ e.2.2.1.natAbs = σ.2.1 ∧ e.2.2.2.natAbs = σ.2.2 := by
  decide

theorem icosaVertexPattern_ok : ∀ e ∈ icosaVertexPattern,
    ∃ σ ∈ [(1, 2, 3), (2, 3, 1), (3, 1, 2)],
      e.1.natAbs = σ.1 ∧ e.2.1.natAbs = σ.2.1 ∧ e.2.2.natAbs = σ.2.2 := by
  decide

private theorem tripleAt_sq (t : Int × Int × Int) (s : Int) (k : Nat) (h : s.natAbs = k)
    (hk : k = 1 ∨ k = 2 ∨ k = 3) :
    (tripleAt t s) ^ 2 = if k = 1 then t.1 ^ 2 else if k = 2 then t.2.1 ^ 2 else t.2.2 ^ 2 := by
  rcases hk with rfl | rfl | rfl
  · have : s = 1 ∨ s = -1 := by omega
    rcases this with rfl | rfl <;> simp [tripleAt]
  · have : s = 2 ∨ s = -2 := by omega
    rcases this with rfl | rfl <;> simp [tripleAt]
  · have : s = 3 ∨ s = -3 := by omega
    rcases this with rfl | rfl <;> simp [tripleAt]

theorem triplePoint_sq (t s : Int × Int × Int)
    (h : ∃ σ ∈ [(1, 2, 3), (2, 3, 1), (3, 1, 2)],
      s.1.natAbs = σ.1 ∧ s.2.1.natAbs = σ.2.1 ∧ s.2.2.natAbs = σ.2.2) :
    ∃ a b c : ℝ, ((triplePoint t s : Pt ℝ).x ^ 2 = a ^ 2 ∧ (triplePoint t s : Pt ℝ).y ^ 2 = b ^ 2 ∧
      (triplePoint t s : Pt ℝ).z ^ 2 = c ^ 2) ∧
      (((a, b, c) = tripleR t) ∨ ((c, a, b) = tripleR t) ∨ ((b, c, a) = tripleR t)) := by
  obtain ⟨σ, hσ, h1, h2, h3⟩ := h
  have sq : ∀ (s : Int) (k : Nat), s.natAbs = k → (k = 1 ∨ k = 2 ∨ k = 3) →
      ((decimal 21 (tripleAt t s) : ℝ)) ^ 2 =
        (if k = 1 then (tripleR t).1 else if k = 2 then (tripleR t).2.1 else (tripleR t).2.2) ^ 2 := by
    intro s k hk hk'
    have := tripleAt_sq t s k hk hk'
    rw [decimal_real, div_pow]
    have h' : ((tripleAt t s : ℤ) : ℝ) ^ 2 = ((if k = 1 then t.1 else if k = 2 then t.2.1 else t.2.2 : ℤ) : ℝ) ^ 2 := by
      have : (tripleAt t s) ^ 2 = (if k = 1 then t.1 else if k = 2 then t.2.1 else t.2.2 : ℤ) ^ 2 := by
        rw [this]; split_ifs <;> rfl
      exact_mod_cast this
    rw [h']
    unfold tripleR
    split_ifs <;> rw [div_pow]
  simp only [List.mem_cons, List.not_mem_nil, or_false] at hσ
  rcases hσ with rfl | rfl | rfl
  · exact ⟨_, _, _, ⟨sq _ 1 h1 (by simp), sq _ 2 h2 (by simp), sq _ 3 h3 (by simp)⟩, .inl rfl⟩
  · exact ⟨_, _, _, ⟨sq _ 2 h1 (by simp), sq _ 3 h2 (by simp), sq _ 1 h3 (by simp)⟩, .inr (.inl rfl)⟩
  · exact ⟨_, _, _, ⟨sq _ 3 h1 (by simp), sq _ 1 h2 (by simp), sq _ 2 h3 (by simp)⟩, .inr (.inr rfl)⟩

/-- Every point of a grid comes from an orbit. -/
theorem icosa_mem {g : IcosaGrid} {u : Pt ℝ} (hu : u ∈ (icosaGrid g : StaticGrid ℝ).points) :
    ∃ o ∈ icosaOrbits g, ∃ a b c : ℝ, (u.x ^ 2 = a ^ 2 ∧ u.y ^ 2 = b ^ 2 ∧ u.z ^ 2 = c ^ 2) ∧
      (((a, b, c) = tripleR o.1) ∨ ((c, a, b) = tripleR o.1) ∨ ((b, c, a) = tripleR o.1)) := by
  unfold icosaGrid at hu
  dsimp only at hu
  rw [List.mem_append] at hu
  rcases hu with hu | hu
  · obtain ⟨s, hs, rfl⟩ := List.mem_map.1 hu
    exact ⟨(icosaVertex, g.w0), List.mem_cons_self, triplePoint_sq _ _ (icosaVertexPattern_ok s hs)⟩
  · obtain ⟨r, hr, hu⟩ := List.mem_flatMap.1 hu
    unfold icosaPoints at hu
    obtain ⟨e, he, rfl⟩ := List.mem_map.1 hu
    obtain ⟨h1, h2⟩ := icosaPattern_ok e he
    refine ⟨(r.triple e.1, r.w), ?_, triplePoint_sq _ _ h2⟩
    unfold icosaOrbits
    refine List.mem_cons_of_mem _ (List.mem_flatMap.2 ⟨r, hr, ?_⟩)
    have : e.1 = 0 ∨ e.1 = 1 ∨ e.1 = 2 ∨ e.1 = 3 ∨ e.1 = 4 := by omega
    rcases this with h | h | h | h | h <;> rw [h] <;> simp [IcosaRow.triple]

theorem icosaNorm_real {g : IcosaGrid} (h : icosaNorm g = true) :
    NormOk (icosaGrid g : StaticGrid ℝ).points (4 / 10 ^ 16) := by
  intro u hu
  obtain ⟨o, ho, a, b, c, ⟨hx, hy, hz⟩, hp⟩ := icosa_mem hu
  unfold icosaNorm at h
  rw [List.all_eq_true] at h
  have h1 := h o ho
  rw [decide_eq_true_eq] at h1
  have h2 : (((o.1.1 ^ 2 + o.1.2.1 ^ 2 + o.1.2.2 ^ 2 - 10 ^ 42 : Int).natAbs : ℤ) : ℝ) ≤
      4 * 10 ^ 26 := by exact_mod_cast h1
  rw [Int.natCast_natAbs] at h2
  push_cast at h2
  have h3 : |(tripleR o.1).1 ^ 2 + (tripleR o.1).2.1 ^ 2 + (tripleR o.1).2.2 ^ 2 - 1| ≤ 4 / 10 ^ 16 := by
    unfold tripleR
    have e : ((o.1.1 : ℝ) / 10 ^ 21) ^ 2 + ((o.1.2.1 : ℝ) / 10 ^ 21) ^ 2 + ((o.1.2.2 : ℝ) / 10 ^ 21) ^ 2 - 1 =
        ((o.1.1 : ℝ) ^ 2 + (o.1.2.1 : ℝ) ^ 2 + (o.1.2.2 : ℝ) ^ 2 - 10 ^ 42) / 10 ^ 42 := by
      field_simp
    dsimp only
    rw [e, abs_div, abs_of_pos (by positivity : (0 : ℝ) < 10 ^ 42), div_le_iff₀ (by positivity)]
    norm_num at h2 ⊢
    exact h2
  rw [hx, hy, hz]
  rcases hp with hp | hp | hp <;> rw [← hp] at h3 <;> dsimp only at h3
  · exact h3
  · rw [show a ^ 2 + b ^ 2 + c ^ 2 - 1 = c ^ 2 + a ^ 2 + b ^ 2 - 1 by ring]; exact h3
  · rw [show a ^ 2 + b ^ 2 + c ^ 2 - 1 = b ^ 2 + c ^ 2 + a ^ 2 - 1 by ring]; exact h3

theorem icosaCoord {g : IcosaGrid} (h : icosaBound false g = true) :
    CoordOk (icosaGrid g : StaticGrid ℝ).points := by
  intro u hu
  obtain ⟨o, ho, a, b, c, ⟨hx, hy, hz⟩, hp⟩ := icosa_mem hu
  have hb := icosaBound_mem h
  have hm : orbitItem false o ∈ (icosaItems false g).flatten := by
    rw [icosaItems_flatten]; exact List.mem_map.2 ⟨o, ho, rfl⟩
  obtain ⟨b1, b2, b3, -⟩ := hb _ hm
  have hs : ∀ v : Int, v.natAbs ^ 2 ≤ 10 ^ 42 → ((v : ℝ) / 10 ^ 21) ^ 2 ≤ 1 := by
    intro v h2
    have h3 : ((v.natAbs ^ 2 : Nat) : ℝ) ≤ 10 ^ 42 := by exact_mod_cast h2
    rw [Nat.cast_pow, Nat.cast_natAbs, Int.cast_abs, sq_abs] at h3
    rw [div_pow, div_le_one (by positivity)]
    calc _ ≤ _ := h3
      _ = _ := by norm_num
  have t1 : (tripleR o.1).1 ^ 2 ≤ 1 := hs _ b1
  have t2 : (tripleR o.1).2.1 ^ 2 ≤ 1 := hs _ b2
  have t3 : (tripleR o.1).2.2 ^ 2 ≤ 1 := hs _ b3
  have sq : ∀ x y : ℝ, x ^ 2 = y ^ 2 → y ^ 2 ≤ 1 → |x| ≤ 1 := by
    intro x y h1 h2
    rw [← h1] at h2
    exact (sq_le_one_iff_abs_le_one x).1 h2
  rcases hp with hp | hp | hp <;> rw [← hp] at t1 t2 t3 <;> dsimp only at t1 t2 t3
  · exact ⟨sq _ _ hx t1, sq _ _ hy t2, sq _ _ hz t3⟩
  · exact ⟨sq _ _ hx t2, sq _ _ hy t3, sq _ _ hz t1⟩
  · exact ⟨sq _ _ hx t3, sq _ _ hy t1, sq _ _ hz t2⟩

theorem icosaWeightSum_real {g : IcosaGrid} (h : icosaWeightSum g = true) :
    ((icosaGrid g : StaticGrid ℝ).weights.map (|·|)).sum ≤ 13 := by
  unfold icosaWeightSum at h
  rw [decide_eq_true_eq] at h
  have ha : ∀ v : Int, |(decimal 20 v : ℝ)| = (v.natAbs : ℝ) / 10 ^ 20 := by
    intro v
    rw [decimal_real, abs_div, abs_of_pos (by positivity : (0 : ℝ) < 10 ^ 20), Nat.cast_natAbs,
      Int.cast_abs]
  have e : ((icosaGrid g : StaticGrid ℝ).weights.map (|·|)).sum =
      ((12 * g.w0.natAbs + 60 * (g.rows.map fun r => r.w.natAbs).sum : Nat) : ℝ) / 10 ^ 20 := by
    unfold icosaGrid
    dsimp only
    rw [List.map_append, List.sum_append, List.map_map]
    have e1 : (icosaVertexPattern.map ((|·|) ∘ fun _ => (decimal 20 g.w0 : ℝ))).sum =
        12 * ((g.w0.natAbs : ℝ) / 10 ^ 20) := by
      rw [← ha, show ((|·|) ∘ fun _ : Int × Int × Int => (decimal 20 g.w0 : ℝ)) =
        fun _ => |(decimal 20 g.w0 : ℝ)| from rfl, List.map_const', List.sum_replicate]
      simp [icosaVertexPattern]
    rw [e1]
    have e2 : ((g.rows.flatMap icosaWeights).map (|·|)).sum =
        60 * (((g.rows.map fun r => r.w.natAbs).sum : Nat) : ℝ) / 10 ^ 20 := by
      induction g.rows with
      | nil => simp
      | cons r rows ih =>
        rw [List.flatMap_cons, List.map_append, List.sum_append, ih, List.map_cons, List.sum_cons]
        unfold icosaWeights
        rw [List.map_map, show ((|·|) ∘ fun _ : Nat × Int × Int × Int => (decimal 20 r.w : ℝ)) =
          fun _ => |(decimal 20 r.w : ℝ)| from rfl, List.map_const', List.sum_replicate, ha]
        have : icosaPattern.length = 60 := rfl
        rw [this, nsmul_eq_mul]
        push_cast
        ring
    rw [e2]
    push_cast
    ring
  rw [e, div_le_iff₀ (by positivity)]
  have : ((12 * g.w0.natAbs + 60 * (g.rows.map fun r => r.w.natAbs).sum : Nat) : ℝ) ≤
      ((13 * 10 ^ 20 : Nat) : ℝ) := by exact_mod_cast h
  calc _ ≤ _ := this
    _ = _ := by norm_num

/-! ## All monomials -/

theorem ruleSum_sub {P : Type} (x : List P) (w : List ℝ) (f g : P → ℝ) :
    ruleSum x w (fun u => f u - g u) = ruleSum x w f - ruleSum x w g := by
  unfold ruleSum
  induction x.zip w with
  | nil => simp
  | cons e l ih => simp only [List.map_cons, List.sum_cons, ih]; ring

theorem ruleSum_abs_le {P : Type} (x : List P) (w : List ℝ) (f : P → ℝ) {δ : ℝ} (hδ : 0 ≤ δ)
    (h : ∀ u ∈ x, |f u| ≤ δ) : |ruleSum x w f| ≤ δ * (w.map (|·|)).sum := by
  unfold ruleSum
  induction x generalizing w with
  | nil =>
    simp only [List.zip_nil_left, List.map_nil, List.sum_nil, abs_zero]
    refine mul_nonneg hδ (List.sum_nonneg ?_)
    intro a ha
    obtain ⟨b, -, rfl⟩ := List.mem_map.1 ha
    exact abs_nonneg b
  | cons u x ih =>
    rcases w with _ | ⟨v, w⟩
    · simp
    · simp only [List.zip_cons_cons, List.map_cons, List.sum_cons]
      have h1 := ih w (fun u hu => h u (List.mem_cons_of_mem _ hu))
      have h2 := h u List.mem_cons_self
      have h3 : |v * f u| ≤ |v| * δ := by
        rw [abs_mul]; exact mul_le_mul_of_nonneg_left h2 (abs_nonneg v)
      refine (abs_add_le _ _).trans ?_
      linarith

theorem sphereInt_step (p q s : Nat) :
    sphereInt (fun u => u.x ^ p * u.y ^ q * u.z ^ (s + 2)) =
      sphereInt (fun u => u.x ^ p * u.y ^ q * u.z ^ s) -
      sphereInt (fun u => u.x ^ (p + 2) * u.y ^ q * u.z ^ s) -
      sphereInt (fun u => u.x ^ p * u.y ^ (q + 2) * u.z ^ s) := by
  by_cases h : p % 2 = 1 ∨ q % 2 = 1 ∨ s % 2 = 1
  · rw [sphereInt_mono_odd _ _ _ h, sphereInt_mono_odd _ _ _ (by omega),
      sphereInt_mono_odd _ _ _ (by omega), sphereInt_mono_odd _ _ _ (by omega)]
    ring
  · obtain ⟨i, rfl⟩ : ∃ i, p = 2 * i := ⟨p / 2, by omega⟩
    obtain ⟨j, rfl⟩ : ∃ j, q = 2 * j := ⟨q / 2, by omega⟩
    obtain ⟨k, rfl⟩ : ∃ k, s = 2 * k := ⟨s / 2, by omega⟩
    rw [show 2 * k + 2 = 2 * (k + 1) by ring, show 2 * i + 2 = 2 * (i + 1) by ring,
      show 2 * j + 2 = 2 * (j + 1) by ring]
    simp only [sphereInt_mono_even]
    rw [← meanEven_step i j k]
    ring

/-- All monomials of degree at most `L` with `s ≤ 2 m + 1` from the reduced ones. -/
theorem ReducedExact.full {x : List (Pt ℝ)} {w : List ℝ} {L : Nat} {ε δ W : ℝ}
    (h : ReducedExact x w L ε) (hx : NormOk x δ) (hc : CoordOk x)
    (hw : (w.map (|·|)).sum ≤ W) (hδ : 0 ≤ δ) (m : Nat) : ∀ p q s, s ≤ 2 * m + 1 → p + q + s ≤ L →
    |ruleSum x w (fun u => u.x ^ p * u.y ^ q * u.z ^ s) -
      sphereInt (fun u => u.x ^ p * u.y ^ q * u.z ^ s)| ≤ 3 ^ m * (ε + δ * W) - δ * W := by
  have hW : 0 ≤ δ * W := by
    refine mul_nonneg hδ (le_trans (List.sum_nonneg ?_) hw)
    intro a ha
    obtain ⟨b, -, rfl⟩ := List.mem_map.1 ha
    exact abs_nonneg b
  have hε : 0 ≤ ε := (abs_nonneg _).trans (h 0 0 0 (by omega) (by omega))
  induction m with
  | zero =>
    intro p q s hs hL
    rw [pow_zero, one_mul, add_sub_cancel_right]
    exact h p q s (by omega) hL
  | succ m ih =>
    intro p q s hs hL
    have mono : 3 ^ m * (ε + δ * W) - δ * W ≤ 3 ^ (m + 1) * (ε + δ * W) - δ * W := by
      have : (3 : ℝ) ^ m ≤ 3 ^ (m + 1) := pow_le_pow_right₀ (by norm_num) (by omega)
      have := mul_le_mul_of_nonneg_right this (add_nonneg hε hW)
      linarith
    rcases Nat.lt_or_ge s 2 with h2 | h2
    · exact (ih p q s (by omega) hL).trans mono
    · obtain ⟨t, rfl⟩ : ∃ t, s = t + 2 := ⟨s - 2, by omega⟩
      have a1 := ih p q t (by omega) (by omega)
      have a2 := ih (p + 2) q t (by omega) (by omega)
      have a3 := ih p (q + 2) t (by omega) (by omega)
      rw [sphereInt_step]
      have e : ruleSum x w (fun u => u.x ^ p * u.y ^ q * u.z ^ (t + 2)) =
          ruleSum x w (fun u => u.x ^ p * u.y ^ q * u.z ^ t) -
          ruleSum x w (fun u => u.x ^ (p + 2) * u.y ^ q * u.z ^ t) -
          ruleSum x w (fun u => u.x ^ p * u.y ^ (q + 2) * u.z ^ t) -
          ruleSum x w (fun u => -(u.x ^ p * u.y ^ q * u.z ^ t *
            (u.x ^ 2 + u.y ^ 2 + u.z ^ 2 - 1))) := by
        rw [← ruleSum_sub, ← ruleSum_sub, ← ruleSum_sub]
        congr 1; ext u; ring
      have a4 : |ruleSum x w (fun u => -(u.x ^ p * u.y ^ q * u.z ^ t *
            (u.x ^ 2 + u.y ^ 2 + u.z ^ 2 - 1)))| ≤ δ * W := by
        refine (ruleSum_abs_le x w _ hδ ?_).trans (mul_le_mul_of_nonneg_left hw hδ)
        intro u hu
        obtain ⟨c1, c2, c3⟩ := hc u hu
        rw [abs_neg, abs_mul, abs_mul, abs_mul, abs_pow, abs_pow, abs_pow]
        have b1 := pow_le_one₀ (n := p) (abs_nonneg _) c1
        have b2 := pow_le_one₀ (n := q) (abs_nonneg _) c2
        have b3 := pow_le_one₀ (n := t) (abs_nonneg _) c3
        have b4 : |u.x| ^ p * |u.y| ^ q * |u.z| ^ t ≤ 1 :=
          mul_le_one₀ (mul_le_one₀ b1 (by positivity) b2) (by positivity) b3
        calc _ ≤ 1 * δ := mul_le_mul b4 (hx u hu) (abs_nonneg _) (by norm_num)
          _ = δ := one_mul δ
      rw [e, pow_succ]
      rw [abs_le] at a1 a2 a3 a4 ⊢
      constructor <;> linarith

/-! ## Polynomials -/

theorem ruleSum_poly (x : List (Pt ℝ)) (w : List ℝ) (p : MvPolynomial (Fin 3) ℝ) :
    ruleSum x w (polyAt p) = ∑ m ∈ p.support, p.coeff m *
      ruleSum x w (fun u => u.x ^ m 0 * u.y ^ m 1 * u.z ^ m 2) := by
  have hp : ∀ u : Pt ℝ, polyAt p u =
      ∑ m ∈ p.support, p.coeff m * (u.x ^ m 0 * u.y ^ m 1 * u.z ^ m 2) := by
    intro u
    unfold polyAt
    rw [MvPolynomial.eval_eq']
    refine Finset.sum_congr rfl (fun m _ => ?_)
    rw [Fin.prod_univ_three]
    rfl
  have hp' : polyAt p = fun u => ∑ m ∈ p.support, p.coeff m * (u.x ^ m 0 * u.y ^ m 1 * u.z ^ m 2) :=
    funext hp
  rw [hp']
  unfold ruleSum
  induction x.zip w with
  | nil => simp
  | cons e l ih =>
    simp only [List.map_cons, List.sum_cons]
    rw [ih, Finset.mul_sum, ← Finset.sum_add_distrib]
    refine Finset.sum_congr rfl (fun m _ => ?_)
    ring

/-- From monomials to polynomials. -/
theorem poly_error {x : List (Pt ℝ)} {w : List ℝ} {p : MvPolynomial (Fin 3) ℝ} {ε : ℝ}
    (h : ∀ m ∈ p.support, |ruleSum x w (fun u => u.x ^ m 0 * u.y ^ m 1 * u.z ^ m 2) -
      sphereInt (fun u => u.x ^ m 0 * u.y ^ m 1 * u.z ^ m 2)| ≤ ε) :
    |ruleSum x w (polyAt p) - sphereInt (polyAt p)| ≤ ε * coeffSum p := by
  rw [ruleSum_poly, sphereInt_poly, ← Finset.sum_sub_distrib, coeffSum, Finset.mul_sum]
  refine (Finset.abs_sum_le_sum_abs _ _).trans (Finset.sum_le_sum (fun m hm => ?_))
  rw [← mul_sub, abs_mul, mul_comm ε]
  exact mul_le_mul_of_nonneg_left (h m hm) (abs_nonneg _)

theorem support_degree {p : MvPolynomial (Fin 3) ℝ} {L : Nat} (h : p.totalDegree ≤ L)
    {m : Fin 3 →₀ ℕ} (hm : m ∈ p.support) : m 0 + m 1 + m 2 ≤ L := by
  have h1 := MvPolynomial.le_totalDegree hm
  rw [Finsupp.sum_fintype _ _ (fun _ => rfl), Fin.sum_univ_three] at h1
  omega

theorem ReducedExact.poly {x : List (Pt ℝ)} {w : List ℝ} {L : Nat} {ε : ℝ}
    (h : ReducedExact x w L ε) {p : MvPolynomial (Fin 3) ℝ} (hd : p.totalDegree ≤ L)
    (hz : p.degreeOf 2 ≤ 1) :
    |ruleSum x w (polyAt p) - sphereInt (polyAt p)| ≤ ε * coeffSum p :=
  poly_error (fun m hm => h _ _ _ ((MvPolynomial.degreeOf_le_iff.1 hz) m hm) (support_degree hd hm))

theorem ReducedExact.poly_full {x : List (Pt ℝ)} {w : List ℝ} {L : Nat} {ε δ W : ℝ}
    (h : ReducedExact x w L ε) (hx : NormOk x δ) (hc : CoordOk x)
    (hw : (w.map (|·|)).sum ≤ W) (hδ : 0 ≤ δ) {m : Nat} (hm : L ≤ 2 * m + 1)
    {p : MvPolynomial (Fin 3) ℝ} (hd : p.totalDegree ≤ L) :
    |ruleSum x w (polyAt p) - sphereInt (polyAt p)| ≤ (3 ^ m * (ε + δ * W) - δ * W) * coeffSum p :=
  poly_error (fun k hk => by
    have := support_degree hd hk
    exact h.full hx hc hw hδ m _ _ _ (by omega) this)

/-- Smaller degrees, larger errors. -/
theorem ReducedExact.mono {x : List (Pt ℝ)} {w : List ℝ} {L L' : Nat} {ε ε' : ℝ}
    (h : ReducedExact x w L ε) (hL : L' ≤ L) (hε : ε ≤ ε') : ReducedExact x w L' ε' :=
  fun p q s hs hl => (h p q s hs (hl.trans hL)).trans hε

end IntegratorXX
