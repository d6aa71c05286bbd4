import Verif.Model.OctaTables
import Verif.Lemmas.SphereInt
import Verif.Spec.Rule
import Mathlib.Tactic.Linarith
import Mathlib.Tactic.FieldSimp
import Mathlib.Tactic.Positivity
import Mathlib.Algebra.Order.BigOperators.Group.List

/-!
# Moments of octahedral grids

Reduction of the exactness of an octahedral grid to integer inequalities which the kernel can
evaluate.
-/

namespace IntegratorXX

open Spec Arith

/-! ## The integer checks -/

/-- Number of points of an orbit. -/
def OctaKind.size : OctaKind → Nat
  | .vertex => 6
  | .face => 8
  | .edge => 12
  | .plane => 24
  | .mirror => 24
  | .general => 48

/-- Absolute values of the coordinates of the points of an orbit (Lebedev-Laikov). -/
def llRep (r : OctaRow) : Nat × Nat × Nat :=
  match r.kind with
  | .vertex => (r.a, 0, 0)
  | .face => (r.a, r.a, r.a)
  | .edge => (r.a, r.a, 0)
  | .plane => (r.a, r.b, 0)
  | .mirror => (r.a, r.a, r.b)
  | .general => (r.a, r.b, r.c)

/-- The same for Delley. -/
def deRep (r : OctaRow) : Nat × Nat × Nat :=
  match r.kind with
  | .vertex => (r.a, 0, 0)
  | .face => (r.a, r.a, r.a)
  | .edge => (r.a, r.a, 0)
  | .plane => (r.a, r.b, 0)
  | .mirror => (r.a, r.b, r.b)
  | .general => (r.a, r.b, r.c)

/-- The monomial `AⁱBʲCᵏ` summed over all permutations. -/
def sym3 (A B C i j k : Nat) : Nat :=
  A ^ i * (B ^ j * C ^ k + B ^ k * C ^ j) + A ^ j * (B ^ i * C ^ k + B ^ k * C ^ i) +
    A ^ k * (B ^ i * C ^ j + B ^ j * C ^ i)

/-- A moment of the grid in integers. -/
def octaMoment (rep : OctaRow → Nat × Nat × Nat) (rows : List OctaRow) (i j k : Nat) : Int :=
  rows.foldr (fun r s => r.w * (r.kind.size *
    sym3 ((rep r).1 ^ 2) ((rep r).2.1 ^ 2) ((rep r).2.2 ^ 2) i j k : Nat) + s) 0

/-- The moment agrees with the mean over the sphere to a relative error of `10^-14`. -/
def octaOk (rep : OctaRow → Nat × Nat × Nat) (rows : List OctaRow) (i j k : Nat) : Bool :=
  let N := octaMoment rep rows i j k * (odf (i + j + k + 1) : Nat)
  let T : Nat := 6 * 10 ^ (21 + 36 * (i + j + k)) * (odf i * odf j * odf k)
  decide ((N - T).natAbs * 10 ^ 14 ≤ T)

/-- `octaOk` for all `j`, `k` with `i ≥ j ≥ k`, `i + j + k = d`. -/
def octaOkRow (rep : OctaRow → Nat × Nat × Nat) (rows : List OctaRow) (d i : Nat) : Bool :=
  (List.range (i + 1)).all fun j =>
    if i + j ≤ d ∧ d ≤ i + 2 * j then octaOk rep rows i j (d - i - j) else true

/-- `octaOkRow` for `lo ≤ i < lo + len`. -/
def octaOkRange (rep : OctaRow → Nat × Nat × Nat) (rows : List OctaRow) (d lo len : Nat) : Bool :=
  (List.range' lo len).all (octaOkRow rep rows d)

theorem octaOkRange_append {rep : OctaRow → Nat × Nat × Nat} {rows : List OctaRow}
    {d lo len len' mid total : Nat} (h : octaOkRange rep rows d lo len = true)
    (h' : octaOkRange rep rows d mid len' = true) (hm : lo + len = mid)
    (ht : len + len' = total) : octaOkRange rep rows d lo total = true := by
  subst hm ht
  unfold octaOkRange at *
  rw [List.range'_append_1.symm, List.all_append, h, h']
  rfl

/-- All points of an orbit have squared norm 1 up to `3·10^-16`. -/
def octaNorm (rep : OctaRow → Nat × Nat × Nat) (r : OctaRow) : Bool :=
  decide ((((rep r).1 ^ 2 + (rep r).2.1 ^ 2 + (rep r).2.2 ^ 2 : Nat) - 10 ^ 36 : Int).natAbs
    ≤ 3 * 10 ^ 20)

/-! ## Moments in `ℝ` -/

/-- `sym3` in `ℝ`. -/
noncomputable def symR (a b c : ℝ) (i j k : Nat) : ℝ :=
  a ^ i * (b ^ j * c ^ k + b ^ k * c ^ j) + b ^ i * (a ^ j * c ^ k + a ^ k * c ^ j) +
    c ^ i * (a ^ j * b ^ k + a ^ k * b ^ j)

/-- A representative of the orbit in `ℝ`. -/
noncomputable def repR (t : Nat × Nat × Nat) : ℝ × ℝ × ℝ :=
  ((t.1 : ℝ) / 10 ^ 18, (t.2.1 : ℝ) / 10 ^ 18, (t.2.2 : ℝ) / 10 ^ 18)

/-- A pattern lists every signed permutation of the representative equally often. -/
def PatternOk (pattern : OctaKind → List (Int × Int × Int)) (rep : OctaRow → Nat × Nat × Nat) :
    Prop :=
  (∀ k, (pattern k).length = k.size) ∧
  ∀ (r : OctaRow) (p q s : Nat),
    48 * (((octaPoints pattern r : List (Pt ℝ))).map
      (fun u => u.x ^ p * u.y ^ q * u.z ^ s)).sum =
    r.kind.size * (((1 + (-1) ^ p) * (1 + (-1) ^ q) * (1 + (-1) ^ s)) *
      symR (repR (rep r)).1 (repR (rep r)).2.1 (repR (rep r)).2.2 p q s)

private theorem coordR (r : OctaRow) :
    ((r.coord 1 : ℚ) : ℝ) = (r.a : ℝ) / 10 ^ 18 ∧ ((r.coord (-1) : ℚ) : ℝ) = -((r.a : ℝ) / 10 ^ 18) ∧
    ((r.coord 2 : ℚ) : ℝ) = (r.b : ℝ) / 10 ^ 18 ∧ ((r.coord (-2) : ℚ) : ℝ) = -((r.b : ℝ) / 10 ^ 18) ∧
    ((r.coord 3 : ℚ) : ℝ) = (r.c : ℝ) / 10 ^ 18 ∧ ((r.coord (-3) : ℚ) : ℝ) = -((r.c : ℝ) / 10 ^ 18) ∧
    ((r.coord 0 : ℚ) : ℝ) = 0 := by
  refine ⟨?_, ?_, ?_, ?_, ?_, ?_, ?_⟩ <;> simp [OctaRow.coord]

private theorem zpow_cases (n : Nat) : ((0 : ℝ) ^ n = 0) ∨ ((0 : ℝ) ^ n = 1 ∧ (-1 : ℝ) ^ n = 1) := by
  rcases n with _ | n
  · right; simp
  · left; simp

theorem llPattern_ok : PatternOk OctaKind.llPattern llRep := by
  refine ⟨by intro k; cases k <;> rfl, ?_⟩
  rintro ⟨kind, a, b, c, w⟩ p q s
  obtain ⟨h1, h2, h3, h4, h5, h6, h7⟩ := coordR ⟨kind, a, b, c, w⟩
  cases kind <;>
  simp only [octaPoints, OctaKind.llPattern, List.map_cons, List.map_nil, real_lit, h1, h2, h3, h4, h5,
    h6, h7, List.sum_cons, List.sum_nil, repR, llRep, OctaKind.size, Nat.cast_zero, zero_div, symR] <;>
  generalize (a : ℝ) / 10 ^ 18 = x <;> generalize (b : ℝ) / 10 ^ 18 = y <;>
  generalize (c : ℝ) / 10 ^ 18 = z <;>
  simp only [neg_pow x, neg_pow y, neg_pow z]
  · rcases zpow_cases p with hp | ⟨hp, hp'⟩ <;> rcases zpow_cases q with hq | ⟨hq, hq'⟩ <;>
    rcases zpow_cases s with hs | ⟨hs, hs'⟩ <;> simp only [*] <;> push_cast <;> ring
  · push_cast; ring
  · rcases zpow_cases p with hp | ⟨hp, hp'⟩ <;> rcases zpow_cases q with hq | ⟨hq, hq'⟩ <;>
    rcases zpow_cases s with hs | ⟨hs, hs'⟩ <;> simp only [*] <;> push_cast <;> ring
  · rcases zpow_cases p with hp | ⟨hp, hp'⟩ <;> rcases zpow_cases q with hq | ⟨hq, hq'⟩ <;>
    rcases zpow_cases s with hs | ⟨hs, hs'⟩ <;> simp only [*] <;> push_cast <;> ring
  · push_cast; ring
  · push_cast; ring

theorem dePattern_ok : PatternOk OctaKind.dePattern deRep := by
  refine ⟨by intro k; cases k <;> rfl, ?_⟩
  rintro ⟨kind, a, b, c, w⟩ p q s
  obtain ⟨h1, h2, h3, h4, h5, h6, h7⟩ := coordR ⟨kind, a, b, c, w⟩
  cases kind <;>
  simp only [octaPoints, OctaKind.dePattern, List.map_cons, List.map_nil, real_lit, h1, h2, h3, h4, h5,
    h6, h7, List.sum_cons, List.sum_nil, repR, deRep, OctaKind.size, Nat.cast_zero, zero_div, symR] <;>
  generalize (a : ℝ) / 10 ^ 18 = x <;> generalize (b : ℝ) / 10 ^ 18 = y <;>
  generalize (c : ℝ) / 10 ^ 18 = z <;>
  simp only [neg_pow x, neg_pow y, neg_pow z]
  · rcases zpow_cases p with hp | ⟨hp, hp'⟩ <;> rcases zpow_cases q with hq | ⟨hq, hq'⟩ <;>
    rcases zpow_cases s with hs | ⟨hs, hs'⟩ <;> simp only [*] <;> push_cast <;> ring
  · push_cast; ring
  · rcases zpow_cases p with hp | ⟨hp, hp'⟩ <;> rcases zpow_cases q with hq | ⟨hq, hq'⟩ <;>
    rcases zpow_cases s with hs | ⟨hs, hs'⟩ <;> simp only [*] <;> push_cast <;> ring
  · rcases zpow_cases p with hp | ⟨hp, hp'⟩ <;> rcases zpow_cases q with hq | ⟨hq, hq'⟩ <;>
    rcases zpow_cases s with hs | ⟨hs, hs'⟩ <;> simp only [*] <;> push_cast <;> ring
  · push_cast; ring
  · push_cast; ring

/-! ## Sums over a grid -/

/-- The normalised even moment of a list of orbits. -/
noncomputable def evenMoment (rep : OctaRow → Nat × Nat × Nat) (rows : List OctaRow)
    (i j k : Nat) : ℝ :=
  (rows.map (fun r => (r.w : ℝ) / 10 ^ 21 * (r.kind.size / 6) *
    symR ((repR (rep r)).1 ^ 2) ((repR (rep r)).2.1 ^ 2) ((repR (rep r)).2.2 ^ 2) i j k)).sum

theorem ruleSum_flatMap {P A : Type} (rows : List A) (x : A → List P) (w : A → List ℝ)
    (h : ∀ r ∈ rows, (x r).length = (w r).length) (f : P → ℝ) :
    ruleSum (rows.flatMap x) (rows.flatMap w) f = (rows.map (fun r => ruleSum (x r) (w r) f)).sum := by
  induction rows with
  | nil => simp [ruleSum]
  | cons r rows ih =>
    have ih := ih (fun r hr => h r (List.mem_cons_of_mem _ hr))
    rw [List.map_cons, List.sum_cons, ← ih]
    unfold ruleSum
    rw [List.flatMap_cons, List.flatMap_cons, List.zip_append (h r List.mem_cons_self),
      List.map_append, List.sum_append]

theorem octa_ruleSum {pattern : OctaKind → List (Int × Int × Int)} (rows : List OctaRow)
    (f : Pt ℝ → ℝ) :
    ruleSum (octaGrid pattern rows : StaticGrid ℝ).points
      (octaGrid pattern rows : StaticGrid ℝ).weights f =
    (rows.map (fun r => (r.w : ℝ) / 10 ^ 21 *
      ((octaPoints pattern r : List (Pt ℝ)).map f).sum)).sum := by
  unfold octaGrid
  rw [ruleSum_flatMap _ _ _ (fun r _ => by simp [octaPoints, octaWeights])]
  congr 1
  refine List.map_congr_left (fun r _ => ?_)
  unfold ruleSum octaPoints octaWeights
  rw [List.zip_map', List.map_map, List.map_map, ← List.sum_map_mul_left]
  congr 1
  refine List.map_congr_left (fun t _ => ?_)
  simp

/-- Odd moments vanish. -/
theorem octa_odd {pattern : OctaKind → List (Int × Int × Int)} {rep : OctaRow → Nat × Nat × Nat}
    (hp : PatternOk pattern rep) (rows : List OctaRow) (p q s : Nat)
    (h : p % 2 = 1 ∨ q % 2 = 1 ∨ s % 2 = 1) :
    ruleSum (octaGrid pattern rows : StaticGrid ℝ).points
      (octaGrid pattern rows : StaticGrid ℝ).weights (fun u => u.x ^ p * u.y ^ q * u.z ^ s) = 0 := by
  rw [octa_ruleSum]
  apply List.sum_eq_zero
  intro x hx
  obtain ⟨r, -, rfl⟩ := List.mem_map.1 hx
  have h1 := hp.2 r p q s
  have h2 : ((1 + (-1 : ℝ) ^ p) * (1 + (-1) ^ q) * (1 + (-1) ^ s)) = 0 := by
    rcases h with h | h | h <;> rw [(Nat.odd_iff.2 h).neg_one_pow] <;> ring
  rw [h2] at h1
  have : ((octaPoints pattern r : List (Pt ℝ)).map (fun u => u.x ^ p * u.y ^ q * u.z ^ s)).sum = 0 := by
    linarith
  rw [this, mul_zero]

/-- Even moments. -/
theorem octa_even {pattern : OctaKind → List (Int × Int × Int)} {rep : OctaRow → Nat × Nat × Nat}
    (hp : PatternOk pattern rep) (rows : List OctaRow) (i j k : Nat) :
    ruleSum (octaGrid pattern rows : StaticGrid ℝ).points
      (octaGrid pattern rows : StaticGrid ℝ).weights
      (fun u => u.x ^ (2 * i) * u.y ^ (2 * j) * u.z ^ (2 * k)) = evenMoment rep rows i j k := by
  rw [octa_ruleSum, evenMoment]
  congr 1
  refine List.map_congr_left (fun r _ => ?_)
  have h1 := hp.2 r (2 * i) (2 * j) (2 * k)
  simp only [even_two_mul, Even.neg_pow, one_pow] at h1
  have h2 : symR (repR (rep r)).1 (repR (rep r)).2.1 (repR (rep r)).2.2 (2 * i) (2 * j) (2 * k) =
      symR ((repR (rep r)).1 ^ 2) ((repR (rep r)).2.1 ^ 2) ((repR (rep r)).2.2 ^ 2) i j k := by
    unfold symR; simp only [← pow_mul]
  rw [h2] at h1
  linear_combination (r.w : ℝ) / 10 ^ 21 / 48 * h1

theorem evenMoment_int (rep : OctaRow → Nat × Nat × Nat) (rows : List OctaRow) (i j k : Nat) :
    evenMoment rep rows i j k * (6 * 10 ^ (21 + 36 * (i + j + k))) = octaMoment rep rows i j k := by
  induction rows with
  | nil => simp [evenMoment, octaMoment]
  | cons r rows ih =>
    unfold evenMoment octaMoment at ih ⊢
    rw [List.map_cons, List.sum_cons, List.foldr_cons, add_mul, ih]
    push_cast
    congr 1
    generalize rep r = t
    unfold symR sym3 repR
    simp only [div_pow]
    push_cast
    have e : ∀ n : Nat, ((10 : ℝ) ^ 18) ^ 2 = 10 ^ 36 := fun _ => by norm_num
    rw [e 0]
    have e2 : (10 : ℝ) ^ (21 + 36 * (i + j + k)) =
        10 ^ 21 * ((10 ^ 36) ^ i * (10 ^ 36) ^ j * (10 ^ 36) ^ k) := by
      rw [pow_add, pow_mul, pow_add, pow_add]
    rw [e2]
    have hi : ((10 : ℝ) ^ 36) ^ i ≠ 0 := by positivity
    have hj : ((10 : ℝ) ^ 36) ^ j ≠ 0 := by positivity
    have hk : ((10 : ℝ) ^ 36) ^ k ≠ 0 := by positivity
    field_simp
    ring

theorem meanEven_pos (i j k : Nat) : 0 < meanEven i j k := by
  unfold meanEven
  have := odf_pos i; have := odf_pos j; have := odf_pos k; have := odf_pos (i + j + k + 1)
  positivity

theorem octaOk_real {rep : OctaRow → Nat × Nat × Nat} {rows : List OctaRow} {i j k : Nat}
    (h : octaOk rep rows i j k = true) :
    |evenMoment rep rows i j k - meanEven i j k| ≤ 1 / 10 ^ 14 * meanEven i j k := by
  unfold octaOk at h
  simp only [decide_eq_true_eq] at h
  have hT : (0 : ℝ) < 6 * 10 ^ (21 + 36 * (i + j + k)) := by positivity
  have ho : (0 : ℝ) < odf (i + j + k + 1) := by exact_mod_cast odf_pos _
  have hm := evenMoment_int rep rows i j k
  generalize octaMoment rep rows i j k = N at h hm
  have h' : |(N : ℝ) * odf (i + j + k + 1) -
      6 * 10 ^ (21 + 36 * (i + j + k)) * (odf i * odf j * odf k)| * 10 ^ 14 ≤
      6 * 10 ^ (21 + 36 * (i + j + k)) * (odf i * odf j * odf k) := by
    have h2 : (((N * (odf (i + j + k + 1) : Nat) -
      (6 * 10 ^ (21 + 36 * (i + j + k)) * (odf i * odf j * odf k) : Nat) : Int).natAbs : ℤ) : ℝ) *
      10 ^ 14 ≤ ((6 * 10 ^ (21 + 36 * (i + j + k)) * (odf i * odf j * odf k) : Nat) : ℝ) := by
      exact_mod_cast h
    rw [Int.natCast_natAbs] at h2
    push_cast at h2
    exact h2
  rw [← hm] at h'
  unfold meanEven
  have e1 : evenMoment rep rows i j k - (odf i * odf j * odf k : ℝ) / odf (i + j + k + 1) =
      (evenMoment rep rows i j k * (6 * 10 ^ (21 + 36 * (i + j + k))) * odf (i + j + k + 1) -
      6 * 10 ^ (21 + 36 * (i + j + k)) * (odf i * odf j * odf k)) /
      (6 * 10 ^ (21 + 36 * (i + j + k)) * odf (i + j + k + 1)) := by
    field_simp
  rw [e1, abs_div, abs_of_pos (mul_pos hT ho), div_le_iff₀ (mul_pos hT ho)]
  have e2 : 1 / 10 ^ 14 * ((odf i * odf j * odf k : ℝ) / odf (i + j + k + 1)) *
      (6 * 10 ^ (21 + 36 * (i + j + k)) * odf (i + j + k + 1)) =
      (6 * 10 ^ (21 + 36 * (i + j + k)) * (odf i * odf j * odf k)) / 10 ^ 14 := by
    field_simp
  rw [e2, le_div_iff₀ (by positivity)]
  exact h'

theorem evenMoment_swap (rep : OctaRow → Nat × Nat × Nat) (rows : List OctaRow) (i j k : Nat) :
    evenMoment rep rows i j k = evenMoment rep rows j i k ∧
    evenMoment rep rows i j k = evenMoment rep rows i k j := by
  unfold evenMoment symR
  constructor <;> (congr 1; refine List.map_congr_left (fun r _ => ?_); ring)

theorem meanEven_swap (i j k : Nat) :
    meanEven i j k = meanEven j i k ∧ meanEven i j k = meanEven i k j := by
  unfold meanEven
  rw [show j + i + k + 1 = i + j + k + 1 by ring, show i + k + j + 1 = i + j + k + 1 by ring]
  constructor <;> ring

/-- From sorted exponents to all exponents. -/
theorem octaOkRange_real {rep : OctaRow → Nat × Nat × Nat} {rows : List OctaRow} {d : Nat}
    (h : octaOkRange rep rows d 0 (d + 1) = true) (i j k : Nat) (hd : i + j + k = d) :
    |evenMoment rep rows i j k - meanEven i j k| ≤ 1 / 10 ^ 14 * meanEven i j k := by
  have sorted : ∀ i j k, i + j + k = d → j ≤ i → k ≤ j →
      |evenMoment rep rows i j k - meanEven i j k| ≤ 1 / 10 ^ 14 * meanEven i j k := by
    intro i j k hd h1 h2
    unfold octaOkRange at h
    rw [List.all_eq_true] at h
    have h3 := h i (by rw [List.mem_range'_1]; omega)
    unfold octaOkRow at h3
    rw [List.all_eq_true] at h3
    have h4 := h3 j (by rw [List.mem_range]; omega)
    rw [if_pos (by omega), show d - i - j = k by omega] at h4
    exact octaOk_real h4
  have s1 := evenMoment_swap rep rows
  have s2 := meanEven_swap
  rcases le_total j i with h1 | h1 <;> rcases le_total k j with h2 | h2 <;>
    rcases le_total k i with h3 | h3
  · exact sorted i j k hd h1 h2
  · exact sorted i j k hd h1 h2
  · rw [(s1 i j k).2, (s2 i j k).2]; exact sorted i k j (by omega) h3 h2
  · rw [(s1 i j k).2, (s2 i j k).2, (s1 i k j).1, (s2 i k j).1]
    exact sorted k i j (by omega) h3 h1
  · rw [(s1 i j k).1, (s2 i j k).1, (s1 j i k).2, (s2 j i k).2, ]
    rw [(s1 j k i).2, (s2 j k i).2]
    exact sorted j i k (by omega) h1 h3
  · rw [(s1 i j k).1, (s2 i j k).1, (s1 j i k).2, (s2 j i k).2]
    exact sorted j k i (by omega) h2 h3
  · rw [(s1 i j k).2, (s2 i j k).2, (s1 i k j).1, (s2 i k j).1, (s1 k i j).2, (s2 k i j).2]
    exact sorted k j i (by omega) h2 h1
  · rw [(s1 i j k).2, (s2 i j k).2, (s1 i k j).1, (s2 i k j).1, (s1 k i j).2, (s2 k i j).2]
    exact sorted k j i (by omega) h2 h1

/-! ## Lower degrees -/

theorem meanEven_step (i j k : Nat) :
    meanEven (i + 1) j k + meanEven i (j + 1) k + meanEven i j (k + 1) = meanEven i j k := by
  unfold meanEven
  rw [show i + 1 + j + k + 1 = (i + j + k + 1) + 1 by ring,
    show i + (j + 1) + k + 1 = (i + j + k + 1) + 1 by ring,
    show i + j + (k + 1) + 1 = (i + j + k + 1) + 1 by ring]
  have h := odf_pos (i + j + k + 1)
  have h' : (0 : ℝ) < odf (i + j + k + 1) := by exact_mod_cast h
  simp only [odf.eq_2 (i + j + k + 1), odf.eq_2 i, odf.eq_2 j, odf.eq_2 k]
  push_cast
  have h3 : (0 : ℝ) < 2 * (i + j + k + 1) + 1 := by positivity
  field_simp
  ring

theorem octaNorm_real {rep : OctaRow → Nat × Nat × Nat} {r : OctaRow} (h : octaNorm rep r = true) :
    |(repR (rep r)).1 ^ 2 + (repR (rep r)).2.1 ^ 2 + (repR (rep r)).2.2 ^ 2 - 1| ≤ 3 / 10 ^ 16 := by
  unfold octaNorm at h
  rw [decide_eq_true_eq] at h
  generalize rep r = t at h
  have h2 : (((((t.1 ^ 2 + t.2.1 ^ 2 + t.2.2 ^ 2 : Nat) - 10 ^ 36 : Int)).natAbs : ℤ) : ℝ) ≤
      3 * 10 ^ 20 := by exact_mod_cast h
  rw [Int.natCast_natAbs] at h2
  push_cast at h2
  unfold repR
  have e : ((t.1 : ℝ) / 10 ^ 18) ^ 2 + ((t.2.1 : ℝ) / 10 ^ 18) ^ 2 + ((t.2.2 : ℝ) / 10 ^ 18) ^ 2 - 1 =
      ((t.1 : ℝ) ^ 2 + (t.2.1 : ℝ) ^ 2 + (t.2.2 : ℝ) ^ 2 - 10 ^ 36) / 10 ^ 36 := by
    field_simp
  rw [e, abs_div, abs_of_pos (by positivity : (0 : ℝ) < 10 ^ 36), div_le_iff₀ (by positivity)]
  norm_num at h2 ⊢
  exact h2

theorem symR_nonneg {a b c : ℝ} (ha : 0 ≤ a) (hb : 0 ≤ b) (hc : 0 ≤ c) (i j k : Nat) :
    0 ≤ symR a b c i j k := by
  unfold symR; positivity

theorem symR_step (a b c : ℝ) (i j k : Nat) :
    symR a b c (i + 1) j k + symR a b c i (j + 1) k + symR a b c i j (k + 1) =
      (a + b + c) * symR a b c i j k := by
  unfold symR; ring

theorem evenMoment_step {rep : OctaRow → Nat × Nat × Nat} {rows : List OctaRow}
    (hn : ∀ r ∈ rows, octaNorm rep r = true) (hw : ∀ r ∈ rows, 0 ≤ r.w) (i j k : Nat) :
    0 ≤ evenMoment rep rows i j k ∧
    (1 - 3 / 10 ^ 16) * evenMoment rep rows i j k ≤
      evenMoment rep rows (i + 1) j k + evenMoment rep rows i (j + 1) k +
        evenMoment rep rows i j (k + 1) ∧
    evenMoment rep rows (i + 1) j k + evenMoment rep rows i (j + 1) k +
        evenMoment rep rows i j (k + 1) ≤ (1 + 3 / 10 ^ 16) * evenMoment rep rows i j k := by
  induction rows with
  | nil => simp [evenMoment]
  | cons r rows ih =>
    obtain ⟨i1, i2, i3⟩ := ih (fun r hr => hn r (List.mem_cons_of_mem _ hr))
      (fun r hr => hw r (List.mem_cons_of_mem _ hr))
    have h1 := octaNorm_real (hn r List.mem_cons_self)
    have h2 : (0 : ℝ) ≤ r.w := by exact_mod_cast hw r List.mem_cons_self
    obtain ⟨a, b, c⟩ := repR (rep r)
    have hs : ∀ i j k, evenMoment rep (r :: rows) i j k =
        (r.w : ℝ) / 10 ^ 21 * (r.kind.size / 6) * symR ((repR (rep r)).1 ^ 2)
          ((repR (rep r)).2.1 ^ 2) ((repR (rep r)).2.2 ^ 2) i j k + evenMoment rep rows i j k :=
      fun i j k => by simp [evenMoment]
    simp only [hs]
    generalize (repR (rep r)).1 = a at h1
    generalize (repR (rep r)).2.1 = b at h1
    generalize (repR (rep r)).2.2 = c at h1
    have hk : (0 : ℝ) ≤ (r.w : ℝ) / 10 ^ 21 * (r.kind.size / 6) := by positivity
    have h3 := symR_step (a ^ 2) (b ^ 2) (c ^ 2) i j k
    have h4 := symR_nonneg (sq_nonneg a) (sq_nonneg b) (sq_nonneg c) i j k
    obtain ⟨h5, h6⟩ := abs_le.1 h1
    generalize (r.w : ℝ) / 10 ^ 21 * (r.kind.size / 6) = κ at hk ⊢
    have h7 := mul_nonneg hk h4
    have h8 := mul_le_mul_of_nonneg_right (show (1 - 3 / 10 ^ 16 : ℝ) ≤ a ^ 2 + b ^ 2 + c ^ 2 by linarith) h7
    have h9 := mul_le_mul_of_nonneg_right (show a ^ 2 + b ^ 2 + c ^ 2 ≤ (1 + 3 / 10 ^ 16 : ℝ) by linarith) h7
    have h10 : κ * symR (a ^ 2) (b ^ 2) (c ^ 2) (i + 1) j k + κ * symR (a ^ 2) (b ^ 2) (c ^ 2) i (j + 1) k
        + κ * symR (a ^ 2) (b ^ 2) (c ^ 2) i j (k + 1) =
        (a ^ 2 + b ^ 2 + c ^ 2) * (κ * symR (a ^ 2) (b ^ 2) (c ^ 2) i j k) := by
      linear_combination κ * h3
    refine ⟨by linarith, by linarith, by linarith⟩

/-- Accuracy at the top degree gives accuracy at all lower even degrees. -/
theorem octa_lower {rep : OctaRow → Nat × Nat × Nat} {rows : List OctaRow} {d : Nat}
    (hn : ∀ r ∈ rows, octaNorm rep r = true) (hw : ∀ r ∈ rows, 0 ≤ r.w)
    (h : octaOkRange rep rows d 0 (d + 1) = true) (s : Nat) : ∀ i j k, i + j + k + s = d →
    (1 - 1 / 10 ^ 14) * meanEven i j k ≤ (1 + 3 / 10 ^ 16) ^ s * evenMoment rep rows i j k ∧
    (1 - 3 / 10 ^ 16) ^ s * evenMoment rep rows i j k ≤ (1 + 1 / 10 ^ 14) * meanEven i j k := by
  induction s with
  | zero =>
    intro i j k hd
    have := abs_le.1 (octaOkRange_real h i j k (by omega))
    rw [pow_zero, pow_zero]
    constructor <;> linarith
  | succ s ih =>
    intro i j k hd
    obtain ⟨a1, a2⟩ := ih (i + 1) j k (by omega)
    obtain ⟨b1, b2⟩ := ih i (j + 1) k (by omega)
    obtain ⟨c1, c2⟩ := ih i j (k + 1) (by omega)
    obtain ⟨e0, e1, e2⟩ := evenMoment_step hn hw i j k
    have hm := meanEven_step i j k
    have p1 : (0 : ℝ) ≤ (1 + 3 / 10 ^ 16) ^ s := by positivity
    have p2 : (0 : ℝ) ≤ (1 - 3 / 10 ^ 16) ^ s := by
      apply pow_nonneg; norm_num
    have q1 := mul_le_mul_of_nonneg_left e2 p1
    have q2 := mul_le_mul_of_nonneg_left e1 p2
    rw [pow_succ _ s, pow_succ _ s, ← hm]
    clear h hn hw ih e1 e2 hm p1 p2
    generalize (1 + 3 / 10 ^ 16 : ℝ) ^ s = A at *
    generalize (1 - 3 / 10 ^ 16 : ℝ) ^ s = B at *
    generalize (3 / 10 ^ 16 : ℝ) = δ at *
    generalize (1 / 10 ^ 14 : ℝ) = ε at *
    constructor <;> linarith

/-- What is known about the even moments of a grid up to degree `2 D`. -/
def OctaExact (rep : OctaRow → Nat × Nat × Nat) (rows : List OctaRow) (D : Nat) : Prop :=
  ∀ i j k, i + j + k ≤ D →
    |evenMoment rep rows i j k - meanEven i j k| ≤ 1 / 10 ^ 13 * meanEven i j k

theorem OctaExact.of_top {rep : OctaRow → Nat × Nat × Nat} {rows : List OctaRow} {D : Nat}
    (hD : D ≤ 65) (hn : ∀ r ∈ rows, octaNorm rep r = true) (hw : ∀ r ∈ rows, 0 ≤ r.w)
    (h : octaOkRange rep rows D 0 (D + 1) = true) : OctaExact rep rows D := by
  intro i j k hd
  obtain ⟨s, hs⟩ := Nat.exists_eq_add_of_le hd
  have hs' : s ≤ 65 := by omega
  obtain ⟨h1, h2⟩ := octa_lower hn hw h s i j k hs.symm
  have hm := meanEven_pos i j k
  have he := (evenMoment_step hn hw i j k).1
  have b1 : (1 + 3 / 10 ^ 16 : ℝ) ^ s ≤ (1 + 3 / 10 ^ 16) ^ 65 :=
    pow_le_pow_right₀ (by norm_num) hs'
  have b2 : (1 - 3 / 10 ^ 16 : ℝ) ^ 65 ≤ (1 - 3 / 10 ^ 16) ^ s :=
    pow_le_pow_of_le_one (by norm_num) (by norm_num) hs'
  have b3 : (1 + 3 / 10 ^ 16 : ℝ) ^ 65 ≤ 1 + 21 / 10 ^ 15 := by norm_num
  have b4 : (1 - 21 / 10 ^ 15 : ℝ) ≤ (1 - 3 / 10 ^ 16) ^ 65 := by norm_num
  have c1 : (1 + 3 / 10 ^ 16 : ℝ) ^ s * evenMoment rep rows i j k ≤
      (1 + 21 / 10 ^ 15) * evenMoment rep rows i j k :=
    mul_le_mul_of_nonneg_right (b1.trans b3) he
  have c2 : (1 - 21 / 10 ^ 15 : ℝ) * evenMoment rep rows i j k ≤
      (1 - 3 / 10 ^ 16) ^ s * evenMoment rep rows i j k :=
    mul_le_mul_of_nonneg_right (b4.trans b2) he
  rw [abs_le]
  constructor <;> nlinarith

theorem OctaExact.of_all {rep : OctaRow → Nat × Nat × Nat} {rows : List OctaRow} {D : Nat}
    (h : (List.range (D + 1)).all (fun d => octaOkRange rep rows d 0 (d + 1)) = true) :
    OctaExact rep rows D := by
  intro i j k hd
  rw [List.all_eq_true] at h
  have h1 := octaOkRange_real (h (i + j + k) (by rw [List.mem_range]; omega)) i j k rfl
  have hm := meanEven_pos i j k
  refine h1.trans (mul_le_mul_of_nonneg_right ?_ hm.le)
  norm_num

end IntegratorXX
