import Verif.Lemmas.SphereZonal
import Verif.Prop.GridConvergence
import Verif.Prop.FloatGrid

/-!
# C113: the angular grids leave no holes on the sphere

A rule with positive weights that is exact for polynomials up to degree `2m - 1` has a point in every spherical cap
around a direction `u` that reaches down to the largest zero of the Legendre polynomial of degree `m`; the zero is
rounded down to three digits here.
-/

namespace IntegratorXX

open Spec Set Real MeasureTheory Metric

/-! ## Polynomials in one variable given by integer coefficients -/

private def evalL (t : ℝ) : List ℤ → ℝ
  | [] => 0
  | a :: l => a + t * evalL t l

private def addL : List ℤ → List ℤ → List ℤ
  | [], q => q
  | p, [] => p
  | a :: p, b :: q => (a + b) :: addL p q

private def mulL : List ℤ → List ℤ → List ℤ
  | [], _ => []
  | a :: p, q => addL (q.map (a * ·)) (0 :: mulL p q)

private theorem evalL_add (t : ℝ) (p q : List ℤ) : evalL t (addL p q) = evalL t p + evalL t q := by
  induction p generalizing q with
  | nil => simp [addL, evalL]
  | cons a p ih =>
    cases q with
    | nil => simp [addL, evalL]
    | cons b q =>
      simp only [addL, evalL, ih]
      push_cast
      ring

private theorem evalL_smul (t : ℝ) (a : ℤ) (q : List ℤ) : evalL t (q.map (a * ·)) = a * evalL t q := by
  induction q with
  | nil => simp [evalL]
  | cons b q ih =>
    simp only [List.map_cons, evalL, ih]
    push_cast
    ring

private theorem evalL_mul (t : ℝ) (p q : List ℤ) : evalL t (mulL p q) = evalL t p * evalL t q := by
  induction p with
  | nil => simp [mulL, evalL]
  | cons a p ih =>
    simp only [mulL, evalL_add, evalL_smul, evalL, ih]
    push_cast
    ring

/-- The test function `(N - 1000 t) r(t)²`. -/
private def gL (N : ℤ) (r : List ℤ) : List ℤ := mulL [N, -1000] (mulL r r)

/-- The integral from -1 to 1 of `t ^ k` times the polynomial. -/
private def integL : ℕ → List ℤ → ℚ
  | _, [] => 0
  | k, a :: l => (a : ℚ) * (if k % 2 = 0 then 2 / ((k : ℚ) + 1) else 0) + integL (k + 1) l

/-- The sum of the absolute values of the coefficients of `t ^ k` times the polynomial, weighted with powers of `B`. -/
private def normL (B : ℚ) : ℕ → List ℤ → ℚ
  | _, [] => 0
  | k, a :: l => |(a : ℚ)| * B ^ k + normL B (k + 1) l

private theorem ruleSum_add' {P : Type} (x : List P) (w : List ℝ) (f g : P → ℝ) (a : ℝ) :
    ruleSum x w (fun p => a * f p + g p) = a * ruleSum x w f + ruleSum x w g := by
  unfold ruleSum
  induction x.zip w with
  | nil => simp
  | cons e l ih =>
    simp only [List.map_cons, List.sum_cons, ih]
    ring

/-- A rule that integrates the powers of `t` up to errors `E B ^ k` integrates the polynomials in `t`. -/
private theorem rule_list {P : Type} (x : List P) (w : List ℝ) (t : P → ℝ) (E B : ℚ) (n : ℕ)
    (h : ∀ k < n, |ruleSum x w (fun p => t p ^ k) - 2 * π * ∫ s in (-1 : ℝ)..1, s ^ k| ≤ E * B ^ k)
    (l : List ℤ) (k : ℕ) (hk : k + l.length ≤ n) :
    |ruleSum x w (fun p => t p ^ k * evalL (t p) l) - 2 * π * integL k l| ≤ E * normL B k l := by
  induction l generalizing k with
  | nil =>
    have : ruleSum x w (fun p => t p ^ k * evalL (t p) []) = 0 := by
      unfold ruleSum
      simp [evalL]
    rw [this]
    simp [integL, normL]
  | cons a l ih =>
    have h1 := h k (by simp at hk; omega)
    have h2 := ih (k + 1) (by simp at hk; omega)
    have e : ruleSum x w (fun p => t p ^ k * evalL (t p) (a :: l)) =
        a * ruleSum x w (fun p => t p ^ k) + ruleSum x w (fun p => t p ^ (k + 1) * evalL (t p) l) := by
      rw [← ruleSum_add']
      congr 1
      funext p
      simp only [evalL]
      ring
    have hI : ∫ s in (-1 : ℝ)..1, s ^ k = if k % 2 = 0 then 2 / ((k : ℝ) + 1) else 0 := by
      rw [integral_pow]
      split
      · rename_i h0
        rw [Odd.neg_one_pow (Nat.odd_iff.2 (by omega : (k + 1) % 2 = 1))]
        norm_num
      · rw [Even.neg_one_pow (Nat.even_iff.2 (by omega : (k + 1) % 2 = 0))]
        norm_num
    rw [e]
    simp only [integL, normL]
    have hc : (((a : ℚ) * (if k % 2 = 0 then 2 / ((k : ℚ) + 1) else 0) + integL (k + 1) l : ℚ) : ℝ) =
        a * (∫ s in (-1 : ℝ)..1, s ^ k) + integL (k + 1) l := by
      rw [hI]
      split <;> push_cast <;> ring
    rw [hc]
    have h3 : |(a : ℝ) * (ruleSum x w (fun p => t p ^ k) - 2 * π * ∫ s in (-1 : ℝ)..1, s ^ k)| ≤
        |(a : ℝ)| * (E * B ^ k) := by
      rw [abs_mul]
      exact mul_le_mul_of_nonneg_left h1 (abs_nonneg _)
    rw [abs_le] at h2 h3 ⊢
    push_cast
    constructor <;> nlinarith [h2.1, h2.2, h3.1, h3.2]

/-- A rule with positive weights has a point with `t ≥ N / 1000`, if the test function has a negative integral. -/
private theorem no_hole {P : Type} (x : List P) (w : List ℝ) (t : P → ℝ) (E B : ℚ) (N : ℤ) (r : List ℤ)
    (hw : ∀ v ∈ w, 0 < v)
    (h : ∀ k < (gL N r).length,
      |ruleSum x w (fun p => t p ^ k) - 2 * π * ∫ s in (-1 : ℝ)..1, s ^ k| ≤ E * B ^ k)
    (hI : integL 0 (gL N r) ≤ 0) (hc : 6.28 * integL 0 (gL N r) + E * normL B 0 (gL N r) < 0) :
    ∃ p ∈ x, (N : ℝ) / 1000 ≤ t p := by
  by_contra hno
  push Not at hno
  have h1 := rule_list x w t E B _ h (gL N r) 0 (by omega)
  have h2 : 0 ≤ ruleSum x w (fun p => t p ^ 0 * evalL (t p) (gL N r)) := by
    unfold ruleSum
    refine List.sum_nonneg fun y hy => ?_
    obtain ⟨e, he, rfl⟩ := List.mem_map.1 hy
    obtain ⟨hx, hv⟩ := List.of_mem_zip (a := e.1) (b := e.2) he
    have h3 := hno _ hx
    have h4 : evalL (t e.1) (gL N r) = (N - 1000 * t e.1) * (evalL (t e.1) r) ^ 2 := by
      simp only [gL, evalL_mul, evalL]
      push_cast
      ring
    dsimp only
    rw [pow_zero, one_mul, h4]
    have h5 : 0 ≤ (N : ℝ) - 1000 * t e.1 := by
      rw [lt_div_iff₀ (by norm_num)] at h3
      linarith
    exact mul_nonneg (hw _ hv).le (mul_nonneg h5 (sq_nonneg _))
  have h6 : ((6.28 * integL 0 (gL N r) + E * normL B 0 (gL N r) : ℚ) : ℝ) < 0 := by exact_mod_cast hc
  have h7 : ((integL 0 (gL N r) : ℚ) : ℝ) ≤ 0 := by exact_mod_cast hI
  have hpi : 3.14 < π := pi_gt_d2
  push_cast at h6
  rw [abs_le] at h1
  nlinarith [h1.2]

/-- Orders, the guaranteed cosines in thousandths and the factors of the test functions (Legendre polynomials divided
by the factor of their largest zero, with rounded coefficients). -/
private def table : List (ℕ × ℤ × List ℤ) := [
  (1, -1, [100]),
  (3, 577, [58, 100]),
  (5, 774, [0, 77, 100]),
  (7, 861, [-10, -12, 86, 100]),
  (9, 906, [0, -26, -29, 91, 100]),
  (11, 932, [2, 2, -46, -49, 93, 100]),
  (13, 949, [0, 86, 91, -678, -715, 949, 1000]),
  (15, 960, [-6, -6, 198, 206, -907, -945, 960, 1000]),
  (17, 967, [0, -23, -23, 308, 319, -968, -1000, 820, 847])]

private def tableOcta : List (ℕ × ℤ × List ℤ) := [
  (17, 968, [0, -227, -234, 3084, 3186, -9682, -10000, 8203, 8472]),
  (19, 973, [1, 1, -53, -55, 414, 425, -974, -1000, 686, 704]),
  (21, 977, [0, 5, 5, -100, -102, 524, 536, -978, -1000, 589, 602]),
  (23, 978, [-2, -2, 141, 143, -1635, -1665, 6376, 6495, -9816, -10000, 5150, 5246])]

private def checkRow (E B : ℚ) (e : ℕ × ℤ × List ℤ) : Bool :=
  decide ((gL e.2.1 e.2.2).length = e.1 + 1) && decide (integL 0 (gL e.2.1 e.2.2) ≤ 0) &&
    decide (6.28 * integL 0 (gL e.2.1 e.2.2) + E * normL B 0 (gL e.2.1 e.2.2) < 0)

private theorem check_octa :
    (table ++ tableOcta).all (checkRow (13 / 10 ^ 13) (17321 / 10000)) = true := by decide +kernel

private theorem check_other : table.all (checkRow (6 / 10 ^ 14) 3) = true := by decide +kernel

private theorem hole_row (b : Build) (fam : AngFam) (n : Nat) (h : fam.orderByNpts n ≠ -1)
    (hl : ¬ (fam = .lebedevLaikov ∧ (n = 74 ∨ n = 230 ∨ n = 266)))
    (ha : ¬ (fam = .ahrensBeylkin ∧ (n = 552 ∨ n = 1572))) (u : Pt ℝ) (hu : normSq u = 1)
    (E B : ℚ) (e : ℕ × ℤ × List ℤ) (hcheck : checkRow E B e = true) (ho : (e.1 : Int) ≤ fam.orderByNpts n)
    (hE : ∀ k, tableErr fam k * √3 ^ k ≤ E * B ^ k) :
    Returns (angConstruct b (angData ℝ) fam n) (fun q =>
      ∃ x ∈ q.points, (e.2.1 : ℝ) / 1000 ≤ u.x * x.x + u.y * x.y + u.z * x.z) := by
  obtain ⟨q, hq, hw⟩ := C65_positive b fam n h hl (fun hh => ha ⟨hh.1, Or.inr hh.2⟩)
  refine ⟨q, hq, ?_⟩
  simp only [checkRow, Bool.and_eq_true, decide_eq_true_eq] at hcheck
  obtain ⟨⟨hlen, hI⟩, hc⟩ := hcheck
  refine no_hole q.points q.weights (fun x => u.x * x.x + u.y * x.y + u.z * x.z) E B e.2.1 e.2.2 hw ?_ hI hc
  intro k hk
  obtain ⟨a, ea, -, -, -, h4⟩ := angular_facts b fam n h (fun hh => ha ⟨hh.1, Or.inl hh.2⟩) (dirPoly_hom u k) (by omega)
  rw [hq] at ea
  injection ea with ea
  subst ea
  rw [sphereInt_dirPoly u hu] at h4
  have hf : polyAt (dirPoly u ^ k) = fun x => (u.x * x.x + u.y * x.y + u.z * x.z) ^ k := by
    funext x
    exact polyAt_dirPoly u x k
  rw [hf] at h4
  refine h4.trans (le_trans ?_ (hE k))
  refine mul_le_mul_of_nonneg_left (coeffSum_dirPoly u hu k) ?_
  cases fam <;> simp only [tableErr] <;> positivity

private theorem err_octa {fam : AngFam} (hf : fam = .lebedevLaikov ∨ fam = .delley) (k : ℕ) :
    tableErr fam k * √3 ^ k ≤ ((13 / 10 ^ 13 : ℚ) : ℝ) * ((17321 / 10000 : ℚ) : ℝ) ^ k := by
  have h3 : √3 ≤ ((17321 / 10000 : ℚ) : ℝ) := by
    rw [Real.sqrt_le_left (by norm_num)]
    norm_num
  have h1 : tableErr fam k ≤ ((13 / 10 ^ 13 : ℚ) : ℝ) := by
    have e : tableErr fam k = 4 * π / 10 ^ 13 := by rcases hf with rfl | rfl <;> rfl
    rw [e]
    have := pi_lt_d2
    push_cast
    rw [div_le_div_iff_of_pos_right (by norm_num)]
    linarith
  exact mul_le_mul h1 (pow_le_pow_left₀ (Real.sqrt_nonneg _) h3 k) (by positivity) (by norm_num)

private theorem err_other {fam : AngFam} (hf : fam = .ahrensBeylkin ∨ fam = .womersley) (k : ℕ) :
    tableErr fam k * √3 ^ k ≤ ((6 / 10 ^ 14 : ℚ) : ℝ) * ((3 : ℚ) : ℝ) ^ k := by
  have e : tableErr fam k = 3 ^ (k / 2) * (6 / 10 ^ 14) := by rcases hf with rfl | rfl <;> rfl
  have hs : √3 ^ 2 = (3 : ℝ) := Real.sq_sqrt (by norm_num)
  have h1 : (1 : ℝ) ≤ √3 := Real.one_le_sqrt.2 (by norm_num)
  have h2 : (3 : ℝ) ^ (k / 2) ≤ √3 ^ k := by
    nth_rewrite 1 [← hs]
    rw [← pow_mul]
    exact pow_le_pow_right₀ h1 (Nat.mul_div_le k 2)
  have h4 : √3 ^ k * √3 ^ k = (3 : ℝ) ^ k := by rw [← mul_pow, ← sq, hs]
  rw [e]
  have h5 : (0 : ℝ) < √3 ^ k := by positivity
  push_cast
  nlinarith

/-- **C113.**  Let an angular grid have positive weights (all supported grids except the four of C65; AhrensBeylkin 552
is excluded too, see C67) and order at least `L`.  Then within the angle `arccos c` of every direction there is a point of
the grid, where `c = 0.577` for `L = 3`, up to `c = 0.967` (about 15 degrees) for `L = 17`. -/
theorem C113_no_holes (b : Build) (fam : AngFam) (n : Nat) (h : fam.orderByNpts n ≠ -1)
    (hl : ¬ (fam = .lebedevLaikov ∧ (n = 74 ∨ n = 230 ∨ n = 266)))
    (ha : ¬ (fam = .ahrensBeylkin ∧ (n = 552 ∨ n = 1572))) (u : Pt ℝ) (hu : normSq u = 1) (L : ℕ) (N : ℤ)
    (hLN : (L, N) ∈ [(1, (-1 : ℤ)), (3, 577), (5, 774), (7, 861), (9, 906), (11, 932), (13, 949), (15, 960), (17, 967)])
    (ho : (L : Int) ≤ fam.orderByNpts n) :
    Returns (angConstruct b (angData ℝ) fam n) (fun q =>
      ∃ x ∈ q.points, (N : ℝ) / 1000 ≤ u.x * x.x + u.y * x.y + u.z * x.z) := by
  obtain ⟨r, hr⟩ : ∃ r, (L, N, r) ∈ table := by
    simp only [List.mem_cons, List.not_mem_nil, or_false, Prod.mk.injEq] at hLN
    rcases hLN with ⟨rfl, rfl⟩ | ⟨rfl, rfl⟩ | ⟨rfl, rfl⟩ | ⟨rfl, rfl⟩ | ⟨rfl, rfl⟩ | ⟨rfl, rfl⟩ | ⟨rfl, rfl⟩ |
      ⟨rfl, rfl⟩ | ⟨rfl, rfl⟩ <;> simp [table]
  have h1 := List.all_eq_true.1 check_octa (L, N, r) (List.mem_append_left _ hr)
  have h2 := List.all_eq_true.1 check_other (L, N, r) hr
  cases fam with
  | lebedevLaikov => exact hole_row b _ n h hl ha u hu _ _ _ h1 ho (err_octa (Or.inl rfl))
  | delley => exact hole_row b _ n h hl ha u hu _ _ _ h1 ho (err_octa (Or.inr rfl))
  | ahrensBeylkin => exact hole_row b _ n h hl ha u hu _ _ _ h2 ho (err_other (Or.inl rfl))
  | womersley => exact hole_row b _ n h hl ha u hu _ _ _ h2 ho (err_other (Or.inr rfl))

/-- The octahedral families, whose tables integrate with a smaller error, further. -/
theorem C113_no_holes_octahedral (b : Build) (fam : AngFam) (hf : fam = .lebedevLaikov ∨ fam = .delley) (n : Nat)
    (h : fam.orderByNpts n ≠ -1)
    (hl : ¬ (fam = .lebedevLaikov ∧ (n = 74 ∨ n = 230 ∨ n = 266))) (u : Pt ℝ) (hu : normSq u = 1) (L : ℕ) (N : ℤ)
    (hLN : (L, N) ∈ [(17, (968 : ℤ)), (19, 973), (21, 977), (23, 978)]) (ho : (L : Int) ≤ fam.orderByNpts n) :
    Returns (angConstruct b (angData ℝ) fam n) (fun q =>
      ∃ x ∈ q.points, (N : ℝ) / 1000 ≤ u.x * x.x + u.y * x.y + u.z * x.z) := by
  obtain ⟨r, hr⟩ : ∃ r, (L, N, r) ∈ tableOcta := by
    simp only [List.mem_cons, List.not_mem_nil, or_false, Prod.mk.injEq] at hLN
    rcases hLN with ⟨rfl, rfl⟩ | ⟨rfl, rfl⟩ | ⟨rfl, rfl⟩ | ⟨rfl, rfl⟩ <;> simp [tableOcta]
  have h1 := List.all_eq_true.1 check_octa (L, N, r) (List.mem_append_right _ hr)
  refine hole_row b fam n h hl (fun hh => ?_) u hu _ _ _ h1 ho (err_octa hf)
  rcases hf with rfl | rfl <;> exact absurd hh.1 (by decide)

/-- The grid computed in `double` is as dense, up to `2^-51`. -/
theorem C113_no_holes_double {Lm : Libm} (b : Build) (fam : AngFam) (n : Nat) (h : fam.orderByNpts n ≠ -1)
    (hl : ¬ (fam = .lebedevLaikov ∧ (n = 74 ∨ n = 230 ∨ n = 266)))
    (ha : ¬ (fam = .ahrensBeylkin ∧ (n = 552 ∨ n = 1572))) (u : Pt ℝ) (hu : normSq u = 1) (L : ℕ) (N : ℤ)
    (hLN : (L, N) ∈ [(1, (-1 : ℤ)), (3, 577), (5, 774), (7, 861), (9, 906), (11, 932), (13, 949), (15, 960), (17, 967)] ∨
      (fam = .lebedevLaikov ∨ fam = .delley) ∧ (L, N) ∈ [(17, (968 : ℤ)), (19, 973), (21, 977), (23, 978)])
    (ho : (L : Int) ≤ fam.orderByNpts n) :
    Returns (angConstruct b (angData (F64 Lm)) fam n) (fun q =>
      ∃ x y z : ℝ, ⟨F64.fin x, F64.fin y, F64.fin z⟩ ∈ q.points ∧
        (N : ℝ) / 1000 - 2⁻¹ ^ 51 ≤ u.x * x + u.y * y + u.z * z) := by
  obtain ⟨q, a, e1, e2, -, -, h1, -⟩ := C85_angular_double (L := Lm) b fam n h
  obtain ⟨a', e3, p, hp, hc⟩ : Returns (angConstruct b (angData ℝ) fam n) (fun q =>
      ∃ x ∈ q.points, (N : ℝ) / 1000 ≤ u.x * x.x + u.y * x.y + u.z * x.z) := by
    rcases hLN with h1 | ⟨hf, h1⟩
    · exact C113_no_holes b fam n h hl ha u hu L N h1 ho
    · exact C113_no_holes_octahedral b fam hf n h hl u hu L N h1 ho
  rw [e2] at e3
  injection e3 with e3
  subst e3
  obtain ⟨a', e3, hn⟩ := C64_unit_points b fam n h
  rw [e2] at e3
  injection e3 with e3
  subst e3
  refine ⟨q, e1, ?_⟩
  obtain ⟨i, hi, rfl⟩ := List.mem_iff_getElem.1 hp
  have hi' : i < q.points.length := by rw [h1.length_eq]; exact hi
  have h2 := (List.forall₂_iff_get.1 h1).2 i hi' hi
  simp only [List.get_eq_getElem] at h2
  have hmem := List.getElem_mem hi'
  have hn1 := hn _ hp
  generalize a.points[i] = P at *
  generalize q.points[i] = Q at *
  obtain ⟨qx, qy, qz⟩ := Q
  obtain ⟨⟨x, ex, -, hx⟩, ⟨y, ey, -, hy⟩, ⟨z, ez, -, hz⟩⟩ := h2
  dsimp only at ex ey ez
  subst ex ey ez
  refine ⟨x, y, z, hmem, ?_⟩
  have key : ∀ s v r : ℝ, |v - r| ≤ 2⁻¹ ^ 52 * |r| → s * r - 2⁻¹ ^ 52 * ((s ^ 2 + r ^ 2) / 2) ≤ s * v := by
    intro s v r hv
    have k1 : |s * (v - r)| ≤ 2⁻¹ ^ 52 * (|s| * |r|) := by
      rw [abs_mul]
      calc |s| * |v - r| ≤ |s| * (2⁻¹ ^ 52 * |r|) := mul_le_mul_of_nonneg_left hv (abs_nonneg _)
        _ = _ := by ring
    have k2 : |s| * |r| ≤ (s ^ 2 + r ^ 2) / 2 := by
      nlinarith [sq_nonneg (|s| - |r|), sq_abs s, sq_abs r]
    have k3 : (2⁻¹ : ℝ) ^ 52 * (|s| * |r|) ≤ 2⁻¹ ^ 52 * ((s ^ 2 + r ^ 2) / 2) :=
      mul_le_mul_of_nonneg_left k2 (by positivity)
    have := (abs_le.1 k1).1
    nlinarith
  have kx := key u.x _ _ hx
  have ky := key u.y _ _ hy
  have kz := key u.z _ _ hz
  unfold normSq at hu
  have hn2 := (abs_le.1 hn1).2
  have e4 : (2⁻¹ : ℝ) ^ 51 = 2⁻¹ ^ 52 * 2 := by norm_num
  rw [e4]
  have h9 : (0 : ℝ) < 2⁻¹ ^ 52 := by positivity
  have h10 : (2⁻¹ : ℝ) ^ 52 * ((u.x ^ 2 + P.x ^ 2) / 2) + 2⁻¹ ^ 52 * ((u.y ^ 2 + P.y ^ 2) / 2) +
      2⁻¹ ^ 52 * ((u.z ^ 2 + P.z ^ 2) / 2) ≤ 2⁻¹ ^ 52 * 2 := by
    rw [← mul_add, ← mul_add]
    refine mul_le_mul_of_nonneg_left ?_ h9.le
    norm_num at hn2 ⊢
    linarith
  linarith

/-- The bound for order 3 cannot be improved by more than 0.001: the six points of the smallest Lebedev-Laikov grid. -/
theorem C113_sharp (b : Build) :
    Returns (angConstruct b (angData ℝ) .lebedevLaikov 6) (fun q => AngFam.lebedevLaikov.orderByNpts 6 = 3 ∧
      ∃ u, normSq u = 1 ∧ ∀ x ∈ q.points, u.x * x.x + u.y * x.y + u.z * x.z ≤ 578 / 1000) := by
  refine ⟨_, angData_construct b _ 6 (by decide +kernel), by decide +kernel, ⟨1 / √3, 1 / √3, 1 / √3⟩, ?_, ?_⟩
  · have h : √3 ^ 2 = (3 : ℝ) := Real.sq_sqrt (by norm_num)
    simp only [normSq, div_pow, h]
    norm_num
  · have e : angData ℝ .lebedevLaikov 6 = octaGrid OctaKind.llPattern Tables.llRows6 := rfl
    have h0 : 0 < (√3)⁻¹ := by positivity
    have h1 : 1 / √3 ≤ 578 / 1000 := by
      rw [div_le_iff₀ (by positivity)]
      have : (1000 / 578 : ℝ) ≤ √3 := Real.le_sqrt_of_sq_le (by norm_num)
      linarith
    intro x hx
    rw [e] at hx
    simp only [octaGrid, Tables.llRows6, List.flatMap_cons, List.flatMap_nil, List.append_nil, octaPoints,
      OctaKind.llPattern, List.map_cons, List.map_nil, List.mem_cons, List.not_mem_nil, or_false, OctaRow.coord] at hx
    rcases hx with rfl | rfl | rfl | rfl | rfl | rfl <;> norm_num [Arith.lit] <;> norm_num at h1 <;> linarith

/-- Instance: the Lebedev-Laikov grid with 302 points and the direction (0.6, 0.8, 0). -/
example (b : Build) : Returns (angConstruct b (angData ℝ) .lebedevLaikov 302) (fun q =>
    ∃ x ∈ q.points, ((978 : ℤ) : ℝ) / 1000 ≤ 0.6 * x.x + 0.8 * x.y + 0 * x.z) :=
  C113_no_holes_octahedral b .lebedevLaikov (Or.inl rfl) 302 (by decide +kernel) (by decide) ⟨0.6, 0.8, 0⟩
    (by norm_num [normSq]) 23 978 (by simp) (by decide +kernel)

/-- Instance: the Womersley grid with 18 points (order 5). -/
example (b : Build) : Returns (angConstruct b (angData ℝ) .womersley 18) (fun q =>
    ∃ x ∈ q.points, ((774 : ℤ) : ℝ) / 1000 ≤ 0 * x.x + 0.28 * x.y + 0.96 * x.z) :=
  C113_no_holes b .womersley 18 (by decide +kernel) (by decide) (by decide) ⟨0, 0.28, 0.96⟩
    (by norm_num [normSq]) 5 774 (by simp) (by decide +kernel)

end IntegratorXX
