import Verif.Model.IcosaTables
import Verif.Lemmas.PowVec
import Verif.Lemmas.SphereInt
import Verif.Lemmas.OctaCheck
import Mathlib.Analysis.Real.Pi.Bounds
import Mathlib.Tactic.FinCases

/-!
# Moments of icosahedral grids

The points of an Ahrens-Beylkin file form orbits of the rotation group of the tetrahedron (cyclic
permutations and even sign changes); this symmetry is exact in the decimals.  It leaves two classes of
monomials `x^p y^q z^s`: all exponents even and all odd.  On the sphere `z²` may be eliminated, so
`s ≤ 1`.
-/

namespace IntegratorXX

open Spec Arith

/-! ## The sums over orbits -/

/-- The orbits under cyclic permutations and even sign changes, with weights. -/
def icosaOrbits (g : IcosaGrid) : List ((Int × Int × Int) × Int) :=
  (icosaVertex, g.w0) ::
    g.rows.flatMap fun r => [(r.p0, r.w), (r.p1, r.w), (r.p2, r.w), (r.p3, r.w), (r.p4, r.w)]

/-- The sum of a monomial over an orbit. -/
noncomputable def tetraSum (t : ℝ × ℝ × ℝ) (p q s : Nat) : ℝ :=
  (1 + (-1) ^ (q + s) + (-1) ^ (p + s) + (-1) ^ (p + q)) *
    (t.1 ^ p * t.2.1 ^ q * t.2.2 ^ s + t.2.1 ^ p * t.2.2 ^ q * t.1 ^ s +
      t.2.2 ^ p * t.1 ^ q * t.2.1 ^ s)

/-- A triple in `ℝ`. -/
noncomputable def tripleR (t : Int × Int × Int) : ℝ × ℝ × ℝ :=
  ((t.1 : ℝ) / 10 ^ 21, (t.2.1 : ℝ) / 10 ^ 21, (t.2.2 : ℝ) / 10 ^ 21)

theorem tripleAt_vals (t : Int × Int × Int) :
    tripleAt t 1 = t.1 ∧ tripleAt t (-1) = -t.1 ∧ tripleAt t 2 = t.2.1 ∧ tripleAt t (-2) = -t.2.1 ∧
      tripleAt t 3 = t.2.2 ∧ tripleAt t (-3) = -t.2.2 :=
  ⟨rfl, rfl, rfl, rfl, rfl, rfl⟩

theorem decimal_real (d : Nat) (v : Int) : (decimal d v : ℝ) = (v : ℝ) / 10 ^ d := by
  simp [decimal]

theorem icosaPoints_sum (r : IcosaRow) (p q s : Nat) :
    ((icosaPoints r : List (Pt ℝ)).map (fun u => u.x ^ p * u.y ^ q * u.z ^ s)).sum =
      tetraSum (tripleR r.p0) p q s + tetraSum (tripleR r.p1) p q s + tetraSum (tripleR r.p2) p q s +
      tetraSum (tripleR r.p3) p q s + tetraSum (tripleR r.p4) p q s := by
  obtain ⟨⟨a1, a2, a3⟩, ⟨b1, b2, b3⟩, ⟨c1, c2, c3⟩, ⟨d1, d2, d3⟩, ⟨e1, e2, e3⟩, w⟩ := r
  simp only [icosaPoints, icosaPattern, IcosaRow.triple, triplePoint, tripleAt_vals, List.map_cons,
    List.map_nil, List.sum_cons, List.sum_nil, decimal_real, Int.cast_neg, neg_div, tetraSum, tripleR]
  generalize (a1 : ℝ) / 10 ^ 21 = a1
  generalize (a2 : ℝ) / 10 ^ 21 = a2
  generalize (a3 : ℝ) / 10 ^ 21 = a3
  generalize (b1 : ℝ) / 10 ^ 21 = b1
  generalize (b2 : ℝ) / 10 ^ 21 = b2
  generalize (b3 : ℝ) / 10 ^ 21 = b3
  generalize (c1 : ℝ) / 10 ^ 21 = c1
  generalize (c2 : ℝ) / 10 ^ 21 = c2
  generalize (c3 : ℝ) / 10 ^ 21 = c3
  generalize (d1 : ℝ) / 10 ^ 21 = d1
  generalize (d2 : ℝ) / 10 ^ 21 = d2
  generalize (d3 : ℝ) / 10 ^ 21 = d3
  generalize (e1 : ℝ) / 10 ^ 21 = e1
  generalize (e2 : ℝ) / 10 ^ 21 = e2
  generalize (e3 : ℝ) / 10 ^ 21 = e3
  simp only [neg_pow a1, neg_pow a2, neg_pow a3, neg_pow b1, neg_pow b2, neg_pow b3, neg_pow c1,
    neg_pow c2, neg_pow c3, neg_pow d1, neg_pow d2, neg_pow d3, neg_pow e1, neg_pow e2, neg_pow e3]
  ring

theorem icosaVertex_sum (p q s : Nat) :
    ((icosaVertexPattern.map (triplePoint icosaVertex) : List (Pt ℝ)).map
      (fun u => u.x ^ p * u.y ^ q * u.z ^ s)).sum = tetraSum (tripleR icosaVertex) p q s := by
  have h0 : ((icosaVertex.1 : ℤ) : ℝ) = 0 := by simp [icosaVertex]
  simp only [icosaVertexPattern, triplePoint, tripleAt_vals, List.map_cons, List.map_nil,
    List.sum_cons, List.sum_nil, decimal_real, Int.cast_neg, neg_div, tetraSum, tripleR, h0, zero_div]
  generalize (icosaVertex.2.1 : ℝ) / 10 ^ 21 = a
  generalize (icosaVertex.2.2 : ℝ) / 10 ^ 21 = b
  simp only [neg_pow a, neg_pow b]
  have z : ∀ n : Nat, ((0 : ℝ) ^ n = 0) ∨ ((0 : ℝ) ^ n = 1 ∧ (-1 : ℝ) ^ n = 1) := by
    intro n; rcases n with _ | n
    · right; simp
    · left; simp
  rcases z p with hp | ⟨hp, hp'⟩ <;> rcases z q with hq | ⟨hq, hq'⟩ <;>
    rcases z s with hs | ⟨hs, hs'⟩ <;> simp only [pow_add, *] <;> ring

theorem ruleSum_append {P : Type} (x x' : List P) (w w' : List ℝ) (h : x.length = w.length)
    (f : P → ℝ) : ruleSum (x ++ x') (w ++ w') f = ruleSum x w f + ruleSum x' w' f := by
  unfold ruleSum
  rw [List.zip_append h, List.map_append, List.sum_append]

theorem ruleSum_const {P A : Type} (l : List A) (x : A → P) (w : ℝ) (f : P → ℝ) :
    ruleSum (l.map x) (l.map (fun _ => w)) f = w * ((l.map x).map f).sum := by
  unfold ruleSum
  rw [List.zip_map', List.map_map, List.map_map, ← List.sum_map_mul_left]
  congr 1

/-- The sum of a monomial over a grid. -/
theorem icosa_ruleSum (g : IcosaGrid) (p q s : Nat) :
    ruleSum (icosaGrid g : StaticGrid ℝ).points (icosaGrid g : StaticGrid ℝ).weights
      (fun u => u.x ^ p * u.y ^ q * u.z ^ s) =
    ((icosaOrbits g).map (fun o => (o.2 : ℝ) / 10 ^ 20 * tetraSum (tripleR o.1) p q s)).sum := by
  unfold icosaGrid icosaOrbits
  dsimp only
  rw [ruleSum_append _ _ _ _ (by simp), ruleSum_const, icosaVertex_sum, decimal_real,
    ruleSum_flatMap _ _ _ (fun r _ => by simp [icosaPoints, icosaWeights]), List.map_cons,
    List.sum_cons]
  congr 1
  induction g.rows with
  | nil => rfl
  | cons r rows ih =>
    rw [List.map_cons, List.sum_cons, ih, List.flatMap_cons, List.map_append, List.sum_append]
    congr 1
    have := icosaPoints_sum r p q s
    unfold icosaPoints at this
    unfold icosaPoints icosaWeights
    rw [ruleSum_const, this, decimal_real]
    simp only [List.map_cons, List.map_nil, List.sum_cons, List.sum_nil]
    ring

/-! ## The integer checks -/

/-- An orbit representative: the squares of the coordinates, the absolute value of the weight (times the
product of the coordinates for the odd class) and whether it is negative. -/
def orbitItem (odd : Bool) (o : (Int × Int × Int) × Int) : Nat × Nat × Nat × Nat × Bool :=
  (o.1.1.natAbs ^ 2, o.1.2.1.natAbs ^ 2, o.1.2.2.natAbs ^ 2,
    (o.2 * bif odd then o.1.1 * o.1.2.1 * o.1.2.2 else 1).natAbs,
    decide ((o.2 * bif odd then o.1.1 * o.1.2.1 * o.1.2.2 else 1) < 0))

/-- The orbits of a grid by blocks. -/
def icosaItems (odd : Bool) (g : IcosaGrid) : List (List (Nat × Nat × Nat × Nat × Bool)) :=
  [orbitItem odd (icosaVertex, g.w0)] :: g.rows.map fun r =>
    [orbitItem odd (r.p0, r.w), orbitItem odd (r.p1, r.w), orbitItem odd (r.p2, r.w),
      orbitItem odd (r.p3, r.w), orbitItem odd (r.p4, r.w)]

/-- `2^144 π · mean of x^(2i) y^(2j)`, or 0 for the odd class. -/
def icosaTarget (odd : Bool) (i j : Nat) : Nat :=
  bif odd then 0 else
    odf i * odf j * (314159265358979323846 * 2 ^ 144) / (odf (i + j + 1) * 10 ^ 20)

/-- The unit of the third component. -/
def icosaUnit (odd : Bool) : Nat := bif odd then 10 ^ 83 else 10 ^ 20

/-- The products `(i, j)` with `i0 ≤ i ≤ i0 + J` and `j0 ≤ j < j0 + J` of one orbit. -/
noncomputable def itemMat (odd : Bool) (i0 j0 J : Nat) (p : MomPrep)
    (e : Nat × Nat × Nat × Nat × Bool) : Nat :=
  (fun A B C m => Nat.add (Nat.mul (p.left i0 J A) (p.right j0 J B m))
      (Nat.add (Nat.mul (p.left i0 J B) (p.right j0 J C m))
        (Nat.mul (p.left i0 J C) (p.right j0 J A m))))
    (p.pow (Nat.div (Nat.mul e.1 (2 ^ 72)) (10 ^ 42)))
    (p.pow (Nat.div (Nat.mul e.2.1 (2 ^ 72)) (10 ^ 42)))
    (p.pow (Nat.div (Nat.mul e.2.2.1 (2 ^ 72)) (10 ^ 42)))
    (Nat.div (Nat.mul e.2.2.2.1 (2 ^ 72)) (icosaUnit odd))

/-- The moments `(i, j)` of one class with `i0 ≤ i ≤ i0 + J`, `j0 ≤ j < j0 + J` and `i + j ≤ L`, to
`10^-14`. -/
noncomputable def icosaCheck (odd : Bool) (g : IcosaGrid) (L n J i0 j0 : Nat) : Bool :=
  momPrep 156 72 n J fun p =>
    forceNat (sumLL (itemMat odd i0 j0 J p)
        ((icosaItems odd g).map (List.filter fun e => !e.2.2.2.2))) fun P =>
      forceNat (sumLL (itemMat odd i0 j0 J p)
          ((icosaItems odd g).map (List.filter fun e => e.2.2.2.2))) fun N =>
        slotsOk 156 (156 * (J + 1)) 1 0 0 (J + 1) J (2 ^ 144 / 10 ^ 14)
          (fun i j => Nat.ble (i0 + i + (j0 + j)) L)
          (fun i j => icosaTarget odd (i0 + i) (j0 + j)) P N

/-- All entries are at most 1. -/
def icosaBound (odd : Bool) (g : IcosaGrid) : Bool :=
  (icosaItems odd g).all fun l => l.all fun e =>
    Nat.ble e.1 (10 ^ 42) && Nat.ble e.2.1 (10 ^ 42) && Nat.ble e.2.2.1 (10 ^ 42) &&
      Nat.ble e.2.2.2.1 (icosaUnit odd)

/-- All points have squared norm 1 up to `4·10^-16`. -/
def icosaNorm (g : IcosaGrid) : Bool :=
  (icosaOrbits g).all fun o =>
    decide ((o.1.1 ^ 2 + o.1.2.1 ^ 2 + o.1.2.2 ^ 2 - 10 ^ 42 : Int).natAbs ≤ 4 * 10 ^ 26)

/-! ## Soundness -/

theorem floor_close (N d : Nat) (hd : 0 < d) : |((N / d : Nat) : ℝ) - (N : ℝ) / d| ≤ 1 := by
  have hd' : (0 : ℝ) < d := by exact_mod_cast hd
  have h1 : (((N / d : Nat) : ℝ)) ≤ (N : ℝ) / d := Nat.cast_div_le
  have h2 : (N : ℝ) / d < ((N / d : Nat) : ℝ) + 1 := by
    rw [div_lt_iff₀ hd']
    have := Nat.lt_div_mul_add (a := N) hd
    have h3 : (N : ℝ) < ((N / d : Nat) : ℝ) * d + d := by exact_mod_cast this
    linarith
  rw [abs_le]; constructor <;> linarith

/-- The factor `xyz` of the odd class. -/
noncomputable def oddFactor (odd : Bool) (t : ℝ × ℝ × ℝ) : ℝ :=
  bif odd then t.1 * t.2.1 * t.2.2 else 1

/-- The products of one orbit in `ℝ`, without the sign. -/
noncomputable def itemReal (odd : Bool) (i j : Nat) (e : Nat × Nat × Nat × Nat × Bool) : ℝ :=
  ((e.1 : ℝ) / 10 ^ 42) ^ i * (((e.2.1 : ℝ) / 10 ^ 42) ^ j * ((e.2.2.2.1 : ℝ) / icosaUnit odd)) +
    (((e.2.1 : ℝ) / 10 ^ 42) ^ i * (((e.2.2.1 : ℝ) / 10 ^ 42) ^ j * ((e.2.2.2.1 : ℝ) / icosaUnit odd)) +
      ((e.2.2.1 : ℝ) / 10 ^ 42) ^ i * (((e.1 : ℝ) / 10 ^ 42) ^ j * ((e.2.2.2.1 : ℝ) / icosaUnit odd)))

/-- The sum over the orbits of one class. -/
noncomputable def classSum (odd : Bool) (g : IcosaGrid) (i j : Nat) : ℝ :=
  ((icosaOrbits g).map (fun o => (o.2 : ℝ) / 10 ^ 20 * (oddFactor odd (tripleR o.1) *
    (((tripleR o.1).1 ^ 2) ^ i * ((tripleR o.1).2.1 ^ 2) ^ j +
      ((tripleR o.1).2.1 ^ 2) ^ i * ((tripleR o.1).2.2 ^ 2) ^ j +
      ((tripleR o.1).2.2 ^ 2) ^ i * ((tripleR o.1).1 ^ 2) ^ j)))).sum

theorem itemReal_orbit (odd : Bool) (o : (Int × Int × Int) × Int) (i j : Nat) :
    (if (orbitItem odd o).2.2.2.2 then -1 else 1) * itemReal odd i j (orbitItem odd o) =
      (o.2 : ℝ) / 10 ^ 20 * (oddFactor odd (tripleR o.1) *
        (((tripleR o.1).1 ^ 2) ^ i * ((tripleR o.1).2.1 ^ 2) ^ j +
          ((tripleR o.1).2.1 ^ 2) ^ i * ((tripleR o.1).2.2 ^ 2) ^ j +
          ((tripleR o.1).2.2 ^ 2) ^ i * ((tripleR o.1).1 ^ 2) ^ j)) := by
  obtain ⟨⟨x, y, z⟩, w⟩ := o
  have hsq : ∀ v : Int, ((v.natAbs ^ 2 : Nat) : ℝ) / 10 ^ 42 = ((v : ℝ) / 10 ^ 21) ^ 2 := by
    intro v
    have : ((v.natAbs ^ 2 : Nat) : ℝ) = (v : ℝ) ^ 2 := by
      rw [Nat.cast_pow, Nat.cast_natAbs, Int.cast_abs, sq_abs]
    rw [this, div_pow]; norm_num
  have hm : ∀ v : Int, (if decide (v < 0) then (-1 : ℝ) else 1) * (v.natAbs : ℝ) = v := by
    intro v
    rcases lt_or_ge v 0 with h | h
    · have : ((v.natAbs : ℤ) : ℝ) = -(v : ℝ) := by
        rw [Int.ofNat_natAbs_of_nonpos h.le]; push_cast; ring
      simp only [h, decide_true, if_true]
      rw [← Int.cast_natCast, this]; ring
    · have : ((v.natAbs : ℤ) : ℝ) = (v : ℝ) := by rw [Int.natAbs_of_nonneg h]
      simp only [not_lt.2 h, decide_false]
      rw [← Int.cast_natCast, this]; simp
  have hu : (w * bif odd then x * y * z else 1 : Int) / (icosaUnit odd : ℝ) =
      (w : ℝ) / 10 ^ 20 * oddFactor odd (tripleR (x, y, z)) := by
    cases odd
    · simp only [icosaUnit, oddFactor, cond_false]
      push_cast
      ring
    · simp only [icosaUnit, oddFactor, tripleR, cond_true]
      push_cast
      field_simp
      norm_num
  unfold itemReal orbitItem
  dsimp only
  rw [hsq, hsq, hsq]
  have hm' := hm (w * bif odd then x * y * z else 1)
  generalize (w * bif odd then x * y * z else 1 : Int) = v at *
  have e1 : (w : ℝ) / 10 ^ 20 * (oddFactor odd (tripleR (x, y, z)) *
      (((tripleR (x, y, z)).1 ^ 2) ^ i * ((tripleR (x, y, z)).2.1 ^ 2) ^ j +
          ((tripleR (x, y, z)).2.1 ^ 2) ^ i * ((tripleR (x, y, z)).2.2 ^ 2) ^ j +
          ((tripleR (x, y, z)).2.2 ^ 2) ^ i * ((tripleR (x, y, z)).1 ^ 2) ^ j)) =
      (v : ℝ) / icosaUnit odd * ((((x : ℝ) / 10 ^ 21) ^ 2) ^ i * (((y : ℝ) / 10 ^ 21) ^ 2) ^ j +
        (((y : ℝ) / 10 ^ 21) ^ 2) ^ i * (((z : ℝ) / 10 ^ 21) ^ 2) ^ j +
        (((z : ℝ) / 10 ^ 21) ^ 2) ^ i * (((x : ℝ) / 10 ^ 21) ^ 2) ^ j) := by
    rw [hu]; simp only [tripleR]; ring
  rw [e1, ← hm']
  ring

/-- A sum with signs as a difference. -/
theorem sum_signs {E : Type} (l : List E) (b : E → Bool) (f : E → ℝ) :
    (l.map (fun e => (if b e then -1 else 1) * f e)).sum =
      ((l.filter (fun e => !b e)).map f).sum - ((l.filter b).map f).sum := by
  induction l with
  | nil => simp
  | cons e l ih =>
    rw [List.map_cons, List.sum_cons, ih]
    cases h : b e <;> simp [h] <;> ring

theorem icosaItems_flatten (odd : Bool) (g : IcosaGrid) :
    (icosaItems odd g).flatten = (icosaOrbits g).map (orbitItem odd) := by
  unfold icosaItems icosaOrbits
  rw [List.flatten_cons, List.map_cons, List.singleton_append]
  congr 1
  induction g.rows with
  | nil => rfl
  | cons r rows ih =>
    rw [List.map_cons, List.flatten_cons, ih, List.flatMap_cons, List.map_append]
    rfl

theorem classSum_eq (odd : Bool) (g : IcosaGrid) (i j : Nat) :
    classSum odd g i j =
      (((icosaItems odd g).flatten.filter (fun e => !e.2.2.2.2)).map (itemReal odd i j)).sum -
      (((icosaItems odd g).flatten.filter (fun e => e.2.2.2.2)).map (itemReal odd i j)).sum := by
  rw [← sum_signs, icosaItems_flatten, List.map_map]
  unfold classSum
  congr 1
  refine List.map_congr_left (fun o _ => ?_)
  rw [← itemReal_orbit]
  rfl

theorem icosaOrbits_length (g : IcosaGrid) : (icosaOrbits g).length = 1 + 5 * g.rows.length := by
  unfold icosaOrbits
  rw [List.length_cons, List.length_flatMap]
  simp only [List.length_cons, List.length_nil, List.map_const', List.sum_replicate]
  simp; ring

theorem icosaTarget_close (i j : Nat) :
    |(icosaTarget false i j : ℝ) - 2 ^ 144 * (Real.pi * meanEven i j 0)| ≤ 1 + 2 ^ 144 / 10 ^ 20 := by
  have ho := odf_pos (i + j + 1)
  have h1 := floor_close (odf i * odf j * (314159265358979323846 * 2 ^ 144)) (odf (i + j + 1) * 10 ^ 20)
    (by positivity)
  have e1 : ((odf i * odf j * (314159265358979323846 * 2 ^ 144) : Nat) : ℝ) /
      ((odf (i + j + 1) * 10 ^ 20 : Nat) : ℝ) =
      2 ^ 144 * (314159265358979323846 / 10 ^ 20 * meanEven i j 0) := by
    unfold meanEven
    rw [show odf 0 = 1 from rfl, add_zero]
    have : (0 : ℝ) < odf (i + j + 1) := by exact_mod_cast ho
    push_cast
    field_simp
    ring
  rw [e1] at h1
  have hp1 := Real.pi_gt_d20
  have hp2 := Real.pi_lt_d20
  have hm1 := (meanEven_pos i j 0).le
  have hm2 : meanEven i j 0 ≤ 1 := by
    have : ∀ s i j k, i + j + k = s → meanEven i j k ≤ 1 := by
      intro s
      induction s with
      | zero =>
        intro i j k h
        obtain ⟨rfl, rfl, rfl⟩ : i = 0 ∧ j = 0 ∧ k = 0 := by omega
        simp [meanEven, odf]
      | succ s ih =>
        intro i j k h
        rcases i with _ | i
        · rcases j with _ | j
          · rcases k with _ | k
            · omega
            · have := meanEven_step 0 0 k
              have := ih 0 0 k (by omega)
              have := meanEven_pos 1 0 k
              have := meanEven_pos 0 1 k
              linarith
          · have := meanEven_step 0 j k
            have := ih 0 j k (by omega)
            have := meanEven_pos 1 j k
            have := meanEven_pos 0 j (k + 1)
            linarith
        · have := meanEven_step i j k
          have := ih i j k (by omega)
          have := meanEven_pos i (j + 1) k
          have := meanEven_pos i j (k + 1)
          linarith
    exact this _ i j 0 rfl
  have h2 : |314159265358979323846 / 10 ^ 20 * meanEven i j 0 - Real.pi * meanEven i j 0| ≤
      1 / 10 ^ 20 := by
    rw [← sub_mul, abs_mul, abs_of_nonneg hm1]
    have : |(314159265358979323846 / 10 ^ 20 : ℝ) - Real.pi| ≤ 1 / 10 ^ 20 := by
      rw [abs_le]; constructor <;> norm_num at hp1 hp2 ⊢ <;> linarith
    calc _ ≤ 1 / 10 ^ 20 * (1 : ℝ) := by gcongr
      _ = _ := mul_one _
  have e2 : (icosaTarget false i j : ℝ) = ((odf i * odf j * (314159265358979323846 * 2 ^ 144) /
    (odf (i + j + 1) * 10 ^ 20) : Nat) : ℝ) := by
    unfold icosaTarget
    rw [cond_false]
  rw [e2]
  generalize ((odf i * odf j * (314159265358979323846 * 2 ^ 144) /
    (odf (i + j + 1) * 10 ^ 20) : Nat) : ℝ) = T at *
  have a1 := abs_le.1 h1
  have a2 := abs_le.1 h2
  rw [abs_le]
  constructor <;> linarith


theorem icosaUnit_pos (odd : Bool) : 0 < icosaUnit odd := by
  cases odd
  · exact Nat.pow_pos (by norm_num)
  · exact Nat.pow_pos (by norm_num)

theorem icosaBound_mem {odd : Bool} {g : IcosaGrid} (hb : icosaBound odd g = true) :
    ∀ e ∈ (icosaItems odd g).flatten, e.1 ≤ 10 ^ 42 ∧ e.2.1 ≤ 10 ^ 42 ∧ e.2.2.1 ≤ 10 ^ 42 ∧
      e.2.2.2.1 ≤ icosaUnit odd := by
  intro e he
  obtain ⟨l, hl, hel⟩ := List.mem_flatten.1 he
  unfold icosaBound at hb
  rw [List.all_eq_true] at hb
  have h1 := hb l hl
  rw [List.all_eq_true] at h1
  have h2 := h1 e hel
  simp only [Bool.and_eq_true, Nat.ble_eq] at h2
  exact ⟨h2.1.1.1, h2.1.1.2, h2.1.2, h2.2⟩

theorem itemMat_spec {odd : Bool} {i0 j0 J n : Nat} {e : Nat × Nat × Nat × Nat × Bool}
    (h1 : e.1 ≤ 10 ^ 42) (h2 : e.2.1 ≤ 10 ^ 42) (h3 : e.2.2.1 ≤ 10 ^ 42)
    (h4 : e.2.2.2.1 ≤ icosaUnit odd) (hi : i0 + (J + 1) ≤ n) (hj : j0 + J ≤ n) (hn : n ≤ 128) :
    HasMat 156 144 (J + 1) J 3 (itemMat odd i0 j0 J (momPrepOf 156 72 n J) e)
      (fun i j => itemReal odd (i0 + i) (j0 + j) e) (2 ^ 72 * 3078) := by
  have hn0 : 0 < n := by omega
  have hd : 0 < 10 ^ 42 := by positivity
  have cast : ∀ a : Nat, ((a : ℝ) / ((10 ^ 42 : Nat) : ℝ)) = (a : ℝ) / 10 ^ 42 := by
    intro a; rw [Nat.cast_pow, Nat.cast_ofNat]
  have f1 := fix_div 72 e.1 (10 ^ 42) hd h1
  have f2 := fix_div 72 e.2.1 (10 ^ 42) hd h2
  have f3 := fix_div 72 e.2.2.1 (10 ^ 42) hd h3
  have f4 := fix_div 72 e.2.2.2.1 (icosaUnit odd) (icosaUnit_pos odd) h4
  rw [cast] at f1 f2 f3
  have v1 := MomPrep.pow_spec (k := 156) (J := J) (by norm_num) hn0 hn f1
  have v2 := MomPrep.pow_spec (k := 156) (J := J) (by norm_num) hn0 hn f2
  have v3 := MomPrep.pow_spec (k := 156) (J := J) (by norm_num) hn0 hn f3
  have p1 := MomPrep.prod_spec (i0 := i0) (j0 := j0) (J := J) (by norm_num) v1 v2 f4 hi hj
  have p2 := MomPrep.prod_spec (i0 := i0) (j0 := j0) (J := J) (by norm_num) v2 v3 f4 hi hj
  have p3 := MomPrep.prod_spec (i0 := i0) (j0 := j0) (J := J) (by norm_num) v3 v1 f4 hi hj
  have q := p1.add (p2.add p3)
  refine HasMat.mono q ?_
  have : (n : ℝ) ≤ 128 := by exact_mod_cast hn
  have hp : (0 : ℝ) < 2 ^ 72 := by positivity
  generalize (2 : ℝ) ^ 72 = P at *
  nlinarith

theorem filter_flatten_map {E : Type} (l : List (List E)) (b : E → Bool) :
    (l.map (List.filter b)).flatten = l.flatten.filter b := by
  induction l with
  | nil => rfl
  | cons c l ih => rw [List.map_cons, List.flatten_cons, ih, List.flatten_cons, List.filter_append]

theorem icosaTarget_close' (odd : Bool) (i j : Nat) :
    |(icosaTarget odd i j : ℝ) - 2 ^ 144 * (if odd then 0 else Real.pi * meanEven i j 0)| ≤
      1 + 2 ^ 144 / 10 ^ 20 := by
  cases odd
  · exact icosaTarget_close i j
  · have : icosaTarget true i j = 0 := by unfold icosaTarget; rw [cond_true]
    rw [this, if_pos rfl, Nat.cast_zero, mul_zero, sub_zero, abs_zero]
    positivity

/-- The moments of one class for `i0 ≤ i < i1` and `j0 ≤ j < j1` are right. -/
def ClassOk (odd : Bool) (g : IcosaGrid) (L i0 i1 j0 j1 : Nat) : Prop :=
  ∀ i j, i0 ≤ i → i < i1 → j0 ≤ j → j < j1 → i + j ≤ L →
    |classSum odd g i j - (if odd then 0 else Real.pi * meanEven i j 0)| ≤ 12 / 10 ^ 15

/-- What a successful check says. -/
theorem icosaCheck_real {odd : Bool} {g : IcosaGrid} {L n J i0 j0 : Nat}
    (h : icosaCheck odd g L n J i0 j0 = true) (hb : icosaBound odd g = true)
    (hg : (icosaOrbits g).length ≤ 1300) (hi : i0 + (J + 1) ≤ n) (hj : j0 + J ≤ n) (hn : n ≤ 128) :
    ClassOk odd g L i0 (i0 + (J + 1)) j0 (j0 + J) := by
  intro i j hi0 hi1 hj0 hj1 hL
  obtain ⟨i, rfl⟩ : ∃ i', i = i0 + i' := ⟨i - i0, by omega⟩
  obtain ⟨j, rfl⟩ : ∃ j', j = j0 + j' := ⟨j - j0, by omega⟩
  unfold icosaCheck at h
  rw [momPrep_eq, forceNat_eq, forceNat_eq, sumLL_eq, sumLL_eq, filter_flatten_map,
    filter_flatten_map] at h
  have hmem := icosaBound_mem hb
  have hlen : (icosaItems odd g).flatten.length ≤ 1300 := by
    rw [icosaItems_flatten, List.length_map]; exact hg
  have hs : ∀ b : Nat × Nat × Nat × Nat × Bool → Bool, _ := fun b =>
    HasMat.sum (k := 156) (q := 144) (I := J + 1) (J := J) (c := 3)
      (f := itemMat odd i0 j0 J (momPrepOf 156 72 n J))
      (X := fun e i j => itemReal odd (i0 + i) (j0 + j) e) (e := 2 ^ 72 * 3078)
      ((icosaItems odd g).flatten.filter b) (fun e he => by
        obtain ⟨h1, h2, h3, h4⟩ := hmem e (List.mem_of_mem_filter he)
        exact itemMat_spec h1 h2 h3 h4 hi hj hn)
  have hl : ∀ b : Nat × Nat × Nat × Nat × Bool → Bool,
      ((icosaItems odd g).flatten.filter b).length ≤ 1300 :=
    fun b => (List.length_filter_le _ _).trans hlen
  have hlt : ∀ b : Nat × Nat × Nat × Nat × Bool → Bool,
      ((icosaItems odd g).flatten.filter b).length * 3 * 2 ^ 144 < 2 ^ 156 := by
    intro b
    have := hl b
    calc _ ≤ 1300 * 3 * 2 ^ 144 := by gcongr
      _ < _ := by norm_num
  have key := slotsOk_spec h (hs _) (hs _) (hlt _) (hlt _) (i := i) (j := j) (by omega) (by omega)
    (by omega) (by omega) (by rw [Nat.ble_eq]; omega)
  simp only [one_mul, add_zero] at key
  rw [← classSum_eq] at key
  have l1 : (((icosaItems odd g).flatten.filter (fun e => !e.2.2.2.2)).length : ℝ) ≤ 1300 := by
    exact_mod_cast hl _
  have l2 : (((icosaItems odd g).flatten.filter (fun e => e.2.2.2.2)).length : ℝ) ≤ 1300 := by
    exact_mod_cast hl _
  generalize (((icosaItems odd g).flatten.filter (fun e => !e.2.2.2.2)).length : ℝ) = N1 at *
  generalize (((icosaItems odd g).flatten.filter (fun e => e.2.2.2.2)).length : ℝ) = N2 at *
  generalize classSum odd g (i0 + i) (j0 + j) = X at *
  have ht := icosaTarget_close' odd (i0 + i) (j0 + j)
  generalize (icosaTarget odd (i0 + i) (j0 + j) : ℝ) = T at *
  generalize (if odd then 0 else Real.pi * meanEven (i0 + i) (j0 + j) 0 : ℝ) = Y at *
  have e0 : ((2 ^ 144 / 10 ^ 14 : Nat) : ℝ) ≤ 2 ^ 144 / 10 ^ 14 := by
    have := Nat.cast_div_le (α := ℝ) (m := 2 ^ 144) (n := 10 ^ 14)
    rw [Nat.cast_pow, Nat.cast_pow] at this
    exact_mod_cast this
  generalize ((2 ^ 144 / 10 ^ 14 : Nat) : ℝ) = Q at *
  clear h hs hlt hl hlen hmem hb
  have a1 := abs_le.1 key
  have a2 := abs_le.1 ht
  have b1 : N1 * (2 ^ 72 * 3078) ≤ 1300 * (2 ^ 72 * 3078) :=
    mul_le_mul_of_nonneg_right l1 (by positivity)
  have b2 : N2 * (2 ^ 72 * 3078) ≤ 1300 * (2 ^ 72 * 3078) :=
    mul_le_mul_of_nonneg_right l2 (by positivity)
  have num : (2 : ℝ) ^ 144 / 10 ^ 14 + 1300 * (2 ^ 72 * 3078) + 1300 * (2 ^ 72 * 3078) +
      (1 + 2 ^ 144 / 10 ^ 20) ≤ 2 ^ 144 * (12 / 10 ^ 15) := by norm_num
  have hP : (0 : ℝ) < 2 ^ 144 := by positivity
  generalize N1 * (2 ^ 72 * 3078) = M1 at *
  generalize N2 * (2 ^ 72 * 3078) = M2 at *
  generalize (1300 : ℝ) * (2 ^ 72 * 3078) = M at *
  generalize (2 : ℝ) ^ 144 / 10 ^ 14 = R1 at *
  generalize (2 : ℝ) ^ 144 / 10 ^ 20 = R2 at *
  generalize (2 : ℝ) ^ 144 = P at *
  generalize (12 / 10 ^ 15 : ℝ) = ε at *
  have c1 : P * (X - Y) ≤ P * ε := by linarith
  have c2 : P * (-ε) ≤ P * (X - Y) := by linarith
  exact abs_le.2 ⟨le_of_mul_le_mul_left c2 hP, le_of_mul_le_mul_left c1 hP⟩

end IntegratorXX
