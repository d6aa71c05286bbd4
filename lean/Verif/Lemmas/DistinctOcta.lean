import Mathlib.Data.List.Flatten
import Mathlib.Tactic.Ring
import Mathlib.Tactic.Linarith
import Verif.Lemmas.Distinct
import Verif.Model.OctaTables
import Verif.Model.IcosaTables
import Verif.Arith
import Verif.Spec.Apart

/-!
# The points of the octahedral and icosahedral grids are distinct

Points of different orbits differ in the sum of the fourth powers of their coordinates, by so much that they differ in
a coordinate by at least `2^-36`.
-/

set_option maxRecDepth 20000

namespace IntegratorXX

open Arith Tables Spec

/-- The sum of the fourth powers of the coordinates. -/
def quartic (u : Pt ℝ) : ℝ := u.x ^ 4 + u.y ^ 4 + u.z ^ 4

/-! ## Octahedral tables -/

/-- The absolute value of a place. -/
def OctaRow.place (r : OctaRow) (s : Int) : Nat :=
  match s.natAbs with
  | 1 => r.a
  | 2 => r.b
  | 3 => r.c
  | _ => 0

/-- The sum of the fourth powers of the coordinates of an orbit. -/
def OctaRow.key (t : OctaKind → Int × Int × Int) (r : OctaRow) : Nat :=
  r.place (t r.kind).1 ^ 4 + r.place (t r.kind).2.1 ^ 4 + r.place (t r.kind).2.2 ^ 4

theorem quartic_apart {u v : Pt ℝ} {G : ℝ} (hu : |u.x| ≤ 2 ∧ |u.y| ≤ 2 ∧ |u.z| ≤ 2)
    (hv : |v.x| ≤ 2 ∧ |v.y| ≤ 2 ∧ |v.z| ≤ 2) (hG : 96 * 2⁻¹ ^ 36 ≤ G) (h : G ≤ |quartic u - quartic v|) :
    PtApart (2⁻¹ ^ 36) u v := by
  by_contra hc
  unfold PtApart at hc
  push Not at hc
  obtain ⟨h1, h2, h3⟩ := hc
  have one : ∀ a b : ℝ, |a| ≤ 2 → |b| ≤ 2 → |a - b| < 2⁻¹ ^ 36 → |a ^ 4 - b ^ 4| < 32 * 2⁻¹ ^ 36 := by
    intro a b ha hb hab
    have e : a ^ 4 - b ^ 4 = (a - b) * ((a + b) * (a ^ 2 + b ^ 2)) := by ring
    have ha2 : a ^ 2 ≤ 4 := by rw [← sq_abs]; nlinarith [abs_nonneg a]
    have hb2 : b ^ 2 ≤ 4 := by rw [← sq_abs]; nlinarith [abs_nonneg b]
    have hs : |(a + b) * (a ^ 2 + b ^ 2)| ≤ 4 * 8 := by
      rw [abs_mul]
      have h1 : |a + b| ≤ 4 := (abs_add_le _ _).trans (by linarith)
      have h2 : |a ^ 2 + b ^ 2| ≤ 8 := by rw [abs_of_nonneg (by positivity)]; linarith
      exact mul_le_mul h1 h2 (abs_nonneg _) (by norm_num)
    rw [e, abs_mul]
    calc |a - b| * |(a + b) * (a ^ 2 + b ^ 2)| ≤ |a - b| * (4 * 8) := by gcongr
      _ < 32 * 2⁻¹ ^ 36 := by linarith
  have f1 := one _ _ hu.1 hv.1 h1
  have f2 := one _ _ hu.2.1 hv.2.1 h2
  have f3 := one _ _ hu.2.2 hv.2.2 h3
  have e : quartic u - quartic v = (u.x ^ 4 - v.x ^ 4) + (u.y ^ 4 - v.y ^ 4) + (u.z ^ 4 - v.z ^ 4) := by
    unfold quartic; ring
  rw [e] at h
  have := abs_add_le (u.x ^ 4 - v.x ^ 4 + (u.y ^ 4 - v.y ^ 4)) (u.z ^ 4 - v.z ^ 4)
  have := abs_add_le (u.x ^ 4 - v.x ^ 4) (u.y ^ 4 - v.y ^ 4)
  linarith

/-- Two numbers differ by at least `D`. -/
def natApart (D a b : Nat) : Bool := Nat.ble (a + D) b || Nat.ble (b + D) a

theorem natApart_iff {D a b : Nat} : natApart D a b = true ↔ a + D ≤ b ∨ b + D ≤ a := by
  unfold natApart
  rw [Bool.or_eq_true, Nat.ble_eq, Nat.ble_eq]

/-- `2^-36` in units of `10^-18`, rounded up. -/
def octaD : Nat := 14551916

/-- A value between this and 2. -/
def octaVal (a : Nat) : Bool := Nat.ble octaD a && Nat.ble a (2 * 10 ^ 18)

/-- The values used by an orbit are not 0 and distinct. -/
def OctaRow.proper (r : OctaRow) : Bool :=
  match r.kind with
  | .vertex => octaVal r.a
  | .face => octaVal r.a
  | .edge => octaVal r.a
  | .plane => octaVal r.a && (octaVal r.b && natApart octaD r.a r.b)
  | .mirror => octaVal r.a && (octaVal r.b && natApart octaD r.a r.b)
  | .general => octaVal r.a && (octaVal r.b && (octaVal r.c && (natApart octaD r.a r.b &&
      (natApart octaD r.a r.c && natApart octaD r.b r.c))))

/-- The places used by an orbit. -/
def OctaKind.places : OctaKind → List Int
  | .vertex => [0, 1, -1]
  | .face => [0, 1, -1]
  | .edge => [0, 1, -1]
  | .plane => [0, 1, -1, 2, -2]
  | .mirror => [0, 1, -1, 2, -2]
  | .general => [0, 1, -1, 2, -2, 3, -3]

/-- The first point of the orbits in each kind of file. -/
def llFirst (k : OctaKind) : Int × Int × Int := (OctaKind.llPattern k).headD (0, 0, 0)
/-- The same. -/
def deFirst (k : OctaKind) : Int × Int × Int := (OctaKind.dePattern k).headD (0, 0, 0)

/-- What is needed of the patterns. -/
def PatternProper (pattern : OctaKind → List (Int × Int × Int)) (first : OctaKind → Int × Int × Int) : Prop :=
  ∀ k, (pattern k).Nodup ∧ ∀ t ∈ pattern k, t.1 ∈ k.places ∧ t.2.1 ∈ k.places ∧ t.2.2 ∈ k.places ∧
    [t.1.natAbs, t.2.1.natAbs, t.2.2.natAbs].Perm [(first k).1.natAbs, (first k).2.1.natAbs, (first k).2.2.natAbs]

theorem llPattern_proper : PatternProper OctaKind.llPattern llFirst := by
  intro k
  cases k <;> decide +kernel

theorem dePattern_proper : PatternProper OctaKind.dePattern deFirst := by
  intro k
  cases k <;> decide +kernel

/-- The value of a signed place, in units. -/
def OctaRow.unit (r : OctaRow) (s : Int) : Int :=
  match s with
  | 1 => r.a
  | -1 => -r.a
  | 2 => r.b
  | -2 => -r.b
  | 3 => r.c
  | -3 => -r.c
  | _ => 0

theorem OctaRow.coord_unit (r : OctaRow) (s : Int) : r.coord s = (r.unit s : Rat) / 10 ^ 18 := by
  unfold OctaRow.coord OctaRow.unit
  split <;> simp [neg_div]

theorem OctaRow.unit_place (r : OctaRow) {k : OctaKind} {s : Int} (hs : s ∈ k.places) :
    (r.unit s) ^ 4 = ((r.place s ^ 4 : Nat) : Int) := by
  have h : s ∈ ([0, 1, -1, 2, -2, 3, -3] : List Int) := by
    revert hs
    cases k <;> simp only [OctaKind.places, List.mem_cons, List.not_mem_nil, or_false] <;> tauto
  simp only [List.mem_cons, List.not_mem_nil, or_false] at h
  rcases h with rfl | rfl | rfl | rfl | rfl | rfl | rfl <;> simp [OctaRow.unit, OctaRow.place] <;> ring

theorem OctaRow.unit_apart {r : OctaRow} (hr : r.proper = true) {s t : Int} (hs : s ∈ r.kind.places)
    (ht : t ∈ r.kind.places) (h : s ≠ t) : r.unit s + octaD ≤ r.unit t ∨ r.unit t + octaD ≤ r.unit s := by
  obtain ⟨k, a, b, c, w⟩ := r
  cases k <;>
    simp only [OctaKind.places, List.mem_cons, List.not_mem_nil, or_false, OctaRow.proper, octaVal, Bool.and_eq_true,
      natApart_iff, Nat.ble_eq] at hs ht hr <;>
    rcases hs with rfl | rfl | rfl | rfl | rfl | rfl | rfl <;>
    rcases ht with rfl | rfl | rfl | rfl | rfl | rfl | rfl <;>
    simp only [OctaRow.unit] <;> first | exact absurd rfl h | omega

theorem OctaRow.unit_le {r : OctaRow} (hr : r.proper = true) {s : Int} (hs : s ∈ r.kind.places) :
    |r.unit s| ≤ 2 * 10 ^ 18 := by
  obtain ⟨k, a, b, c, w⟩ := r
  rw [abs_le]
  cases k <;>
    simp only [OctaKind.places, List.mem_cons, List.not_mem_nil, or_false, OctaRow.proper, octaVal, Bool.and_eq_true,
      natApart_iff, Nat.ble_eq] at hs hr <;>
    rcases hs with rfl | rfl | rfl | rfl | rfl | rfl | rfl <;>
    simp only [OctaRow.unit] <;> omega

theorem octaPoints_quartic {pattern : OctaKind → List (Int × Int × Int)} {first : OctaKind → Int × Int × Int}
    (hp : PatternProper pattern first) (r : OctaRow) : ∀ u ∈ (octaPoints pattern r : List (Pt ℝ)),
    quartic u = (r.key first : ℝ) / 10 ^ 72 := by
  intro u hu
  unfold octaPoints at hu
  rw [List.mem_map] at hu
  obtain ⟨t, ht, rfl⟩ := hu
  obtain ⟨h1, h2, h3, h4⟩ := (hp r.kind).2 t ht
  have h5 := (h4.map (fun m : Nat => r.place (m : Int) ^ 4)).sum_eq
  have e : ∀ s : Int, r.place ((s.natAbs : Nat) : Int) = r.place s := fun s => by
    unfold OctaRow.place; rw [Int.natAbs_natCast]
  simp only [List.map_cons, List.map_nil, List.sum_cons, List.sum_nil, add_zero, e] at h5
  have h6 : r.key first = r.place t.1 ^ 4 + r.place t.2.1 ^ 4 + r.place t.2.2 ^ 4 := by
    unfold OctaRow.key
    rw [add_assoc, add_assoc]
    exact h5.symm
  have f : ∀ s ∈ r.kind.places, ((r.coord s : Rat) : ℝ) ^ 4 = ((r.place s ^ 4 : Nat) : ℝ) / 10 ^ 72 := by
    intro s hs
    have := r.unit_place hs
    have : (r.unit s : ℝ) ^ 4 = ((r.place s ^ 4 : Nat) : ℝ) := by exact_mod_cast this
    rw [r.coord_unit, ← this]
    push_cast
    rw [div_pow, ← pow_mul]
  show ((r.coord t.1 : Rat) : ℝ) ^ 4 + ((r.coord t.2.1 : Rat) : ℝ) ^ 4 + ((r.coord t.2.2 : Rat) : ℝ) ^ 4 = _
  rw [f _ h1, f _ h2, f _ h3, h6]
  push_cast
  ring

theorem OctaRow.coord_real (r : OctaRow) (s : Int) : (lit (r.coord s) : ℝ) = (r.unit s : ℝ) / 10 ^ 18 := by
  show ((r.coord s : Rat) : ℝ) = _
  rw [r.coord_unit]
  push_cast
  rfl

theorem octaPoints_apart {pattern : OctaKind → List (Int × Int × Int)} {first : OctaKind → Int × Int × Int}
    (hp : PatternProper pattern first) {r : OctaRow} (hr : r.proper = true) :
    (octaPoints pattern r : List (Pt ℝ)).Pairwise (PtApart (2⁻¹ ^ 36)) := by
  unfold octaPoints
  rw [List.pairwise_map]
  have hnd : (pattern r.kind).Pairwise (· ≠ ·) := (hp r.kind).1
  refine hnd.imp_of_mem (fun {s t} hs ht h => ?_)
  obtain ⟨s1, s2, s3, -⟩ := (hp r.kind).2 s hs
  obtain ⟨t1, t2, t3, -⟩ := (hp r.kind).2 t ht
  have key : ∀ a ∈ r.kind.places, ∀ b ∈ r.kind.places, a ≠ b →
      (2⁻¹ : ℝ) ^ 36 ≤ |(lit (r.coord a) : ℝ) - lit (r.coord b)| := by
    intro a ha b hb hne
    have h1 := r.unit_apart hr ha hb hne
    have h2 : (octaD : ℝ) ≤ |(r.unit a : ℝ) - r.unit b| := by
      rw [le_abs]
      rcases h1 with h1 | h1
      · right
        have : ((r.unit a + octaD : Int) : ℝ) ≤ r.unit b := by exact_mod_cast h1
        push_cast at this
        linarith
      · left
        have : ((r.unit b + octaD : Int) : ℝ) ≤ r.unit a := by exact_mod_cast h1
        push_cast at this
        linarith
    rw [r.coord_real, r.coord_real, ← sub_div, abs_div, abs_of_pos (by positivity : (0 : ℝ) < 10 ^ 18),
      le_div_iff₀ (by positivity)]
    refine le_trans ?_ h2
    unfold octaD
    norm_num
  by_cases e1 : s.1 = t.1
  · by_cases e2 : s.2.1 = t.2.1
    · by_cases e3 : s.2.2 = t.2.2
      · exact absurd (Prod.ext e1 (Prod.ext e2 e3)) h
      · exact .inr (.inr (key _ s3 _ t3 e3))
    · exact .inr (.inl (key _ s2 _ t2 e2))
  · exact .inl (key _ s1 _ t1 e1)

theorem octaPoints_le {pattern : OctaKind → List (Int × Int × Int)} {first : OctaKind → Int × Int × Int}
    (hp : PatternProper pattern first) {r : OctaRow} (hr : r.proper = true) :
    ∀ u ∈ (octaPoints pattern r : List (Pt ℝ)), |u.x| ≤ 2 ∧ |u.y| ≤ 2 ∧ |u.z| ≤ 2 := by
  intro u hu
  unfold octaPoints at hu
  rw [List.mem_map] at hu
  obtain ⟨t, ht, rfl⟩ := hu
  obtain ⟨t1, t2, t3, -⟩ := (hp r.kind).2 t ht
  have key : ∀ a ∈ r.kind.places, |(lit (r.coord a) : ℝ)| ≤ 2 := by
    intro a ha
    have h1 := r.unit_le hr ha
    have h2 : |(r.unit a : ℝ)| ≤ 2 * 10 ^ 18 := by exact_mod_cast h1
    rw [r.coord_real, abs_div, abs_of_pos (by positivity : (0 : ℝ) < 10 ^ 18), div_le_iff₀ (by positivity)]
    exact h2
  exact ⟨key _ t1, key _ t2, key _ t3⟩

/-- Keys differ by this much. -/
def octaGap : Nat := 10 ^ 72 / 2 ^ 24

/-- The check of a grid. -/
noncomputable def octaDistinct (first : OctaKind → Int × Int × Int) (rows : List OctaRow) : Bool :=
  rows.all OctaRow.proper && apartNat 2 octaGap (rows.map (OctaRow.key first))

theorem octa_apart {pattern : OctaKind → List (Int × Int × Int)} {first : OctaKind → Int × Int × Int}
    (hp : PatternProper pattern first) {rows : List OctaRow} (h : octaDistinct first rows = true) :
    (octaGrid pattern rows : StaticGrid ℝ).points.Pairwise (PtApart (2⁻¹ ^ 36)) := by
  unfold octaDistinct at h
  rw [Bool.and_eq_true, List.all_eq_true] at h
  obtain ⟨h1, h2⟩ := h
  have h3 := apartNat_apart (by unfold octaGap; norm_num) h2
  show (rows.flatMap (octaPoints pattern)).Pairwise _
  rw [List.pairwise_flatMap]
  refine ⟨fun r hr => octaPoints_apart hp (h1 r hr), ?_⟩
  rw [List.pairwise_map] at h3
  refine h3.imp_of_mem (fun {r s} hr hs hne u hu v hv => ?_)
  have hG : (octaGap : ℝ) / 10 ^ 72 ≤ |quartic u - quartic v| := by
    rw [octaPoints_quartic hp r u hu, octaPoints_quartic hp s v hv, ← sub_div, abs_div,
      abs_of_pos (by positivity : (0 : ℝ) < 10 ^ 72)]
    gcongr
    rw [le_abs]
    rcases hne with hne | hne
    · right
      have : ((r.key first + octaGap : Nat) : ℝ) ≤ s.key first := by exact_mod_cast hne
      push_cast at this
      linarith
    · left
      have : ((s.key first + octaGap : Nat) : ℝ) ≤ r.key first := by exact_mod_cast hne
      push_cast at this
      linarith
  refine quartic_apart (octaPoints_le hp (h1 r hr) u hu) (octaPoints_le hp (h1 s hs) v hv) ?_ hG
  unfold octaGap
  norm_num

theorem llGrids_distinct : ∀ e ∈ llGrids, octaDistinct llFirst e.2 = true := by decide +kernel

theorem deGrids_distinct : ∀ e ∈ deGrids, octaDistinct deFirst e.2 = true := by decide +kernel

end IntegratorXX
