import Mathlib.Data.List.Pairwise
import Verif.Lemmas.DistinctOcta

/-!
# The points of the icosahedral grids are distinct
-/

set_option maxRecDepth 20000

namespace IntegratorXX

open Arith Tables Spec

/-- The sum of the fourth powers of the values of a triple. -/
def tripleKey (t : Int × Int × Int) : Nat := t.1.natAbs ^ 4 + t.2.1.natAbs ^ 4 + t.2.2.natAbs ^ 4

/-- `2^-36` in units of `10^-21`, rounded up. -/
def icosaD : Nat := 14551915229

/-- The values of a triple are not 0 and distinct up to sign. -/
def tripleProper (t : Int × Int × Int) : Bool :=
  Nat.ble icosaD t.1.natAbs && (Nat.ble icosaD t.2.1.natAbs && (Nat.ble icosaD t.2.2.natAbs &&
    (natApart icosaD t.1.natAbs t.2.1.natAbs && (natApart icosaD t.1.natAbs t.2.2.natAbs &&
      natApart icosaD t.2.1.natAbs t.2.2.natAbs))))

/-- The values of a triple are at most 2. -/
def tripleSmall (t : Int × Int × Int) : Bool :=
  Nat.ble t.1.natAbs (2 * 10 ^ 21) && (Nat.ble t.2.1.natAbs (2 * 10 ^ 21) && Nat.ble t.2.2.natAbs (2 * 10 ^ 21))

/-- The places of a point of a block are a permutation. -/
theorem icosaPattern_proper : icosaPattern.Nodup ∧ ∀ e ∈ icosaPattern, e.1 ∈ [0, 1, 2, 3, 4] ∧
    e.2.1 ∈ ([1, -1, 2, -2, 3, -3] : List Int) ∧ e.2.2.1 ∈ ([1, -1, 2, -2, 3, -3] : List Int) ∧
    e.2.2.2 ∈ ([1, -1, 2, -2, 3, -3] : List Int) ∧
    [e.2.1.natAbs, e.2.2.1.natAbs, e.2.2.2.natAbs].Perm [1, 2, 3] := by decide +kernel

theorem vertexPattern_proper : ∀ e ∈ icosaVertexPattern,
    e.1 ∈ ([1, -1, 2, -2, 3, -3] : List Int) ∧ e.2.1 ∈ ([1, -1, 2, -2, 3, -3] : List Int) ∧
    e.2.2 ∈ ([1, -1, 2, -2, 3, -3] : List Int) ∧ [e.1.natAbs, e.2.1.natAbs, e.2.2.natAbs].Perm [1, 2, 3] := by
  decide +kernel

/-- Two integers differ by at least this. -/
def IntApart (a b : Int) : Prop := a + icosaD ≤ b ∨ b + icosaD ≤ a

instance (a b : Int) : Decidable (IntApart a b) := by unfold IntApart; infer_instance

theorem vertexInts_apart : (icosaVertexPattern.map (fun e => (tripleAt icosaVertex e.1, tripleAt icosaVertex e.2.1,
    tripleAt icosaVertex e.2.2))).Pairwise (fun a b => IntApart a.1 b.1 ∨ IntApart a.2.1 b.2.1 ∨ IntApart a.2.2 b.2.2) := by
  decide +kernel

theorem vertex_small : tripleSmall icosaVertex = true := by decide +kernel

/-- The absolute value of a place of a triple. -/
def tripleAbs (t : Int × Int × Int) (n : Nat) : Nat :=
  match n with
  | 1 => t.1.natAbs
  | 2 => t.2.1.natAbs
  | 3 => t.2.2.natAbs
  | _ => 0

theorem tripleAt_abs (t : Int × Int × Int) {s : Int} (hs : s ∈ ([1, -1, 2, -2, 3, -3] : List Int)) :
    (tripleAt t s).natAbs = tripleAbs t s.natAbs := by
  simp only [List.mem_cons, List.not_mem_nil, or_false] at hs
  rcases hs with rfl | rfl | rfl | rfl | rfl | rfl <;> simp [tripleAt, tripleAbs]

theorem tripleAt_apart {t : Int × Int × Int} (ht : tripleProper t = true) {s s' : Int}
    (hs : s ∈ ([1, -1, 2, -2, 3, -3] : List Int)) (hs' : s' ∈ ([1, -1, 2, -2, 3, -3] : List Int))
    (h : s ≠ s') : IntApart (tripleAt t s) (tripleAt t s') := by
  unfold IntApart
  simp only [tripleProper, Bool.and_eq_true, natApart_iff, Nat.ble_eq] at ht
  simp only [List.mem_cons, List.not_mem_nil, or_false] at hs hs'
  obtain ⟨t1, t2, t3⟩ := t
  rcases hs with rfl | rfl | rfl | rfl | rfl | rfl <;>
    rcases hs' with rfl | rfl | rfl | rfl | rfl | rfl <;>
    simp only [tripleAt] <;> first | exact absurd rfl h | (dsimp only at ht; omega)

theorem tripleAt_le {t : Int × Int × Int} (ht : tripleSmall t = true) {s : Int}
    (hs : s ∈ ([1, -1, 2, -2, 3, -3] : List Int)) : |(decimal 21 (tripleAt t s) : ℝ)| ≤ 2 := by
  simp only [tripleSmall, Bool.and_eq_true, Nat.ble_eq] at ht
  have h1 : (tripleAt t s).natAbs ≤ 2 * 10 ^ 21 := by
    rw [tripleAt_abs t hs]
    simp only [List.mem_cons, List.not_mem_nil, or_false] at hs
    rcases hs with rfl | rfl | rfl | rfl | rfl | rfl <;> simp [tripleAbs] <;> omega
  have h2 : |(tripleAt t s : ℝ)| ≤ 2 * 10 ^ 21 := by
    have : |tripleAt t s| ≤ 2 * 10 ^ 21 := by
      rw [Int.abs_eq_natAbs]
      exact_mod_cast h1
    exact_mod_cast this
  show |(((tripleAt t s : Rat) / 10 ^ 21 : Rat) : ℝ)| ≤ 2
  push_cast
  rw [abs_div, abs_of_pos (by positivity : (0 : ℝ) < 10 ^ 21), div_le_iff₀ (by positivity)]
  exact h2

theorem decimal_apart {a b : Int} (h : IntApart a b) : (2⁻¹ : ℝ) ^ 36 ≤ |(decimal 21 a : ℝ) - decimal 21 b| := by
  show _ ≤ |(((a : Rat) / 10 ^ 21 : Rat) : ℝ) - (((b : Rat) / 10 ^ 21 : Rat) : ℝ)|
  push_cast
  rw [← sub_div, abs_div, abs_of_pos (by positivity : (0 : ℝ) < 10 ^ 21), le_div_iff₀ (by positivity)]
  have h2 : (icosaD : ℝ) ≤ |(a : ℝ) - b| := by
    rw [le_abs]
    rcases h with h | h
    · right
      have : ((a + icosaD : Int) : ℝ) ≤ b := by exact_mod_cast h
      push_cast at this
      linarith
    · left
      have : ((b + icosaD : Int) : ℝ) ≤ a := by exact_mod_cast h
      push_cast at this
      linarith
  refine le_trans ?_ h2
  unfold icosaD
  norm_num

theorem triplePoint_quartic (t : Int × Int × Int) {s : Int × Int × Int}
    (h1 : s.1 ∈ ([1, -1, 2, -2, 3, -3] : List Int)) (h2 : s.2.1 ∈ ([1, -1, 2, -2, 3, -3] : List Int))
    (h3 : s.2.2 ∈ ([1, -1, 2, -2, 3, -3] : List Int))
    (h : [s.1.natAbs, s.2.1.natAbs, s.2.2.natAbs].Perm [1, 2, 3]) :
    quartic (triplePoint t s) = (tripleKey t : ℝ) / 10 ^ 84 := by
  have h5 := (h.map (fun m : Nat => tripleAbs t m ^ 4)).sum_eq
  simp only [List.map_cons, List.map_nil, List.sum_cons, List.sum_nil, add_zero] at h5
  rw [← tripleAt_abs t h1, ← tripleAt_abs t h2, ← tripleAt_abs t h3] at h5
  have h6 : tripleKey t = (tripleAt t s.1).natAbs ^ 4 + ((tripleAt t s.2.1).natAbs ^ 4 + (tripleAt t s.2.2).natAbs ^ 4) := by
    rw [h5]
    unfold tripleKey
    rw [add_assoc]
    rfl
  have f : ∀ v : Int, (decimal 21 v : ℝ) ^ 4 = ((v.natAbs ^ 4 : Nat) : ℝ) / 10 ^ 84 := by
    intro v
    have e : ((v.natAbs : Nat) : ℝ) ^ 4 = (v : ℝ) ^ 4 := by
      have : ((v.natAbs : Nat) : ℝ) = |(v : ℝ)| := by
        rw [← Int.cast_abs, ← Int.natCast_natAbs]; rfl
      rw [this, (by decide : Even 4).pow_abs]
    show (((v : Rat) / 10 ^ 21 : Rat) : ℝ) ^ 4 = _
    push_cast
    rw [e, div_pow, ← pow_mul]
  show (decimal 21 _ : ℝ) ^ 4 + (decimal 21 _ : ℝ) ^ 4 + (decimal 21 _ : ℝ) ^ 4 = _
  rw [f, f, f, h6]
  push_cast
  ring

theorem decimal_real_inj {d : Nat} {v w : Int} (h : (decimal d v : ℝ) = decimal d w) : v = w := by
  have h' : (((v : Rat) / 10 ^ d : Rat) : ℝ) = (((w : Rat) / 10 ^ d : Rat) : ℝ) := h
  have h1 : (v : Rat) / 10 ^ d = (w : Rat) / 10 ^ d := by exact_mod_cast h'
  rw [div_left_inj' (by positivity)] at h1
  exact_mod_cast h1

/-- The keys of a block. -/
def IcosaRow.keys (r : IcosaRow) : List Nat :=
  [tripleKey r.p0, tripleKey r.p1, tripleKey r.p2, tripleKey r.p3, tripleKey r.p4]

/-- The check of a block. -/
def IcosaRow.proper (r : IcosaRow) : Bool :=
  tripleProper r.p0 && (tripleProper r.p1 && (tripleProper r.p2 && (tripleProper r.p3 && tripleProper r.p4)))

/-- The same. -/
def IcosaRow.small (r : IcosaRow) : Bool :=
  tripleSmall r.p0 && (tripleSmall r.p1 && (tripleSmall r.p2 && (tripleSmall r.p3 && tripleSmall r.p4)))

/-- Keys differ by this much. -/
def icosaGap : Nat := 10 ^ 84 / 2 ^ 24

/-- Differ by the gap. -/
def KeyApart (a b : Nat) : Prop := a + icosaGap ≤ b ∨ b + icosaGap ≤ a

/-- The check of a grid. -/
noncomputable def icosaDistinct (g : IcosaGrid) : Bool :=
  g.rows.all (fun r => r.proper && r.small) &&
    apartNat 5 icosaGap (tripleKey icosaVertex :: g.rows.flatMap IcosaRow.keys)

theorem IcosaRow.triple_proper {r : IcosaRow} (h : r.proper = true) (j : Nat) : tripleProper (r.triple j) = true := by
  simp only [IcosaRow.proper, Bool.and_eq_true] at h
  obtain ⟨h0, h1, h2, h3, h4⟩ := h
  unfold IcosaRow.triple
  split <;> assumption

theorem IcosaRow.triple_small {r : IcosaRow} (h : r.small = true) (j : Nat) : tripleSmall (r.triple j) = true := by
  simp only [IcosaRow.small, Bool.and_eq_true] at h
  obtain ⟨h0, h1, h2, h3, h4⟩ := h
  unfold IcosaRow.triple
  split <;> assumption

theorem IcosaRow.triple_mem (r : IcosaRow) {j : Nat} (hj : j ∈ [0, 1, 2, 3, 4]) :
    tripleKey (r.triple j) ∈ r.keys := by
  simp only [List.mem_cons, List.not_mem_nil, or_false] at hj
  rcases hj with rfl | rfl | rfl | rfl | rfl <;> simp [IcosaRow.keys, IcosaRow.triple]

theorem KeyApart.symm {a b : Nat} (h : KeyApart a b) : KeyApart b a := Or.symm h

theorem IcosaRow.triple_apart {r : IcosaRow} (h : r.keys.Pairwise KeyApart) {i j : Nat} (hi : i ∈ [0, 1, 2, 3, 4])
    (hj : j ∈ [0, 1, 2, 3, 4]) (he : i ≠ j) : KeyApart (tripleKey (r.triple i)) (tripleKey (r.triple j)) := by
  have e : r.keys = [0, 1, 2, 3, 4].map (fun i => tripleKey (r.triple i)) := rfl
  rw [e, List.pairwise_map] at h
  have : Std.Symm (fun i j => KeyApart (tripleKey (r.triple i)) (tripleKey (r.triple j))) :=
    ⟨fun _ _ h => KeyApart.symm h⟩
  exact h.forall hi hj he

theorem keyApart_apart {t t' s s' : Int × Int × Int} (hs : tripleSmall t = true) (hs' : tripleSmall t' = true)
    (h : KeyApart (tripleKey t) (tripleKey t'))
    (h1 : s.1 ∈ ([1, -1, 2, -2, 3, -3] : List Int)) (h2 : s.2.1 ∈ ([1, -1, 2, -2, 3, -3] : List Int))
    (h3 : s.2.2 ∈ ([1, -1, 2, -2, 3, -3] : List Int)) (h4 : [s.1.natAbs, s.2.1.natAbs, s.2.2.natAbs].Perm [1, 2, 3])
    (g1 : s'.1 ∈ ([1, -1, 2, -2, 3, -3] : List Int)) (g2 : s'.2.1 ∈ ([1, -1, 2, -2, 3, -3] : List Int))
    (g3 : s'.2.2 ∈ ([1, -1, 2, -2, 3, -3] : List Int))
    (g4 : [s'.1.natAbs, s'.2.1.natAbs, s'.2.2.natAbs].Perm [1, 2, 3]) :
    PtApart (2⁻¹ ^ 36) (triplePoint t s) (triplePoint t' s') := by
  have hG : (icosaGap : ℝ) / 10 ^ 84 ≤ |quartic (triplePoint t s) - quartic (triplePoint t' s')| := by
    rw [triplePoint_quartic t h1 h2 h3 h4, triplePoint_quartic t' g1 g2 g3 g4, ← sub_div, abs_div,
      abs_of_pos (by positivity : (0 : ℝ) < 10 ^ 84)]
    gcongr
    rw [le_abs]
    rcases h with h | h
    · right
      have : ((tripleKey t + icosaGap : Nat) : ℝ) ≤ tripleKey t' := by exact_mod_cast h
      push_cast at this
      linarith
    · left
      have : ((tripleKey t' + icosaGap : Nat) : ℝ) ≤ tripleKey t := by exact_mod_cast h
      push_cast at this
      linarith
  refine quartic_apart ⟨tripleAt_le hs h1, tripleAt_le hs h2, tripleAt_le hs h3⟩
    ⟨tripleAt_le hs' g1, tripleAt_le hs' g2, tripleAt_le hs' g3⟩ ?_ hG
  unfold icosaGap
  norm_num

theorem icosaPoints_apart {r : IcosaRow} (hr : r.proper = true) (hs : r.small = true) (hk : r.keys.Pairwise KeyApart) :
    (icosaPoints r : List (Pt ℝ)).Pairwise (PtApart (2⁻¹ ^ 36)) := by
  unfold icosaPoints
  rw [List.pairwise_map]
  have hnd : icosaPattern.Pairwise (· ≠ ·) := icosaPattern_proper.1
  refine hnd.imp_of_mem (fun {s t} hs' ht h => ?_)
  obtain ⟨s0, s1, s2, s3, s4⟩ := icosaPattern_proper.2 s hs'
  obtain ⟨t0, t1, t2, t3, t4⟩ := icosaPattern_proper.2 t ht
  by_cases e0 : s.1 = t.1
  · rw [e0]
    have hp := IcosaRow.triple_proper hr t.1
    by_cases e1 : s.2.1 = t.2.1
    · by_cases e2 : s.2.2.1 = t.2.2.1
      · by_cases e3 : s.2.2.2 = t.2.2.2
        · exact absurd (Prod.ext e0 (Prod.ext e1 (Prod.ext e2 e3))) h
        · exact .inr (.inr (decimal_apart (tripleAt_apart hp s3 t3 e3)))
      · exact .inr (.inl (decimal_apart (tripleAt_apart hp s2 t2 e2)))
    · exact .inl (decimal_apart (tripleAt_apart hp s1 t1 e1))
  · exact keyApart_apart (r.triple_small hs _) (r.triple_small hs _) (IcosaRow.triple_apart hk s0 t0 e0) s1 s2 s3 s4
      t1 t2 t3 t4

theorem icosa_apart {g : IcosaGrid} (h : icosaDistinct g = true) :
    (icosaGrid g : StaticGrid ℝ).points.Pairwise (PtApart (2⁻¹ ^ 36)) := by
  unfold icosaDistinct at h
  rw [Bool.and_eq_true, List.all_eq_true] at h
  obtain ⟨h1, h2⟩ := h
  have h3 := apartNat_apart (by unfold icosaGap; norm_num) h2
  rw [List.pairwise_cons, List.pairwise_flatMap] at h3
  obtain ⟨h3, h4, h5⟩ := h3
  have hr : ∀ r ∈ g.rows, r.proper = true ∧ r.small = true := by
    intro r hr
    have := h1 r hr
    rwa [Bool.and_eq_true] at this
  show (icosaVertexPattern.map (triplePoint icosaVertex) ++ g.rows.flatMap icosaPoints).Pairwise _
  rw [List.pairwise_append]
  refine ⟨?_, ?_, ?_⟩
  · have := vertexInts_apart
    rw [List.pairwise_map] at this ⊢
    refine this.imp (fun {s t} h => ?_)
    rcases h with h | h | h
    · exact .inl (decimal_apart h)
    · exact .inr (.inl (decimal_apart h))
    · exact .inr (.inr (decimal_apart h))
  · rw [List.pairwise_flatMap]
    refine ⟨fun r hm => icosaPoints_apart (hr r hm).1 (hr r hm).2 (h4 r hm), h5.imp_of_mem (fun {r s} hm hm' hd u hu v hv => ?_)⟩
    unfold icosaPoints at hu hv
    rw [List.mem_map] at hu hv
    obtain ⟨e, he, rfl⟩ := hu
    obtain ⟨e', he', rfl⟩ := hv
    obtain ⟨s0, s1, s2, s3, s4⟩ := icosaPattern_proper.2 e he
    obtain ⟨t0, t1, t2, t3, t4⟩ := icosaPattern_proper.2 e' he'
    exact keyApart_apart (r.triple_small (hr r hm).2 _) (s.triple_small (hr s hm').2 _)
      (hd _ (r.triple_mem s0) _ (s.triple_mem t0)) s1 s2 s3 s4 t1 t2 t3 t4
  · intro u hu v hv
    rw [List.mem_map] at hu
    rw [List.mem_flatMap] at hv
    obtain ⟨r, hm, hv⟩ := hv
    obtain ⟨e, he, rfl⟩ := hu
    unfold icosaPoints at hv
    rw [List.mem_map] at hv
    obtain ⟨e', he', rfl⟩ := hv
    obtain ⟨s1, s2, s3, s4⟩ := vertexPattern_proper e he
    obtain ⟨t0, t1, t2, t3, t4⟩ := icosaPattern_proper.2 e' he'
    exact keyApart_apart vertex_small (r.triple_small (hr r hm).2 _)
      (h3 _ (List.mem_flatMap.2 ⟨r, hm, r.triple_mem t0⟩)) s1 s2 s3 s4 t1 t2 t3 t4

theorem abGrids_distinct : ∀ e ∈ abGrids, icosaDistinct e.2 = true := by decide +kernel

end IntegratorXX
