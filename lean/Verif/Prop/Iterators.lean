import Verif.Model.Iterators
import Verif.Prop.Batcher

/-!
# C84: `operator+` of the iterators changes its operand
-/

namespace IntegratorXX

open Spec Arith

set_option linter.unusedSectionVars false

/-- **C84.**  `auto u = v + i` also moves `v`: afterwards both are at the new position (one would expect `v` to stay,
that is `s ++ [p + i]`).  The other operations behave as for standard iterators. -/
theorem C84_plus_moves_operand (len : Nat) (s : List Nat) (v p : Nat) (i : Int) (hv : s[v]? = some p)
    (h : 0 ≤ (p : Int) + i ∧ (p : Int) + i ≤ len) :
    itStep len s (.plus v i) = .ok (s.set v ((p : Int) + i).toNat ++ [((p : Int) + i).toNat]) ∧
    itStep len s (.copy v) = .ok (s ++ [p]) ∧
    (p + 1 ≤ len → itStep len s (.preInc v) = .ok (s.set v (p + 1)) ∧
      itStep len s (.postInc v) = .ok (s.set v (p + 1) ++ [p])) := by
  have hlt : v < s.length := (List.getElem?_eq_some_iff.1 hv).1
  have hg : vget s v = .ok p := vget_ok hv
  refine ⟨?_, ?_, ?_⟩
  · simp only [itStep, hg, Outcome.ok_bind, itMove, if_pos h]
    simp [vset, hlt, vget, Outcome.ok_bind]
  · simp only [itStep, hg, Outcome.ok_bind]; rfl
  · intro h1
    have e : ((p : Int) + 1).toNat = p + 1 := by omega
    have h2 : 0 ≤ (p : Int) + 1 ∧ (p : Int) + 1 ≤ len := by omega
    constructor
    · simp only [itStep, hg, Outcome.ok_bind, itMove, if_pos h2, e]
      simp [vset, hlt]
    · simp only [itStep, hg, Outcome.ok_bind, itMove, if_pos h2, e]
      simp [vset, hlt, Outcome.ok_bind]

/-- The operand keeps its position only for `i = 0`. -/
theorem C84_plus_value_semantics (len : Nat) (s : List Nat) (v p : Nat) (i : Int) (hv : s[v]? = some p)
    (h : 0 ≤ (p : Int) + i ∧ (p : Int) + i ≤ len) :
    itStep len s (.plus v i) = .ok (s ++ [((p : Int) + i).toNat]) ↔ i = 0 := by
  rw [(C84_plus_moves_operand len s v p i hv h).1, Outcome.ok.injEq, List.append_left_inj]
  have hlt : v < s.length := (List.getElem?_eq_some_iff.1 hv).1
  constructor
  · intro e
    have : (s.set v ((p : Int) + i).toNat)[v]? = s[v]? := by rw [e]
    rw [List.getElem?_set_self hlt, hv, Option.some.injEq] at this
    omega
  · rintro rfl
    simp only [add_zero, Int.toNat_natCast]
    apply List.ext_getElem?
    intro j
    by_cases e : v = j
    · subst e; rw [List.getElem?_set_self hlt, hv]
    · rw [List.getElem?_set_ne e]

section
variable {F : Type} [Add F] [Sub F] [Mul F] [Div F] [Arith F]

private theorem body_inside (b : Batcher F) (it : Nat) (h : it + 2 ≤ b.partIdx.length - 1) (e : Batch F)
    (he : b.deref (it + 1) = .ok e) : neighbourBody b it = .ok ([(e, e)], it + 2) := by
  have e1 : itStep b.partIdx.length [it] (.plus 0 1) = .ok [it + 1, it + 1] := by
    have := (C84_plus_moves_operand b.partIdx.length [it] 0 it 1 rfl (by omega)).1
    rw [this]
    have e : ((it : Int) + 1).toNat = it + 1 := by omega
    simp [e]
  have e2 : itStep b.partIdx.length [it + 1, it + 1] (.preInc 0) = .ok [it + 2, it + 1] := by
    have := ((C84_plus_moves_operand b.partIdx.length [it + 1, it + 1] 0 (it + 1) 0 rfl (by omega)).2.2 (by omega)).1
    rw [this]
    simp
  have v0 : vget [it + 1, it + 1] 0 = .ok (it + 1) := rfl
  have v1 : vget [it + 1, it + 1] 1 = .ok (it + 1) := rfl
  have v2 : vget [it + 2, it + 1] 0 = .ok (it + 2) := rfl
  unfold neighbourBody
  simp only [e1, v0, v1, v2, e2, he, Outcome.ok_bind, Outcome.pure_eq]
  rw [if_pos (by omega)]

private theorem body_last (b : Batcher F) (it : Nat) (h : it + 1 = b.partIdx.length - 1) :
    neighbourBody b it = .ok ([], it + 2) := by
  have e1 : itStep b.partIdx.length [it] (.plus 0 1) = .ok [it + 1, it + 1] := by
    have := (C84_plus_moves_operand b.partIdx.length [it] 0 it 1 rfl (by omega)).1
    rw [this]
    have e : ((it : Int) + 1).toNat = it + 1 := by omega
    simp [e]
  have e2 : itStep b.partIdx.length [it + 1, it + 1] (.preInc 0) = .ok [it + 2, it + 1] := by
    have := ((C84_plus_moves_operand b.partIdx.length [it + 1, it + 1] 0 (it + 1) 0 rfl (by omega)).2.2 (by omega)).1
    rw [this]
    simp
  have v0 : vget [it + 1, it + 1] 0 = .ok (it + 1) := rfl
  have v1 : vget [it + 1, it + 1] 1 = .ok (it + 1) := rfl
  have v2 : vget [it + 2, it + 1] 0 = .ok (it + 2) := rfl
  unfold neighbourBody
  simp only [e1, v0, v1, v2, e2, Outcome.ok_bind, Outcome.pure_eq]
  rw [if_neg (by omega)]

private theorem body_past (b : Batcher F) (it : Nat) (h : it = b.partIdx.length) : neighbourBody b it = .ub := by
  have : itStep b.partIdx.length [it] (.plus 0 1) = .ub := by
    have : vget [it] 0 = .ok it := rfl
    simp only [itStep, this, Outcome.ok_bind, itMove]
    rw [if_neg (by omega)]
    rfl
  unfold neighbourBody
  simp only [this]
  rfl

private theorem iter_deref (b : Batcher F) (es : List (Batch F)) : ∀ n, b.iterFrom n = .ok es →
    n + es.length = b.partIdx.length - 1 ∧ ∀ i, (hi : i < es.length) → b.deref (n + i) = .ok es[i] := by
  induction es with
  | nil =>
    intro n h
    unfold Batcher.iterFrom at h
    split_ifs at h with h1 h2
    · exact ⟨by simpa using h1, by simp⟩
    · simp only [Outcome.bind_eq_ok] at h
      obtain ⟨e, -, l, -, h⟩ := h
      cases h
  | cons e es ih =>
    intro n h
    unfold Batcher.iterFrom at h
    split_ifs at h with h1 h2
    · simp at h
    · simp only [Outcome.bind_eq_ok] at h
      obtain ⟨e', he, l, hl, h⟩ := h
      cases h
      obtain ⟨f1, f2⟩ := ih (n + 1) hl
      refine ⟨by simp only [List.length_cons]; omega, ?_⟩
      intro i hi
      cases i with
      | zero => exact he
      | succ i =>
        have := f2 i (by simpa using hi)
        rw [show n + (i + 1) = n + 1 + i by omega, this]
        rfl

/-- A client that looks at neighbouring batches with `auto next = it + 1` gets every second batch paired with itself
when the number of batches is even, and runs past the end when it is odd. -/
theorem C84_neighbours (b : Batcher F) (hq : Consistent b.quad.quad) (hs : SplitsRange b.partIdx b.quad.quad.npts)
    (hlt : b.quad.quad.npts < 2147483648) :
    Returns b.batches (fun es =>
      (∀ k, es.length = 2 * k → neighbourLoop b (k + 1) 0 [] =
        some (.ok ((List.range k).filterMap (fun j => es[2 * j + 1]?.map (fun e => (e, e)))))) ∧
      (∀ k, es.length = 2 * k + 1 → neighbourLoop b (k + 2) 0 [] = some .ub)) := by
  obtain ⟨es, h1, h2, h3, h4, h5, h6, h7⟩ := C60_at_iteration b hq hs hlt
  refine ⟨es, h1, ?_⟩
  obtain ⟨g1, g2⟩ : 0 + es.length = b.partIdx.length - 1 ∧ ∀ i, (hi : i < es.length) → b.deref (0 + i) = .ok es[i] := by
    unfold Batcher.batches at h1
    split_ifs at h1 with h0
    exact iter_deref b es 0 h1
  rw [Nat.zero_add] at g1
  have g3 : ∀ i, (hi : i < es.length) → b.deref i = .ok es[i] := by
    intro i hi
    rw [← g2 i hi, Nat.zero_add]
  constructor
  · intro k hk
    have key : ∀ m j out, j + m = k → neighbourLoop b (m + 1) (2 * j) out =
        some (.ok (out ++ (List.range' j m).filterMap (fun j => es[2 * j + 1]?.map (fun e => (e, e))))) := by
      intro m
      induction m with
      | zero =>
        intro j out hj
        rw [neighbourLoop, if_pos (by omega)]
        simp
      | succ m ih =>
        intro j out hj
        have hjl : 2 * j + 1 < es.length := by omega
        rw [neighbourLoop, if_neg (by omega), body_inside b _ (by omega) _ (g3 _ hjl)]
        dsimp only
        rw [show 2 * j + 2 = 2 * (j + 1) by ring, ih (j + 1) _ (by omega), List.range'_succ,
          List.filterMap_cons, List.getElem?_eq_getElem hjl]
        simp
    have := key k 0 [] (by omega)
    rw [Nat.mul_zero] at this
    rw [this, List.range_eq_range', List.nil_append]
  · intro k hk
    have key : ∀ m j out, j + m = k → neighbourLoop b (m + 2) (2 * j) out = some .ub := by
      intro m
      induction m with
      | zero =>
        intro j out hj
        rw [neighbourLoop, if_neg (by omega), body_last b _ (by omega)]
        dsimp only
        rw [neighbourLoop, if_neg (by omega), body_past b _ (by omega)]
      | succ m ih =>
        intro j out hj
        have hjl : 2 * j + 1 < es.length := by omega
        rw [neighbourLoop, if_neg (by omega), body_inside b _ (by omega) _ (g3 _ hjl)]
        dsimp only
        rw [show 2 * j + 2 = 2 * (j + 1) by ring, ih (j + 1) _ (by omega)]
    exact key k 0 [] (by omega)

end

/-! ## Examples -/

/-- C84: a batcher with two batches, and one with three. -/
example : SplitsRange [0, 1, 3] 3 ∧ SplitsRange [0, 1, 2, 3] 3 :=
  ⟨⟨rfl, rfl, by decide⟩, ⟨rfl, rfl, by decide⟩⟩

/-- C84: `auto u = v + 2` with `v` at position 1 of a vector of length 5. -/
example : itStep 5 [1] (.plus 0 2) = .ok [3, 3] := by decide

end IntegratorXX
