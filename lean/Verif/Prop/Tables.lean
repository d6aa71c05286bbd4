import Verif.Lemmas.TableForms
import Verif.Spec.Composite

/-!
# C46-C49: angular order and size tables, generator dispatch
-/

namespace IntegratorXX

open Spec Arith

/-! ## C46 -/

/-- The two tables are inverse to each other on supported values: order `o` has `n` points
exactly when `n` points have order `o`. -/
theorem C46_tables_inverse (fam : AngFam) (o n : Int) :
    (fam.nptsByOrder o = n ∧ n ≠ -1) ↔ (fam.orderByNpts n = o ∧ o ≠ -1) := by
  rw [fam.nptsByOrder_iff, fam.orderByNpts_iff]

/-- Unsupported arguments give `-1`, supported ones a positive value, and `-1` is itself never
supported. -/
theorem C46_tables_range (fam : AngFam) (x : Int) :
    (fam.nptsByOrder x = -1 ∨ 0 < fam.nptsByOrder x ∧ 0 < x) ∧
    (fam.orderByNpts x = -1 ∨ 0 < fam.orderByNpts x ∧ 0 < x) := by
  constructor
  · by_cases h : fam.nptsByOrder x = -1
    · exact .inl h
    · have := fam.entries_pos _ ((fam.nptsByOrder_iff x _).1 ⟨rfl, h⟩)
      exact .inr ⟨this.2, this.1⟩
  · by_cases h : fam.orderByNpts x = -1
    · exact .inl h
    · exact .inr (fam.entries_pos _ ((fam.orderByNpts_iff _ x).1 ⟨rfl, h⟩))

private theorem entries_mono (fam : AngFam) {a b : Int × Int} (ha : a ∈ fam.entries)
    (hb : b ∈ fam.entries) : (a.1 < b.1 ↔ a.2 < b.2) := by
  have key : ∀ a b : Int × Int, a ∈ fam.entries → b ∈ fam.entries →
      a = b ∨ (a.1 < b.1 ∧ a.2 < b.2) ∨ (b.1 < a.1 ∧ b.2 < a.2) := by
    intro a b ha hb
    obtain ⟨i, hi, rfl⟩ := List.getElem_of_mem ha
    obtain ⟨j, hj, rfl⟩ := List.getElem_of_mem hb
    have hs := List.pairwise_iff_getElem.1 fam.entries_sorted
    rcases Nat.lt_trichotomy i j with h | h | h
    · exact .inr (.inl (hs i j hi hj h))
    · subst h; exact .inl rfl
    · exact .inr (.inr (hs j i hj hi h))
  rcases key a b ha hb with rfl | h | h
  · simp
  · exact ⟨fun _ => h.2, fun _ => h.1⟩
  · constructor <;> intro <;> omega

/-- A higher supported order has more points, and conversely. -/
theorem C46_tables_increasing (fam : AngFam) (o o' : Int) (h : fam.nptsByOrder o ≠ -1)
    (h' : fam.nptsByOrder o' ≠ -1) :
    o < o' ↔ fam.nptsByOrder o < fam.nptsByOrder o' :=
  entries_mono fam ((fam.nptsByOrder_iff o _).1 ⟨rfl, h⟩) ((fam.nptsByOrder_iff o' _).1 ⟨rfl, h'⟩)

example : AngFam.lebedevLaikov.nptsByOrder 7 = 26 ∧ AngFam.lebedevLaikov.orderByNpts 26 = 7 ∧
    AngFam.lebedevLaikov.nptsByOrder 8 = -1 ∧ AngFam.lebedevLaikov.orderByNpts 27 = -1 ∧
    AngFam.lebedevLaikov.nptsByOrder 7 < AngFam.lebedevLaikov.nptsByOrder 131 := by
  decide +kernel

/-! ## C47 -/

/-- Up to the largest supported order, `next_algebraic_order` is the least supported order not
below its argument; above, it is the largest supported order. -/
theorem C47_next_least (fam : AngFam) :
    ∃ top : Int, fam.nptsByOrder top ≠ -1 ∧ (∀ o, fam.nptsByOrder o ≠ -1 → o ≤ top) ∧
      (∀ o, fam.nptsByOrder (fam.nextOrder o) ≠ -1) ∧
      (∀ o ≤ top, o ≤ fam.nextOrder o ∧
        ∀ o', fam.nptsByOrder o' ≠ -1 → o ≤ o' → fam.nextOrder o ≤ o') ∧
      (∀ o, top < o → fam.nextOrder o = top) := by
  have hsup : ∀ o, fam.nptsByOrder o ≠ -1 ↔ o ∈ fam.entries.map Prod.fst := by
    intro o
    constructor
    · intro h
      exact List.mem_map.2 ⟨_, (fam.nptsByOrder_iff o _).1 ⟨rfl, h⟩, rfl⟩
    · intro h
      obtain ⟨⟨a, c⟩, he, rfl⟩ := List.mem_map.1 h
      have := (fam.nptsByOrder_iff a c).2 he
      rw [this.1]; exact this.2
  refine ⟨fam.maxOrder, ?_, ?_, ?_, ?_, ?_⟩
  · rw [hsup]
    have := (fam.nextOrder_spec (fam.maxOrder + 1))
    rw [← this.2.2.1 (by omega)]; exact this.1
  · intro o ho
    by_contra hlt
    push Not at hlt
    have h1 := fam.nextOrder_spec o
    have h2 := h1.2.2.1 hlt
    -- the list is sorted with last element `maxOrder`
    have : ∀ k ∈ fam.entries.map Prod.fst, k ≤ fam.maxOrder := by cases fam <;> decide +kernel
    have := this o ((hsup o).1 ho)
    omega
  · intro o; rw [hsup]; exact (fam.nextOrder_spec o).1
  · intro o ho
    exact ⟨(fam.nextOrder_spec o).2.1 ho, fun o' h' hle =>
      (fam.nextOrder_spec o).2.2.2 o' ((hsup o').1 h') hle⟩
  · intro o ho; exact (fam.nextOrder_spec o).2.2.1 ho

/-- `next_algebraic_order` is monotone and idempotent. -/
theorem C47_next_monotone (fam : AngFam) (o o' : Int) (h : o ≤ o') :
    fam.nextOrder o ≤ fam.nextOrder o' ∧ fam.nextOrder (fam.nextOrder o) = fam.nextOrder o := by
  obtain ⟨top, t1, t2, t3, t4, t5⟩ := C47_next_least fam
  constructor
  · by_cases h1 : o ≤ top
    · by_cases h2 : o' ≤ top
      · exact (t4 o h1).2 _ (t3 o') (by have := (t4 o' h2).1; omega)
      · rw [t5 o' (by omega)]; exact t2 _ (t3 o)
    · rw [t5 o (by omega), t5 o' (by omega)]
  · have h1 := t2 _ (t3 o)
    exact le_antisymm ((t4 _ h1).2 _ (t3 o) (le_refl _)) (t4 _ h1).1

example : AngFam.lebedevLaikov.nextOrder 32 = 35 ∧ AngFam.lebedevLaikov.nextOrder 1000 = 131 ∧
    AngFam.womersley.nextOrder (-5) = 1 ∧ AngFam.ahrensBeylkin.nextOrder 7 = 14 ∧
    AngFam.delley.nextOrder 6 = 7 := by decide +kernel

/-! ## C48 -/

/-- For every size: if `algebraic_order_by_npts` knows it, the constructor returns the tabulated
grid of that size, with the weights multiplied by 4π where the tables omit the factor. -/
theorem C48_generator_supported {F : Type} [Mul F] [Arith F] (b : Build) (d : AngData F)
    (hd : d.Typed) (fam : AngFam) (n : Nat) (h : fam.orderByNpts n ≠ -1) :
    (d fam n).points.length = n ∧ (d fam n).weights.length = n ∧
    angConstruct b d fam n = .ok ⟨(d fam n).points,
      if fam = .lebedevLaikov ∨ fam = .delley then (d fam n).weights.map (· * (lit 4 * pi))
      else (d fam n).weights⟩ := by
  have hk : fam.dispatch n = some n := by
    rw [fam.dispatch_iff]
    exact ⟨rfl, _, (fam.orderByNpts_iff _ _).1 ⟨rfl, h⟩⟩
  obtain ⟨-, -, h1, h2, h3⟩ := angConstruct_supported b d hd fam n n hk
  refine ⟨h1, h2, ?_⟩
  rw [h3]
  have hid : ∀ f : F → F, (∀ x, f x = x) → (d fam n).weights.map f = (d fam n).weights :=
    fun f hf => by
      conv_rhs => rw [← List.map_id (d fam n).weights]
      exact List.map_congr_left (fun x _ => hf x)
  cases fam
  · rw [if_neg (by simp), hid (AngFam.scaled _) (fun _ => rfl)]
  · rw [if_pos (by simp)]; rfl
  · rw [if_pos (by simp)]; rfl
  · rw [if_neg (by simp), hid (AngFam.scaled _) (fun _ => rfl)]

/-- The sizes dispatched by `generate` are exactly the tabulated ones, each to the grid of its
own size. -/
theorem C48_generator_sizes (fam : AngFam) (n k : Nat) :
    fam.dispatch n = some k ↔ k = n ∧ fam.orderByNpts n ≠ -1 := by
  rw [fam.dispatch_iff]
  refine and_congr_right (fun _ => ?_)
  constructor
  · rintro ⟨o, ho⟩
    have := (fam.orderByNpts_iff o n).2 ho
    rw [this.1]; exact this.2
  · intro h
    exact ⟨_, (fam.orderByNpts_iff _ _).1 ⟨rfl, h⟩⟩

/-- The file `lebedev_laikov_5294.hpp` is never used. -/
theorem C48_ll_5294_unreachable (n : Nat) : AngFam.lebedevLaikov.dispatch n ≠ some 5294 := by
  intro h
  obtain ⟨rfl, h⟩ := (C48_generator_sizes _ _ _).1 h
  revert h; decide +kernel

/-- Some data with the declared lengths. -/
example : ∃ d : AngData ℝ, d.Typed ∧ AngFam.womersley.orderByNpts (2114 : Nat) ≠ -1 := by
  refine ⟨fun _ n => ⟨List.replicate n ⟨0, 0, 1⟩, List.replicate n 1⟩, ?_, by decide +kernel⟩
  intro fam e he
  rw [fam.declared_eq] at he
  obtain ⟨⟨o, m⟩, -, rfl⟩ := List.mem_map.1 he
  simp

/-! ## C49 -/

/-- The README promises an error for sizes that are not available.  Instead, the constructor
returns `n` points at the origin, all with weight zero (computed as `0 * (4 π)` by the two
families that rescale). -/
theorem C49_unsupported_silent {F : Type} [Mul F] [Arith F] (b : Build) (d : AngData F)
    (fam : AngFam) (n : Nat) (h : fam.orderByNpts n = -1)
    (hint : fam = .delley → n ≤ 2147483647) (h0 : (lit 0 * (lit 4 * pi) : F) = lit 0) :
    angConstruct b d fam n =
      .ok ⟨List.replicate n ⟨lit 0, lit 0, lit 0⟩, List.replicate n (lit 0)⟩ := by
  have hk : fam.dispatch n = none := by
    cases hk : fam.dispatch n with
    | none => rfl
    | some k => exact absurd h ((C48_generator_sizes _ _ _).1 hk).2
  rw [angConstruct_unsupported b d fam n hk hint]
  have : fam.scaled (lit 0 : F) = lit 0 := by
    cases fam
    · rfl
    · exact h0
    · exact h0
    · rfl
  rw [this]

/-- Such a rule integrates every function to zero. -/
theorem C49_unsupported_integral (b : Build) (d : AngData ℝ) (fam : AngFam) (n : Nat)
    (h : fam.orderByNpts n = -1) (hint : fam = .delley → n ≤ 2147483647) (f : Pt ℝ → ℝ) :
    Returns (angConstruct b d fam n) (fun q => ruleSum q.points q.weights f = 0) := by
  refine ⟨_, C49_unsupported_silent b d fam n h hint (by simp), ?_⟩
  simp [ruleSum]

/-- Delley's scaling loop counts with `int`: sizes above `2^31 - 1` are undefined behaviour
instead. -/
theorem C49_delley_int_overflow {F : Type} [Mul F] [Arith F] (b : Build) (d : AngData F) (n : Nat)
    (hn : 2147483647 < n) : angConstruct b d .delley n = .ub := by
  have hk : AngFam.delley.dispatch n = none := by
    cases hk : AngFam.delley.dispatch n with
    | none => rfl
    | some k =>
      obtain ⟨-, o, ho⟩ := (AngFam.dispatch_iff _ _ _).1 hk
      have := (AngFam.entries_lt _ _ ho).2
      dsimp only at this
      omega
  unfold angConstruct angGenerate construct
  simp only [hk, Outcome.ok_bind, scaleWeights, if_neg (Nat.not_le.2 hn)]
  rfl

example : AngFam.lebedevLaikov.orderByNpts (100 : Nat) = -1 ∧
    AngFam.delley.orderByNpts (6 : Nat) = -1 ∧ (6 : Nat) ≤ 2147483647 ∧
    (lit 0 * (lit 4 * pi) : ℝ) = lit 0 := by
  refine ⟨by decide +kernel, by decide +kernel, by decide, by simp⟩

end IntegratorXX
