import Verif.Model.Factory
import Verif.Lemmas.CompositeForms
import Mathlib.Data.List.Nodup
import Mathlib.Data.List.Pairwise
import Mathlib.Tactic.Linarith

/-!
# Facts about the angular tables

The four families are brought to a common form: an increasing list of pairs (order, size).
-/

namespace IntegratorXX

/-- The pairs (order, size), in increasing order. -/
def AngFam.entries : AngFam → List (Int × Int)
  | .ahrensBeylkin => Tables.abNptsByOrder
  | .delley => Tables.deNptsByOrder
  | .lebedevLaikov => Tables.llNptsByOrder
  | .womersley => Tables.woNptsByOrder

theorem chainLookup_iff {α β : Type} [DecidableEq α] {l : List (α × β)}
    (h : (l.map Prod.fst).Nodup) (a : α) (b : β) : chainLookup l a = some b ↔ (a, b) ∈ l := by
  induction l with
  | nil => simp [chainLookup]
  | cons e l ih =>
    obtain ⟨k, v⟩ := e
    rw [List.map_cons, List.nodup_cons] at h
    unfold chainLookup
    by_cases hk : a = k
    · subst hk
      rw [if_pos rfl, Option.some.injEq, List.mem_cons, Prod.mk.injEq]
      constructor
      · rintro rfl; exact .inl ⟨rfl, rfl⟩
      · rintro (⟨-, rfl⟩ | hm)
        · rfl
        · exact absurd (List.mem_map.2 ⟨_, hm, rfl⟩) h.1
    · rw [if_neg hk, ih h.2, List.mem_cons, Prod.mk.injEq]
      simp [hk]

theorem chainLookup_none {α β : Type} [DecidableEq α] {l : List (α × β)} {a : α} :
    chainLookup l a = none ↔ a ∉ l.map Prod.fst := by
  induction l with
  | nil => simp [chainLookup]
  | cons e l ih =>
    obtain ⟨k, v⟩ := e
    unfold chainLookup
    by_cases hk : a = k
    · simp [hk]
    · rw [if_neg hk, ih]; simp [hk]

namespace AngFam

theorem entries_sorted (fam : AngFam) :
    fam.entries.Pairwise (fun a b => a.1 < b.1 ∧ a.2 < b.2) := by
  cases fam <;> decide +kernel

theorem entries_pos (fam : AngFam) : ∀ e ∈ fam.entries, 0 < e.1 ∧ 0 < e.2 := by
  cases fam <;> decide +kernel

theorem entries_lt (fam : AngFam) : ∀ e ∈ fam.entries, e.1 < 20000 ∧ e.2 < 20000 := by
  cases fam <;> decide +kernel

theorem keys_nodup (fam : AngFam) : (fam.entries.map Prod.fst).Nodup := by
  rw [List.Nodup, List.pairwise_map]
  exact fam.entries_sorted.imp (fun h => ne_of_lt h.1)

theorem values_nodup (fam : AngFam) : ((fam.entries.map Prod.swap).map Prod.fst).Nodup := by
  rw [List.Nodup, List.pairwise_map, List.pairwise_map]
  exact fam.entries_sorted.imp (fun h => ne_of_lt h.2)

theorem nptsByOrder_eq (fam : AngFam) (o : Int) :
    fam.nptsByOrder o = (chainLookup fam.entries o).getD (-1) := by cases fam <;> rfl

theorem orderByNpts_eq (fam : AngFam) (n : Int) :
    fam.orderByNpts n = (chainLookup (fam.entries.map Prod.swap) n).getD (-1) := by
  have h : ∀ fam : AngFam, fam.orderByNpts = switchOr (fam.entries.map Prod.swap) := by
    intro fam
    cases fam
    · show switchOr Tables.abOrderByNpts = _
      congr 1
    · show switchOr Tables.deOrderByNpts = _
      congr 1
    · show switchOr Tables.llOrderByNpts = _
      congr 1
    · show switchOr Tables.woOrderByNpts = _
      congr 1
  rw [h]; rfl

theorem nptsByOrder_iff (fam : AngFam) (o n : Int) :
    (fam.nptsByOrder o = n ∧ n ≠ -1) ↔ (o, n) ∈ fam.entries := by
  rw [nptsByOrder_eq, ← chainLookup_iff fam.keys_nodup]
  cases h : chainLookup fam.entries o with
  | none =>
    simp only [Option.getD_none, reduceCtorEq, iff_false, not_and, not_not]
    exact fun h => h.symm
  | some m =>
    have := fam.entries_pos _ ((chainLookup_iff fam.keys_nodup _ _).1 h)
    simp only [Option.getD_some, Option.some.injEq]
    constructor
    · exact fun h => h.1
    · rintro rfl; exact ⟨rfl, by dsimp only at this; omega⟩

theorem orderByNpts_iff (fam : AngFam) (o n : Int) :
    (fam.orderByNpts n = o ∧ o ≠ -1) ↔ (o, n) ∈ fam.entries := by
  have hm : (o, n) ∈ fam.entries ↔ (n, o) ∈ fam.entries.map Prod.swap := by
    simp
  rw [orderByNpts_eq, hm, ← chainLookup_iff fam.values_nodup]
  cases h : chainLookup (fam.entries.map Prod.swap) n with
  | none =>
    simp only [Option.getD_none, reduceCtorEq, iff_false, not_and, not_not]
    exact fun h => h.symm
  | some m =>
    have h1 := (chainLookup_iff fam.values_nodup _ _).1 h
    have := fam.entries_pos (m, n) (by simpa [Prod.swap] using h1)
    simp only [Option.getD_some, Option.some.injEq]
    constructor
    · exact fun h => h.1
    · rintro rfl; exact ⟨rfl, by dsimp only at this; omega⟩

/-! ### Generator dispatch -/

theorem ab_dispatch : Tables.abDispatch = Tables.abNptsByOrder.map (fun e => (e.2.toNat, e.2.toNat)) := by
  decide +kernel
theorem de_dispatch : Tables.deDispatch = Tables.deNptsByOrder.map (fun e => (e.2.toNat, e.2.toNat)) := by
  decide +kernel
theorem ll_dispatch : Tables.llDispatch = Tables.llNptsByOrder.map (fun e => (e.2.toNat, e.2.toNat)) := by
  decide +kernel
theorem wo_dispatch : Tables.woDispatch ++ Tables.woDispatchLarge =
    Tables.woNptsByOrder.map (fun e => (e.2.toNat, e.2.toNat)) := by
  decide +kernel
theorem wo_small : ∀ e ∈ Tables.woDispatch, e.1 < 2049 := by decide +kernel
theorem wo_large : ∀ e ∈ Tables.woDispatchLarge, 2049 ≤ e.1 := by decide +kernel

theorem chainLookup_append {α β : Type} [DecidableEq α] (l l' : List (α × β)) (a : α) :
    chainLookup (l ++ l') a = (chainLookup l a).or (chainLookup l' a) := by
  induction l with
  | nil => rfl
  | cons e l ih =>
    obtain ⟨k, v⟩ := e
    rw [List.cons_append]
    simp only [chainLookup]
    split_ifs with h
    · rfl
    · exact ih

theorem dispatch_eq (fam : AngFam) (n : Nat) :
    fam.dispatch n = chainLookup (fam.entries.map (fun e => (e.2.toNat, e.2.toNat))) n := by
  cases fam
  · show chainLookup Tables.abDispatch n = _
    rw [ab_dispatch]; rfl
  · show chainLookup Tables.deDispatch n = _
    rw [de_dispatch]; rfl
  · show chainLookup Tables.llDispatch n = _
    rw [ll_dispatch]; rfl
  · show (if n ≥ 2049 then chainLookup Tables.woDispatchLarge n else chainLookup Tables.woDispatch n) = _
    show _ = chainLookup (Tables.woNptsByOrder.map (fun e => (e.2.toNat, e.2.toNat))) n
    rw [← wo_dispatch, chainLookup_append]
    split_ifs with h
    · have : chainLookup Tables.woDispatch n = none := by
        rw [chainLookup_none]
        rintro hm
        obtain ⟨e, he, rfl⟩ := List.mem_map.1 hm
        have := wo_small e he
        omega
      rw [this, Option.none_or]
    · have : chainLookup Tables.woDispatchLarge n = none := by
        rw [chainLookup_none]
        rintro hm
        obtain ⟨e, he, rfl⟩ := List.mem_map.1 hm
        have := wo_large e he
        omega
      rw [this, Option.or_none]

theorem dispatch_iff (fam : AngFam) (n k : Nat) :
    fam.dispatch n = some k ↔ k = n ∧ ∃ o, (o, (n : Int)) ∈ fam.entries := by
  rw [dispatch_eq, chainLookup_iff]
  · simp only [List.mem_map, Prod.mk.injEq, Prod.exists]
    constructor
    · rintro ⟨o, m, hm, h1, h2⟩
      have := fam.entries_pos _ hm
      dsimp only at this
      refine ⟨by omega, o, ?_⟩
      have : (n : Int) = m := by omega
      rw [this]; exact hm
    · rintro ⟨rfl, o, hm⟩
      exact ⟨o, k, hm, by simp, by simp⟩
  · rw [List.Nodup, List.pairwise_map, List.pairwise_map]
    refine fam.entries_sorted.imp_of_mem (fun {a b} ha hb h => ?_)
    have := fam.entries_pos a ha
    have := fam.entries_pos b hb
    dsimp only
    omega

theorem declared_eq (fam : AngFam) :
    fam.declared = fam.entries.map (fun e => (e.2.toNat, e.2.toNat, e.2.toNat)) := by
  cases fam <;> decide +kernel

/-! ### Next order -/

theorem ab_next : Tables.abNextLast = 210 ∧ Tables.abNptsByOrder.map Prod.fst =
    Tables.abNext.map Prod.fst ++ [210] ∧ ∀ e ∈ Tables.abNext, e.1 = e.2 := by decide +kernel
theorem de_next : Tables.deNextLast = 101 ∧ Tables.deNptsByOrder.map Prod.fst =
    Tables.deNext.map Prod.fst ++ [101] ∧ ∀ e ∈ Tables.deNext, e.1 = e.2 := by decide +kernel
theorem ll_next : Tables.llNextLast = 131 ∧ Tables.llNptsByOrder.map Prod.fst =
    Tables.llNext.map Prod.fst ++ [131] ∧ ∀ e ∈ Tables.llNext, e.1 = e.2 := by decide +kernel
theorem wo_orders : Tables.woNptsByOrder.map Prod.fst =
    (List.range 125).map (fun i : Nat => (i : Int) + 1) := by decide +kernel

/-- Largest supported order. -/
def maxOrder : AngFam → Int
  | ahrensBeylkin => 210
  | delley => 101
  | lebedevLaikov => 131
  | womersley => 125

/-- `r` is the least element of `ks` not below `x`, or the last one `m` if there is none. -/
def IsNext (ks : List Int) (m x r : Int) : Prop :=
  r ∈ ks ∧ (x ≤ m → x ≤ r) ∧ (m < x → r = m) ∧ ∀ k ∈ ks, x ≤ k → r ≤ k

theorem chainNext_spec (l : List (Int × Int)) (m x : Int) (he : ∀ e ∈ l, e.1 = e.2)
    (hs : (l.map Prod.fst ++ [m]).Pairwise (· < ·)) :
    IsNext (l.map Prod.fst ++ [m]) m x (chainNext l m x) := by
  induction l with
  | nil =>
    refine ⟨by simp [chainNext], fun h => by simpa [chainNext] using h, fun _ => rfl, ?_⟩
    intro k hk _
    simp only [List.map_nil, List.nil_append, List.mem_singleton] at hk
    simp [chainNext, hk]
  | cons e l ih =>
    obtain ⟨c, r⟩ := e
    have hcr : c = r := he (c, r) (by simp)
    subst hcr
    rw [List.map_cons, List.cons_append, List.pairwise_cons] at hs
    have hm : c < m := hs.1 m (by simp)
    unfold chainNext
    split_ifs with hx
    · refine ⟨by simp, fun _ => hx, fun h => by omega, ?_⟩
      intro k hk _
      rw [List.map_cons, List.cons_append, List.mem_cons] at hk
      rcases hk with rfl | hk
      · exact le_refl _
      · exact le_of_lt (hs.1 k hk)
    · obtain ⟨h1, h2, h3, h4⟩ := ih (fun e he' => he e (by simp [he'])) hs.2
      refine ⟨by rw [List.map_cons, List.cons_append]; exact List.mem_cons_of_mem _ h1, h2, h3, ?_⟩
      intro k hk hxk
      rw [List.map_cons, List.cons_append, List.mem_cons] at hk
      rcases hk with rfl | hk
      · exact absurd hxk hx
      · exact h4 k hk hxk

theorem nextOrder_spec (fam : AngFam) (x : Int) :
    IsNext (fam.entries.map Prod.fst) fam.maxOrder x (fam.nextOrder x) := by
  have hs : (fam.entries.map Prod.fst).Pairwise (· < ·) := by
    rw [List.pairwise_map]; exact fam.entries_sorted.imp (fun h => h.1)
  cases fam
  · have hs' : (Tables.abNptsByOrder.map Prod.fst).Pairwise (· < ·) := hs
    show IsNext (Tables.abNptsByOrder.map Prod.fst) 210 x (chainNext Tables.abNext Tables.abNextLast x)
    rw [ab_next.1]; rw [ab_next.2.1] at hs' ⊢
    exact chainNext_spec _ _ _ ab_next.2.2 hs'
  · have hs' : (Tables.deNptsByOrder.map Prod.fst).Pairwise (· < ·) := hs
    show IsNext (Tables.deNptsByOrder.map Prod.fst) 101 x (chainNext Tables.deNext Tables.deNextLast x)
    rw [de_next.1]; rw [de_next.2.1] at hs' ⊢
    exact chainNext_spec _ _ _ de_next.2.2 hs'
  · have hs' : (Tables.llNptsByOrder.map Prod.fst).Pairwise (· < ·) := hs
    show IsNext (Tables.llNptsByOrder.map Prod.fst) 131 x (chainNext Tables.llNext Tables.llNextLast x)
    rw [ll_next.1]; rw [ll_next.2.1] at hs' ⊢
    exact chainNext_spec _ _ _ ll_next.2.2 hs'
  · show IsNext (Tables.woNptsByOrder.map Prod.fst) 125 x (if x < 1 then 1 else if x > 125 then 125 else x)
    rw [wo_orders]
    have hmem : ∀ k : Int, k ∈ (List.range 125).map (fun i : Nat => (i : Int) + 1) ↔ 1 ≤ k ∧ k ≤ 125 := by
      intro k
      simp only [List.mem_map, List.mem_range]
      constructor
      · rintro ⟨i, hi, rfl⟩; omega
      · intro h; exact ⟨(k - 1).toNat, by omega, by omega⟩
    refine ⟨?_, ?_, ?_, ?_⟩
    · rw [hmem]; split_ifs <;> omega
    · intro h; split_ifs <;> omega
    · intro h; split_ifs <;> omega
    · intro k hk hx
      rw [hmem] at hk
      split_ifs <;> omega

end AngFam

/-! ### The generated grids -/

section
variable {F : Type} [Mul F] [Arith F]

theorem scaleLoop_eq (w : List F) (n : Nat) (hn : n = w.length) :
    forRange 0 n scaleStep w = .ok (w.map (fun x => x * (Arith.lit 4 * Arith.pi))) := by
  subst hn
  obtain ⟨s', h1, h2⟩ := forRange_inv (body := scaleStep)
    (fun i s => s = (w.take i).map (fun x => x * (Arith.lit 4 * Arith.pi)) ++ w.drop i)
    (Nat.zero_le w.length) (s := w) (by simp) (by
      rintro i s - hi rfl
      refine ⟨_, ?_, rfl⟩
      have hlen : i = ((w.take i).map (fun x : F => x * (Arith.lit 4 * Arith.pi))).length := by
        simp; omega
      unfold scaleStep
      rw [List.drop_eq_getElem_cons hi, vget_at _ _ _ hlen, Outcome.ok_bind,
        vset_at _ _ _ _ hlen]
      rw [← List.take_concat_get' w i hi]
      simp [-List.take_append_getElem, -List.map_take])
  rw [h1, h2]
  simp

/-- The factor applied to the tabulated weights. -/
def AngFam.scaled (fam : AngFam) (w : F) : F :=
  match fam with
  | .lebedevLaikov => w * (Arith.lit 4 * Arith.pi)
  | .delley => w * (Arith.lit 4 * Arith.pi)
  | .ahrensBeylkin => w
  | .womersley => w

theorem scaleWeights_eq (fam : AngFam) (n : Nat) (w : List F) (hn : n = w.length)
    (hd : fam = .delley → n ≤ 2147483647) :
    scaleWeights fam n w = .ok (w.map fam.scaled) := by
  have hid : ∀ f : F → F, (∀ x, f x = x) → w = w.map f := fun f hf => by
    conv_lhs => rw [← List.map_id w]
    exact List.map_congr_left (fun x _ => (hf x).symm)
  cases fam
  · exact congrArg _ (hid _ (fun _ => rfl))
  · simp only [scaleWeights, if_pos (hd rfl)]
    exact scaleLoop_eq w n hn
  · exact scaleLoop_eq w n hn
  · exact congrArg _ (hid _ (fun _ => rfl))

theorem copyInto_eq {α : Type} (src dst : List α) (h : src.length = dst.length) :
    copyInto src dst = .ok src := by
  unfold copyInto
  rw [if_pos (by omega), h]; simp

/-- What a supported size yields. -/
theorem angConstruct_supported (b : Build) (d : AngData F) (hd : d.Typed) (fam : AngFam) (n : Nat)
    (k : Nat) (h : fam.dispatch n = some k) :
    k = n ∧ n < 20000 ∧ (d fam n).points.length = n ∧ (d fam n).weights.length = n ∧
    angConstruct b d fam n = .ok ⟨(d fam n).points, (d fam n).weights.map fam.scaled⟩ := by
  obtain ⟨rfl, o, ho⟩ := (fam.dispatch_iff n k).1 h
  have hlt := (fam.entries_lt _ ho).2
  dsimp only at hlt
  have hdec : (k, k, k) ∈ fam.declared := by
    rw [fam.declared_eq]
    exact List.mem_map.2 ⟨_, ho, by simp⟩
  obtain ⟨h1, h2⟩ := hd fam _ hdec
  dsimp only at h1 h2
  refine ⟨rfl, by omega, h1, h2, ?_⟩
  unfold angConstruct angGenerate
  simp only [h, copyGrid]
  rw [copyInto_eq _ _ (by simp [h1]), copyInto_eq _ _ (by simp [h2])]
  simp only [Outcome.ok_bind, Outcome.pure_eq]
  rw [scaleWeights_eq fam _ _ h2.symm (fun _ => by omega)]
  simp only [Outcome.ok_bind]
  rw [construct_ok b (by simp [h1, h2])]

/-- What any other size yields. -/
theorem angConstruct_unsupported (b : Build) (d : AngData F) (fam : AngFam) (n : Nat)
    (h : fam.dispatch n = none) (hd : fam = .delley → n ≤ 2147483647) :
    angConstruct b d fam n = .ok ⟨List.replicate n ⟨Arith.lit 0, Arith.lit 0, Arith.lit 0⟩,
      List.replicate n (fam.scaled (Arith.lit 0))⟩ := by
  unfold angConstruct angGenerate
  simp only [h, Outcome.ok_bind, Outcome.pure_eq]
  rw [scaleWeights_eq fam _ _ (by simp) hd]
  simp only [Outcome.ok_bind]
  rw [construct_ok b (by simp)]
  simp

end

end IntegratorXX
