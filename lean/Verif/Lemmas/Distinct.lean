import Mathlib.Data.Nat.Bitwise
import Mathlib.Data.List.Nodup
import Mathlib.Tactic.Ring
import Verif.Lemmas.PowVec

/-!
# A fast check that numbers are distinct

The numbers are distributed to 64 lists by their residue.  In each list a number sets four bits of an accumulator
(a Bloom filter) and at least one of them must not be set before.
-/

namespace IntegratorXX

/-- Unfolding this keeps the recursion of the kernel flat. -/
def flatStep (b : Bool) : Bool := b

/-- The bits of a number. -/
noncomputable def bloomMask (a : Nat) : Nat :=
  Nat.lor (Nat.lor (Nat.pow 2 (Nat.mod a 8053)) (Nat.pow 2 (Nat.mod a 8059)))
    (Nat.lor (Nat.pow 2 (Nat.mod a 8069)) (Nat.pow 2 (Nat.mod a 8081)))

/-- Every number has a bit not set before. -/
noncomputable def bloom (l : List Nat) : Nat → Bool :=
  List.rec (fun _ => true) (fun a _ ih acc =>
    Bool.rec (flatStep (ih (Nat.lor acc (bloomMask a)))) false
      (Nat.beq (Nat.land acc (bloomMask a)) (bloomMask a))) l

/-- Which of two lists a number goes to. -/
noncomputable def bucketBit (j a : Nat) : Bool := Nat.beq (Nat.land (Nat.shiftRight (Nat.mod a 8191) j) 1) 1

/-- Distribute to two lists. -/
noncomputable def splitBit (j : Nat) (k : List Nat → List Nat → Bool) (l : List Nat) : List Nat → List Nat → Bool :=
  List.rec k (fun a _ ih u v => Bool.rec (flatStep (ih u (a :: v))) (flatStep (ih (a :: u) v))
    (bucketBit j a)) l

/-- The check. -/
noncomputable def distinctNat (j : Nat) : List Nat → Bool :=
  Nat.rec (fun l => bloom l 0) (fun j ih l => splitBit j (fun u v => Bool.rec false (ih v) (ih u)) l [] []) j

private theorem covers_mono {acc m x : Nat} (h : Nat.land acc x = x) : Nat.land (Nat.lor acc m) x = x := by
  have h' : acc &&& x = x := h
  show (acc ||| m) &&& x = x
  apply Nat.eq_of_testBit_eq
  intro i
  have := congrArg (fun n => n.testBit i) h'
  simp only [Nat.testBit_and, Nat.testBit_or] at this ⊢
  cases h1 : acc.testBit i <;> cases h2 : m.testBit i <;> cases h3 : x.testBit i <;> simp_all

private theorem covers_self (acc m : Nat) : Nat.land (Nat.lor acc m) m = m := by
  show (acc ||| m) &&& m = m
  apply Nat.eq_of_testBit_eq
  intro i
  simp only [Nat.testBit_and, Nat.testBit_or]
  cases acc.testBit i <;> cases m.testBit i <;> rfl

theorem bloom_nodup (l : List Nat) : ∀ acc, bloom l acc = true →
    l.Nodup ∧ ∀ a ∈ l, Nat.land acc (bloomMask a) ≠ bloomMask a := by
  induction l with
  | nil => intro acc _; simp
  | cons a l ih =>
    intro acc h
    have e : bloom (a :: l) acc = Bool.rec (flatStep (bloom l (Nat.lor acc (bloomMask a)))) false
      (Nat.beq (Nat.land acc (bloomMask a)) (bloomMask a)) := rfl
    rw [e] at h
    cases hb : Nat.beq (Nat.land acc (bloomMask a)) (bloomMask a) with
    | true => rw [hb] at h; cases h
    | false =>
      rw [hb] at h
      obtain ⟨h1, h2⟩ := ih _ h
      refine ⟨List.nodup_cons.2 ⟨fun hm => h2 a hm (covers_self _ _), h1⟩, ?_⟩
      intro x hx
      rcases List.mem_cons.1 hx with rfl | hx
      · intro he
        rw [he, Nat.beq_refl] at hb
        cases hb
      · exact fun he => h2 x hx (covers_mono he)

theorem splitBit_spec (j : Nat) (k : List Nat → List Nat → Bool) (l : List Nat) : ∀ u v,
    splitBit j k l u v = true → ∃ u' v', k (u' ++ u) (v' ++ v) = true ∧
      (∀ a ∈ u', bucketBit j a = true) ∧ (∀ a ∈ v', bucketBit j a = false) ∧
      l.Perm (u' ++ v') := by
  induction l with
  | nil => intro u v h; exact ⟨[], [], h, by simp, by simp, by simp⟩
  | cons a l ih =>
    intro u v h
    have e : splitBit j k (a :: l) u v = Bool.rec (flatStep (splitBit j k l u (a :: v)))
      (flatStep (splitBit j k l (a :: u) v)) (bucketBit j a) := rfl
    rw [e] at h
    cases hb : bucketBit j a with
    | true =>
      rw [hb] at h
      obtain ⟨u', v', h1, h2, h3, h4⟩ := ih (a :: u) v h
      refine ⟨u' ++ [a], v', by simpa using h1, ?_, h3, ?_⟩
      · intro x hx
        rcases List.mem_append.1 hx with hx | hx
        · exact h2 x hx
        · rw [List.mem_singleton.1 hx]; exact hb
      · rw [List.append_assoc]
        exact (h4.cons a).trans (List.perm_middle (l₁ := u') (l₂ := v')).symm
    | false =>
      rw [hb] at h
      obtain ⟨u', v', h1, h2, h3, h4⟩ := ih u (a :: v) h
      refine ⟨u', v' ++ [a], by simpa using h1, h2, ?_, ?_⟩
      · intro x hx
        rcases List.mem_append.1 hx with hx | hx
        · exact h3 x hx
        · rw [List.mem_singleton.1 hx]; exact hb
      · rw [← List.append_assoc]
        exact (h4.cons a).trans (List.perm_append_singleton a _).symm

theorem distinctNat_nodup (j : Nat) : ∀ l, distinctNat j l = true → l.Nodup := by
  induction j with
  | zero => intro l h; exact (bloom_nodup l _ h).1
  | succ j ih =>
    intro l h
    obtain ⟨u, v, h1, h2, h3, h4⟩ := splitBit_spec j _ l [] [] h
    rw [List.append_nil, List.append_nil] at h1
    cases hu : distinctNat j u with
    | false =>
      have : (Bool.rec false (distinctNat j v) (distinctNat j u) : Bool) = true := h1
      rw [hu] at this
      cases this
    | true =>
      have h5 : (Bool.rec false (distinctNat j v) (distinctNat j u) : Bool) = true := h1
      rw [hu] at h5
      rw [h4.nodup_iff]
      refine List.Nodup.append (ih u hu) (ih v h5) ?_
      intro x hx hy
      have := h2 x hx
      rw [h3 x hy] at this
      cases this

/-! ## Numbers with gaps -/

/-- Evaluate a function on a list. -/
noncomputable def forceMap {α : Type} (f : α → Nat) (kont : List Nat → Bool) (l : List α) : List Nat → Bool :=
  List.rec kont (fun a _ ih acc => forceNat (f a) fun x => flatStep (ih (x :: acc))) l

theorem forceMap_eq {α : Type} (f : α → Nat) (kont : List Nat → Bool) (l : List α) : ∀ acc,
    forceMap f kont l acc = kont ((l.map f).reverse ++ acc) := by
  induction l with
  | nil => intro acc; rfl
  | cons a l ih =>
    intro acc
    have e : forceMap f kont (a :: l) acc = forceNat (f a) fun x => flatStep (forceMap f kont l (x :: acc)) := rfl
    rw [e, forceNat_eq]
    show forceMap f kont l _ = _
    rw [ih, List.map_cons, List.reverse_cons, List.append_assoc]
    rfl

/-- The numbers are in different intervals of length `2 h`, for two subdivisions. -/
noncomputable def apartNat (j h : Nat) (l : List Nat) : Bool :=
  Bool.rec false (forceMap (fun a => Nat.div (Nat.add a h) (Nat.mul 2 h)) (distinctNat j) l [])
    (forceMap (fun a => Nat.div a (Nat.mul 2 h)) (distinctNat j) l [])

theorem apartNat_apart {j h : Nat} {l : List Nat} (hh : 0 < h) (H : apartNat j h l = true) :
    l.Pairwise (fun a b => a + h ≤ b ∨ b + h ≤ a) := by
  have h1 : forceMap (fun a => Nat.div a (Nat.mul 2 h)) (distinctNat j) l [] = true := by
    unfold apartNat at H
    cases hb : forceMap (fun a => Nat.div a (Nat.mul 2 h)) (distinctNat j) l [] with
    | true => rfl
    | false => rw [hb] at H; cases H
  have h2 : forceMap (fun a => Nat.div (Nat.add a h) (Nat.mul 2 h)) (distinctNat j) l [] = true := by
    unfold apartNat at H
    rw [h1] at H
    exact H
  rw [forceMap_eq, List.append_nil] at h1 h2
  have n1 := distinctNat_nodup _ _ h1
  have n2 := distinctNat_nodup _ _ h2
  rw [List.nodup_reverse, List.Nodup, List.pairwise_map] at n1 n2
  refine (n1.and n2).imp (fun {a b} hab => ?_)
  obtain ⟨p1, p2⟩ := hab
  have p1' : a / (2 * h) ≠ b / (2 * h) := p1
  have p2' : (a + h) / (2 * h) ≠ (b + h) / (2 * h) := p2
  have key : ∀ a b : Nat, a ≤ b → b < a + h → a / (2 * h) ≠ b / (2 * h) → (a + h) / (2 * h) = (b + h) / (2 * h) := by
    intro a b hab hba hne
    have hpos : 0 < 2 * h := by omega
    obtain ⟨q, hq⟩ : ∃ q, q = a / (2 * h) := ⟨_, rfl⟩
    have q1 : 2 * h * q ≤ a := by rw [hq]; exact Nat.mul_div_le _ _
    have q2 : a < 2 * h * (q + 1) := by
      rw [hq]
      exact Nat.lt_mul_div_succ _ hpos
    have q3 : 2 * h * (q + 1) ≤ b := by
      by_contra hc
      apply hne
      rw [← hq]
      symm
      rw [Nat.div_eq_iff hpos]
      rw [Nat.mul_add, Nat.mul_one] at hc
      have : 2 * h * q = q * (2 * h) := Nat.mul_comm _ _
      constructor
      · omega
      · omega
    rw [Nat.mul_add, Nat.mul_one] at q2 q3
    have e : ∀ x, 2 * h * q + 2 * h ≤ x → x < 2 * h * q + 2 * h + 2 * h → x / (2 * h) = q + 1 := by
      intro x x1 x2
      rw [Nat.div_eq_iff hpos]
      have : (q + 1) * (2 * h) = 2 * h * q + 2 * h := by ring
      constructor
      · omega
      · omega
    rw [e (a + h) (by omega) (by omega), e (b + h) (by omega) (by omega)]
  by_contra hc
  rcases Nat.le_total a b with h | h
  · exact p2' (key a b h (by omega) p1')
  · exact p2' (key b a h (by omega) p1'.symm).symm

end IntegratorXX
