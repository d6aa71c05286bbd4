import Verif.Model.Primitive
import Verif.Lemmas.Loop

/-!
# Closed forms of GaussLegendre and GaussLobatto (any arithmetic)
-/

set_option linter.unusedSectionVars false

namespace IntegratorXX

variable {F : Type} [Add F] [Sub F] [Mul F] [Div F] [Neg F] [Arith F]

open Arith

/-- Starting value of the Newton iteration number `idx` of GaussLegendre. -/
def glStart (F : Type) [Add F] [Sub F] [Mul F] [Div F] [Arith F] (n idx : Nat) : F :=
  cos (pi * (ofNat (idx + 1) - lit (1/4)) / (ofNat n + lit (1/2)))

/-- Result of Newton iteration number `idx`. -/
def glZ (F : Type) [Add F] [Sub F] [Mul F] [Div F] [Arith F] (n idx : Nat) : F × F :=
  (glNewton n 100 (glStart F n idx)).getD (lit 0, lit 0)

def glW (F : Type) [Add F] [Sub F] [Mul F] [Div F] [Arith F] (n idx : Nat) : F :=
  lit 2 / ((lit 1 - (glZ F n idx).1 * (glZ F n idx).1) * (glZ F n idx).2 * (glZ F n idx).2)

theorem gaussLegendre_cases (n : Nat) :
    (gaussLegendre n : Outcome (List F × List F)) = .throws (.runtimeError glMsg) ∨
    ((∀ j, j < (n + 1) / 2 → glNewton n 100 (glStart F n j) = some (glZ F n j)) ∧
      (gaussLegendre n : Outcome (List F × List F)) = .ok
        ((List.range n).map (fun j => if j < n / 2 then -(glZ F n j).1 else (glZ F n (n - 1 - j)).1),
        (List.range n).map (fun j => if j < n / 2 then glW F n j else glW F n (n - 1 - j)))) := by
  unfold gaussLegendre
  dsimp only
  refine Or.elim (forRange_inv_throws (.runtimeError glMsg)
    (lo := 0) (hi := (n + 1) / 2)
    (s := (List.replicate n (lit 0 : F), List.replicate n (lit 0 : F)))
    (body := glStep n)
    (fun i s => s.1.length = n ∧ s.2.length = n ∧
      (∀ j, j < i → glNewton n 100 (glStart F n j) = some (glZ F n j)) ∧
      (∀ j, j < i → s.1[n - 1 - j]? = some (glZ F n j).1) ∧
      (∀ j, j < i → j < n / 2 → s.1[j]? = some (-(glZ F n j).1)) ∧
      (∀ j, j < i → s.2[n - 1 - j]? = some (glW F n j)) ∧
      (∀ j, j < i → j < n / 2 → s.2[j]? = some (glW F n j)))
    (Nat.zero_le _) (by simp) ?_) (fun h => ?_) ?_
  · rintro i ⟨p, w⟩ - hi ⟨h1, h2, h3, h4, h5, h6, h7⟩
    dsimp only at h1 h2 h4 h5 h6 h7
    unfold glStep
    dsimp only
    rw [show cos (pi * (ofNat (i + 1) - lit (1/4)) / (ofNat n + lit (1/2))) = glStart F n i from rfl]
    cases hN : glNewton n 100 (glStart F n i) with
    | none => left; rfl
    | some zd =>
      obtain ⟨z, d⟩ := zd
      right
      have hz : glZ F n i = (z, d) := by simp [glZ, hN]
      have hw : lit 2 / ((lit 1 - z * z) * d * d) = glW F n i := by simp [glW, hz]
      dsimp only
      rw [vset_ok (by omega), Outcome.ok_bind, vset_ok (by omega), Outcome.ok_bind,
        vset_ok (by simp; omega), Outcome.ok_bind, vset_ok (by simp; omega), Outcome.ok_bind]
      refine ⟨_, rfl, by simpa using h1, by simpa using h2, ?_, ?_, ?_, ?_, ?_⟩
      · intro j hj
        rcases Nat.lt_succ_iff_lt_or_eq.mp hj with h | rfl
        · exact h3 j h
        · rw [hN, hz]
      · intro j hj
        rcases Nat.lt_succ_iff_lt_or_eq.mp hj with h | rfl
        · rw [List.getElem?_set_ne (by omega), List.getElem?_set_ne (by omega)]; exact h4 j h
        · rw [List.getElem?_set_self (by simp; omega), hz]
      · intro j hj hj2
        rcases Nat.lt_succ_iff_lt_or_eq.mp hj with h | rfl
        · rw [List.getElem?_set_ne (by omega), List.getElem?_set_ne (by omega)]; exact h5 j h hj2
        · rw [List.getElem?_set_ne (by omega), List.getElem?_set_self (by omega), hz]
      · intro j hj
        rcases Nat.lt_succ_iff_lt_or_eq.mp hj with h | rfl
        · rw [List.getElem?_set_ne (by omega), List.getElem?_set_ne (by omega)]; exact h6 j h
        · rw [List.getElem?_set_self (by simp; omega), hw]
      · intro j hj hj2
        rcases Nat.lt_succ_iff_lt_or_eq.mp hj with h | rfl
        · rw [List.getElem?_set_ne (by omega), List.getElem?_set_ne (by omega)]; exact h7 j h hj2
        · rw [List.getElem?_set_ne (by omega), List.getElem?_set_self (by omega), hw]
  · left; exact h
  · rintro ⟨⟨p, w⟩, h, h1, h2, h3, h4, h5, h6, h7⟩
    right
    refine ⟨h3, ?_⟩
    rw [h]
    dsimp only at h1 h2 h4 h5 h6 h7
    congr 2
    · apply eq_map_range h1
      intro j hj
      split_ifs with hj2
      · exact h5 j (by omega) hj2
      · have := h4 (n - 1 - j) (by omega)
        rwa [show n - 1 - (n - 1 - j) = j by omega] at this
    · apply eq_map_range h2
      intro j hj
      split_ifs with hj2
      · exact h7 j (by omega) hj2
      · have := h6 (n - 1 - j) (by omega)
        rwa [show n - 1 - (n - 1 - j) = j by omega] at this

/-- Starting value of Newton iteration number `idx` of GaussLobatto. -/
def lobStart (F : Type) [Sub F] [Mul F] [Div F] [Arith F] (n idx : Nat) : F :=
  cos (ofNat (n - 1 - idx) * pi / (ofNat n - lit 1))

def lobZ (F : Type) [Add F] [Sub F] [Mul F] [Div F] [Arith F] (n idx : Nat) : F × F :=
  (lobNewton n 100 (lobStart F n idx)).getD (lit 0, lit 0)

/-- `two_ov_nnm1`. -/
def lobE (F : Type) [Sub F] [Mul F] [Div F] [Arith F] (n : Nat) : F :=
  lit 2 / (ofNat n * (ofNat n - lit 1))

def lobW (F : Type) [Add F] [Sub F] [Mul F] [Div F] [Arith F] (n idx : Nat) : F :=
  lobE F n / ((lobZ F n idx).2 * (lobZ F n idx).2)

/-- Closed form of the nodes of GaussLobatto. -/
def lobPt (F : Type) [Add F] [Sub F] [Mul F] [Div F] [Neg F] [Arith F] (n j : Nat) : F :=
  if n % 2 = 1 ∧ j = n / 2 then lit 0 else if j = n - 1 then lit 1 else if j = 0 then -(lit 1)
  else if j < n / 2 then (lobZ F n j).1 else -(lobZ F n (n - 1 - j)).1

/-- Closed form of the weights of GaussLobatto. -/
def lobWt (F : Type) [Add F] [Sub F] [Mul F] [Div F] [Arith F] (n j : Nat) : F :=
  if j = n - 1 ∨ j = 0 then lobE F n
  else if j < n / 2 then lobW F n j else lobW F n (n - 1 - j)

theorem gaussLobatto_cases (n : Nat) (hn : 1 ≤ n) (hn' : n < sizeMod) :
    (gaussLobatto n : Outcome (List F × List F)) = .throws (.runtimeError lobMsg) ∨
    ((∀ j, 1 ≤ j → j < (n + 1) / 2 → lobNewton n 100 (lobStart F n j) = some (lobZ F n j)) ∧
      (gaussLobatto n : Outcome (List F × List F)) = .ok
        ((List.range n).map (lobPt F n), (List.range n).map (lobWt F n))) := by
  unfold gaussLobatto
  dsimp only
  refine Or.elim (forRange_inv_throws (.runtimeError lobMsg)
    (lo := 1) (hi := (n + 1) / 2)
    (s := (List.replicate n (lit 0 : F), List.replicate n (lit 0 : F)))
    (body := lobStep n (lit 2 / (ofNat n * (ofNat n - lit 1))))
    (fun i s => s.1.length = n ∧ s.2.length = n ∧
      (∀ j, 1 ≤ j → j < i → lobNewton n 100 (lobStart F n j) = some (lobZ F n j)) ∧
      (∀ j, 1 ≤ j → j < i → s.1[n - 1 - j]? = some (-(lobZ F n j).1)) ∧
      (∀ j, 1 ≤ j → j < i → j < n / 2 → s.1[j]? = some (lobZ F n j).1) ∧
      (∀ j, 1 ≤ j → j < i → s.2[n - 1 - j]? = some (lobW F n j)) ∧
      (∀ j, 1 ≤ j → j < i → j < n / 2 → s.2[j]? = some (lobW F n j)))
    (by omega) (by
      refine ⟨by simp, by simp, ?_, ?_, ?_, ?_, ?_⟩ <;> intros <;> omega) ?_) (fun h => ?_) ?_
  · rintro i ⟨p, w⟩ hi0 hi ⟨h1, h2, h3, h4, h5, h6, h7⟩
    dsimp only at h1 h2 h4 h5 h6 h7
    unfold lobStep
    dsimp only
    rw [show cos (ofNat (n - 1 - i) * pi / (ofNat n - lit 1)) = lobStart F n i from rfl]
    cases hN : lobNewton n 100 (lobStart F n i) with
    | none => left; rfl
    | some zd =>
      obtain ⟨z, d⟩ := zd
      right
      have hz : lobZ F n i = (z, d) := by simp [lobZ, hN]
      have hw : (lit 2 / (ofNat n * (ofNat n - lit 1))) / (d * d) = lobW F n i := by
        simp [lobW, hz, lobE]
      dsimp only
      rw [vset_ok (by omega), Outcome.ok_bind, vset_ok (by omega), Outcome.ok_bind,
        vset_ok (by simp; omega), Outcome.ok_bind, vset_ok (by simp; omega), Outcome.ok_bind]
      refine ⟨_, rfl, by simpa using h1, by simpa using h2, ?_, ?_, ?_, ?_, ?_⟩
      · intro j hj0 hj
        rcases Nat.lt_succ_iff_lt_or_eq.mp hj with h | rfl
        · exact h3 j hj0 h
        · rw [hN, hz]
      · intro j hj0 hj
        rcases Nat.lt_succ_iff_lt_or_eq.mp hj with h | rfl
        · rw [List.getElem?_set_ne (by omega), List.getElem?_set_ne (by omega)]; exact h4 j hj0 h
        · rw [List.getElem?_set_self (by simp; omega), hz]
      · intro j hj0 hj hj2
        rcases Nat.lt_succ_iff_lt_or_eq.mp hj with h | rfl
        · rw [List.getElem?_set_ne (by omega), List.getElem?_set_ne (by omega)]
          exact h5 j hj0 h hj2
        · rw [List.getElem?_set_ne (by omega), List.getElem?_set_self (by omega), hz]
      · intro j hj0 hj
        rcases Nat.lt_succ_iff_lt_or_eq.mp hj with h | rfl
        · rw [List.getElem?_set_ne (by omega), List.getElem?_set_ne (by omega)]; exact h6 j hj0 h
        · rw [List.getElem?_set_self (by simp; omega), hw]
      · intro j hj0 hj hj2
        rcases Nat.lt_succ_iff_lt_or_eq.mp hj with h | rfl
        · rw [List.getElem?_set_ne (by omega), List.getElem?_set_ne (by omega)]
          exact h7 j hj0 h hj2
        · rw [List.getElem?_set_ne (by omega), List.getElem?_set_self (by omega), hw]
  · left
    rw [h]; rfl
  · rintro ⟨⟨p, w⟩, h, h1, h2, h3, h4, h5, h6, h7⟩
    right
    refine ⟨h3, ?_⟩
    rw [h]
    dsimp only at h1 h2 h4 h5 h6 h7 ⊢
    rw [Outcome.ok_bind, subWrap_of_le hn hn']
    dsimp only
    rw [vset_ok (by omega), Outcome.ok_bind, vset_ok (by omega), Outcome.ok_bind,
      vset_ok (by simp; omega), Outcome.ok_bind, vset_ok (by simp; omega), Outcome.ok_bind]
    have hw : ((w.set 0 (lobE F n)).set (n - 1) (lobE F n)) = (List.range n).map (lobWt F n) := by
      apply eq_map_range (by simpa using h2)
      intro j hj
      unfold lobWt
      by_cases e1 : j = n - 1
      · subst e1
        rw [List.getElem?_set_self (by simp; omega), if_pos (.inl rfl)]
      · rw [List.getElem?_set_ne (Ne.symm e1)]
        by_cases e0 : j = 0
        · subst e0
          rw [List.getElem?_set_self (by omega), if_pos (.inr rfl)]
        · rw [List.getElem?_set_ne (Ne.symm e0), if_neg (by omega)]
          split_ifs with hj2
          · exact h7 j (by omega) (by omega) hj2
          · have := h6 (n - 1 - j) (by omega) (by omega)
            rwa [show n - 1 - (n - 1 - j) = j by omega] at this
    have hp : ∀ j, j < n → ¬ (n % 2 = 1 ∧ j = n / 2) →
        ((p.set 0 (-(lit 1))).set (n - 1) (lit 1))[j]? = some (lobPt F n j) := by
      intro j hj hm
      unfold lobPt
      rw [if_neg hm]
      by_cases e1 : j = n - 1
      · subst e1
        rw [List.getElem?_set_self (by simp; omega), if_pos rfl]
      · rw [List.getElem?_set_ne (Ne.symm e1), if_neg e1]
        by_cases e0 : j = 0
        · subst e0
          rw [List.getElem?_set_self (by omega), if_pos rfl]
        · rw [List.getElem?_set_ne (Ne.symm e0), if_neg e0]
          split_ifs with hj2
          · exact h5 j (by omega) (by omega) hj2
          · have := h4 (n - 1 - j) (by omega) (by omega)
            rwa [show n - 1 - (n - 1 - j) = j by omega] at this
    rw [show (lit 2 / (ofNat n * (ofNat n - lit 1)) : F) = lobE F n from rfl, hw]
    by_cases hodd : n % 2 = 1
    · rw [if_pos hodd, vset_ok (by simp; omega), Outcome.ok_bind, Outcome.pure_eq]
      congr 2
      apply eq_map_range (by simpa using h1)
      intro j hj
      by_cases e : j = n / 2
      · subst e
        rw [List.getElem?_set_self (by simp; omega)]
        unfold lobPt
        rw [if_pos ⟨hodd, rfl⟩]
      · rw [List.getElem?_set_ne (Ne.symm e)]
        exact hp j hj (by omega)
    · rw [if_neg hodd, Outcome.pure_eq]
      congr 2
      exact eq_map_range (by simpa using h1) (fun j hj => hp j hj (by omega))

/-- When every Newton iteration is accepted, GaussLegendre does not throw. -/
theorem gaussLegendre_ok (n : Nat)
    (hN : ∀ j, j < (n + 1) / 2 → (glNewton n 100 (glStart F n j)).isSome) :
    (gaussLegendre n : Outcome (List F × List F)) ≠ .throws (.runtimeError glMsg) := by
  unfold gaussLegendre
  dsimp only
  obtain ⟨s, h, -⟩ := forRange_inv (body := glStep n)
    (fun _ (s : List F × List F) => s.1.length = n ∧ s.2.length = n)
    (Nat.zero_le ((n + 1) / 2))
    (s := (List.replicate n (lit 0 : F), List.replicate n (lit 0 : F))) (by simp) (by
      rintro i ⟨p, w⟩ - hi ⟨h1, h2⟩
      dsimp only at h1 h2
      unfold glStep
      dsimp only
      rw [show cos (pi * (ofNat (i + 1) - lit (1/4)) / (ofNat n + lit (1/2))) = glStart F n i
        from rfl]
      obtain ⟨⟨z, d⟩, hz⟩ := Option.isSome_iff_exists.1 (hN i hi)
      rw [hz]
      dsimp only
      rw [vset_ok (by omega), Outcome.ok_bind, vset_ok (by omega), Outcome.ok_bind,
        vset_ok (by simp; omega), Outcome.ok_bind, vset_ok (by simp; omega), Outcome.ok_bind]
      exact ⟨_, rfl, by simpa using h1, by simpa using h2⟩)
  rw [h]
  rintro ⟨⟩

/-- When every Newton iteration is accepted, GaussLobatto does not throw. -/
theorem gaussLobatto_ok (n : Nat)
    (hN : ∀ j, 1 ≤ j → j < (n + 1) / 2 → (lobNewton n 100 (lobStart F n j)).isSome)
    (hn : 1 ≤ n) (hn' : n < sizeMod) :
    (gaussLobatto n : Outcome (List F × List F)) ≠ .throws (.runtimeError lobMsg) := by
  unfold gaussLobatto
  dsimp only
  obtain ⟨⟨p, w⟩, h, h1, h2⟩ := forRange_inv
    (body := lobStep n (lit 2 / (ofNat n * (ofNat n - lit 1))))
    (fun _ (s : List F × List F) => s.1.length = n ∧ s.2.length = n)
    (by omega : 1 ≤ (n + 1) / 2)
    (s := (List.replicate n (lit 0 : F), List.replicate n (lit 0 : F))) (by simp) (by
      rintro i ⟨p, w⟩ hi0 hi ⟨h1, h2⟩
      dsimp only at h1 h2
      unfold lobStep
      dsimp only
      rw [show cos (ofNat (n - 1 - i) * pi / (ofNat n - lit 1)) = lobStart F n i from rfl]
      obtain ⟨⟨z, d⟩, hz⟩ := Option.isSome_iff_exists.1 (hN i hi0 hi)
      rw [hz]
      dsimp only
      rw [vset_ok (by omega), Outcome.ok_bind, vset_ok (by omega), Outcome.ok_bind,
        vset_ok (by simp; omega), Outcome.ok_bind, vset_ok (by simp; omega), Outcome.ok_bind]
      exact ⟨_, rfl, by simpa using h1, by simpa using h2⟩)
  rw [h, Outcome.ok_bind, subWrap_of_le hn hn']
  dsimp only at h1 h2 ⊢
  rw [vset_ok (by omega), Outcome.ok_bind, vset_ok (by omega), Outcome.ok_bind,
    vset_ok (by simp; omega), Outcome.ok_bind, vset_ok (by simp; omega), Outcome.ok_bind]
  split_ifs
  · rw [vset_ok (by simp; omega), Outcome.ok_bind]
    rintro ⟨⟩
  · rintro ⟨⟩

end IntegratorXX
