import Verif.Base

/-!
# Reasoning about loops and vectors (helper lemmas)
-/

namespace IntegratorXX

theorem vset_ok {α : Type u} {v : List α} {i : Nat} (h : i < v.length) (a : α) :
    vset v i a = .ok (v.set i a) := by simp [vset, h]

theorem vset_ub {α : Type u} {v : List α} {i : Nat} (h : v.length ≤ i) (a : α) :
    vset v i a = .ub := by simp [vset, Nat.not_lt.mpr h]

theorem vget_ok {α : Type u} {v : List α} {i : Nat} {a : α} (h : v[i]? = some a) :
    vget v i = .ok a := by simp [vget, h]

theorem vget_lt {α : Type u} {v : List α} {i : Nat} (h : i < v.length) :
    vget v i = .ok v[i] := by simp [vget, h]

theorem vget_ub {α : Type u} {v : List α} {i : Nat} (h : v.length ≤ i) :
    vget v i = .ub := by simp [vget, List.getElem?_eq_none h]

/-- Loop rule when the body always returns normally. -/
theorem forN_inv {σ : Type u} {body : Nat → σ → Outcome σ} (Inv : Nat → σ → Prop) :
    ∀ (n lo : Nat) (s : σ), Inv lo s →
      (∀ i s, lo ≤ i → i < lo + n → Inv i s → ∃ s', body i s = .ok s' ∧ Inv (i + 1) s') →
      ∃ s', forN n lo body s = .ok s' ∧ Inv (lo + n) s' := by
  intro n
  induction n with
  | zero => intro lo s h0 _; exact ⟨s, rfl, h0⟩
  | succ n ih =>
    intro lo s h0 step
    obtain ⟨s1, h1, h2⟩ := step lo s (Nat.le_refl _) (by omega) h0
    obtain ⟨s2, h3, h4⟩ := ih (lo + 1) s1 h2
      (fun i s hi hi' => step i s (by omega) (by omega))
    refine ⟨s2, ?_, ?_⟩
    · simp [forN, h1, h3]
    · rwa [Nat.add_assoc, Nat.add_comm 1 n] at h4

theorem forRange_inv {σ : Type u} {body : Nat → σ → Outcome σ} (Inv : Nat → σ → Prop)
    {lo hi : Nat} {s : σ} (hle : lo ≤ hi) (h0 : Inv lo s)
    (step : ∀ i s, lo ≤ i → i < hi → Inv i s → ∃ s', body i s = .ok s' ∧ Inv (i + 1) s') :
    ∃ s', forRange lo hi body s = .ok s' ∧ Inv hi s' := by
  obtain ⟨s', h1, h2⟩ := forN_inv Inv (hi - lo) lo s h0
    (fun i s hi hi' => step i s hi (by omega))
  exact ⟨s', h1, by rwa [Nat.add_sub_cancel' hle] at h2⟩

/-- Loop rule when the body either returns normally or throws a fixed exception. -/
theorem forN_inv_throws {σ : Type u} {body : Nat → σ → Outcome σ} (e : Exc)
    (Inv : Nat → σ → Prop) :
    ∀ (n lo : Nat) (s : σ), Inv lo s →
      (∀ i s, lo ≤ i → i < lo + n → Inv i s →
        body i s = .throws e ∨ ∃ s', body i s = .ok s' ∧ Inv (i + 1) s') →
      forN n lo body s = .throws e ∨ ∃ s', forN n lo body s = .ok s' ∧ Inv (lo + n) s' := by
  intro n
  induction n with
  | zero => intro lo s h0 _; exact .inr ⟨s, rfl, h0⟩
  | succ n ih =>
    intro lo s h0 step
    rcases step lo s (Nat.le_refl _) (by omega) h0 with h1 | ⟨s1, h1, h2⟩
    · left; simp [forN, h1]
    · rcases ih (lo + 1) s1 h2 (fun i s hi hi' => step i s (by omega) (by omega)) with h3 | ⟨s2, h3, h4⟩
      · left; simp [forN, h1, h3]
      · right
        refine ⟨s2, by simp [forN, h1, h3], ?_⟩
        rwa [Nat.add_assoc, Nat.add_comm 1 n] at h4

theorem forRange_inv_throws {σ : Type u} {body : Nat → σ → Outcome σ} (e : Exc)
    (Inv : Nat → σ → Prop) {lo hi : Nat} {s : σ} (hle : lo ≤ hi) (h0 : Inv lo s)
    (step : ∀ i s, lo ≤ i → i < hi → Inv i s →
      body i s = .throws e ∨ ∃ s', body i s = .ok s' ∧ Inv (i + 1) s') :
    forRange lo hi body s = .throws e ∨ ∃ s', forRange lo hi body s = .ok s' ∧ Inv hi s' := by
  have := forN_inv_throws e Inv (hi - lo) lo s h0 (fun i s hi hi' => step i s hi (by omega))
  rwa [Nat.add_sub_cancel' hle] at this

theorem eq_map_range {α : Type u} {v : List α} {n : Nat} {f : Nat → α}
    (hl : v.length = n) (h : ∀ j, j < n → v[j]? = some (f j)) :
    v = (List.range n).map f := by
  apply List.ext_getElem?
  intro j
  by_cases hj : j < n
  · rw [h j hj]; simp [hj]
  · simp [List.getElem?_eq_none (show v.length ≤ j by omega), hj]

@[simp] theorem getElem?_map_range {α : Type u} (n j : Nat) (f : Nat → α) :
    ((List.range n).map f)[j]? = if j < n then some (f j) else none := by
  by_cases hj : j < n <;> simp [hj]

theorem forN_congr {σ : Type u} {body body' : Nat → σ → Outcome σ} :
    ∀ (n lo : Nat) (s : σ), (∀ i s, lo ≤ i → i < lo + n → body i s = body' i s) →
      forN n lo body s = forN n lo body' s := by
  intro n
  induction n with
  | zero => intros; rfl
  | succ n ih =>
    intro lo s h
    simp only [forN]
    rw [h lo s (Nat.le_refl _) (by omega)]
    congr 1
    funext s'
    exact ih (lo + 1) s' (fun i s h1 h2 => h i s (by omega) (by omega))

theorem forRange_congr {σ : Type u} {body body' : Nat → σ → Outcome σ} {lo hi : Nat} (s : σ)
    (h : ∀ i s, lo ≤ i → i < hi → body i s = body' i s) :
    forRange lo hi body s = forRange lo hi body' s :=
  forN_congr _ _ _ (fun i s h1 h2 => h i s h1 (by omega))

/-- Closed form of a loop writing `f i` at position `i`, for `i = 0, …, n-1`. -/
theorem forRange_fill {α : Type u} {n : Nat} (f : Nat → α) (v : List α) (hv : v.length = n) :
    forRange 0 n (fun i (v : List α) => vset v i (f i)) v = .ok ((List.range n).map f) := by
  obtain ⟨s', h1, h2, h3⟩ := forRange_inv
    (body := fun i (v : List α) => vset v i (f i))
    (fun i (v : List α) => v.length = n ∧ ∀ j, j < i → v[j]? = some (f j))
    (Nat.zero_le n) (s := v) ⟨hv, by simp⟩ (by
      rintro i s - hi ⟨hl, hj⟩
      refine ⟨s.set i (f i), vset_ok (by omega) _, by simpa using hl, ?_⟩
      intro j hji
      by_cases h : j = i
      · subst h; simp [hl, hi]
      · rw [List.getElem?_set_ne (by omega)]; exact hj j (by omega))
  rw [h1, eq_map_range h2 h3]

/-- Closed form of a loop filling two vectors. -/
theorem forRange_fill2 {α β : Type} {n : Nat} (f : Nat → α) (g : Nat → β)
    (body : Nat → List α × List β → Outcome (List α × List β))
    (hbody : ∀ i s, body i s = (do
      let p ← vset s.1 i (f i)
      let w ← vset s.2 i (g i)
      pure (p, w)))
    (v : List α) (w : List β) (hv : v.length = n) (hw : w.length = n) :
    forRange 0 n body (v, w) = .ok ((List.range n).map f, (List.range n).map g) := by
  obtain ⟨s', h1, h2, h3, h4, h5⟩ := forRange_inv (body := body)
    (fun i (s : List α × List β) => s.1.length = n ∧ s.2.length = n ∧
      (∀ j, j < i → s.1[j]? = some (f j)) ∧ (∀ j, j < i → s.2[j]? = some (g j)))
    (Nat.zero_le n) (s := (v, w)) ⟨hv, hw, by simp, by simp⟩ (by
      rintro i ⟨p, w⟩ - hi ⟨hl, hl', hj, hj'⟩
      simp only at hl hl' hj hj'
      refine ⟨(p.set i (f i), w.set i (g i)), ?_, by simpa using hl, by simpa using hl', ?_, ?_⟩
      · rw [hbody, vset_ok (by simp; omega), Outcome.ok_bind, vset_ok (by simp; omega)]; rfl
      · intro j hji
        by_cases h : j = i
        · subst h; simp [hl, hi]
        · simp only [List.getElem?_set_ne (Ne.symm h)]; exact hj j (by omega)
      · intro j hji
        by_cases h : j = i
        · subst h; simp [hl', hi]
        · simp only [List.getElem?_set_ne (Ne.symm h)]; exact hj' j (by omega))
  rw [h1, ← eq_map_range h2 h4, ← eq_map_range h3 h5]

/-- Entry `j` of a vector of length `n` whose first half is given by `x`, whose second half
is the image of the first half under `g`, and whose middle entry (odd `n`) is `c`. -/
def mirrorFn {α : Type u} (n : Nat) (x : Nat → α) (g : α → α) (c : α) (j : Nat) : α :=
  if j < n / 2 then x j else if n % 2 = 1 ∧ j = n / 2 then c else g (x (n - 1 - j))

/-- Closed form of the reflecting loops (`points[idx] = x idx; points[n-1-idx] = g (x idx)`)
for two vectors, followed by the edge case for odd sizes. -/
theorem forRange_mirror {α β : Type} {n : Nat} (x : Nat → α) (w : Nat → β)
    (g : α → α) (g' : β → β) (c : α) (c' : β)
    (body : Nat → List α × List β → Outcome (List α × List β))
    (hbody : ∀ idx (s : List α × List β), idx < n / 2 → s.1.length = n → s.2.length = n →
      body idx s = .ok ((s.1.set idx (x idx)).set (n - 1 - idx) (g (x idx)),
        (s.2.set idx (w idx)).set (n - 1 - idx) (g' (w idx))))
    (v0 : List α) (w0 : List β) (hv : v0.length = n) (hw : w0.length = n) :
    (do
      let s ← forRange 0 (n / 2) body (v0, w0)
      if n % 2 ≠ 0 then do
        let points ← vset s.1 (n / 2) c
        let weights ← vset s.2 (n / 2) c'
        pure (points, weights)
      else pure (s.1, s.2)) =
    .ok ((List.range n).map (mirrorFn n x g c), (List.range n).map (mirrorFn n w g' c')) := by
  obtain ⟨⟨p, q⟩, h1, h2, h3, h4⟩ := forRange_inv (body := body)
    (fun i (s : List α × List β) => s.1.length = n ∧ s.2.length = n ∧
      (∀ j, j < i → s.1[j]? = some (x j) ∧ s.1[n - 1 - j]? = some (g (x j)) ∧
        s.2[j]? = some (w j) ∧ s.2[n - 1 - j]? = some (g' (w j))))
    (Nat.zero_le (n / 2)) (s := (v0, w0)) ⟨hv, hw, by simp⟩ (by
      rintro i ⟨p, q⟩ - hi ⟨hl, hl', hj⟩
      simp only at hl hl' hj
      refine ⟨_, hbody i (p, q) hi hl hl', by simpa using hl, by simpa using hl', ?_⟩
      intro j hji
      by_cases h : j = i
      · subst h
        have e1 : n - 1 - j ≠ j := by omega
        have e2 : j < n := by omega
        have e3 : n - 1 - j < n := by omega
        simp [hl, hl', e1, e2, e3]
      · have := hj j (by omega)
        have e1 : i ≠ j := by omega
        have e2 : n - 1 - i ≠ j := by omega
        have e3 : n - 1 - i ≠ n - 1 - j := by omega
        have e4 : i ≠ n - 1 - j := by omega
        simp [e1, e2, e3, e4, this])
  simp only at h2 h3 h4
  rw [h1, Outcome.ok_bind]
  have key : ∀ j, j < n → (n % 2 = 1 ∧ j = n / 2) ∨
      (p[j]? = some (mirrorFn n x g c j) ∧ q[j]? = some (mirrorFn n w g' c' j)) := by
    intro j hj
    by_cases hm : n % 2 = 1 ∧ j = n / 2
    · exact .inl hm
    · right
      by_cases hlt : j < n / 2
      · have := h4 j hlt
        simp [mirrorFn, hlt, this]
      · have := h4 (n - 1 - j) (by omega)
        rw [show n - 1 - (n - 1 - j) = j by omega] at this
        simp [mirrorFn, hlt, hm, this]
  by_cases hodd : n % 2 = 1
  · rw [if_pos (by omega), vset_ok (by dsimp only; omega), Outcome.ok_bind, vset_ok (by dsimp only; omega),
      Outcome.ok_bind, Outcome.pure_eq]
    congr 2
    · apply eq_map_range (by simpa using h2)
      intro j hj
      by_cases hm : j = n / 2
      · subst hm; simp [mirrorFn, hodd, h2, hj]
      · rcases key j hj with h | h
        · exact absurd h.2 hm
        · simp [List.getElem?_set_ne (Ne.symm hm), h]
    · apply eq_map_range (by simpa using h3)
      intro j hj
      by_cases hm : j = n / 2
      · subst hm; simp [mirrorFn, hodd, h3, hj]
      · rcases key j hj with h | h
        · exact absurd h.2 hm
        · simp [List.getElem?_set_ne (Ne.symm hm), h]
  · rw [if_neg (by omega), Outcome.pure_eq]
    congr 2
    · apply eq_map_range h2
      intro j hj
      rcases key j hj with h | h
      · exact absurd h.1 hodd
      · exact h.1
    · apply eq_map_range h3
      intro j hj
      rcases key j hj with h | h
      · exact absurd h.1 hodd
      · exact h.2

end IntegratorXX
