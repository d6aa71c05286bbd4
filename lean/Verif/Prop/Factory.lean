import Verif.Lemmas.FactoryForms
import Verif.Spec.Rule
import Verif.XReal

/-!
# C50-C54: parsers, radial traits, specifications
-/

set_option linter.unusedSectionVars false

namespace IntegratorXX

open Spec Arith

/-! ## C50 -/

/-- Upper-casing a byte gives the upper case letter `k` exactly for `k` and its lower case
letter. -/
private theorem toUpper_letter (c k : UInt8) (hk : 65 ≤ k.toNat ∧ k.toNat ≤ 90) :
    toUpper c = k ↔ c.toNat = k.toNat ∨ c.toNat = k.toNat + 32 := by
  unfold toUpper
  rw [← UInt8.toNat_inj]
  split
  · rename_i h
    rw [UInt8.le_iff_toNat_le, UInt8.le_iff_toNat_le] at h
    have h1 : (97 : UInt8).toNat = 97 := rfl
    have h2 : (122 : UInt8).toNat = 122 := rfl
    have h3 : (32 : UInt8).toNat = 32 := rfl
    rw [UInt8.toNat_sub_of_le _ _ (by rw [UInt8.le_iff_toNat_le]; omega)]
    omega
  · rename_i h
    rw [UInt8.le_iff_toNat_le, UInt8.le_iff_toNat_le] at h
    have h1 : (97 : UInt8).toNat = 97 := rfl
    have h2 : (122 : UInt8).toNat = 122 := rfl
    omega

private theorem upper_iff (name : String)
    (hn : ∀ c ∈ name.toList, 65 ≤ c.toNat ∧ c.toNat ≤ 90) (s : CStr) :
    s.map toUpper = ascii name ↔ SameLetters s name := by
  unfold ascii SameLetters
  generalize name.toList = l at hn
  induction s generalizing l with
  | nil =>
    cases l with
    | nil => simp
    | cons => simp
  | cons c s ih =>
    cases l with
    | nil => simp
    | cons k l =>
      have hk := hn k (by simp)
      have h1 : (UInt8.ofNat k.toNat).toNat = k.toNat := by
        rw [UInt8.toNat_ofNat']; omega
      simp only [List.map_cons, List.cons.injEq, List.forall₂_cons]
      rw [ih l (fun c hc => hn c (by simp [hc])), toUpper_letter c _ (by rw [h1]; exact hk), h1]

/-- `radial_from_string` accepts exactly the documented names, in any letter case, and throws
for every other string. -/
theorem C50_radial_from_string (s : List UInt8) :
    (∀ q, radialFromString s = .ok q ↔ ∃ name, (name, q) ∈ radialNames ∧ SameLetters s name) ∧
    ((∀ name q, (name, q) ∈ radialNames → ¬SameLetters s name) →
      radialFromString s = .throws (.runtimeError "Unrecognized Radial Quadrature")) := by
  have e1 := upper_iff "BECKE" (by decide) s
  have e2 := upper_iff "MURAKNOWLES" (by decide) s
  have e3 := upper_iff "MK" (by decide) s
  have e4 := upper_iff "MURRAYHANDYLAMING" (by decide) s
  have e5 := upper_iff "MHL" (by decide) s
  have e6 := upper_iff "TREUTLERAHLRICHS" (by decide) s
  have e7 := upper_iff "TA" (by decide) s
  constructor
  · intro q
    simp only [radialNames, List.mem_cons, List.not_mem_nil, or_false, Prod.mk.injEq]
    unfold radialFromString
    dsimp only
    constructor
    · intro h
      split_ifs at h with h1 h2 h3 h4 h5 h6 h7 <;> cases h
      · exact ⟨_, .inl ⟨rfl, rfl⟩, e1.1 h1⟩
      · exact ⟨_, .inr (.inl ⟨rfl, rfl⟩), e2.1 h2⟩
      · exact ⟨_, .inr (.inr (.inl ⟨rfl, rfl⟩)), e3.1 h3⟩
      · exact ⟨_, .inr (.inr (.inr (.inl ⟨rfl, rfl⟩))), e4.1 h4⟩
      · exact ⟨_, .inr (.inr (.inr (.inr (.inl ⟨rfl, rfl⟩)))), e5.1 h5⟩
      · exact ⟨_, .inr (.inr (.inr (.inr (.inr (.inl ⟨rfl, rfl⟩))))), e6.1 h6⟩
      · exact ⟨_, .inr (.inr (.inr (.inr (.inr (.inr ⟨rfl, rfl⟩))))), e7.1 h7⟩
    · rintro ⟨name, h | h | h | h | h | h | h, hl⟩ <;> obtain ⟨rfl, rfl⟩ := h
      · rw [e1.2 hl]; rfl
      · rw [e2.2 hl]; rfl
      · rw [e3.2 hl]; rfl
      · rw [e4.2 hl]; rfl
      · rw [e5.2 hl]; rfl
      · rw [e6.2 hl]; rfl
      · rw [e7.2 hl]; rfl
  · intro h
    simp only [radialNames, List.mem_cons, List.not_mem_nil, or_false, Prod.mk.injEq] at h
    unfold radialFromString
    dsimp only
    rw [if_neg (fun h' => h _ _ (.inl ⟨rfl, rfl⟩) (e1.1 h')),
      if_neg (fun h' => h _ _ (.inr (.inl ⟨rfl, rfl⟩)) (e2.1 h')),
      if_neg (fun h' => h _ _ (.inr (.inr (.inl ⟨rfl, rfl⟩))) (e3.1 h')),
      if_neg (fun h' => h _ _ (.inr (.inr (.inr (.inl ⟨rfl, rfl⟩)))) (e4.1 h')),
      if_neg (fun h' => h _ _ (.inr (.inr (.inr (.inr (.inl ⟨rfl, rfl⟩))))) (e5.1 h')),
      if_neg (fun h' => h _ _ (.inr (.inr (.inr (.inr (.inr (.inl ⟨rfl, rfl⟩)))))) (e6.1 h')),
      if_neg (fun h' => h _ _ (.inr (.inr (.inr (.inr (.inr (.inr ⟨rfl, rfl⟩)))))) (e7.1 h'))]

/-- The same for `angular_from_string`. -/
theorem C50_angular_from_string (s : List UInt8) :
    (∀ q, angularFromString s = .ok q ↔ ∃ name, (name, q) ∈ angularNames ∧ SameLetters s name) ∧
    ((∀ name q, (name, q) ∈ angularNames → ¬SameLetters s name) →
      angularFromString s = .throws (.runtimeError "Unrecognized Angular Quadrature")) := by
  have e1 := upper_iff "AHRENSBEYLKIN" (by decide) s
  have e2 := upper_iff "AB" (by decide) s
  have e3 := upper_iff "DELLEY" (by decide) s
  have e4 := upper_iff "LEBEDEVLAIKOV" (by decide) s
  have e5 := upper_iff "LEBEDEV" (by decide) s
  have e6 := upper_iff "LL" (by decide) s
  have e7 := upper_iff "WOMERSLEY" (by decide) s
  constructor
  · intro q
    simp only [angularNames, List.mem_cons, List.not_mem_nil, or_false, Prod.mk.injEq]
    unfold angularFromString
    dsimp only
    constructor
    · intro h
      split_ifs at h with h1 h2 h3 h4 h5 h6 h7 <;> cases h
      · exact ⟨_, .inl ⟨rfl, rfl⟩, e1.1 h1⟩
      · exact ⟨_, .inr (.inl ⟨rfl, rfl⟩), e2.1 h2⟩
      · exact ⟨_, .inr (.inr (.inl ⟨rfl, rfl⟩)), e3.1 h3⟩
      · exact ⟨_, .inr (.inr (.inr (.inl ⟨rfl, rfl⟩))), e4.1 h4⟩
      · exact ⟨_, .inr (.inr (.inr (.inr (.inl ⟨rfl, rfl⟩)))), e5.1 h5⟩
      · exact ⟨_, .inr (.inr (.inr (.inr (.inr (.inl ⟨rfl, rfl⟩))))), e6.1 h6⟩
      · exact ⟨_, .inr (.inr (.inr (.inr (.inr (.inr ⟨rfl, rfl⟩))))), e7.1 h7⟩
    · rintro ⟨name, h | h | h | h | h | h | h, hl⟩ <;> obtain ⟨rfl, rfl⟩ := h
      · rw [e1.2 hl]; rfl
      · rw [e2.2 hl]; rfl
      · rw [e3.2 hl]; rfl
      · rw [e4.2 hl]; rfl
      · rw [e5.2 hl]; rfl
      · rw [e6.2 hl]; rfl
      · rw [e7.2 hl]; rfl
  · intro h
    simp only [angularNames, List.mem_cons, List.not_mem_nil, or_false, Prod.mk.injEq] at h
    unfold angularFromString
    dsimp only
    rw [if_neg (fun h' => h _ _ (.inl ⟨rfl, rfl⟩) (e1.1 h')),
      if_neg (fun h' => h _ _ (.inr (.inl ⟨rfl, rfl⟩)) (e2.1 h')),
      if_neg (fun h' => h _ _ (.inr (.inr (.inl ⟨rfl, rfl⟩))) (e3.1 h')),
      if_neg (fun h' => h _ _ (.inr (.inr (.inr (.inl ⟨rfl, rfl⟩)))) (e4.1 h')),
      if_neg (fun h' => h _ _ (.inr (.inr (.inr (.inr (.inl ⟨rfl, rfl⟩))))) (e5.1 h')),
      if_neg (fun h' => h _ _ (.inr (.inr (.inr (.inr (.inr (.inl ⟨rfl, rfl⟩)))))) (e6.1 h')),
      if_neg (fun h' => h _ _ (.inr (.inr (.inr (.inr (.inr (.inr ⟨rfl, rfl⟩)))))) (e7.1 h'))]

/-- "Mhl", "ta " and the empty string. -/
example : SameLetters [77, 104, 108] "MHL" ∧ radialFromString [77, 104, 108] =
      .ok .murrayHandyLaming ∧
    radialFromString [116, 97, 32] = .throws (.runtimeError "Unrecognized Radial Quadrature") ∧
    angularFromString [] = .throws (.runtimeError "Unrecognized Angular Quadrature") := by
  refine ⟨?_, by decide +kernel, by decide +kernel, by decide +kernel⟩
  unfold SameLetters
  show List.Forall₂ _ _ [77, 72, 76]
  simp

/-! ## C51 -/

section
variable {F : Type} [Add F] [Sub F] [Mul F] [Div F] [Neg F] [Arith F]

/-- Numeric arguments: the number of points and optionally the scale are accepted by every
scheme, with the scale defaulting to 1 (and `alpha` to 0.6 for Treutler-Ahlrichs). -/
theorem C51_make_traits_accepts (n : Nat) (R alpha : F) :
    makeRadialTraits .becke (.nums n []) = .ok (.becke n (lit 1 : F)) ∧
    makeRadialTraits .becke (.nums n [R]) = .ok (.becke n R) ∧
    makeRadialTraits .murrayHandyLaming (.nums n []) = .ok (.mhl 2 n (lit 1 : F)) ∧
    makeRadialTraits .murrayHandyLaming (.nums n [R]) = .ok (.mhl 2 n R) ∧
    makeRadialTraits .muraKnowles (.nums n []) = .ok (.mk n (lit 1 : F)) ∧
    makeRadialTraits .muraKnowles (.nums n [R]) = .ok (.mk n R) ∧
    makeRadialTraits .treutlerAhlrichs (.nums n []) =
      .ok (.ta n (lit 1 : F) (lit (6 / 10))) ∧
    makeRadialTraits .treutlerAhlrichs (.nums n [R]) = .ok (.ta n R (lit (6 / 10))) ∧
    makeRadialTraits .treutlerAhlrichs (.nums n [R, alpha]) = .ok (.ta n R alpha) :=
  ⟨rfl, rfl, rfl, rfl, rfl, rfl, rfl, rfl, rfl⟩

/-- Everything else throws: a third number for the other schemes, more numbers, no arguments,
and values outside the enumeration. -/
theorem C51_make_traits_rejects (rq : RadialQuad) (n : Nat) (rest : List F) :
    (3 ≤ rest.length ∨ (2 ≤ rest.length ∧ rq ≠ .treutlerAhlrichs) ∨ (∃ c, rq = .other c) →
      makeRadialTraits rq (.nums n rest) =
        .throws (.runtimeError "RadialTraits Construction Failed")) ∧
    makeRadialTraits rq (.none : TraitsArgs F) =
        .throws (.runtimeError "RadialTraits Construction Failed") := by
  constructor
  · intro h
    match rest, h with
    | [], h => cases rq <;> simp_all <;> rfl
    | [R], h => cases rq <;> simp_all; rfl
    | [R, a], h => cases rq <;> simp_all <;> rfl
    | R :: a :: c :: rest, h => cases rq <;> rfl
  · cases rq <;> rfl

/-- Copying a traits object succeeds exactly for the class named by the enumerator, and gives
an equal object; the object made always has the class named. -/
theorem C51_make_traits_copy (rq : RadialQuad) (t : RadialTraits F) :
    (Matches rq t → makeRadialTraits rq (.copy t) = .ok t) ∧
    (¬Matches rq t → makeRadialTraits rq (.copy t) =
      .throws (.runtimeError "RadialTraits Construction Failed")) := by
  constructor
  · intro h; cases h <;> rfl
  · intro h
    cases rq <;> cases t <;> try rfl
    · exact absurd (.becke _ _) h
    · rename_i M n R
      unfold makeRadialTraits makeMhl
      dsimp only
      split
      · rename_i h2
        split at h2
        · cases ‹TraitsArgs.copy _ = _›
        · cases ‹TraitsArgs.copy _ = _›
        · rename_i h3
          cases h3
          exact absurd (.mhl _ _) h
        · cases h2
      · rfl
    · exact absurd (.mk _ _) h
    · exact absurd (.ta _ _ _) h

theorem C51_make_traits_class (rq : RadialQuad) (args : TraitsArgs F) (t : RadialTraits F)
    (h : makeRadialTraits rq args = .ok t) : Matches rq t := by
  unfold makeRadialTraits at h
  dsimp only at h
  cases rq with
  | becke =>
    dsimp only at h
    cases hm : makeBecke args with
    | none => rw [hm] at h; cases h
    | some t' =>
      rw [hm] at h
      cases h
      unfold makeBecke at hm
      split at hm <;> cases hm <;> constructor
  | murrayHandyLaming =>
    dsimp only at h
    cases hm : makeMhl args with
    | none => rw [hm] at h; cases h
    | some t' =>
      rw [hm] at h
      cases h
      unfold makeMhl at hm
      split at hm <;> cases hm <;> constructor
  | muraKnowles =>
    dsimp only at h
    cases hm : makeMk args with
    | none => rw [hm] at h; cases h
    | some t' =>
      rw [hm] at h
      cases h
      unfold makeMk at hm
      split at hm <;> cases hm <;> constructor
  | treutlerAhlrichs =>
    dsimp only at h
    cases hm : makeTa args with
    | none => rw [hm] at h; cases h
    | some t' =>
      rw [hm] at h
      cases h
      unfold makeTa at hm
      split at hm <;> cases hm <;> constructor
  | other c => cases h

example : ¬Matches .becke (RadialTraits.ta 10 (1 : ℝ) 1) ∧
    Matches .treutlerAhlrichs (RadialTraits.ta 10 (1 : ℝ) 1) ∧
    makeRadialTraits .treutlerAhlrichs (.nums 10 [1, 1]) = .ok (RadialTraits.ta 10 (1 : ℝ) 1) :=
  ⟨nofun, .ta _ _ _, rfl⟩

/-! ## C52 -/

/-- The radial factory returns the quadrature of the traits object when its class is the one
named, throws `std::bad_cast` when it is not, and rejects values outside the enumeration. -/
theorem C52_radial_factory (b : Build) (rq : RadialQuad) (t : RadialTraits F) :
    (Matches rq t → t.npts + 2 < sizeMod →
      Returns (radialGenerate b rq t) (fun q => construct b t.generate = .ok q ∧
        q.points.length = t.npts ∧ q.weights.length = t.npts)) ∧
    (¬Matches rq t → (∀ c, rq ≠ .other c) → radialGenerate b rq t = .throws .badCast) ∧
    (∀ c, rq = .other c → radialGenerate b rq t =
      .throws (.runtimeError "Unsupported Radial Quadrature")) := by
  refine ⟨?_, radialGenerate_mismatch b, ?_⟩
  · intro h hn
    obtain ⟨rl, h1, h2⟩ := radialGenerate_ok (F := F) b h hn
    refine ⟨_, h2, ?_, by simp [Quad.ofPairs, h1], by simp [Quad.ofPairs, h1]⟩
    rw [← radialGenerate_matches b h]; exact h2
  · rintro c rfl; exact radialGenerate_other b c t

/-- Traits made by `make_radial_traits` for a scheme are accepted by the factory for that
scheme, and only for that one. -/
theorem C52_factory_accepts_made (b : Build) (rq rq' : RadialQuad) (args : TraitsArgs F)
    (t : RadialTraits F) (h : makeRadialTraits rq args = .ok t) (hn : t.npts + 2 < sizeMod) :
    (∃ q, radialGenerate b rq' t = .ok q) ↔ rq' = rq := by
  have hm := C51_make_traits_class rq args t h
  constructor
  · rintro ⟨q, hq⟩
    by_contra hne
    have hnm : ¬Matches rq' t := by
      intro hm'
      cases hm <;> cases hm' <;> exact hne rfl
    by_cases ho : ∃ c, rq' = .other c
    · obtain ⟨c, rfl⟩ := ho
      rw [radialGenerate_other] at hq; cases hq
    · rw [radialGenerate_mismatch b hnm (fun c hc => ho ⟨c, hc⟩)] at hq; cases hq
  · rintro rfl
    obtain ⟨rl, -, h2⟩ := radialGenerate_ok (F := F) b hm hn
    exact ⟨_, h2⟩

example : makeRadialTraits .muraKnowles (.nums 10 []) = .ok (RadialTraits.mk 10 (1 : ℝ)) ∧
    (RadialTraits.mk 10 (1 : ℝ)).npts + 2 < sizeMod := by
  refine ⟨?_, by decide⟩
  simp [makeRadialTraits, makeMk]

end

/-! ## C53 -/

/-- No parameter of the traits object is NaN. -/
def Spec.NotNaN : RadialTraits XReal → Prop
  | .becke _ R => R ≠ .nan
  | .mhl _ _ R => R ≠ .nan
  | .mk _ R => R ≠ .nan
  | .ta _ R a => R ≠ .nan ∧ a ≠ .nan

private theorem xeq_iff (a c : XReal) : Arith.eq a c = true ↔ a = c ∧ a ≠ .nan := by
  rw [XReal.eq_iff]
  cases a <;> cases c <;> simp [XReal.Eq']

/-- `compare` identifies exactly equal classes and parameters, except that an object with a NaN
parameter is different from everything, itself included. -/
theorem C53_compare (t t' : RadialTraits XReal) :
    t.compare t' = true ↔ t = t' ∧ NotNaN t := by
  cases t <;> cases t' <;>
    simp [RadialTraits.compare, NotNaN, xeq_iff, -XReal.eq_iff] <;> tauto

/-- The same in exact arithmetic, where there is no NaN: `compare` is equality. -/
theorem C53_compare_real (t t' : RadialTraits ℝ) : t.compare t' = true ↔ t = t' := by
  cases t <;> cases t' <;> simp [RadialTraits.compare] <;> tauto

/-- A specification equals another when everything agrees and no parameter is NaN. -/
theorem C53_spec_equals (s s' : PrunedSpec (RadialTraits XReal)) :
    s.equals s' = true ↔ s = s' ∧ ∀ t, s.radialTraits = some t → NotNaN t := by
  obtain ⟨rq, tr, rs⟩ := s
  obtain ⟨rq', tr', rs'⟩ := s'
  simp only [PrunedSpec.equals, Bool.and_eq_true, beq_iff_eq, PrunedSpec.mk.injEq]
  cases tr with
  | none => cases tr' <;> simp <;> tauto
  | some t =>
    cases tr' with
    | none => simp
    | some t' => simp [C53_compare]; tauto

/-- Copying a pruned specification yields the same observable specification, without changing
the original. -/
theorem C53_copy {F : Type} (h : TraitsHeap F) (s : PrunedSpec Nat)
    (hv : ∀ a, s.radialTraits = some a → a < h.length) :
    Returns (s.copy h) (fun r => r.2.view r.1 = s.view h ∧ s.view r.1 = s.view h) := by
  obtain ⟨rq, tr, rs⟩ := s
  cases tr with
  | none => exact ⟨_, rfl, rfl, rfl⟩
  | some a =>
    have ha := hv a rfl
    refine ⟨(h ++ [h[a]], ⟨rq, some h.length, rs⟩), ?_, ?_, ?_⟩
    · simp [PrunedSpec.copy, cloneOrNull, vget, ha]
    · simp [PrunedSpec.view, ha]
    · simp [PrunedSpec.view, ha, List.getElem?_append_left]

/-- The copy is independent: overwriting the traits object of either specification does not
change the other. -/
theorem C53_copy_independent {F : Type} (h h' : TraitsHeap F) (s s' : PrunedSpec Nat)
    (hc : s.copy h = .ok (h', s')) (t : RadialTraits F) :
    (∀ a, s.radialTraits = some a → s'.view (h'.set a t) = s'.view h') ∧
    (∀ a, s'.radialTraits = some a → s.view (h'.set a t) = s.view h') := by
  obtain ⟨rq, tr, rs⟩ := s
  cases tr with
  | none =>
    cases hc
    exact ⟨nofun, nofun⟩
  | some a =>
    unfold PrunedSpec.copy cloneOrNull at hc
    simp only [Outcome.bind_eq_ok] at hc
    obtain ⟨⟨h2, p⟩, ⟨t0, ht0, h3⟩, h4⟩ := hc
    have ha : a < h.length := by
      unfold vget at ht0
      split at ht0
      · exact (List.getElem?_eq_some_iff.1 ‹_›).1
      · cases ht0
    cases h3
    cases h4
    constructor
    · intro a' ha'
      cases ha'
      simp only [PrunedSpec.view, Option.bind_some]
      rw [List.getElem?_set_ne (by omega)]
    · intro a' ha'
      cases ha'
      simp only [PrunedSpec.view, Option.bind_some]
      rw [List.getElem?_set_ne (by omega)]

/-- The same for unpruned specifications. -/
theorem C53_copy_unpruned {F : Type} (h : TraitsHeap F) (s : UnprunedSpec Nat)
    (hv : ∀ a, s.radialTraits = some a → a < h.length) :
    Returns (s.copy h) (fun r => r.2.view r.1 = s.view h ∧ s.view r.1 = s.view h ∧
      ∀ t : RadialTraits F,
        (∀ a, s.radialTraits = some a → r.2.view (r.1.set a t) = r.2.view r.1) ∧
        (∀ a, r.2.radialTraits = some a → s.view (r.1.set a t) = s.view r.1)) := by
  obtain ⟨rq, tr, aq, n⟩ := s
  cases tr with
  | none => exact ⟨_, rfl, rfl, rfl, fun _ => ⟨nofun, nofun⟩⟩
  | some a =>
    have ha := hv a rfl
    refine ⟨(h ++ [h[a]], ⟨rq, some h.length, aq, n⟩), ?_, ?_, ?_, fun t => ⟨?_, ?_⟩⟩
    · simp [UnprunedSpec.copy, cloneOrNull, vget, ha]
    · simp [UnprunedSpec.view, ha]
    · simp [UnprunedSpec.view, ha, List.getElem?_append_left]
    · intro a' ha'
      cases ha'
      simp only [UnprunedSpec.view, Option.bind_some]
      rw [List.getElem?_set_ne (by omega)]
    · intro a' ha'
      cases ha'
      simp only [UnprunedSpec.view, Option.bind_some]
      rw [List.getElem?_set_ne (by omega)]

/-- A specification with a NaN scale differs from its own copy. -/
theorem C53_nan_copy (rq : RadialQuad) (n : Nat) (rs : List PruningRegion) :
    Returns ((⟨rq, some 0, rs⟩ : PrunedSpec Nat).copy [RadialTraits.becke n XReal.nan]) (fun r =>
      PrunedSpec.equals ((⟨rq, some 0, rs⟩ : PrunedSpec Nat).view r.1) (r.2.view r.1) = false) := by
  refine ⟨_, rfl, ?_⟩
  dsimp only
  rw [Bool.eq_false_iff]
  intro h
  have := ((C53_spec_equals _ _).1 h).2 (.becke n .nan) rfl
  exact this rfl

example : NotNaN (.ta 10 (.fin 2) (.fin (1 / 2))) ∧
    ∀ a, (⟨.treutlerAhlrichs, some 0, []⟩ : PrunedSpec Nat).radialTraits = some a →
      a < [RadialTraits.ta 10 (XReal.fin 2) (.fin (1 / 2))].length := by
  refine ⟨⟨by simp, by simp⟩, ?_⟩
  rintro a h
  cases h
  simp

/-! ## C54 -/

section
variable {F : Type} [Add F] [Sub F] [Mul F] [Div F] [Neg F] [Arith F]

/-- A specification without traits is rejected by every entry point that takes one. -/
theorem C54_null_traits (b : Build) (d : AngData F) (rq : RadialQuad) (aq : AngularQuad)
    (asz : Nat) (rs : List PruningRegion) (scheme : PruningScheme) :
    generateGridUnpruned b d ⟨rq, none, aq, asz⟩ =
      .throws (.runtimeError "RadialTraits Not Set") ∧
    generateGridPruned b d ⟨rq, none, rs⟩ = .throws (.runtimeError "RadialTraits Not Set") ∧
    createPrunedSpec scheme (⟨rq, none, aq, asz⟩ : UnprunedSpec (RadialTraits F)) =
      .throws (.runtimeError "RadialTraits Not Set") := ⟨rfl, rfl, rfl⟩

/-- The specification factories never produce a null pointer: what `create_pruned_spec` returns
carries the traits it was given. -/
theorem C54_spec_has_traits (scheme : PruningScheme) (unp : UnprunedSpec (RadialTraits F))
    (s : PrunedSpec (RadialTraits F)) (h : createPrunedSpec scheme unp = .ok s) :
    s.radialTraits = unp.radialTraits ∧ s.radialTraits ≠ none := by
  obtain ⟨rq, tr, aq, asz⟩ := unp
  cases tr with
  | none => cases h
  | some t =>
    cases scheme with
    | unpruned => cases h; exact ⟨rfl, nofun⟩
    | other c => cases h; exact ⟨rfl, nofun⟩
    | robust =>
      cases aq with
      | other c => cases h
      | fam f =>
        simp only [createPrunedSpec, robustScheme, Outcome.bind_eq_ok] at h
        obtain ⟨⟨low, med⟩, -, h⟩ := h
        cases h; exact ⟨rfl, nofun⟩
    | treutler =>
      cases aq with
      | other c => cases h
      | fam f => cases h; exact ⟨rfl, nofun⟩

/-- The two schemes called directly (bypassing `create_pruned_spec`) dereference a null
pointer. -/
theorem C54_direct_null (rq : RadialQuad) (fam : AngFam) (asz : Nat) :
    treutlerScheme (⟨rq, none, .fam fam, asz⟩ : UnprunedSpec (RadialTraits F)) = .ub ∧
    (∀ r, robustSizes fam asz = .ok r →
      robustScheme (⟨rq, none, .fam fam, asz⟩ : UnprunedSpec (RadialTraits F)) = .ub) := by
  refine ⟨rfl, ?_⟩
  intro r hr
  simp only [robustScheme, hr, Outcome.ok_bind]

example : createPrunedSpec .robust
    (⟨.muraKnowles, some (.mk 50 (7 : ℝ)), .fam .lebedevLaikov, 302⟩) =
    .ok ⟨.muraKnowles, some (.mk 50 7), [⟨0, 13, .fam .lebedevLaikov, 26⟩,
      ⟨13, 26, .fam .lebedevLaikov, 194⟩, ⟨26, 50, .fam .lebedevLaikov, 302⟩]⟩ := rfl

end

end IntegratorXX
