import Verif.Spec.TypeTags
import Verif.Prop.Factory

/-!
# Quadrature types and enumerators (C103)
-/

namespace IntegratorXX

open Spec

/-- `radial_from_type<Q>()` returns an enumerator exactly for the four radial quadratures of the library, whatever their
point and weight type, and throws for every other type. -/
theorem C103_radial_from_type (q : QuadTy) :
    (∀ rq, radialFromType q = .ok rq ↔ TypeOfRadial q rq) ∧
    ((∀ rq, ¬TypeOfRadial q rq) →
      radialFromType q = .throws (.runtimeError "Unrecognized Radial Quadrature")) := by
  unfold radialFromType
  split_ifs with h1 h2 h3 h4
  · rw [h1]
    refine ⟨fun rq => ⟨?_, ?_⟩, fun h => absurd (.becke _ _) (h _)⟩
    · intro h; cases h; exact .becke _ _
    · intro h; cases h; rfl
  · rw [h2]
    refine ⟨fun rq => ⟨?_, ?_⟩, fun h => absurd (.mk _ _) (h _)⟩
    · intro h; cases h; exact .mk _ _
    · intro h; cases h; rfl
  · rw [h3]
    refine ⟨fun rq => ⟨?_, ?_⟩, fun h => absurd (.mhl _ _) (h _)⟩
    · intro h; cases h; exact .mhl _ _
    · intro h; cases h; rfl
  · rw [h4]
    refine ⟨fun rq => ⟨?_, ?_⟩, fun h => absurd (.ta _ _) (h _)⟩
    · intro h; cases h; exact .ta _ _
    · intro h; cases h; rfl
  · refine ⟨fun rq => ⟨nofun, ?_⟩, fun _ => rfl⟩
    intro h
    cases h
    · exact absurd rfl h1
    · exact absurd rfl h3
    · exact absurd rfl h2
    · exact absurd rfl h4

/-- `angular_from_type<Q>()` returns an enumerator exactly for the four angular quadratures, and throws otherwise. -/
theorem C103_angular_from_type (q : QuadTy) :
    (∀ aq, angularFromType q = .ok aq ↔ TypeOfAngular q aq) ∧
    ((∀ aq, ¬TypeOfAngular q aq) →
      angularFromType q = .throws (.runtimeError "Unrecognized Angular Quadrature")) := by
  have key : ∀ f w, angularFromType (.angular f w) = .ok (.fam f) := by
    intro f w
    cases f <;> simp [angularFromType, QuadTy.weightType]
  by_cases hq : ∃ f w, q = .angular f w
  · obtain ⟨f, w, rfl⟩ := hq
    rw [key]
    refine ⟨fun aq => ⟨?_, ?_⟩, fun h => absurd (.mk _ _) (h _)⟩
    · intro h; cases h; exact .mk _ _
    · intro h; cases h; rfl
  · have hn : ∀ f w, q ≠ .angular f w := fun f w h => hq ⟨f, w, h⟩
    have ht : angularFromType q =
        .throws (.runtimeError "Unrecognized Angular Quadrature") := by
      unfold angularFromType
      simp [hn]
    rw [ht]
    refine ⟨fun aq => ⟨nofun, ?_⟩, fun _ => rfl⟩
    intro h
    cases h
    exact absurd rfl (hn _ _)

/-- No type is both a radial and an angular quadrature: one of the two functions throws. -/
theorem C103_not_both (q : QuadTy) :
    radialFromType q = .throws (.runtimeError "Unrecognized Radial Quadrature") ∨
    angularFromType q = .throws (.runtimeError "Unrecognized Angular Quadrature") := by
  by_cases h : ∃ rq, TypeOfRadial q rq
  · refine .inr ((C103_angular_from_type q).2 ?_)
    obtain ⟨rq, h⟩ := h
    intro aq h'
    cases h'
    cases h
  · exact .inl ((C103_radial_from_type q).2 (fun rq h' => h ⟨rq, h'⟩))

/-- Types and names give the same enumerators: each result of `radial_from_type` has a documented name that
`radial_from_string` maps to it, and each name that is accepted has a type, with the point and weight type of one's
choice. -/
theorem C103_radial_names (rq : RadialQuad) (p w : CppTy) :
    (∃ q, q.pointType = p ∧ q.weightType = w ∧ radialFromType q = .ok rq) ↔
      ∃ s, radialFromString s = .ok rq := by
  have name : ∀ rq', (∃ s, radialFromString s = .ok rq') ↔ ∃ s : String, (s, rq') ∈ radialNames := by
    intro rq'
    constructor
    · rintro ⟨s, h⟩
      obtain ⟨nm, h, _⟩ := ((C50_radial_from_string s).1 rq').1 h
      exact ⟨nm, h⟩
    · rintro ⟨nm, h⟩
      simp only [radialNames, List.mem_cons, Prod.mk.injEq, List.not_mem_nil, or_false] at h
      rcases h with ⟨_, rfl⟩ | ⟨_, rfl⟩ | ⟨_, rfl⟩ | ⟨_, rfl⟩ | ⟨_, rfl⟩ | ⟨_, rfl⟩ | ⟨_, rfl⟩
      · exact ⟨ascii "BECKE", by decide +kernel⟩
      · exact ⟨ascii "MK", by decide +kernel⟩
      · exact ⟨ascii "MK", by decide +kernel⟩
      · exact ⟨ascii "MHL", by decide +kernel⟩
      · exact ⟨ascii "MHL", by decide +kernel⟩
      · exact ⟨ascii "TA", by decide +kernel⟩
      · exact ⟨ascii "TA", by decide +kernel⟩
  rw [name]
  constructor
  · rintro ⟨q, -, -, h⟩
    cases ((C103_radial_from_type q).1 rq).1 h
    · exact ⟨"BECKE", by simp [radialNames]⟩
    · exact ⟨"MHL", by simp [radialNames]⟩
    · exact ⟨"MK", by simp [radialNames]⟩
    · exact ⟨"TA", by simp [radialNames]⟩
  · rintro ⟨nm, h⟩
    have : ∃ q : QuadTy, q.pointType = p ∧ q.weightType = w ∧ TypeOfRadial q rq := by
      simp only [radialNames, List.mem_cons, Prod.mk.injEq, List.not_mem_nil, or_false] at h
      rcases h with ⟨_, rfl⟩ | ⟨_, rfl⟩ | ⟨_, rfl⟩ | ⟨_, rfl⟩ | ⟨_, rfl⟩ | ⟨_, rfl⟩ | ⟨_, rfl⟩
      · exact ⟨_, rfl, rfl, .becke _ _⟩
      · exact ⟨_, rfl, rfl, .mk _ _⟩
      · exact ⟨_, rfl, rfl, .mk _ _⟩
      · exact ⟨_, rfl, rfl, .mhl _ _⟩
      · exact ⟨_, rfl, rfl, .mhl _ _⟩
      · exact ⟨_, rfl, rfl, .ta _ _⟩
      · exact ⟨_, rfl, rfl, .ta _ _⟩
    obtain ⟨q, h1, h2, h3⟩ := this
    exact ⟨q, h1, h2, ((C103_radial_from_type q).1 rq).2 h3⟩

/-- The same for the angular quadratures. -/
theorem C103_angular_names (aq : AngularQuad) (w : CppTy) :
    (∃ q, q.weightType = w ∧ angularFromType q = .ok aq) ↔ ∃ s, angularFromString s = .ok aq := by
  constructor
  · rintro ⟨q, -, h⟩
    obtain ⟨f, _⟩ := ((C103_angular_from_type q).1 aq).1 h
    cases f
    · exact ⟨ascii "AB", by decide +kernel⟩
    · exact ⟨ascii "DELLEY", by decide +kernel⟩
    · exact ⟨ascii "LL", by decide +kernel⟩
    · exact ⟨ascii "WOMERSLEY", by decide +kernel⟩
  · rintro ⟨s, h⟩
    obtain ⟨nm, h, _⟩ := ((C50_angular_from_string s).1 aq).1 h
    have : ∃ f, aq = .fam f := by
      simp only [angularNames, List.mem_cons, Prod.mk.injEq, List.not_mem_nil, or_false] at h
      rcases h with ⟨_, rfl⟩ | ⟨_, rfl⟩ | ⟨_, rfl⟩ | ⟨_, rfl⟩ | ⟨_, rfl⟩ | ⟨_, rfl⟩ | ⟨_, rfl⟩ <;>
        exact ⟨_, rfl⟩
    obtain ⟨f, rfl⟩ := this
    exact ⟨.angular f w, rfl, ((C103_angular_from_type _).1 _).2 (.mk _ _)⟩

section
variable {F : Type} [Add F] [Sub F] [Mul F] [Div F] [Neg F] [Arith F]

/-- Going through the enumerator is the same as using the type: for a radial quadrature type on `double`, the
expression `Q(n, args…)` compiles exactly when `make_radial_traits(radial_from_type<Q>(), n, args…)` succeeds, and
`RadialFactory::generate` then does what that expression does. -/
theorem C103_radial_factory (b : Build) (q : QuadTy) (rq : RadialQuad) (n : Nat) (args : List F)
    (hd : IsDouble q) (h : radialFromType q = .ok rq) :
    (∀ o, directRadial b q n args = some o →
      ∃ t, makeRadialTraits rq (.nums n args) = .ok t ∧ radialGenerate b rq t = o) ∧
    (directRadial b q n args = none → makeRadialTraits rq (.nums n args) =
      .throws (.runtimeError "RadialTraits Construction Failed")) := by
  obtain ⟨hp, hw⟩ := hd
  cases ((C103_radial_from_type q).1 rq).1 h <;>
    (cases hp; cases hw
     rcases args with _ | ⟨a, _ | ⟨c, _ | ⟨e, r⟩⟩⟩ <;>
      simp only [directRadial, traitsOf, Option.map_some, Option.map_none, makeRadialTraits, makeBecke, makeMhl, makeMk,
        makeTa, Option.some.injEq, reduceCtorEq, false_implies, implies_true, and_true] <;>
      (intro o ho; exact ⟨_, rfl, by rw [← ho]; rfl⟩))

/-- For an angular quadrature type, `S2Factory::generate` with the enumerator of the type constructs that type. -/
theorem C103_angular_factory (b : Build) (d : AngData F) (q : QuadTy) (f : AngFam) (w : CppTy) (n : Nat)
    (aq : AngularQuad) (hq : q = .angular f w) (h : angularFromType q = .ok aq) :
    s2Generate b d aq n = angConstruct b d f n := by
  subst hq
  obtain ⟨⟩ := ((C103_angular_from_type _).1 aq).1 h
  rfl

/-- An enumerator that belongs to no type is rejected by `S2Factory::generate`, whatever the size, and by
`RadialFactory::generate`, whatever the traits object. -/
theorem C103_no_type (b : Build) (d : AngData F) (n : Nat) (t : RadialTraits F) :
    (∀ aq : AngularQuad, (∀ q, angularFromType q ≠ .ok aq) →
      s2Generate b d aq n = .throws (.runtimeError "Unsupported Angular Quadrature")) ∧
    ∀ rq : RadialQuad, (∀ q, radialFromType q ≠ .ok rq) →
      radialGenerate b rq t = .throws (.runtimeError "Unsupported Radial Quadrature") := by
  refine ⟨fun aq h => ?_, fun rq h => ?_⟩
  · cases aq with
    | fam f => exact absurd (((C103_angular_from_type (.angular f .double)).1 _).2 (.mk _ _)) (h _)
    | other c => rfl
  · cases rq with
    | becke => exact absurd (((C103_radial_from_type _).1 _).2 (.becke .double .double)) (h _)
    | muraKnowles => exact absurd (((C103_radial_from_type _).1 _).2 (.mk .double .double)) (h _)
    | murrayHandyLaming => exact absurd (((C103_radial_from_type _).1 _).2 (.mhl .double .double)) (h _)
    | treutlerAhlrichs => exact absurd (((C103_radial_from_type _).1 _).2 (.ta .double .double)) (h _)
    | other c => rfl

end

/-- There are such enumerators. -/
example : ∀ q, angularFromType q ≠ .ok (.other 7) := by
  intro q h
  cases ((C103_angular_from_type q).1 _).1 h

/-- The template of Murray, Handy and Laming with another exponent, primitive rules and angular rules are not radial
enumerators; the Becke rule on `float` has the same enumerator as on `double`, although the factory builds `double`. -/
example (p w : CppTy) :
    (∀ M, M ≠ 2 → radialFromType (.radialTransform .uniformTrapezoid p w (.mhl M)) =
      .throws (.runtimeError "Unrecognized Radial Quadrature")) ∧
    radialFromType (.primitive .gaussChebyshev2 p w) =
      .throws (.runtimeError "Unrecognized Radial Quadrature") ∧
    radialFromType (.radialTransform .gaussChebyshev2 .float .float .becke) = .ok .becke ∧
    angularFromType (.angular .womersley .float) = .ok (.fam .womersley) := by
  refine ⟨fun M hM => (C103_radial_from_type _).2 ?_, (C103_radial_from_type _).2 nofun,
    ((C103_radial_from_type _).1 _).2 (.becke _ _), ((C103_angular_from_type _).1 _).2 (.mk _ _)⟩
  intro rq h
  cases h
  exact hM rfl

/-- Hypotheses of the factory statements: `TreutlerAhlrichs<double,double>(5, 1, 1)` compiles, with a fourth argument it
does not. -/
example (b : Build) : IsDouble (.radialTransform .gaussChebyshev2 .double .double .ta) ∧
    radialFromType (.radialTransform .gaussChebyshev2 .double .double .ta) = .ok .treutlerAhlrichs ∧
    directRadial b (.radialTransform .gaussChebyshev2 .double .double .ta) 5 [(1 : ℝ), 1] =
      some (construct b (RadialTraits.ta 5 (1 : ℝ) 1).generate) ∧
    directRadial b (.radialTransform .gaussChebyshev2 .double .double .ta) 5 [(1 : ℝ), 1, 1] = none :=
  ⟨⟨rfl, rfl⟩, ((C103_radial_from_type _).1 _).2 (.ta _ _), rfl, rfl⟩

end IntegratorXX
