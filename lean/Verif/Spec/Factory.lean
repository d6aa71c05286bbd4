import Verif.Model.Factory

/-!
# Specification vocabulary for factories and pruning schemes
-/

namespace IntegratorXX.Spec

/-- The half-open ranges are non-empty and list `0, …, n-1` in order, without gap or overlap. -/
def TilesRange (n : Nat) (rs : List (Nat × Nat)) : Prop :=
  (∀ r ∈ rs, r.1 < r.2) ∧ rs.flatMap (fun r => List.range' r.1 (r.2 - r.1)) = List.range n

/-- The dynamic type of a traits object is the one selected by an enumerator. -/
inductive Matches {F : Type} : RadialQuad → RadialTraits F → Prop
  | becke (n R) : Matches .becke (.becke n R)
  | mhl (n R) : Matches .murrayHandyLaming (.mhl 2 n R)
  | mk (n R) : Matches .muraKnowles (.mk n R)
  | ta (n R a) : Matches .treutlerAhlrichs (.ta n R a)

/-- `s` is the upper case name `name`, up to ASCII letter case.  The bytes of `name` are
`'A'..'Z'` (65..90); the lower case letter is 32 higher. -/
def SameLetters (s : List UInt8) (name : String) : Prop :=
  List.Forall₂ (fun c k => c.toNat = k ∨ c.toNat = k + 32) s (name.toList.map Char.toNat)

/-- Documented names of the radial quadratures. -/
def radialNames : List (String × RadialQuad) :=
  [("BECKE", .becke), ("MURAKNOWLES", .muraKnowles), ("MK", .muraKnowles),
   ("MURRAYHANDYLAMING", .murrayHandyLaming), ("MHL", .murrayHandyLaming),
   ("TREUTLERAHLRICHS", .treutlerAhlrichs), ("TA", .treutlerAhlrichs)]

/-- Documented names of the angular quadratures. -/
def angularNames : List (String × AngularQuad) :=
  [("AHRENSBEYLKIN", .fam .ahrensBeylkin), ("AB", .fam .ahrensBeylkin),
   ("DELLEY", .fam .delley), ("LEBEDEVLAIKOV", .fam .lebedevLaikov),
   ("LEBEDEV", .fam .lebedevLaikov), ("LL", .fam .lebedevLaikov),
   ("WOMERSLEY", .fam .womersley)]

end IntegratorXX.Spec
