import Verif.Model.TypeTags

/-!
# Specification vocabulary for quadrature types
-/

namespace IntegratorXX.Spec

/-- The C++ type belongs to a radial enumerator: the transformation and the base rule of the method it names, for any
point and weight type.  The exponent of Murray, Handy and Laming is 2. -/
inductive TypeOfRadial : QuadTy → RadialQuad → Prop
  | becke (p w) : TypeOfRadial (.radialTransform .gaussChebyshev2 p w .becke) .becke
  | mhl (p w) : TypeOfRadial (.radialTransform .uniformTrapezoid p w (.mhl 2)) .murrayHandyLaming
  | mk (p w) : TypeOfRadial (.radialTransform .uniformTrapezoid p w .mk) .muraKnowles
  | ta (p w) : TypeOfRadial (.radialTransform .gaussChebyshev2 p w .ta) .treutlerAhlrichs

/-- The C++ type belongs to an angular enumerator. -/
inductive TypeOfAngular : QuadTy → AngularQuad → Prop
  | mk (f w) : TypeOfAngular (.angular f w) (.fam f)

/-- The type has point and weight type `double`. -/
def IsDouble (q : QuadTy) : Prop := q.pointType = .double ∧ q.weightType = .double

end IntegratorXX.Spec
