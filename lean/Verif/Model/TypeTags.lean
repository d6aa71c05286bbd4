import Verif.Model.Factory

/-!
# From quadrature types to enumerators

`radial_from_type` and `angular_from_type` compare types at compile time; types are modelled as terms.
-/

namespace IntegratorXX

/-- Types of numbers and points.  `array3 t` is `cartesian_pt_t<t>`, `types.hpp:8-9`; `other` any other type.
Template arguments `PointType`, `WeightType`, `RealType` of the quadratures, e.g. `becke.hpp:86-88`,
`s2/lebedev_laikov.hpp:11-13`. -/
inductive CppTy where
  | float
  | double
  | longDouble
  | array3 (t : CppTy)
  | other (name : Nat)
deriving DecidableEq, Repr

/-- The primitive quadrature templates, `quadratures/primitive/*.hpp`; `other` a template of the user. -/
inductive PrimName where
  | gaussChebyshev1
  | gaussChebyshev2
  | gaussChebyshev2Modified
  | gaussChebyshev3
  | gaussLegendre
  | gaussLobatto
  | uniformTrapezoid
  | other (name : Nat)
deriving DecidableEq, Repr

/-- The classes derived from `RadialTraits` (`becke.hpp:16`, `mhl.hpp:19-20` with its exponent, `muraknowles.hpp:139`,
`treutlerahlrichs.hpp:16`); `other` a class of the user. -/
inductive TraitsTy where
  | becke
  | mhl (M : Nat)
  | mk
  | ta
  | other (name : Nat)
deriving DecidableEq, Repr

/-- Quadrature types.  `composite` stands for product, spherical, pruned and sub-quadratures and for classes of the user,
of which only the member types matter here.
`quadratures/primitive/*.hpp`, `radial_transform.hpp:22-24`, `quadratures/s2/*.hpp`, `composite_quadratures/*.hpp`. -/
inductive QuadTy where
  | primitive (k : PrimName) (p w : CppTy)
  | radialTransform (k : PrimName) (p w : CppTy) (tr : TraitsTy)
  | angular (f : AngFam) (w : CppTy)
  | composite (name : Nat) (p w : CppTy)
deriving DecidableEq, Repr

/-- The member `point_type`: `quadrature_traits<...>::point_type`, e.g. `radial_transform.hpp:60`,
`s2/lebedev_laikov.hpp:34`. -/
def QuadTy.pointType : QuadTy → CppTy
  | .primitive _ p _ => p
  | .radialTransform _ p _ _ => p
  | .angular _ w => .array3 w
  | .composite _ p _ => p

/-- The member `weight_type`: `radial_transform.hpp:61`, `s2/lebedev_laikov.hpp:35`. -/
def QuadTy.weightType : QuadTy → CppTy
  | .primitive _ _ w => w
  | .radialTransform _ _ w _ => w
  | .angular _ w => w
  | .composite _ _ w => w

/-- `Becke<PointType, WeightType>`, `becke.hpp:86-88`. -/
def beckeTy (p w : CppTy) : QuadTy := .radialTransform .gaussChebyshev2 p w .becke

/-- `MurrayHandyLaming<PointType, WeightType>`, `mhl.hpp:88-92`. -/
def mhlTy (p w : CppTy) : QuadTy := .radialTransform .uniformTrapezoid p w (.mhl 2)

/-- `MuraKnowles<PointType, WeightType>`, `muraknowles.hpp:176-180`. -/
def mkTy (p w : CppTy) : QuadTy := .radialTransform .uniformTrapezoid p w .mk

/-- `TreutlerAhlrichs<PointType, WeightType>`, `treutlerahlrichs.hpp:104-108`. -/
def taTy (p w : CppTy) : QuadTy := .radialTransform .gaussChebyshev2 p w .ta

/-- `radial_from_type`, `radial_factory.hpp:14-22`, with `is_becke_v` (`becke.hpp:93-97`), `is_mk_v`
(`muraknowles.hpp:186-190`), `is_mhl_v` (`mhl.hpp:96-100`), `is_ta_v` (`treutlerahlrichs.hpp:112-116`). -/
def radialFromType (q : QuadTy) : Outcome RadialQuad :=
  if q = beckeTy q.pointType q.weightType then .ok .becke
  else if q = mkTy q.pointType q.weightType then .ok .muraKnowles
  else if q = mhlTy q.pointType q.weightType then .ok .murrayHandyLaming
  else if q = taTy q.pointType q.weightType then .ok .treutlerAhlrichs
  else .throws (.runtimeError "Unrecognized Radial Quadrature")

/-- `angular_from_type`, `s2_factory.hpp:16-24`, with `is_ahrens_beyklin_v` (`s2/ahrens_beylkin.hpp:527-531`),
`is_delley_v` (`s2/delley.hpp:223-227`), `is_lebedev_laikov_v` (`s2/lebedev_laikov.hpp:239-243`), `is_womersley_v`
(`s2/womersley.hpp:850-854`). -/
def angularFromType (q : QuadTy) : Outcome AngularQuad :=
  if q = .angular .ahrensBeylkin q.weightType then .ok (.fam .ahrensBeylkin)
  else if q = .angular .delley q.weightType then .ok (.fam .delley)
  else if q = .angular .lebedevLaikov q.weightType then .ok (.fam .lebedevLaikov)
  else if q = .angular .womersley q.weightType then .ok (.fam .womersley)
  else .throws (.runtimeError "Unrecognized Angular Quadrature")

section
variable {F : Type} [Add F] [Sub F] [Mul F] [Div F] [Neg F] [Arith F]

/-- The traits object `RadialTraitsType(npts, args...)`; `none` when that does not compile.
Constructors `becke.hpp:29`, `mhl.hpp:28`, `muraknowles.hpp:146`, `treutlerahlrichs.hpp:38-39`. -/
def traitsOf (tr : TraitsTy) (n : Nat) (args : List F) : Option (RadialTraits F) :=
  match tr, args with
  | .becke, [] => some (.becke n (Arith.lit 1))
  | .becke, [R] => some (.becke n R)
  | .mhl M, [] => some (.mhl M n (Arith.lit 1))
  | .mhl M, [R] => some (.mhl M n R)
  | .mk, [] => some (.mk n (Arith.lit 1))
  | .mk, [R] => some (.mk n R)
  | .ta, [] => some (.ta n (Arith.lit 1) (Arith.lit (6 / 10)))
  | .ta, [R] => some (.ta n R (Arith.lit (6 / 10)))
  | .ta, [R, alpha] => some (.ta n R alpha)
  | _, _ => none

/-- The expression `Q(npts, args...)` for a radial quadrature type with point and weight type `double`: the variadic
constructor, `radial_transform.hpp:45-49` (two or more arguments), or a conversion of the only argument to the traits
class followed by the constructor in line 35.  `none` when it does not compile.  Base quadratures other than those of
`radial.hpp` are not modelled. -/
def directRadial (b : Build) (q : QuadTy) (n : Nat) (args : List F) : Option (Outcome (Quad F F)) :=
  match q with
  | .radialTransform .gaussChebyshev2 .double .double .becke =>
    (traitsOf .becke n args).map (fun t => construct b t.generate)
  | .radialTransform .gaussChebyshev2 .double .double .ta =>
    (traitsOf .ta n args).map (fun t => construct b t.generate)
  | .radialTransform .uniformTrapezoid .double .double (.mhl M) =>
    (traitsOf (.mhl M) n args).map (fun t => construct b t.generate)
  | .radialTransform .uniformTrapezoid .double .double .mk =>
    (traitsOf .mk n args).map (fun t => construct b t.generate)
  | _ => none

end

end IntegratorXX
