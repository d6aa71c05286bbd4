import Verif.Model.Primitive

/-!
# Radial quadratures (`/repo/include/integratorxx/quadratures/radial/*.hpp`)
-/

namespace IntegratorXX

open Arith

/-- The concrete subclasses of `RadialTraits` with their data members:
`BeckeRadialTraits` (`becke.hpp:16-29`), `MurrayHandyLamingRadialTraits<M>` (`mhl.hpp:19-28`),
`MuraKnowlesRadialTraits` (`muraknowles.hpp:139-146`),
`TreutlerAhlrichsRadialTraits` (`treutlerahlrichs.hpp:16-39`). -/
inductive RadialTraits (F : Type) where
  | becke (npts : Nat) (R : F)
  | mhl (M : Nat) (npts : Nat) (R : F)
  | mk (npts : Nat) (R : F)
  | ta (npts : Nat) (R : F) (alpha : F)
deriving DecidableEq, Repr

namespace RadialTraits

/-- `npts()`: `becke.hpp:31`, `mhl.hpp:30`, `muraknowles.hpp:148`, `treutlerahlrichs.hpp:41`. -/
def npts {F : Type} : RadialTraits F → Nat
  | becke n _ => n
  | mhl _ n _ => n
  | mk n _ => n
  | ta n _ _ => n

variable {F : Type} [Add F] [Sub F] [Mul F] [Div F] [Neg F] [Arith F]

/-- `treutlerahlrichs.hpp:24`, `a`. -/
def taA (F : Type) [Arith F] : F := lit 1

/-- `treutlerahlrichs.hpp:25`, `ln_2` (the decimal literal; it is rounded when `F` is a floating-point
type). -/
def taLn2 (F : Type) [Arith F] : F := lit (693147180559945309417232 / 1000000000000000000000000)

/-- `radial_transform`: `becke.hpp:52-55`, `mhl.hpp:51-54`, `muraknowles.hpp:163-166`,
`treutlerahlrichs.hpp:62-67`. -/
def transform : RadialTraits F → F → F
  | becke _ R, x => R * (lit 1 + x) / (lit 1 - x)
  | mhl M _ R, x => R * pow (x / (lit 1 - x)) (ofNat M)
  | mk _ R, x => -R * log (lit 1 - x * x * x)
  | ta _ R alpha, x =>
    let pow_term := pow (taA F + x) alpha
    let log_term := log ((taA F + lit 1) / (lit 1 - x))
    R * pow_term * log_term / taLn2 F

/-- `radial_jacobian`: `becke.hpp:63-66`, `mhl.hpp:62-65`, `muraknowles.hpp:168-172`,
`treutlerahlrichs.hpp:76-81`.  For MHL, `M-1` is `size_t` arithmetic on the template argument;
it is only meaningful for `M ≥ 1` (the library instantiates `M = 2`). -/
def jacobian : RadialTraits F → F → F
  | becke _ R, x => R * lit 2 / pow (lit 1 - x) (ofNat 2)
  | mhl M _ R, x =>
    R * ofNat M * pow x (ofNat (M - 1)) / pow (lit 1 - x) (ofNat (M + 1))
  | mk _ R, x =>
    let x2 := x * x
    R * lit 3 * x2 / (lit 1 - x2 * x)
  | ta _ R alpha, x =>
    let pow_term := pow (taA F + x) alpha
    let log_term := log ((taA F + lit 1) / (lit 1 - x))
    R * pow_term / taLn2 F * (alpha * log_term / (taA F + x) + (lit 1 / (lit 1 - x)))

/-- `bound_inclusive` of the base quadrature: `gausschebyshev2.hpp` (`false`) for Becke and
Treutler-Ahlrichs (`becke.hpp:86-88`, `treutlerahlrichs.hpp:104-108`), `uniform.hpp:46`
(`true`) for MHL and Mura-Knowles (`mhl.hpp:88-92`, `muraknowles.hpp:176-180`). -/
def inclusive {F : Type} : RadialTraits F → Bool
  | becke .. => false
  | mhl .. => true
  | mk .. => true
  | ta .. => false

/-- `base_quad_traits::generate(npts)` of the base quadrature.
Called at `radial_transform.hpp:77`. -/
def baseGenerate (t : RadialTraits F) (n : Nat) : Outcome (List F × List F) :=
  if t.inclusive then uniformTrapezoid01 n else gaussChebyshev2 n

/-- `radial_transform.hpp:66-88`, `quadrature_traits<RadialTransformQuadrature>::generate`.
`npts + 2` is taken in `Nat` (it could only wrap for sizes that cannot be allocated). -/
def generate (t : RadialTraits F) : Outcome (List F × List F) := do
  let npts := t.npts
  let points : List F := List.replicate npts (lit 0)
  let weights : List F := List.replicate npts (lit 0)
  let npts_base := if t.inclusive then npts + 2 else npts
  let (base_x, base_w) ← t.baseGenerate npts_base
  let ipts_offset := if t.inclusive then 1 else 0
  forRange 0 npts (fun i (s : List F × List F) => do
    let xi ← vget base_x (i + ipts_offset)
    let wi ← vget base_w (i + ipts_offset)
    let points ← vset s.1 i (t.transform xi)
    let weights ← vset s.2 i (wi * t.jacobian xi)
    pure (points, weights)) (points, weights)

end RadialTraits

end IntegratorXX
