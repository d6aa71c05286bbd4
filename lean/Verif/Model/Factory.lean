import Verif.Model.Angular
import Verif.Model.Radial

/-!
# Factories and pruning schemes (`/repo/include/integratorxx/generators`)
-/

namespace IntegratorXX

open Arith

/-! ## Enumerations and their parsers -/

/-- `enum class RadialQuad : uint32_t`, `radial_factory.hpp:7-12`.  `other` stands for the values
of the underlying type that are not enumerators. -/
inductive RadialQuad where
  | becke
  | murrayHandyLaming
  | muraKnowles
  | treutlerAhlrichs
  | other (code : Nat)
deriving DecidableEq, Repr

/-- `enum class AngularQuad : uint32_t`, `s2_factory.hpp:9-14`; `other` as above. -/
inductive AngularQuad where
  | fam (f : AngFam)
  | other (code : Nat)
deriving DecidableEq, Repr

/-- `enum class PruningScheme`, `spherical_factory.hpp:13-17`; `other` as above. -/
inductive PruningScheme where
  | unpruned
  | robust
  | treutler
  | other (code : Nat)
deriving DecidableEq, Repr

/-- The bytes of a `std::string`.
Parameter of `impl/radial_factory.hpp:10`, `impl/s2_factory.hpp:10`. -/
abbrev CStr := List UInt8

/-- The bytes of an ASCII literal.
The literals of `impl/radial_factory.hpp:13-19`, `impl/s2_factory.hpp:13-19`. -/
def ascii (s : String) : CStr := s.toList.map (fun c => UInt8.ofNat c.toNat)

/-- `std::toupper` in the "C" locale (the library never calls `setlocale`).
`impl/radial_factory.hpp:11-12`, `impl/s2_factory.hpp:11-12`. -/
def toUpper (c : UInt8) : UInt8 := if 97 ≤ c ∧ c ≤ 122 then c - 32 else c

/-- `radial_from_string`, `impl/radial_factory.hpp:10-22`. -/
def radialFromString (name : CStr) : Outcome RadialQuad :=
  let name := name.map toUpper
  if name = ascii "BECKE" then .ok .becke
  else if name = ascii "MURAKNOWLES" then .ok .muraKnowles
  else if name = ascii "MK" then .ok .muraKnowles
  else if name = ascii "MURRAYHANDYLAMING" then .ok .murrayHandyLaming
  else if name = ascii "MHL" then .ok .murrayHandyLaming
  else if name = ascii "TREUTLERAHLRICHS" then .ok .treutlerAhlrichs
  else if name = ascii "TA" then .ok .treutlerAhlrichs
  else .throws (.runtimeError "Unrecognized Radial Quadrature")

/-- `angular_from_string`, `impl/s2_factory.hpp:10-22`. -/
def angularFromString (name : CStr) : Outcome AngularQuad :=
  let name := name.map toUpper
  if name = ascii "AHRENSBEYLKIN" then .ok (.fam .ahrensBeylkin)
  else if name = ascii "AB" then .ok (.fam .ahrensBeylkin)
  else if name = ascii "DELLEY" then .ok (.fam .delley)
  else if name = ascii "LEBEDEVLAIKOV" then .ok (.fam .lebedevLaikov)
  else if name = ascii "LEBEDEV" then .ok (.fam .lebedevLaikov)
  else if name = ascii "LL" then .ok (.fam .lebedevLaikov)
  else if name = ascii "WOMERSLEY" then .ok (.fam .womersley)
  else .throws (.runtimeError "Unrecognized Angular Quadrature")

/-! ## Radial traits -/

/-- The argument pack of `make_radial_traits`: nothing, numbers (`npts` and further arguments
convertible to `double`), or one traits object (the copy constructor).  Packs of other types are
not modelled.
`Args` of `radial_factory.hpp:28-34`, `38-62`. -/
inductive TraitsArgs (F : Type) where
  | none
  | nums (npts : Nat) (rest : List F)
  | copy (t : RadialTraits F)

section
variable {F : Type} [Arith F]

/-- `detail::make_radial_traits<BeckeRadialTraits>` (`radial_factory.hpp:28-34`), the constructor
`becke.hpp:29`; `none` is the null pointer. -/
def makeBecke : TraitsArgs F → Option (RadialTraits F)
  | .nums n [] => some (.becke n (lit 1))
  | .nums n [R] => some (.becke n R)
  | .copy (.becke n R) => some (.becke n R)
  | _ => Option.none

/-- The same for `MurrayHandyLamingRadialTraits<2>`, constructor `mhl.hpp:28`. -/
def makeMhl : TraitsArgs F → Option (RadialTraits F)
  | .nums n [] => some (.mhl 2 n (lit 1))
  | .nums n [R] => some (.mhl 2 n R)
  | .copy (.mhl 2 n R) => some (.mhl 2 n R)
  | _ => Option.none

/-- The same for `MuraKnowlesRadialTraits`, constructor `muraknowles.hpp:146`. -/
def makeMk : TraitsArgs F → Option (RadialTraits F)
  | .nums n [] => some (.mk n (lit 1))
  | .nums n [R] => some (.mk n R)
  | .copy (.mk n R) => some (.mk n R)
  | _ => Option.none

/-- The same for `TreutlerAhlrichsRadialTraits`, constructor `treutlerahlrichs.hpp:38-39`. -/
def makeTa : TraitsArgs F → Option (RadialTraits F)
  | .nums n [] => some (.ta n (lit 1) (lit (6 / 10)))
  | .nums n [R] => some (.ta n R (lit (6 / 10)))
  | .nums n [R, alpha] => some (.ta n R alpha)
  | .copy (.ta n R alpha) => some (.ta n R alpha)
  | _ => Option.none

/-- `make_radial_traits`, `radial_factory.hpp:38-62`.  The `switch` has no `default`. -/
def makeRadialTraits (rq : RadialQuad) (args : TraitsArgs F) : Outcome (RadialTraits F) :=
  let ptr := match rq with
    | .becke => makeBecke args
    | .murrayHandyLaming => makeMhl args
    | .muraKnowles => makeMk args
    | .treutlerAhlrichs => makeTa args
    | .other _ => Option.none
  match ptr with
  | some t => .ok t
  | Option.none => .throws (.runtimeError "RadialTraits Construction Failed")

/-- `compare`: `becke.hpp:37-44`, `mhl.hpp:36-43`, `muraknowles.hpp:154-161`,
`treutlerahlrichs.hpp:47-54`.  The `dynamic_cast` succeeds when the classes agree (for MHL this
includes the template argument). -/
def RadialTraits.compare : RadialTraits F → RadialTraits F → Bool
  | .becke n R, .becke n' R' => n == n' && eq R R'
  | .mhl M n R, .mhl M' n' R' => M == M' && (n == n' && eq R R')
  | .mk n R, .mk n' R' => n == n' && eq R R'
  | .ta n R a, .ta n' R' a' => n == n' && eq R R' && eq a a'
  | _, _ => false

end

/-! ## Specifications -/

/-- `UnprunedSphericalGridSpecification`, `spherical_factory.hpp:26-40`, with its owning pointer
represented by `P`: either the pointee (`Ptr = RadialTraits F`) or an address. -/
structure UnprunedSpec (Ptr : Type) where
  radialQuad : RadialQuad
  radialTraits : Option Ptr
  angularQuad : AngularQuad
  angularSize : Nat
deriving DecidableEq, Repr

/-- `PruningRegion`, `spherical_factory.hpp:45-59`. -/
structure PruningRegion where
  idxSt : Nat
  idxEn : Nat
  angularQuad : AngularQuad
  angularSize : Nat
deriving DecidableEq, Repr

/-- `PrunedSphericalGridSpecification`, `spherical_factory.hpp:61-93`. -/
structure PrunedSpec (Ptr : Type) where
  radialQuad : RadialQuad
  radialTraits : Option Ptr
  regions : List PruningRegion
deriving DecidableEq, Repr

/-- `operator==` of `PrunedSphericalGridSpecification`, `spherical_factory.hpp:88-92`; the
regions compare with `PruningRegion::operator==` (53-58). -/
def PrunedSpec.equals {F : Type} [Arith F] (s o : PrunedSpec (RadialTraits F)) : Bool :=
  s.radialQuad == o.radialQuad &&
  (match s.radialTraits, o.radialTraits with
    | some t, some t' => t.compare t'
    | some _, none => false
    | none, some _ => false
    | none, none => true) &&
  s.regions == o.regions

/-! ### Ownership

Specifications own their traits object through a `std::unique_ptr`.  Here a pointer is an
address in a list of allocated objects. -/

/-- Allocated traits objects.
What `radial_traits_ptr` (`spherical_factory.hpp:23`) points to. -/
abbrev TraitsHeap (F : Type) := List (RadialTraits F)

/-- The specification a client observes.
The members `spherical_factory.hpp:62-65`. -/
def PrunedSpec.view {F : Type} (h : TraitsHeap F) (s : PrunedSpec Nat) :
    PrunedSpec (RadialTraits F) :=
  ⟨s.radialQuad, s.radialTraits.bind (h[·]?), s.regions⟩

/-- The same for unpruned specifications.
The members `spherical_factory.hpp:27-31`. -/
def UnprunedSpec.view {F : Type} (h : TraitsHeap F) (s : UnprunedSpec Nat) :
    UnprunedSpec (RadialTraits F) :=
  ⟨s.radialQuad, s.radialTraits.bind (h[·]?), s.angularQuad, s.angularSize⟩

/-- `other.radial_traits ? other.radial_traits->clone() : nullptr`
(`spherical_factory.hpp:38`, `78`, `83`; `clone` is `becke.hpp:33-35` etc.).  A dangling pointer
is undefined behaviour. -/
def cloneOrNull {F : Type} (h : TraitsHeap F) : Option Nat → Outcome (TraitsHeap F × Option Nat)
  | none => .ok (h, none)
  | some a => do
    let t ← vget h a
    pure (h ++ [t], some h.length)

/-- Copy construction of a pruned specification, `spherical_factory.hpp:76-79`; copy assignment
(81-86) leaves the same state in the target. -/
def PrunedSpec.copy {F : Type} (h : TraitsHeap F) (s : PrunedSpec Nat) :
    Outcome (TraitsHeap F × PrunedSpec Nat) := do
  let (h, p) ← cloneOrNull h s.radialTraits
  pure (h, ⟨s.radialQuad, p, s.regions⟩)

/-- Copy construction of an unpruned specification, `spherical_factory.hpp:37-39`. -/
def UnprunedSpec.copy {F : Type} (h : TraitsHeap F) (s : UnprunedSpec Nat) :
    Outcome (TraitsHeap F × UnprunedSpec Nat) := do
  let (h, p) ← cloneOrNull h s.radialTraits
  pure (h, ⟨s.radialQuad, p, s.angularQuad, s.angularSize⟩)

/-! ## Pruning schemes -/

/-- Conversion `size_t → int64_t` (modulo `2^64`).
Argument of `algebraic_order_by_npts` at `impl/robust_pruning.hpp:13`. -/
def toInt64 (n : Nat) : Int :=
  if n % sizeMod < 9223372036854775808 then (n % sizeMod : Nat)
  else ((n % sizeMod : Nat) : Int) - 18446744073709551616

/-- Conversion `int64_t → size_t`.
`impl/robust_pruning.hpp:20-21`. -/
def toSize (i : Int) : Nat := (i % 18446744073709551616).toNat

/-- `get_robust_low_med_sizes`, `impl/robust_pruning.hpp:10-24`: the pair `(low, med)`. -/
def robustSizes (fam : AngFam) (asz : Nat) : Outcome (Nat × Nat) :=
  let base_order := fam.orderByNpts (toInt64 asz)
  if base_order < 0 then .throws (.runtimeError "Invalid Base Grid")
  else
    let med_order := fam.nextOrder (if base_order > 6 then base_order - 6 else base_order)
    let low_order := fam.nextOrder 7
    .ok (toSize (fam.nptsByOrder low_order), toSize (fam.nptsByOrder med_order))

/-- `get_treutler_low_med_sizes`, `impl/treutler_pruning.hpp:10-17`. -/
def treutlerSizes (fam : AngFam) : Nat × Nat :=
  (toSize (fam.nptsByOrder (fam.nextOrder 7)), toSize (fam.nptsByOrder (fam.nextOrder 11)))

/-- The regions of `robust_psi4_pruning_scheme_impl`, `impl/robust_pruning.hpp:31-38`. -/
def robustRegions (low med : Nat) (aq : AngularQuad) (rsz asz : Nat) : List PruningRegion :=
  let r_div_4 := rsz / 4 + 1
  let r_div_2 := rsz / 2 + 1
  [⟨0, r_div_4, aq, low⟩, ⟨r_div_4, r_div_2, aq, med⟩, ⟨r_div_2, rsz, aq, asz⟩]

/-- The regions of `treutler_pruning_scheme_impl`, `impl/treutler_pruning.hpp:23-30`. -/
def treutlerRegions (low med : Nat) (aq : AngularQuad) (rsz asz : Nat) : List PruningRegion :=
  let r_div_3 := rsz / 3 + 1
  let r_div_2 := rsz / 2 + 1
  [⟨0, r_div_3, aq, low⟩, ⟨r_div_3, r_div_2, aq, med⟩, ⟨r_div_2, rsz, aq, asz⟩]

section
variable {F : Type}

/-- `robust_psi4_pruning_scheme`, `impl/robust_pruning.hpp:27-74`.  Calling `npts()` through a
null pointer is undefined. -/
def robustScheme (unp : UnprunedSpec (RadialTraits F)) : Outcome (PrunedSpec (RadialTraits F)) :=
  match unp.angularQuad with
  | .fam f => do
    let (low, med) ← robustSizes f unp.angularSize
    match unp.radialTraits with
    | some t => .ok ⟨unp.radialQuad, some t,
        robustRegions low med unp.angularQuad t.npts unp.angularSize⟩
    | none => .ub
  | .other _ => .throws (.runtimeError "Unsupported Angular Quadrature")

/-- `treutler_pruning_scheme`, `impl/treutler_pruning.hpp:19-66`. -/
def treutlerScheme (unp : UnprunedSpec (RadialTraits F)) :
    Outcome (PrunedSpec (RadialTraits F)) :=
  match unp.angularQuad with
  | .fam f =>
    let (low, med) := treutlerSizes f
    match unp.radialTraits with
    | some t => .ok ⟨unp.radialQuad, some t,
        treutlerRegions low med unp.angularQuad t.npts unp.angularSize⟩
    | none => .ub
  | .other _ => .throws (.runtimeError "Unsupported Angular Quadrature")

/-- `create_pruned_spec`, `impl/pruned_grid.hpp:86-108`. -/
def createPrunedSpec (scheme : PruningScheme) (unp : UnprunedSpec (RadialTraits F)) :
    Outcome (PrunedSpec (RadialTraits F)) :=
  match unp.radialTraits with
  | none => .throws (.runtimeError "RadialTraits Not Set")
  | some t =>
    match scheme with
    | .robust => robustScheme unp
    | .treutler => treutlerScheme unp
    | _ => .ok ⟨unp.radialQuad, some t, [⟨0, t.npts, unp.angularQuad, unp.angularSize⟩]⟩

end

/-! ## Grid factories -/

section
variable {F : Type} [Add F] [Sub F] [Mul F] [Div F] [Neg F] [Arith F]

/-- `bk_type(traits)` etc. (`radial_types.hpp:6-9`, `radial_transform.hpp:42-43`) under the
`switch (rq)`: the `dynamic_cast` of `radial_transform.hpp:17-20` throws `std::bad_cast`, the
`default` throws "Unsupported Radial Quadrature".  `RadialFactory::generate`,
`impl/radial_factory.hpp:24-39`; the same `switch` is in `impl/unpruned_grid.hpp:16-34` and
`impl/pruned_grid.hpp:66-81`.  Only the traits classes of the library are modelled. -/
def radialGenerate (b : Build) (rq : RadialQuad) (t : RadialTraits F) : Outcome (Quad F F) :=
  match rq, t with
  | .becke, .becke n R => construct b (RadialTraits.becke n R).generate
  | .muraKnowles, .mk n R => construct b (RadialTraits.mk n R).generate
  | .murrayHandyLaming, .mhl 2 n R => construct b (RadialTraits.mhl 2 n R).generate
  | .treutlerAhlrichs, .ta n R a => construct b (RadialTraits.ta n R a).generate
  | .other _, _ => .throws (.runtimeError "Unsupported Radial Quadrature")
  | _, _ => .throws .badCast

/-- `S2Factory::generate`, `impl/s2_factory.hpp:24-39`. -/
def s2Generate (b : Build) (d : AngData F) (aq : AngularQuad) (npts : Nat) :
    Outcome (Quad (Pt F) F) :=
  match aq with
  | .fam f => angConstruct b d f npts
  | .other _ => .throws (.runtimeError "Unsupported Angular Quadrature")

/-- The default centre `point_type({0., 0., 0.})` (`spherical_quadrature.hpp:150`,
`pruned_spherical_quadrature.hpp:197`). -/
def origin (F : Type) [Arith F] : Pt F := ⟨lit 0, lit 0, lit 0⟩

/-- `SphericalGridFactory::generate_unpruned_grid`, `impl/unpruned_grid.hpp:12-57`: the angular
quadrature is constructed before the radial one. -/
def generateUnprunedGrid (b : Build) (d : AngData F) (rq : RadialQuad) (t : RadialTraits F)
    (aq : AngularQuad) (nang : Nat) : Outcome (SphQuad F) :=
  match aq with
  | .fam f => do
    let a ← angConstruct b d f nang
    let r ← radialGenerate b rq t
    sphConstruct b r a (origin F)
  | .other _ => .throws (.runtimeError "Unsupported Angular Quadrature")

/-- Region loop of `make_pruned_grid_impl`, `impl/pruned_grid.hpp:20-22`. -/
def addRegions (b : Build) (d : AngData F) (f : AngFam) (npts : Nat) :
    List PruningRegion → Partition (Quad (Pt F) F) → Outcome (Partition (Quad (Pt F) F))
  | [], p => .ok p
  | region :: rest, p => do
    let a ← angConstruct b d f region.angularSize
    let p ← p.addQuad b npts region.idxSt a
    addRegions b d f npts rest p

/-- `make_pruned_grid_impl`, `impl/pruned_grid.hpp:15-27`. -/
def makePrunedGridImpl (b : Build) (d : AngData F) (f : AngFam) (r : Quad F F)
    (regions : List PruningRegion) : Outcome (SphQuad F) := do
  let rgp ← addRegions b d f r.npts regions Partition.empty
  let rgp ← rgp.finalize r.npts
  prunedConstruct b r rgp (origin F)

/-- `make_pruned_grid`, `impl/pruned_grid.hpp:29-57`. -/
def makePrunedGrid (b : Build) (d : AngData F) (r : Quad F F) (regions : List PruningRegion) :
    Outcome (SphQuad F) :=
  match regions with
  | [] => .throws (.runtimeError "No Pruning Regions")
  | r0 :: _ =>
    if regions.any (fun r => r.angularQuad != r0.angularQuad) then
      .throws (.runtimeError "Mixed Angular Pruning Not Supported")
    else
      match r0.angularQuad with
      | .fam f => makePrunedGridImpl b d f r regions
      | .other _ => .throws (.runtimeError "Unsupported Angular Quadrature")

/-- `SphericalGridFactory::generate_pruned_grid`, `impl/pruned_grid.hpp:61-83`. -/
def generatePrunedGrid (b : Build) (d : AngData F) (rq : RadialQuad) (t : RadialTraits F)
    (regions : List PruningRegion) : Outcome (SphQuad F) := do
  let r ← radialGenerate b rq t
  makePrunedGrid b d r regions

/-- `generate_grid(UnprunedSphericalGridSpecification)`, `spherical_factory.hpp:173-178`. -/
def generateGridUnpruned (b : Build) (d : AngData F) (gs : UnprunedSpec (RadialTraits F)) :
    Outcome (SphQuad F) :=
  match gs.radialTraits with
  | none => .throws (.runtimeError "RadialTraits Not Set")
  | some t => generateUnprunedGrid b d gs.radialQuad t gs.angularQuad gs.angularSize

/-- `generate_grid(PrunedSphericalGridSpecification)`, `spherical_factory.hpp:181-186`. -/
def generateGridPruned (b : Build) (d : AngData F) (gs : PrunedSpec (RadialTraits F)) :
    Outcome (SphQuad F) :=
  match gs.radialTraits with
  | none => .throws (.runtimeError "RadialTraits Not Set")
  | some t => generatePrunedGrid b d gs.radialQuad t gs.regions

end

end IntegratorXX
