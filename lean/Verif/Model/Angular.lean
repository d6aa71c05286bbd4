import Verif.Model.AngularTables
import Verif.Model.Composite

/-!
# Angular quadratures (`/repo/include/integratorxx/quadratures/s2/*.hpp`)

The numerical content of the tabulated grids is a parameter (`AngData`) here: the dispatch, the
copy into the vectors, the scaling of the weights and the order/size tables do not depend on it.
-/

namespace IntegratorXX

open Arith

/-- The four angular quadrature class templates: `AhrensBeylkin`, `Delley`, `LebedevLaikov`,
`Womersley`; `s2_types.hpp:6-9` instantiates them at `double`. -/
inductive AngFam where
  | ahrensBeylkin
  | delley
  | lebedevLaikov
  | womersley
deriving DecidableEq, Repr

/-- A tabulated grid: the static members `points` and `weights` of
`s2/<family>/<family>_<n>.hpp`. -/
structure StaticGrid (F : Type) where
  points : List (Pt F)
  weights : List F

/-- The static data of all grids, by family and number in the file name.
`s2/<family>/<family>_<n>.hpp:12` to the end, named in the chains of `lebedev_laikov.hpp:48-109`, `delley.hpp:52-87`, `ahrens_beylkin.hpp:53-164`, `womersley.hpp:57-321`. -/
abbrev AngData (F : Type) := AngFam → Nat → StaticGrid F

/-- First match in a `switch` or `if … == …` chain.
`lebedev_laikov.hpp:48-109`, `119-195`, and the same chains of the other families (cited at `dispatch`, `nptsByOrder`, `orderByNpts`). -/
def chainLookup {α β : Type} [DecidableEq α] : List (α × β) → α → Option β
  | [], _ => none
  | (k, v) :: rest, a => if a = k then some v else chainLookup rest a

/-- `if (x <= c₁) return r₁; else if (x <= c₂) …; else return last`.
`lebedev_laikov.hpp:198-232`, `delley.hpp:182-219`, `ahrens_beylkin.hpp:407-521`. -/
def chainNext : List (Int × Int) → Int → Int → Int
  | [], last, _ => last
  | (c, r) :: rest, last, x => if x ≤ c then r else chainNext rest last x

namespace AngFam

/-- The static grid chosen by `generate`: `lebedev_laikov.hpp:48-109`, `delley.hpp:52-87`,
`ahrens_beylkin.hpp:53-164`, `womersley.hpp:196-321` with `generate_large_npts_` (57-187). -/
def dispatch : AngFam → Nat → Option Nat
  | ahrensBeylkin, n => chainLookup Tables.abDispatch n
  | delley, n => chainLookup Tables.deDispatch n
  | lebedevLaikov, n => chainLookup Tables.llDispatch n
  | womersley, n =>
    if n ≥ 2049 then chainLookup Tables.woDispatchLarge n else chainLookup Tables.woDispatch n

/-- `switch` with `default: return -1`.
`lebedev_laikov.hpp:119-195`, `delley.hpp:96-180`, `ahrens_beylkin.hpp:169-405`, `womersley.hpp:325-837`. -/
def switchOr (l : List (Int × Int)) (x : Int) : Int := (chainLookup l x).getD (-1)

/-- `npts_by_algebraic_order`: `lebedev_laikov.hpp:119-156`, `delley.hpp:96-137`,
`ahrens_beylkin.hpp:169-286`, `womersley.hpp:325-580`. -/
def nptsByOrder : AngFam → Int → Int
  | ahrensBeylkin => switchOr Tables.abNptsByOrder
  | delley => switchOr Tables.deNptsByOrder
  | lebedevLaikov => switchOr Tables.llNptsByOrder
  | womersley => switchOr Tables.woNptsByOrder

/-- `algebraic_order_by_npts`: `lebedev_laikov.hpp:158-195`, `delley.hpp:139-180`,
`ahrens_beylkin.hpp:288-405`, `womersley.hpp:582-837`. -/
def orderByNpts : AngFam → Int → Int
  | ahrensBeylkin => switchOr Tables.abOrderByNpts
  | delley => switchOr Tables.deOrderByNpts
  | lebedevLaikov => switchOr Tables.llOrderByNpts
  | womersley => switchOr Tables.woOrderByNpts

/-- `next_algebraic_order`: `lebedev_laikov.hpp:198-232`, `delley.hpp:182-219`,
`ahrens_beylkin.hpp:407-521`, `womersley.hpp:839-846`. -/
def nextOrder : AngFam → Int → Int
  | ahrensBeylkin, o => chainNext Tables.abNext Tables.abNextLast o
  | delley, o => chainNext Tables.deNext Tables.deNextLast o
  | lebedevLaikov, o => chainNext Tables.llNext Tables.llNextLast o
  | womersley, o => if o < 1 then 1 else if o > 125 then 125 else o

/-- Declared array sizes of the static grids.
The `std::array` types in `s2/<family>/<family>_<n>.hpp` (for instance `lebedev_laikov_14.hpp:13`). -/
def declared : AngFam → List (Nat × Nat × Nat)
  | ahrensBeylkin => Tables.abDeclared
  | delley => Tables.deDeclared
  | lebedevLaikov => Tables.llDeclared
  | womersley => Tables.woDeclared

end AngFam

/-- The static arrays have the lengths of their declared types.
The type `std::array<…, n>` of the members in `s2/<family>/<family>_<n>.hpp` guarantees it. -/
def AngData.Typed {F : Type} (d : AngData F) : Prop :=
  ∀ fam, ∀ e ∈ fam.declared,
    (d fam e.1).points.length = e.2.1 ∧ (d fam e.1).weights.length = e.2.2

/-- `std::copy(src.begin(), src.end(), dst.begin())`: writing past the end of `dst` is
undefined.
`util/copy_grid.hpp:12-13`. -/
def copyInto {α : Type} (src dst : List α) : Outcome (List α) :=
  if src.length ≤ dst.length then .ok (src ++ dst.drop src.length) else .ub

/-- `copy_grid`, `util/copy_grid.hpp:6-14`. -/
def copyGrid {F : Type} (g : StaticGrid F) (s : List (Pt F) × List F) :
    Outcome (List (Pt F) × List F) := do
  let points ← copyInto g.points s.1
  let weights ← copyInto g.weights s.2
  pure (points, weights)

section
variable {F : Type} [Mul F] [Arith F]

/-- Body of `weights[i] *= 4.0*M_PI` (`lebedev_laikov.hpp:113`, `delley.hpp:91`). -/
def scaleStep (i : Nat) (weights : List F) : Outcome (List F) := do
  let w ← vget weights i
  vset weights i (w * (lit 4 * pi))

/-- The loop after the dispatch.  `lebedev_laikov.hpp:112-113` counts with `size_t`.
`delley.hpp:90-91` counts with `int` (`auto i=0`): when `npts` exceeds the largest `int`
(`2^31 - 1`) the increment overflows, which is undefined.  The other two families store weights
that already contain the factor. -/
def scaleWeights (fam : AngFam) (npts : Nat) (weights : List F) : Outcome (List F) :=
  match fam with
  | .lebedevLaikov => forRange 0 npts scaleStep weights
  | .delley => if npts ≤ 2147483647 then forRange 0 npts scaleStep weights else .ub
  | .ahrensBeylkin => .ok weights
  | .womersley => .ok weights

/-- `generate(npts)`: `lebedev_laikov.hpp:40-117`, `delley.hpp:45-94`,
`ahrens_beylkin.hpp:45-167`, `womersley.hpp:189-323`. -/
def angGenerate (d : AngData F) (fam : AngFam) (npts : Nat) : Outcome (List (Pt F) × List F) := do
  let zeros : List (Pt F) × List F :=
    (List.replicate npts ⟨lit 0, lit 0, lit 0⟩, List.replicate npts (lit 0))
  let (points, weights) ← match fam.dispatch npts with
    | some k => copyGrid (d fam k) zeros
    | none => .ok zeros
  let weights ← scaleWeights fam npts weights
  pure (points, weights)

/-- The constructors `LebedevLaikov(npts)` (`lebedev_laikov.hpp:24`) and likewise for the
other families. -/
def angConstruct (b : Build) (d : AngData F) (fam : AngFam) (npts : Nat) :
    Outcome (Quad (Pt F) F) :=
  construct b (angGenerate d fam npts)

end

end IntegratorXX
