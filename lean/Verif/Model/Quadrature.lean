import Verif.Base

/-!
# The quadrature base class (`/repo/include/integratorxx/quadrature.hpp`)
-/

namespace IntegratorXX

/-- `QuadratureBase<PointContainer, WeightContainer>` (`quadrature.hpp:19-159`): the two
protected vectors `points_`, `weights_`. -/
structure Quad (P : Type u) (W : Type v) where
  points : List P
  weights : List W
deriving DecidableEq, Repr

namespace Quad
variable {P : Type u} {W : Type v}

/-- The constructors `quadrature.hpp:41-44` with `sanity_check()` (35-39). -/
def make (b : Build) (pw : List P × List W) : Outcome (Quad P W) :=
  if b.asserts && !(pw.1.length == pw.2.length) then .assertFail
  else .ok ⟨pw.1, pw.2⟩

/-- `npts()`, `quadrature.hpp:134`. -/
def npts (q : Quad P W) : Nat := q.points.length

/-- `points(i)`, `quadrature.hpp:146`: `points_.at(i)`. -/
def pointAt (q : Quad P W) (i : Nat) : Outcome P := vat q.points i

/-- `weights(i)`, `quadrature.hpp:157`: `weights_.at(i)`. -/
def weightAt (q : Quad P W) (i : Nat) : Outcome W := vat q.weights i

/-- Copy construction, `quadrature.hpp:235` (member-wise copies). -/
def copy (q : Quad P W) : Quad P W := ⟨q.points, q.weights⟩

/-- Move construction, `quadrature.hpp:236`: the result and the moved-from source.
(libstdc++, libc++ and MSVC all leave a moved-from `std::vector` empty.) -/
def move (q : Quad P W) : Quad P W × Quad P W := (⟨q.points, q.weights⟩, ⟨[], []⟩)

end Quad

/-- Construction of a quadrature from its `generate` function, `quadrature.hpp:229`
(`Quadrature(generate(args...))`). -/
def construct {P W : Type} (b : Build) (g : Outcome (List P × List W)) : Outcome (Quad P W) :=
  g >>= Quad.make b

end IntegratorXX
