import Verif.Base
import Verif.Arith

/-!
# `/repo/include/integratorxx/util/bound_transform.hpp`
-/

namespace IntegratorXX

variable {F : Type} [Add F] [Sub F] [Mul F] [Div F] [Neg F] [Arith F]

open Arith

/-- `bound_transform.hpp:7-67`, `transform_minus_one_to_one`.  `inf` is
`std::numeric_limits<PointType>::infinity()` (line 13). -/
def boundTransform (b : Build) (inf lo up pt wgt : F) : Outcome (F × F) := do
  cassert b (lt lo up)
  let up_is_inf := eq up inf
  let lo_is_minf := eq lo (-inf)
  if !up_is_inf && !lo_is_minf then
    let wgt := wgt * ((up - lo) / lit 2)
    let pt := (up - lo) * pt / lit 2 + (up + lo) / lit 2
    pure (pt, wgt)
  else if !lo_is_minf then
    let wgt := wgt * (lit 2 / ((lit 1 - pt) * (lit 1 - pt)))
    let pt := lo + (lit 1 + pt) / (lit 1 - pt)
    pure (pt, wgt)
  else if !up_is_inf then
    let wgt := wgt * (lit (-2) / ((lit 1 + pt) * (lit 1 + pt)))
    let pt := up - (lit 1 - pt) / (lit 1 + pt)
    pure (pt, wgt)
  else
    let wgt := wgt * ((lit 1 + pt * pt) / ((pt * pt - lit 1) * (pt * pt - lit 1)))
    let pt := pt / (lit 1 + pt) / (lit 1 - pt)
    pure (pt, wgt)

end IntegratorXX
