import Verif.Model.IcosaTables
import Verif.Model.Womersley.Grid

/-!
# Womersley grids: `s2/womersley/*.hpp`

Each file holds an array of points without usable symmetry and equal weights.  To keep the tables
small the coordinates of 64 consecutive points are the digits of one number.  The script that made
the tables checked that this reproduces every number of every file exactly; decimal literals are
exact here.
-/

namespace IntegratorXX

open Arith

section
variable {F : Type} [Arith F]

/-- A point from its digits.
One line of `s2/womersley/womersley_<n>.hpp`, from line 14. -/
def woPoint (s : Nat) (d : Nat × Nat × Nat) : Pt F :=
  ⟨decimal s ((d.1 : Int) - 10 ^ s), decimal s ((d.2.1 : Int) - 10 ^ s),
    decimal s ((d.2.2 : Int) - 10 ^ s)⟩

variable [Mul F] [Div F]

/-- The static arrays of `s2/womersley/womersley_<n>.hpp`.  The weights are
`detail::create_array<N, T>(4.0 * M_PI / N.0)` (`util/create_array.hpp:5-17`). -/
def woGrid (g : WoGrid) : StaticGrid F :=
  ⟨(woRaw (16 ^ g.h) g.npts g.chunks).flatten.map (woPoint g.s),
    List.replicate g.npts (lit 4 * pi / lit g.npts)⟩

end

end IntegratorXX
