import Verif.Model.OctaTables
import Verif.Model.WomersleyTables

/-!
# The static data of all angular grids

`angData` instantiates the parameter `AngData` of `Model/Angular.lean` with the tables of the files
`s2/<family>/<family>_<n>.hpp`.
-/

namespace IntegratorXX

/-- The members `points` and `weights` of the classes `lebedev_laikov_<n>`, `delley_<n>`,
`ahrens_beylkin_<n>` and `womersley_<n>` (`s2/<family>/<family>_<n>.hpp`).  Numbers without a file have
no meaning in the code; they get empty arrays here. -/
def angData (F : Type) [Arith F] [Mul F] [Div F] : AngData F
  | .lebedevLaikov, n =>
    ((chainLookup Tables.llGrids n).map (octaGrid OctaKind.llPattern)).getD ⟨[], []⟩
  | .delley, n =>
    ((chainLookup Tables.deGrids n).map (octaGrid OctaKind.dePattern)).getD ⟨[], []⟩
  | .ahrensBeylkin, n => ((chainLookup Tables.abGrids n).map icosaGrid).getD ⟨[], []⟩
  | .womersley, n => ((chainLookup Tables.woGrids n).map woGrid).getD ⟨[], []⟩

end IntegratorXX
