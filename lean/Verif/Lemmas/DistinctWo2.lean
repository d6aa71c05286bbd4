import Verif.Lemmas.DistinctWo

/-!
# The check of the Womersley grids, part 2
-/

namespace IntegratorXX

open Tables

theorem woDistinct3 : woDistinct woGrid3 = true := by decide +kernel
theorem woDistinct8 : woDistinct woGrid8 = true := by decide +kernel
theorem woDistinct14 : woDistinct woGrid14 = true := by decide +kernel
theorem woDistinct26 : woDistinct woGrid26 = true := by decide +kernel
theorem woDistinct50 : woDistinct woGrid50 = true := by decide +kernel
theorem woDistinct72 : woDistinct woGrid72 = true := by decide +kernel
theorem woDistinct86 : woDistinct woGrid86 = true := by decide +kernel
theorem woDistinct114 : woDistinct woGrid114 = true := by decide +kernel
theorem woDistinct163 : woDistinct woGrid163 = true := by decide +kernel
theorem woDistinct201 : woDistinct woGrid201 = true := by decide +kernel
theorem woDistinct222 : woDistinct woGrid222 = true := by decide +kernel
theorem woDistinct266 : woDistinct woGrid266 = true := by decide +kernel
theorem woDistinct339 : woDistinct woGrid339 = true := by decide +kernel
theorem woDistinct393 : woDistinct woGrid393 = true := by decide +kernel
theorem woDistinct422 : woDistinct woGrid422 = true := by decide +kernel
theorem woDistinct482 : woDistinct woGrid482 = true := by decide +kernel
theorem woDistinct579 : woDistinct woGrid579 = true := by decide +kernel
theorem woDistinct649 : woDistinct woGrid649 = true := by decide +kernel
theorem woDistinct686 : woDistinct woGrid686 = true := by decide +kernel
theorem woDistinct762 : woDistinct woGrid762 = true := by decide +kernel
theorem woDistinct883 : woDistinct woGrid883 = true := by decide +kernel
theorem woDistinct969 : woDistinct woGrid969 = true := by decide +kernel
theorem woDistinct1014 : woDistinct woGrid1014 = true := by decide +kernel
theorem woDistinct1106 : woDistinct woGrid1106 = true := by decide +kernel
theorem woDistinct1251 : woDistinct woGrid1251 = true := by decide +kernel
theorem woDistinct1353 : woDistinct woGrid1353 = true := by decide +kernel
theorem woDistinct1406 : woDistinct woGrid1406 = true := by decide +kernel
theorem woDistinct1514 : woDistinct woGrid1514 = true := by decide +kernel
theorem woDistinct1683 : woDistinct woGrid1683 = true := by decide +kernel
theorem woDistinct1801 : woDistinct woGrid1801 = true := by decide +kernel
theorem woDistinct1862 : woDistinct woGrid1862 = true := by decide +kernel
theorem woDistinct1986 : woDistinct woGrid1986 = true := by decide +kernel
theorem woDistinct2179 : woDistinct woGrid2179 = true := by decide +kernel
theorem woDistinct2313 : woDistinct woGrid2313 = true := by decide +kernel
theorem woDistinct2382 : woDistinct woGrid2382 = true := by decide +kernel
theorem woDistinct2522 : woDistinct woGrid2522 = true := by decide +kernel
theorem woDistinct2739 : woDistinct woGrid2739 = true := by decide +kernel
theorem woDistinct2889 : woDistinct woGrid2889 = true := by decide +kernel
theorem woDistinct2966 : woDistinct woGrid2966 = true := by decide +kernel
theorem woDistinct3122 : woDistinct woGrid3122 = true := by decide +kernel
theorem woDistinct3363 : woDistinct woGrid3363 = true := by decide +kernel
theorem woDistinct3529 : woDistinct woGrid3529 = true := by decide +kernel
theorem woDistinct3614 : woDistinct woGrid3614 = true := by decide +kernel
theorem woDistinct3786 : woDistinct woGrid3786 = true := by decide +kernel
theorem woDistinct4051 : woDistinct woGrid4051 = true := by decide +kernel
theorem woDistinct4233 : woDistinct woGrid4233 = true := by decide +kernel
theorem woDistinct4326 : woDistinct woGrid4326 = true := by decide +kernel
theorem woDistinct4514 : woDistinct woGrid4514 = true := by decide +kernel
theorem woDistinct4803 : woDistinct woGrid4803 = true := by decide +kernel
theorem woDistinct5001 : woDistinct woGrid5001 = true := by decide +kernel
theorem woDistinct5102 : woDistinct woGrid5102 = true := by decide +kernel
theorem woDistinct5306 : woDistinct woGrid5306 = true := by decide +kernel
theorem woDistinct5619 : woDistinct woGrid5619 = true := by decide +kernel
theorem woDistinct5833 : woDistinct woGrid5833 = true := by decide +kernel
theorem woDistinct5942 : woDistinct woGrid5942 = true := by decide +kernel
theorem woDistinct6162 : woDistinct woGrid6162 = true := by decide +kernel
theorem woDistinct6499 : woDistinct woGrid6499 = true := by decide +kernel
theorem woDistinct6729 : woDistinct woGrid6729 = true := by decide +kernel
theorem woDistinct6846 : woDistinct woGrid6846 = true := by decide +kernel
theorem woDistinct7082 : woDistinct woGrid7082 = true := by decide +kernel
theorem woDistinct7443 : woDistinct woGrid7443 = true := by decide +kernel
theorem woDistinct7689 : woDistinct woGrid7689 = true := by decide +kernel
theorem woDistinct7814 : woDistinct woGrid7814 = true := by decide +kernel

end IntegratorXX
