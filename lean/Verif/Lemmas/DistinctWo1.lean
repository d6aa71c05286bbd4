import Verif.Lemmas.DistinctWo

/-!
# The check of the Womersley grids, part 1
-/

namespace IntegratorXX

open Tables

theorem woDistinct6 : woDistinct0 woGrid6 = true := by decide +kernel
theorem woDistinct18 : woDistinct woGrid18 = true := by decide +kernel
theorem woDistinct32 : woDistinct woGrid32 = true := by decide +kernel
theorem woDistinct42 : woDistinct woGrid42 = true := by decide +kernel
theorem woDistinct62 : woDistinct woGrid62 = true := by decide +kernel
theorem woDistinct98 : woDistinct woGrid98 = true := by decide +kernel
theorem woDistinct128 : woDistinct woGrid128 = true := by decide +kernel
theorem woDistinct146 : woDistinct woGrid146 = true := by decide +kernel
theorem woDistinct182 : woDistinct woGrid182 = true := by decide +kernel
theorem woDistinct243 : woDistinct woGrid243 = true := by decide +kernel
theorem woDistinct289 : woDistinct woGrid289 = true := by decide +kernel
theorem woDistinct314 : woDistinct woGrid314 = true := by decide +kernel
theorem woDistinct366 : woDistinct woGrid366 = true := by decide +kernel
theorem woDistinct451 : woDistinct woGrid451 = true := by decide +kernel
theorem woDistinct513 : woDistinct woGrid513 = true := by decide +kernel
theorem woDistinct546 : woDistinct woGrid546 = true := by decide +kernel
theorem woDistinct614 : woDistinct woGrid614 = true := by decide +kernel
theorem woDistinct723 : woDistinct woGrid723 = true := by decide +kernel
theorem woDistinct801 : woDistinct woGrid801 = true := by decide +kernel
theorem woDistinct842 : woDistinct woGrid842 = true := by decide +kernel
theorem woDistinct926 : woDistinct woGrid926 = true := by decide +kernel
theorem woDistinct1059 : woDistinct woGrid1059 = true := by decide +kernel
theorem woDistinct1153 : woDistinct woGrid1153 = true := by decide +kernel
theorem woDistinct1202 : woDistinct woGrid1202 = true := by decide +kernel
theorem woDistinct1302 : woDistinct woGrid1302 = true := by decide +kernel
theorem woDistinct1459 : woDistinct woGrid1459 = true := by decide +kernel
theorem woDistinct1569 : woDistinct woGrid1569 = true := by decide +kernel
theorem woDistinct1626 : woDistinct woGrid1626 = true := by decide +kernel
theorem woDistinct1742 : woDistinct woGrid1742 = true := by decide +kernel
theorem woDistinct1923 : woDistinct woGrid1923 = true := by decide +kernel
theorem woDistinct2049 : woDistinct woGrid2049 = true := by decide +kernel
theorem woDistinct2114 : woDistinct woGrid2114 = true := by decide +kernel
theorem woDistinct2246 : woDistinct woGrid2246 = true := by decide +kernel
theorem woDistinct2451 : woDistinct woGrid2451 = true := by decide +kernel
theorem woDistinct2593 : woDistinct woGrid2593 = true := by decide +kernel
theorem woDistinct2666 : woDistinct woGrid2666 = true := by decide +kernel
theorem woDistinct2814 : woDistinct woGrid2814 = true := by decide +kernel
theorem woDistinct3043 : woDistinct woGrid3043 = true := by decide +kernel
theorem woDistinct3201 : woDistinct woGrid3201 = true := by decide +kernel
theorem woDistinct3282 : woDistinct woGrid3282 = true := by decide +kernel
theorem woDistinct3446 : woDistinct woGrid3446 = true := by decide +kernel
theorem woDistinct3699 : woDistinct woGrid3699 = true := by decide +kernel
theorem woDistinct3873 : woDistinct woGrid3873 = true := by decide +kernel
theorem woDistinct3962 : woDistinct woGrid3962 = true := by decide +kernel
theorem woDistinct4142 : woDistinct woGrid4142 = true := by decide +kernel
theorem woDistinct4419 : woDistinct woGrid4419 = true := by decide +kernel
theorem woDistinct4609 : woDistinct woGrid4609 = true := by decide +kernel
theorem woDistinct4706 : woDistinct woGrid4706 = true := by decide +kernel
theorem woDistinct4902 : woDistinct woGrid4902 = true := by decide +kernel
theorem woDistinct5203 : woDistinct woGrid5203 = true := by decide +kernel
theorem woDistinct5409 : woDistinct woGrid5409 = true := by decide +kernel
theorem woDistinct5514 : woDistinct woGrid5514 = true := by decide +kernel
theorem woDistinct5726 : woDistinct woGrid5726 = true := by decide +kernel
theorem woDistinct6051 : woDistinct woGrid6051 = true := by decide +kernel
theorem woDistinct6273 : woDistinct woGrid6273 = true := by decide +kernel
theorem woDistinct6386 : woDistinct woGrid6386 = true := by decide +kernel
theorem woDistinct6614 : woDistinct woGrid6614 = true := by decide +kernel
theorem woDistinct6963 : woDistinct woGrid6963 = true := by decide +kernel
theorem woDistinct7201 : woDistinct woGrid7201 = true := by decide +kernel
theorem woDistinct7322 : woDistinct woGrid7322 = true := by decide +kernel
theorem woDistinct7566 : woDistinct woGrid7566 = true := by decide +kernel
theorem woDistinct7939 : woDistinct woGrid7939 = true := by decide +kernel

end IntegratorXX
