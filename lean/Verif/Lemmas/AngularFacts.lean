import Verif.Lemmas.OctaMoments1
import Verif.Lemmas.OctaMoments2
import Verif.Lemmas.OctaMoments3
import Verif.Lemmas.OctaMoments4
import Verif.Lemmas.IcosaMoments1
import Verif.Lemmas.IcosaMoments2
import Verif.Lemmas.IcosaMoments3
import Verif.Lemmas.IcosaMoments4
import Verif.Lemmas.WoMoments1
import Verif.Lemmas.WoMoments2
import Verif.Lemmas.WoMoments3
import Verif.Lemmas.WoMoments4
import Verif.Lemmas.WoMoments5
import Verif.Lemmas.WoMoments6
import Verif.Lemmas.WoMoments7
import Verif.Lemmas.WoMoments8
import Verif.Model.AngularData
import Verif.Lemmas.TableForms

/-!
# The checks of the tabulated grids, by family

Generated: the theorems of the `Moments` modules collected into one statement per family.
-/

set_option maxRecDepth 20000

namespace IntegratorXX
open Tables

/-- All Lebedev-Laikov grids in use. -/
theorem llFacts : ∀ e ∈ llGrids, e.1 ≠ 5294 → ∃ D : Nat,
    AngFam.lebedevLaikov.orderByNpts e.1 = 2 * D + 1 ∧ OctaExact llRep e.2 D := by
  unfold llGrids
  refine List.forall_mem_cons.2 ⟨fun _ => ⟨1, by decide +kernel, llExact6⟩, ?_⟩
  refine List.forall_mem_cons.2 ⟨fun _ => ⟨2, by decide +kernel, llExact14⟩, ?_⟩
  refine List.forall_mem_cons.2 ⟨fun _ => ⟨3, by decide +kernel, llExact26⟩, ?_⟩
  refine List.forall_mem_cons.2 ⟨fun _ => ⟨4, by decide +kernel, llExact38⟩, ?_⟩
  refine List.forall_mem_cons.2 ⟨fun _ => ⟨5, by decide +kernel, llExact50⟩, ?_⟩
  refine List.forall_mem_cons.2 ⟨fun _ => ⟨6, by decide +kernel, llExact74⟩, ?_⟩
  refine List.forall_mem_cons.2 ⟨fun _ => ⟨7, by decide +kernel, llExact86⟩, ?_⟩
  refine List.forall_mem_cons.2 ⟨fun _ => ⟨8, by decide +kernel, llExact110⟩, ?_⟩
  refine List.forall_mem_cons.2 ⟨fun _ => ⟨9, by decide +kernel, llExact146⟩, ?_⟩
  refine List.forall_mem_cons.2 ⟨fun _ => ⟨10, by decide +kernel, llExact170⟩, ?_⟩
  refine List.forall_mem_cons.2 ⟨fun _ => ⟨11, by decide +kernel, llExact194⟩, ?_⟩
  refine List.forall_mem_cons.2 ⟨fun _ => ⟨12, by decide +kernel, llExact230⟩, ?_⟩
  refine List.forall_mem_cons.2 ⟨fun _ => ⟨13, by decide +kernel, llExact266⟩, ?_⟩
  refine List.forall_mem_cons.2 ⟨fun _ => ⟨14, by decide +kernel, llExact302⟩, ?_⟩
  refine List.forall_mem_cons.2 ⟨fun _ => ⟨15, by decide +kernel, llExact350⟩, ?_⟩
  refine List.forall_mem_cons.2 ⟨fun _ => ⟨17, by decide +kernel, llExact434⟩, ?_⟩
  refine List.forall_mem_cons.2 ⟨fun _ => ⟨20, by decide +kernel, llExact590⟩, ?_⟩
  refine List.forall_mem_cons.2 ⟨fun _ => ⟨23, by decide +kernel, llExact770⟩, ?_⟩
  refine List.forall_mem_cons.2 ⟨fun _ => ⟨26, by decide +kernel, llExact974⟩, ?_⟩
  refine List.forall_mem_cons.2 ⟨fun _ => ⟨29, by decide +kernel, llExact1202⟩, ?_⟩
  refine List.forall_mem_cons.2 ⟨fun _ => ⟨32, by decide +kernel, llExact1454⟩, ?_⟩
  refine List.forall_mem_cons.2 ⟨fun _ => ⟨35, by decide +kernel, llExact1730⟩, ?_⟩
  refine List.forall_mem_cons.2 ⟨fun _ => ⟨38, by decide +kernel, llExact2030⟩, ?_⟩
  refine List.forall_mem_cons.2 ⟨fun _ => ⟨41, by decide +kernel, llExact2354⟩, ?_⟩
  refine List.forall_mem_cons.2 ⟨fun _ => ⟨44, by decide +kernel, llExact2702⟩, ?_⟩
  refine List.forall_mem_cons.2 ⟨fun _ => ⟨47, by decide +kernel, llExact3074⟩, ?_⟩
  refine List.forall_mem_cons.2 ⟨fun _ => ⟨50, by decide +kernel, llExact3470⟩, ?_⟩
  refine List.forall_mem_cons.2 ⟨fun _ => ⟨53, by decide +kernel, llExact3890⟩, ?_⟩
  refine List.forall_mem_cons.2 ⟨fun _ => ⟨56, by decide +kernel, llExact4334⟩, ?_⟩
  refine List.forall_mem_cons.2 ⟨fun _ => ⟨59, by decide +kernel, llExact4802⟩, ?_⟩
  refine List.forall_mem_cons.2 ⟨fun h => absurd rfl h, ?_⟩
  refine List.forall_mem_cons.2 ⟨fun _ => ⟨65, by decide +kernel, llExact5810⟩, ?_⟩
  exact fun e he => absurd he List.not_mem_nil

/-- All Delley grids. -/
theorem deFacts : ∀ e ∈ deGrids, ∃ D : Nat,
    AngFam.delley.orderByNpts e.1 = 2 * D + 1 ∧ OctaExact deRep e.2 D := by
  unfold deGrids
  refine List.forall_mem_cons.2 ⟨⟨2, by decide +kernel, deExact14⟩, ?_⟩
  refine List.forall_mem_cons.2 ⟨⟨3, by decide +kernel, deExact26⟩, ?_⟩
  refine List.forall_mem_cons.2 ⟨⟨5, by decide +kernel, deExact50⟩, ?_⟩
  refine List.forall_mem_cons.2 ⟨⟨8, by decide +kernel, deExact110⟩, ?_⟩
  refine List.forall_mem_cons.2 ⟨⟨11, by decide +kernel, deExact194⟩, ?_⟩
  refine List.forall_mem_cons.2 ⟨⟨14, by decide +kernel, deExact302⟩, ?_⟩
  refine List.forall_mem_cons.2 ⟨⟨17, by decide +kernel, deExact434⟩, ?_⟩
  refine List.forall_mem_cons.2 ⟨⟨20, by decide +kernel, deExact590⟩, ?_⟩
  refine List.forall_mem_cons.2 ⟨⟨23, by decide +kernel, deExact770⟩, ?_⟩
  refine List.forall_mem_cons.2 ⟨⟨26, by decide +kernel, deExact974⟩, ?_⟩
  refine List.forall_mem_cons.2 ⟨⟨29, by decide +kernel, deExact1202⟩, ?_⟩
  refine List.forall_mem_cons.2 ⟨⟨32, by decide +kernel, deExact1454⟩, ?_⟩
  refine List.forall_mem_cons.2 ⟨⟨35, by decide +kernel, deExact1730⟩, ?_⟩
  refine List.forall_mem_cons.2 ⟨⟨38, by decide +kernel, deExact2030⟩, ?_⟩
  refine List.forall_mem_cons.2 ⟨⟨41, by decide +kernel, deExact2354⟩, ?_⟩
  refine List.forall_mem_cons.2 ⟨⟨44, by decide +kernel, deExact2702⟩, ?_⟩
  refine List.forall_mem_cons.2 ⟨⟨47, by decide +kernel, deExact3074⟩, ?_⟩
  refine List.forall_mem_cons.2 ⟨⟨50, by decide +kernel, deExact3470⟩, ?_⟩
  exact fun e he => absurd he List.not_mem_nil

/-- All Ahrens-Beylkin grids: the checks that do not depend on the degree. -/
theorem abBases : ∀ e ∈ abGrids, IcosaBase e.2 := by
  unfold abGrids
  refine List.forall_mem_cons.2 ⟨abOk72.toIcosaBase, ?_⟩
  refine List.forall_mem_cons.2 ⟨abOk132.toIcosaBase, ?_⟩
  refine List.forall_mem_cons.2 ⟨abOk192.toIcosaBase, ?_⟩
  refine List.forall_mem_cons.2 ⟨abOk312.toIcosaBase, ?_⟩
  refine List.forall_mem_cons.2 ⟨abOk372.toIcosaBase, ?_⟩
  refine List.forall_mem_cons.2 ⟨abOk432.toIcosaBase, ?_⟩
  refine List.forall_mem_cons.2 ⟨abOk492.toIcosaBase, ?_⟩
  refine List.forall_mem_cons.2 ⟨abBase552, ?_⟩
  refine List.forall_mem_cons.2 ⟨abOk612.toIcosaBase, ?_⟩
  refine List.forall_mem_cons.2 ⟨abOk672.toIcosaBase, ?_⟩
  refine List.forall_mem_cons.2 ⟨abOk732.toIcosaBase, ?_⟩
  refine List.forall_mem_cons.2 ⟨abOk792.toIcosaBase, ?_⟩
  refine List.forall_mem_cons.2 ⟨abOk912.toIcosaBase, ?_⟩
  refine List.forall_mem_cons.2 ⟨abOk972.toIcosaBase, ?_⟩
  refine List.forall_mem_cons.2 ⟨abOk1032.toIcosaBase, ?_⟩
  refine List.forall_mem_cons.2 ⟨abOk1092.toIcosaBase, ?_⟩
  refine List.forall_mem_cons.2 ⟨abOk1272.toIcosaBase, ?_⟩
  refine List.forall_mem_cons.2 ⟨abOk1332.toIcosaBase, ?_⟩
  refine List.forall_mem_cons.2 ⟨abOk1392.toIcosaBase, ?_⟩
  refine List.forall_mem_cons.2 ⟨abOk1512.toIcosaBase, ?_⟩
  refine List.forall_mem_cons.2 ⟨abOk1572.toIcosaBase, ?_⟩
  refine List.forall_mem_cons.2 ⟨abOk1632.toIcosaBase, ?_⟩
  refine List.forall_mem_cons.2 ⟨abOk1692.toIcosaBase, ?_⟩
  refine List.forall_mem_cons.2 ⟨abOk1812.toIcosaBase, ?_⟩
  refine List.forall_mem_cons.2 ⟨abOk1932.toIcosaBase, ?_⟩
  refine List.forall_mem_cons.2 ⟨abOk1992.toIcosaBase, ?_⟩
  refine List.forall_mem_cons.2 ⟨abOk2112.toIcosaBase, ?_⟩
  refine List.forall_mem_cons.2 ⟨abOk2172.toIcosaBase, ?_⟩
  refine List.forall_mem_cons.2 ⟨abOk2232.toIcosaBase, ?_⟩
  refine List.forall_mem_cons.2 ⟨abOk2292.toIcosaBase, ?_⟩
  refine List.forall_mem_cons.2 ⟨abOk2412.toIcosaBase, ?_⟩
  refine List.forall_mem_cons.2 ⟨abOk2472.toIcosaBase, ?_⟩
  refine List.forall_mem_cons.2 ⟨abOk2712.toIcosaBase, ?_⟩
  refine List.forall_mem_cons.2 ⟨abOk2772.toIcosaBase, ?_⟩
  refine List.forall_mem_cons.2 ⟨abOk2832.toIcosaBase, ?_⟩
  refine List.forall_mem_cons.2 ⟨abOk3012.toIcosaBase, ?_⟩
  refine List.forall_mem_cons.2 ⟨abOk3312.toIcosaBase, ?_⟩
  refine List.forall_mem_cons.2 ⟨abOk3372.toIcosaBase, ?_⟩
  refine List.forall_mem_cons.2 ⟨abOk3432.toIcosaBase, ?_⟩
  refine List.forall_mem_cons.2 ⟨abOk3492.toIcosaBase, ?_⟩
  refine List.forall_mem_cons.2 ⟨abOk3612.toIcosaBase, ?_⟩
  refine List.forall_mem_cons.2 ⟨abOk3792.toIcosaBase, ?_⟩
  refine List.forall_mem_cons.2 ⟨abOk4212.toIcosaBase, ?_⟩
  refine List.forall_mem_cons.2 ⟨abOk4332.toIcosaBase, ?_⟩
  refine List.forall_mem_cons.2 ⟨abOk4572.toIcosaBase, ?_⟩
  refine List.forall_mem_cons.2 ⟨abOk4692.toIcosaBase, ?_⟩
  refine List.forall_mem_cons.2 ⟨abOk4992.toIcosaBase, ?_⟩
  refine List.forall_mem_cons.2 ⟨abOk5232.toIcosaBase, ?_⟩
  refine List.forall_mem_cons.2 ⟨abOk5472.toIcosaBase, ?_⟩
  refine List.forall_mem_cons.2 ⟨abOk5592.toIcosaBase, ?_⟩
  refine List.forall_mem_cons.2 ⟨abOk5772.toIcosaBase, ?_⟩
  refine List.forall_mem_cons.2 ⟨abOk6192.toIcosaBase, ?_⟩
  refine List.forall_mem_cons.2 ⟨abOk6312.toIcosaBase, ?_⟩
  refine List.forall_mem_cons.2 ⟨abOk6912.toIcosaBase, ?_⟩
  refine List.forall_mem_cons.2 ⟨abOk7512.toIcosaBase, ?_⟩
  refine List.forall_mem_cons.2 ⟨abOk15012.toIcosaBase, ?_⟩
  exact fun e he => absurd he List.not_mem_nil

/-- All Ahrens-Beylkin grids but the one with 552 points: the moments. -/
theorem abFacts : ∀ e ∈ abGrids, e.1 ≠ 552 → ∃ L : Nat,
    AngFam.ahrensBeylkin.orderByNpts e.1 = L ∧
    ReducedExact (icosaGrid e.2 : StaticGrid ℝ).points (icosaGrid e.2 : StaticGrid ℝ).weights L
      (5 / 10 ^ 14) := by
  unfold abGrids
  refine List.forall_mem_cons.2 ⟨fun _ => ⟨14, by decide +kernel, abOk72.reduced (by decide) (by decide)
    (by decide) (by decide) (by decide) (by decide)⟩, ?_⟩
  refine List.forall_mem_cons.2 ⟨fun _ => ⟨19, by decide +kernel, abOk132.reduced (by decide) (by decide)
    (by decide) (by decide) (by decide) (by decide)⟩, ?_⟩
  refine List.forall_mem_cons.2 ⟨fun _ => ⟨23, by decide +kernel, abOk192.reduced (by decide) (by decide)
    (by decide) (by decide) (by decide) (by decide)⟩, ?_⟩
  refine List.forall_mem_cons.2 ⟨fun _ => ⟨29, by decide +kernel, abOk312.reduced (by decide) (by decide)
    (by decide) (by decide) (by decide) (by decide)⟩, ?_⟩
  refine List.forall_mem_cons.2 ⟨fun _ => ⟨32, by decide +kernel, abOk372.reduced (by decide) (by decide)
    (by decide) (by decide) (by decide) (by decide)⟩, ?_⟩
  refine List.forall_mem_cons.2 ⟨fun _ => ⟨35, by decide +kernel, abOk432.reduced (by decide) (by decide)
    (by decide) (by decide) (by decide) (by decide)⟩, ?_⟩
  refine List.forall_mem_cons.2 ⟨fun _ => ⟨37, by decide +kernel, abOk492.reduced (by decide) (by decide)
    (by decide) (by decide) (by decide) (by decide)⟩, ?_⟩
  refine List.forall_mem_cons.2 ⟨fun h => absurd rfl h, ?_⟩
  refine List.forall_mem_cons.2 ⟨fun _ => ⟨41, by decide +kernel, abOk612.reduced (by decide) (by decide)
    (by decide) (by decide) (by decide) (by decide)⟩, ?_⟩
  refine List.forall_mem_cons.2 ⟨fun _ => ⟨44, by decide +kernel, abOk672.reduced (by decide) (by decide)
    (by decide) (by decide) (by decide) (by decide)⟩, ?_⟩
  refine List.forall_mem_cons.2 ⟨fun _ => ⟨45, by decide +kernel, abOk732.reduced (by decide) (by decide)
    (by decide) (by decide) (by decide) (by decide)⟩, ?_⟩
  refine List.forall_mem_cons.2 ⟨fun _ => ⟨47, by decide +kernel, abOk792.reduced (by decide) (by decide)
    (by decide) (by decide) (by decide) (by decide)⟩, ?_⟩
  refine List.forall_mem_cons.2 ⟨fun _ => ⟨51, by decide +kernel, abOk912.reduced (by decide) (by decide)
    (by decide) (by decide) (by decide) (by decide)⟩, ?_⟩
  refine List.forall_mem_cons.2 ⟨fun _ => ⟨53, by decide +kernel, abOk972.reduced (by decide) (by decide)
    (by decide) (by decide) (by decide) (by decide)⟩, ?_⟩
  refine List.forall_mem_cons.2 ⟨fun _ => ⟨54, by decide +kernel, abOk1032.reduced (by decide) (by decide)
    (by decide) (by decide) (by decide) (by decide)⟩, ?_⟩
  refine List.forall_mem_cons.2 ⟨fun _ => ⟨56, by decide +kernel, abOk1092.reduced (by decide) (by decide)
    (by decide) (by decide) (by decide) (by decide)⟩, ?_⟩
  refine List.forall_mem_cons.2 ⟨fun _ => ⟨60, by decide +kernel, abOk1272.reduced (by decide) (by decide)
    (by decide) (by decide) (by decide) (by decide)⟩, ?_⟩
  refine List.forall_mem_cons.2 ⟨fun _ => ⟨62, by decide +kernel, abOk1332.reduced (by decide) (by decide)
    (by decide) (by decide) (by decide) (by decide)⟩, ?_⟩
  refine List.forall_mem_cons.2 ⟨fun _ => ⟨63, by decide +kernel, abOk1392.reduced (by decide) (by decide)
    (by decide) (by decide) (by decide) (by decide)⟩, ?_⟩
  refine List.forall_mem_cons.2 ⟨fun _ => ⟨66, by decide +kernel, abOk1512.reduced (by decide) (by decide)
    (by decide) (by decide) (by decide) (by decide)⟩, ?_⟩
  refine List.forall_mem_cons.2 ⟨fun _ => ⟨67, by decide +kernel, abOk1572.reduced (by decide) (by decide)
    (by decide) (by decide) (by decide) (by decide)⟩, ?_⟩
  refine List.forall_mem_cons.2 ⟨fun _ => ⟨69, by decide +kernel, abOk1632.reduced (by decide) (by decide)
    (by decide) (by decide) (by decide) (by decide)⟩, ?_⟩
  refine List.forall_mem_cons.2 ⟨fun _ => ⟨70, by decide +kernel, abOk1692.reduced (by decide) (by decide)
    (by decide) (by decide) (by decide) (by decide)⟩, ?_⟩
  refine List.forall_mem_cons.2 ⟨fun _ => ⟨72, by decide +kernel, abOk1812.reduced (by decide) (by decide)
    (by decide) (by decide) (by decide) (by decide)⟩, ?_⟩
  refine List.forall_mem_cons.2 ⟨fun _ => ⟨75, by decide +kernel, abOk1932.reduced (by decide) (by decide)
    (by decide) (by decide) (by decide) (by decide)⟩, ?_⟩
  refine List.forall_mem_cons.2 ⟨fun _ => ⟨76, by decide +kernel, abOk1992.reduced (by decide) (by decide)
    (by decide) (by decide) (by decide) (by decide)⟩, ?_⟩
  refine List.forall_mem_cons.2 ⟨fun _ => ⟨78, by decide +kernel, abOk2112.reduced (by decide) (by decide)
    (by decide) (by decide) (by decide) (by decide)⟩, ?_⟩
  refine List.forall_mem_cons.2 ⟨fun _ => ⟨79, by decide +kernel, abOk2172.reduced (by decide) (by decide)
    (by decide) (by decide) (by decide) (by decide)⟩, ?_⟩
  refine List.forall_mem_cons.2 ⟨fun _ => ⟨80, by decide +kernel, abOk2232.reduced (by decide) (by decide)
    (by decide) (by decide) (by decide) (by decide)⟩, ?_⟩
  refine List.forall_mem_cons.2 ⟨fun _ => ⟨81, by decide +kernel, abOk2292.reduced (by decide) (by decide)
    (by decide) (by decide) (by decide) (by decide)⟩, ?_⟩
  refine List.forall_mem_cons.2 ⟨fun _ => ⟨84, by decide +kernel, abOk2412.reduced (by decide) (by decide)
    (by decide) (by decide) (by decide) (by decide)⟩, ?_⟩
  refine List.forall_mem_cons.2 ⟨fun _ => ⟨85, by decide +kernel, abOk2472.reduced (by decide) (by decide)
    (by decide) (by decide) (by decide) (by decide)⟩, ?_⟩
  refine List.forall_mem_cons.2 ⟨fun _ => ⟨89, by decide +kernel, abOk2712.reduced (by decide) (by decide)
    (by decide) (by decide) (by decide) (by decide)⟩, ?_⟩
  refine List.forall_mem_cons.2 ⟨fun _ => ⟨90, by decide +kernel, abOk2772.reduced (by decide) (by decide)
    (by decide) (by decide) (by decide) (by decide)⟩, ?_⟩
  refine List.forall_mem_cons.2 ⟨fun _ => ⟨91, by decide +kernel, abOk2832.reduced (by decide) (by decide)
    (by decide) (by decide) (by decide) (by decide)⟩, ?_⟩
  refine List.forall_mem_cons.2 ⟨fun _ => ⟨94, by decide +kernel, abOk3012.reduced (by decide) (by decide)
    (by decide) (by decide) (by decide) (by decide)⟩, ?_⟩
  refine List.forall_mem_cons.2 ⟨fun _ => ⟨98, by decide +kernel, abOk3312.reduced (by decide) (by decide)
    (by decide) (by decide) (by decide) (by decide)⟩, ?_⟩
  refine List.forall_mem_cons.2 ⟨fun _ => ⟨99, by decide +kernel, abOk3372.reduced (by decide) (by decide)
    (by decide) (by decide) (by decide) (by decide)⟩, ?_⟩
  refine List.forall_mem_cons.2 ⟨fun _ => ⟨100, by decide +kernel, abOk3432.reduced (by decide) (by decide)
    (by decide) (by decide) (by decide) (by decide)⟩, ?_⟩
  refine List.forall_mem_cons.2 ⟨fun _ => ⟨101, by decide +kernel, abOk3492.reduced (by decide) (by decide)
    (by decide) (by decide) (by decide) (by decide)⟩, ?_⟩
  refine List.forall_mem_cons.2 ⟨fun _ => ⟨103, by decide +kernel, abOk3612.reduced (by decide) (by decide)
    (by decide) (by decide) (by decide) (by decide)⟩, ?_⟩
  refine List.forall_mem_cons.2 ⟨fun _ => ⟨105, by decide +kernel, abOk3792.reduced (by decide) (by decide)
    (by decide) (by decide) (by decide) (by decide)⟩, ?_⟩
  refine List.forall_mem_cons.2 ⟨fun _ => ⟨111, by decide +kernel, abOk4212.reduced (by decide) (by decide)
    (by decide) (by decide) (by decide) (by decide)⟩, ?_⟩
  refine List.forall_mem_cons.2 ⟨fun _ => ⟨113, by decide +kernel, abOk4332.reduced (by decide) (by decide)
    (by decide) (by decide) (by decide) (by decide)⟩, ?_⟩
  refine List.forall_mem_cons.2 ⟨fun _ => ⟨116, by decide +kernel, abOk4572.reduced (by decide) (by decide)
    (by decide) (by decide) (by decide) (by decide)⟩, ?_⟩
  refine List.forall_mem_cons.2 ⟨fun _ => ⟨117, by decide +kernel, abOk4692.reduced (by decide) (by decide)
    (by decide) (by decide) (by decide) (by decide)⟩, ?_⟩
  refine List.forall_mem_cons.2 ⟨fun _ => ⟨121, by decide +kernel, abOk4992.reduced (by decide) (by decide)
    (by decide) (by decide) (by decide) (by decide)⟩, ?_⟩
  refine List.forall_mem_cons.2 ⟨fun _ => ⟨124, by decide +kernel, abOk5232.reduced (by decide) (by decide)
    (by decide) (by decide) (by decide) (by decide)⟩, ?_⟩
  refine List.forall_mem_cons.2 ⟨fun _ => ⟨127, by decide +kernel, abOk5472.reduced (by decide) (by decide)
    (by decide) (by decide) (by decide) (by decide)⟩, ?_⟩
  refine List.forall_mem_cons.2 ⟨fun _ => ⟨128, by decide +kernel, abOk5592.reduced (by decide) (by decide)
    (by decide) (by decide) (by decide) (by decide)⟩, ?_⟩
  refine List.forall_mem_cons.2 ⟨fun _ => ⟨130, by decide +kernel, abOk5772.reduced (by decide) (by decide)
    (by decide) (by decide) (by decide) (by decide)⟩, ?_⟩
  refine List.forall_mem_cons.2 ⟨fun _ => ⟨135, by decide +kernel, abOk6192.reduced (by decide) (by decide)
    (by decide) (by decide) (by decide) (by decide)⟩, ?_⟩
  refine List.forall_mem_cons.2 ⟨fun _ => ⟨136, by decide +kernel, abOk6312.reduced (by decide) (by decide)
    (by decide) (by decide) (by decide) (by decide)⟩, ?_⟩
  refine List.forall_mem_cons.2 ⟨fun _ => ⟨143, by decide +kernel, abOk6912.reduced (by decide) (by decide)
    (by decide) (by decide) (by decide) (by decide)⟩, ?_⟩
  refine List.forall_mem_cons.2 ⟨fun _ => ⟨149, by decide +kernel, abOk7512.reduced (by decide) (by decide)
    (by decide) (by decide) (by decide) (by decide)⟩, ?_⟩
  refine List.forall_mem_cons.2 ⟨fun _ => ⟨210, by decide +kernel, abOk15012.reduced (by decide) (by decide)
    (by decide) (by decide) (by decide) (by decide)⟩, ?_⟩
  exact fun e he => absurd he List.not_mem_nil

/-- All Womersley grids: size, points and weights. -/
theorem woBases : ∀ e ∈ woGrids, e.2.npts = e.1 ∧ WoBase e.2 := by
  unfold woGrids
  refine List.forall_mem_cons.2 ⟨⟨by decide, woBase3⟩, ?_⟩
  refine List.forall_mem_cons.2 ⟨⟨by decide, woBase6⟩, ?_⟩
  refine List.forall_mem_cons.2 ⟨⟨by decide, woBase8⟩, ?_⟩
  refine List.forall_mem_cons.2 ⟨⟨by decide, woBase14⟩, ?_⟩
  refine List.forall_mem_cons.2 ⟨⟨by decide, woBase18⟩, ?_⟩
  refine List.forall_mem_cons.2 ⟨⟨by decide, woBase26⟩, ?_⟩
  refine List.forall_mem_cons.2 ⟨⟨by decide, woBase32⟩, ?_⟩
  refine List.forall_mem_cons.2 ⟨⟨by decide, woBase42⟩, ?_⟩
  refine List.forall_mem_cons.2 ⟨⟨by decide, woBase50⟩, ?_⟩
  refine List.forall_mem_cons.2 ⟨⟨by decide, woBase62⟩, ?_⟩
  refine List.forall_mem_cons.2 ⟨⟨by decide, woBase72⟩, ?_⟩
  refine List.forall_mem_cons.2 ⟨⟨by decide, woBase86⟩, ?_⟩
  refine List.forall_mem_cons.2 ⟨⟨by decide, woBase98⟩, ?_⟩
  refine List.forall_mem_cons.2 ⟨⟨by decide, woBase114⟩, ?_⟩
  refine List.forall_mem_cons.2 ⟨⟨by decide, woBase128⟩, ?_⟩
  refine List.forall_mem_cons.2 ⟨⟨by decide, woBase146⟩, ?_⟩
  refine List.forall_mem_cons.2 ⟨⟨by decide, woBase163⟩, ?_⟩
  refine List.forall_mem_cons.2 ⟨⟨by decide, woBase182⟩, ?_⟩
  refine List.forall_mem_cons.2 ⟨⟨by decide, woBase201⟩, ?_⟩
  refine List.forall_mem_cons.2 ⟨⟨by decide, woBase222⟩, ?_⟩
  refine List.forall_mem_cons.2 ⟨⟨by decide, woBase243⟩, ?_⟩
  refine List.forall_mem_cons.2 ⟨⟨by decide, woBase266⟩, ?_⟩
  refine List.forall_mem_cons.2 ⟨⟨by decide, woBase289⟩, ?_⟩
  refine List.forall_mem_cons.2 ⟨⟨by decide, woBase314⟩, ?_⟩
  refine List.forall_mem_cons.2 ⟨⟨by decide, woBase339⟩, ?_⟩
  refine List.forall_mem_cons.2 ⟨⟨by decide, woBase366⟩, ?_⟩
  refine List.forall_mem_cons.2 ⟨⟨by decide, woBase393⟩, ?_⟩
  refine List.forall_mem_cons.2 ⟨⟨by decide, woBase422⟩, ?_⟩
  refine List.forall_mem_cons.2 ⟨⟨by decide, woBase451⟩, ?_⟩
  refine List.forall_mem_cons.2 ⟨⟨by decide, woBase482⟩, ?_⟩
  refine List.forall_mem_cons.2 ⟨⟨by decide, woBase513⟩, ?_⟩
  refine List.forall_mem_cons.2 ⟨⟨by decide, woBase546⟩, ?_⟩
  refine List.forall_mem_cons.2 ⟨⟨by decide, woBase579⟩, ?_⟩
  refine List.forall_mem_cons.2 ⟨⟨by decide, woBase614⟩, ?_⟩
  refine List.forall_mem_cons.2 ⟨⟨by decide, woBase649⟩, ?_⟩
  refine List.forall_mem_cons.2 ⟨⟨by decide, woBase686⟩, ?_⟩
  refine List.forall_mem_cons.2 ⟨⟨by decide, woBase723⟩, ?_⟩
  refine List.forall_mem_cons.2 ⟨⟨by decide, woBase762⟩, ?_⟩
  refine List.forall_mem_cons.2 ⟨⟨by decide, woBase801⟩, ?_⟩
  refine List.forall_mem_cons.2 ⟨⟨by decide, woBase842⟩, ?_⟩
  refine List.forall_mem_cons.2 ⟨⟨by decide, woBase883⟩, ?_⟩
  refine List.forall_mem_cons.2 ⟨⟨by decide, woBase926⟩, ?_⟩
  refine List.forall_mem_cons.2 ⟨⟨by decide, woBase969⟩, ?_⟩
  refine List.forall_mem_cons.2 ⟨⟨by decide, woBase1014⟩, ?_⟩
  refine List.forall_mem_cons.2 ⟨⟨by decide, woBase1059⟩, ?_⟩
  refine List.forall_mem_cons.2 ⟨⟨by decide, woBase1106⟩, ?_⟩
  refine List.forall_mem_cons.2 ⟨⟨by decide, woBase1153⟩, ?_⟩
  refine List.forall_mem_cons.2 ⟨⟨by decide, woBase1202⟩, ?_⟩
  refine List.forall_mem_cons.2 ⟨⟨by decide, woBase1251⟩, ?_⟩
  refine List.forall_mem_cons.2 ⟨⟨by decide, woBase1302⟩, ?_⟩
  refine List.forall_mem_cons.2 ⟨⟨by decide, woBase1353⟩, ?_⟩
  refine List.forall_mem_cons.2 ⟨⟨by decide, woBase1406⟩, ?_⟩
  refine List.forall_mem_cons.2 ⟨⟨by decide, woBase1459⟩, ?_⟩
  refine List.forall_mem_cons.2 ⟨⟨by decide, woBase1514⟩, ?_⟩
  refine List.forall_mem_cons.2 ⟨⟨by decide, woBase1569⟩, ?_⟩
  refine List.forall_mem_cons.2 ⟨⟨by decide, woBase1626⟩, ?_⟩
  refine List.forall_mem_cons.2 ⟨⟨by decide, woBase1683⟩, ?_⟩
  refine List.forall_mem_cons.2 ⟨⟨by decide, woBase1742⟩, ?_⟩
  refine List.forall_mem_cons.2 ⟨⟨by decide, woBase1801⟩, ?_⟩
  refine List.forall_mem_cons.2 ⟨⟨by decide, woBase1862⟩, ?_⟩
  refine List.forall_mem_cons.2 ⟨⟨by decide, woBase1923⟩, ?_⟩
  refine List.forall_mem_cons.2 ⟨⟨by decide, woBase1986⟩, ?_⟩
  refine List.forall_mem_cons.2 ⟨⟨by decide, woBase2049⟩, ?_⟩
  refine List.forall_mem_cons.2 ⟨⟨by decide, woBase2114⟩, ?_⟩
  refine List.forall_mem_cons.2 ⟨⟨by decide, woBase2179⟩, ?_⟩
  refine List.forall_mem_cons.2 ⟨⟨by decide, woBase2246⟩, ?_⟩
  refine List.forall_mem_cons.2 ⟨⟨by decide, woBase2313⟩, ?_⟩
  refine List.forall_mem_cons.2 ⟨⟨by decide, woBase2382⟩, ?_⟩
  refine List.forall_mem_cons.2 ⟨⟨by decide, woBase2451⟩, ?_⟩
  refine List.forall_mem_cons.2 ⟨⟨by decide, woBase2522⟩, ?_⟩
  refine List.forall_mem_cons.2 ⟨⟨by decide, woBase2593⟩, ?_⟩
  refine List.forall_mem_cons.2 ⟨⟨by decide, woBase2666⟩, ?_⟩
  refine List.forall_mem_cons.2 ⟨⟨by decide, woBase2739⟩, ?_⟩
  refine List.forall_mem_cons.2 ⟨⟨by decide, woBase2814⟩, ?_⟩
  refine List.forall_mem_cons.2 ⟨⟨by decide, woBase2889⟩, ?_⟩
  refine List.forall_mem_cons.2 ⟨⟨by decide, woBase2966⟩, ?_⟩
  refine List.forall_mem_cons.2 ⟨⟨by decide, woBase3043⟩, ?_⟩
  refine List.forall_mem_cons.2 ⟨⟨by decide, woBase3122⟩, ?_⟩
  refine List.forall_mem_cons.2 ⟨⟨by decide, woBase3201⟩, ?_⟩
  refine List.forall_mem_cons.2 ⟨⟨by decide, woBase3282⟩, ?_⟩
  refine List.forall_mem_cons.2 ⟨⟨by decide, woBase3363⟩, ?_⟩
  refine List.forall_mem_cons.2 ⟨⟨by decide, woBase3446⟩, ?_⟩
  refine List.forall_mem_cons.2 ⟨⟨by decide, woBase3529⟩, ?_⟩
  refine List.forall_mem_cons.2 ⟨⟨by decide, woBase3614⟩, ?_⟩
  refine List.forall_mem_cons.2 ⟨⟨by decide, woBase3699⟩, ?_⟩
  refine List.forall_mem_cons.2 ⟨⟨by decide, woBase3786⟩, ?_⟩
  refine List.forall_mem_cons.2 ⟨⟨by decide, woBase3873⟩, ?_⟩
  refine List.forall_mem_cons.2 ⟨⟨by decide, woBase3962⟩, ?_⟩
  refine List.forall_mem_cons.2 ⟨⟨by decide, woBase4051⟩, ?_⟩
  refine List.forall_mem_cons.2 ⟨⟨by decide, woBase4142⟩, ?_⟩
  refine List.forall_mem_cons.2 ⟨⟨by decide, woBase4233⟩, ?_⟩
  refine List.forall_mem_cons.2 ⟨⟨by decide, woBase4326⟩, ?_⟩
  refine List.forall_mem_cons.2 ⟨⟨by decide, woBase4419⟩, ?_⟩
  refine List.forall_mem_cons.2 ⟨⟨by decide, woBase4514⟩, ?_⟩
  refine List.forall_mem_cons.2 ⟨⟨by decide, woBase4609⟩, ?_⟩
  refine List.forall_mem_cons.2 ⟨⟨by decide, woBase4706⟩, ?_⟩
  refine List.forall_mem_cons.2 ⟨⟨by decide, woBase4803⟩, ?_⟩
  refine List.forall_mem_cons.2 ⟨⟨by decide, woBase4902⟩, ?_⟩
  refine List.forall_mem_cons.2 ⟨⟨by decide, woBase5001⟩, ?_⟩
  refine List.forall_mem_cons.2 ⟨⟨by decide, woBase5102⟩, ?_⟩
  refine List.forall_mem_cons.2 ⟨⟨by decide, woBase5203⟩, ?_⟩
  refine List.forall_mem_cons.2 ⟨⟨by decide, woBase5306⟩, ?_⟩
  refine List.forall_mem_cons.2 ⟨⟨by decide, woBase5409⟩, ?_⟩
  refine List.forall_mem_cons.2 ⟨⟨by decide, woBase5514⟩, ?_⟩
  refine List.forall_mem_cons.2 ⟨⟨by decide, woBase5619⟩, ?_⟩
  refine List.forall_mem_cons.2 ⟨⟨by decide, woBase5726⟩, ?_⟩
  refine List.forall_mem_cons.2 ⟨⟨by decide, woBase5833⟩, ?_⟩
  refine List.forall_mem_cons.2 ⟨⟨by decide, woBase5942⟩, ?_⟩
  refine List.forall_mem_cons.2 ⟨⟨by decide, woBase6051⟩, ?_⟩
  refine List.forall_mem_cons.2 ⟨⟨by decide, woBase6162⟩, ?_⟩
  refine List.forall_mem_cons.2 ⟨⟨by decide, woBase6273⟩, ?_⟩
  refine List.forall_mem_cons.2 ⟨⟨by decide, woBase6386⟩, ?_⟩
  refine List.forall_mem_cons.2 ⟨⟨by decide, woBase6499⟩, ?_⟩
  refine List.forall_mem_cons.2 ⟨⟨by decide, woBase6614⟩, ?_⟩
  refine List.forall_mem_cons.2 ⟨⟨by decide, woBase6729⟩, ?_⟩
  refine List.forall_mem_cons.2 ⟨⟨by decide, woBase6846⟩, ?_⟩
  refine List.forall_mem_cons.2 ⟨⟨by decide, woBase6963⟩, ?_⟩
  refine List.forall_mem_cons.2 ⟨⟨by decide, woBase7082⟩, ?_⟩
  refine List.forall_mem_cons.2 ⟨⟨by decide, woBase7201⟩, ?_⟩
  refine List.forall_mem_cons.2 ⟨⟨by decide, woBase7322⟩, ?_⟩
  refine List.forall_mem_cons.2 ⟨⟨by decide, woBase7443⟩, ?_⟩
  refine List.forall_mem_cons.2 ⟨⟨by decide, woBase7566⟩, ?_⟩
  refine List.forall_mem_cons.2 ⟨⟨by decide, woBase7689⟩, ?_⟩
  refine List.forall_mem_cons.2 ⟨⟨by decide, woBase7814⟩, ?_⟩
  refine List.forall_mem_cons.2 ⟨⟨by decide, woBase7939⟩, ?_⟩
  exact fun e he => absurd he List.not_mem_nil

/-- All Womersley grids: the moments. -/
theorem woFacts : ∀ e ∈ woGrids, ∃ L : Nat, AngFam.womersley.orderByNpts e.1 = L ∧
    ReducedExact (woGrid e.2 : StaticGrid ℝ).points (woGrid e.2 : StaticGrid ℝ).weights L
      (5 / 10 ^ 14) := by
  unfold woGrids
  refine List.forall_mem_cons.2 ⟨⟨1, by decide +kernel, woExact3⟩, ?_⟩
  refine List.forall_mem_cons.2 ⟨⟨2, by decide +kernel, woExact6⟩, ?_⟩
  refine List.forall_mem_cons.2 ⟨⟨3, by decide +kernel, woExact8⟩, ?_⟩
  refine List.forall_mem_cons.2 ⟨⟨4, by decide +kernel, woExact14⟩, ?_⟩
  refine List.forall_mem_cons.2 ⟨⟨5, by decide +kernel, woExact18⟩, ?_⟩
  refine List.forall_mem_cons.2 ⟨⟨6, by decide +kernel, woExact26⟩, ?_⟩
  refine List.forall_mem_cons.2 ⟨⟨7, by decide +kernel, woExact32⟩, ?_⟩
  refine List.forall_mem_cons.2 ⟨⟨8, by decide +kernel, woExact42⟩, ?_⟩
  refine List.forall_mem_cons.2 ⟨⟨9, by decide +kernel, woExact50⟩, ?_⟩
  refine List.forall_mem_cons.2 ⟨⟨10, by decide +kernel, woExact62⟩, ?_⟩
  refine List.forall_mem_cons.2 ⟨⟨11, by decide +kernel, woExact72⟩, ?_⟩
  refine List.forall_mem_cons.2 ⟨⟨12, by decide +kernel, woExact86⟩, ?_⟩
  refine List.forall_mem_cons.2 ⟨⟨13, by decide +kernel, woExact98⟩, ?_⟩
  refine List.forall_mem_cons.2 ⟨⟨14, by decide +kernel, woExact114⟩, ?_⟩
  refine List.forall_mem_cons.2 ⟨⟨15, by decide +kernel, woExact128⟩, ?_⟩
  refine List.forall_mem_cons.2 ⟨⟨16, by decide +kernel, woExact146⟩, ?_⟩
  refine List.forall_mem_cons.2 ⟨⟨17, by decide +kernel, woExact163⟩, ?_⟩
  refine List.forall_mem_cons.2 ⟨⟨18, by decide +kernel, woExact182⟩, ?_⟩
  refine List.forall_mem_cons.2 ⟨⟨19, by decide +kernel, woExact201⟩, ?_⟩
  refine List.forall_mem_cons.2 ⟨⟨20, by decide +kernel, woExact222⟩, ?_⟩
  refine List.forall_mem_cons.2 ⟨⟨21, by decide +kernel, woExact243⟩, ?_⟩
  refine List.forall_mem_cons.2 ⟨⟨22, by decide +kernel, woExact266⟩, ?_⟩
  refine List.forall_mem_cons.2 ⟨⟨23, by decide +kernel, woExact289⟩, ?_⟩
  refine List.forall_mem_cons.2 ⟨⟨24, by decide +kernel, woExact314⟩, ?_⟩
  refine List.forall_mem_cons.2 ⟨⟨25, by decide +kernel, woExact339⟩, ?_⟩
  refine List.forall_mem_cons.2 ⟨⟨26, by decide +kernel, woExact366⟩, ?_⟩
  refine List.forall_mem_cons.2 ⟨⟨27, by decide +kernel, woExact393⟩, ?_⟩
  refine List.forall_mem_cons.2 ⟨⟨28, by decide +kernel, woExact422⟩, ?_⟩
  refine List.forall_mem_cons.2 ⟨⟨29, by decide +kernel, woExact451⟩, ?_⟩
  refine List.forall_mem_cons.2 ⟨⟨30, by decide +kernel, woExact482⟩, ?_⟩
  refine List.forall_mem_cons.2 ⟨⟨31, by decide +kernel, woExact513⟩, ?_⟩
  refine List.forall_mem_cons.2 ⟨⟨32, by decide +kernel, woExact546⟩, ?_⟩
  refine List.forall_mem_cons.2 ⟨⟨33, by decide +kernel, woExact579⟩, ?_⟩
  refine List.forall_mem_cons.2 ⟨⟨34, by decide +kernel, woExact614⟩, ?_⟩
  refine List.forall_mem_cons.2 ⟨⟨35, by decide +kernel, woExact649⟩, ?_⟩
  refine List.forall_mem_cons.2 ⟨⟨36, by decide +kernel, woExact686⟩, ?_⟩
  refine List.forall_mem_cons.2 ⟨⟨37, by decide +kernel, woExact723⟩, ?_⟩
  refine List.forall_mem_cons.2 ⟨⟨38, by decide +kernel, woExact762⟩, ?_⟩
  refine List.forall_mem_cons.2 ⟨⟨39, by decide +kernel, woExact801⟩, ?_⟩
  refine List.forall_mem_cons.2 ⟨⟨40, by decide +kernel, woExact842⟩, ?_⟩
  refine List.forall_mem_cons.2 ⟨⟨41, by decide +kernel, woExact883⟩, ?_⟩
  refine List.forall_mem_cons.2 ⟨⟨42, by decide +kernel, woExact926⟩, ?_⟩
  refine List.forall_mem_cons.2 ⟨⟨43, by decide +kernel, woExact969⟩, ?_⟩
  refine List.forall_mem_cons.2 ⟨⟨44, by decide +kernel, woExact1014⟩, ?_⟩
  refine List.forall_mem_cons.2 ⟨⟨45, by decide +kernel, woExact1059⟩, ?_⟩
  refine List.forall_mem_cons.2 ⟨⟨46, by decide +kernel, woExact1106⟩, ?_⟩
  refine List.forall_mem_cons.2 ⟨⟨47, by decide +kernel, woExact1153⟩, ?_⟩
  refine List.forall_mem_cons.2 ⟨⟨48, by decide +kernel, woExact1202⟩, ?_⟩
  refine List.forall_mem_cons.2 ⟨⟨49, by decide +kernel, woExact1251⟩, ?_⟩
  refine List.forall_mem_cons.2 ⟨⟨50, by decide +kernel, woExact1302⟩, ?_⟩
  refine List.forall_mem_cons.2 ⟨⟨51, by decide +kernel, woExact1353⟩, ?_⟩
  refine List.forall_mem_cons.2 ⟨⟨52, by decide +kernel, woExact1406⟩, ?_⟩
  refine List.forall_mem_cons.2 ⟨⟨53, by decide +kernel, woExact1459⟩, ?_⟩
  refine List.forall_mem_cons.2 ⟨⟨54, by decide +kernel, woExact1514⟩, ?_⟩
  refine List.forall_mem_cons.2 ⟨⟨55, by decide +kernel, woExact1569⟩, ?_⟩
  refine List.forall_mem_cons.2 ⟨⟨56, by decide +kernel, woExact1626⟩, ?_⟩
  refine List.forall_mem_cons.2 ⟨⟨57, by decide +kernel, woExact1683⟩, ?_⟩
  refine List.forall_mem_cons.2 ⟨⟨58, by decide +kernel, woExact1742⟩, ?_⟩
  refine List.forall_mem_cons.2 ⟨⟨59, by decide +kernel, woExact1801⟩, ?_⟩
  refine List.forall_mem_cons.2 ⟨⟨60, by decide +kernel, woExact1862⟩, ?_⟩
  refine List.forall_mem_cons.2 ⟨⟨61, by decide +kernel, woExact1923⟩, ?_⟩
  refine List.forall_mem_cons.2 ⟨⟨62, by decide +kernel, woExact1986⟩, ?_⟩
  refine List.forall_mem_cons.2 ⟨⟨63, by decide +kernel, woExact2049⟩, ?_⟩
  refine List.forall_mem_cons.2 ⟨⟨64, by decide +kernel, woExact2114⟩, ?_⟩
  refine List.forall_mem_cons.2 ⟨⟨65, by decide +kernel, woExact2179⟩, ?_⟩
  refine List.forall_mem_cons.2 ⟨⟨66, by decide +kernel, woExact2246⟩, ?_⟩
  refine List.forall_mem_cons.2 ⟨⟨67, by decide +kernel, woExact2313⟩, ?_⟩
  refine List.forall_mem_cons.2 ⟨⟨68, by decide +kernel, woExact2382⟩, ?_⟩
  refine List.forall_mem_cons.2 ⟨⟨69, by decide +kernel, woExact2451⟩, ?_⟩
  refine List.forall_mem_cons.2 ⟨⟨70, by decide +kernel, woExact2522⟩, ?_⟩
  refine List.forall_mem_cons.2 ⟨⟨71, by decide +kernel, woExact2593⟩, ?_⟩
  refine List.forall_mem_cons.2 ⟨⟨72, by decide +kernel, woExact2666⟩, ?_⟩
  refine List.forall_mem_cons.2 ⟨⟨73, by decide +kernel, woExact2739⟩, ?_⟩
  refine List.forall_mem_cons.2 ⟨⟨74, by decide +kernel, woExact2814⟩, ?_⟩
  refine List.forall_mem_cons.2 ⟨⟨75, by decide +kernel, woExact2889⟩, ?_⟩
  refine List.forall_mem_cons.2 ⟨⟨76, by decide +kernel, woExact2966⟩, ?_⟩
  refine List.forall_mem_cons.2 ⟨⟨77, by decide +kernel, woExact3043⟩, ?_⟩
  refine List.forall_mem_cons.2 ⟨⟨78, by decide +kernel, woExact3122⟩, ?_⟩
  refine List.forall_mem_cons.2 ⟨⟨79, by decide +kernel, woExact3201⟩, ?_⟩
  refine List.forall_mem_cons.2 ⟨⟨80, by decide +kernel, woExact3282⟩, ?_⟩
  refine List.forall_mem_cons.2 ⟨⟨81, by decide +kernel, woExact3363⟩, ?_⟩
  refine List.forall_mem_cons.2 ⟨⟨82, by decide +kernel, woExact3446⟩, ?_⟩
  refine List.forall_mem_cons.2 ⟨⟨83, by decide +kernel, woExact3529⟩, ?_⟩
  refine List.forall_mem_cons.2 ⟨⟨84, by decide +kernel, woExact3614⟩, ?_⟩
  refine List.forall_mem_cons.2 ⟨⟨85, by decide +kernel, woExact3699⟩, ?_⟩
  refine List.forall_mem_cons.2 ⟨⟨86, by decide +kernel, woExact3786⟩, ?_⟩
  refine List.forall_mem_cons.2 ⟨⟨87, by decide +kernel, woExact3873⟩, ?_⟩
  refine List.forall_mem_cons.2 ⟨⟨88, by decide +kernel, woExact3962⟩, ?_⟩
  refine List.forall_mem_cons.2 ⟨⟨89, by decide +kernel, woExact4051⟩, ?_⟩
  refine List.forall_mem_cons.2 ⟨⟨90, by decide +kernel, woExact4142⟩, ?_⟩
  refine List.forall_mem_cons.2 ⟨⟨91, by decide +kernel, woExact4233⟩, ?_⟩
  refine List.forall_mem_cons.2 ⟨⟨92, by decide +kernel, woExact4326⟩, ?_⟩
  refine List.forall_mem_cons.2 ⟨⟨93, by decide +kernel, woExact4419⟩, ?_⟩
  refine List.forall_mem_cons.2 ⟨⟨94, by decide +kernel, woExact4514⟩, ?_⟩
  refine List.forall_mem_cons.2 ⟨⟨95, by decide +kernel, woExact4609⟩, ?_⟩
  refine List.forall_mem_cons.2 ⟨⟨96, by decide +kernel, woExact4706⟩, ?_⟩
  refine List.forall_mem_cons.2 ⟨⟨97, by decide +kernel, woExact4803⟩, ?_⟩
  refine List.forall_mem_cons.2 ⟨⟨98, by decide +kernel, woExact4902⟩, ?_⟩
  refine List.forall_mem_cons.2 ⟨⟨99, by decide +kernel, woExact5001⟩, ?_⟩
  refine List.forall_mem_cons.2 ⟨⟨100, by decide +kernel, woExact5102⟩, ?_⟩
  refine List.forall_mem_cons.2 ⟨⟨101, by decide +kernel, woExact5203⟩, ?_⟩
  refine List.forall_mem_cons.2 ⟨⟨102, by decide +kernel, woExact5306⟩, ?_⟩
  refine List.forall_mem_cons.2 ⟨⟨103, by decide +kernel, woExact5409⟩, ?_⟩
  refine List.forall_mem_cons.2 ⟨⟨104, by decide +kernel, woExact5514⟩, ?_⟩
  refine List.forall_mem_cons.2 ⟨⟨105, by decide +kernel, woExact5619⟩, ?_⟩
  refine List.forall_mem_cons.2 ⟨⟨106, by decide +kernel, woExact5726⟩, ?_⟩
  refine List.forall_mem_cons.2 ⟨⟨107, by decide +kernel, woExact5833⟩, ?_⟩
  refine List.forall_mem_cons.2 ⟨⟨108, by decide +kernel, woExact5942⟩, ?_⟩
  refine List.forall_mem_cons.2 ⟨⟨109, by decide +kernel, woExact6051⟩, ?_⟩
  refine List.forall_mem_cons.2 ⟨⟨110, by decide +kernel, woExact6162⟩, ?_⟩
  refine List.forall_mem_cons.2 ⟨⟨111, by decide +kernel, woExact6273⟩, ?_⟩
  refine List.forall_mem_cons.2 ⟨⟨112, by decide +kernel, woExact6386⟩, ?_⟩
  refine List.forall_mem_cons.2 ⟨⟨113, by decide +kernel, woExact6499⟩, ?_⟩
  refine List.forall_mem_cons.2 ⟨⟨114, by decide +kernel, woExact6614⟩, ?_⟩
  refine List.forall_mem_cons.2 ⟨⟨115, by decide +kernel, woExact6729⟩, ?_⟩
  refine List.forall_mem_cons.2 ⟨⟨116, by decide +kernel, woExact6846⟩, ?_⟩
  refine List.forall_mem_cons.2 ⟨⟨117, by decide +kernel, woExact6963⟩, ?_⟩
  refine List.forall_mem_cons.2 ⟨⟨118, by decide +kernel, woExact7082⟩, ?_⟩
  refine List.forall_mem_cons.2 ⟨⟨119, by decide +kernel, woExact7201⟩, ?_⟩
  refine List.forall_mem_cons.2 ⟨⟨120, by decide +kernel, woExact7322⟩, ?_⟩
  refine List.forall_mem_cons.2 ⟨⟨121, by decide +kernel, woExact7443⟩, ?_⟩
  refine List.forall_mem_cons.2 ⟨⟨122, by decide +kernel, woExact7566⟩, ?_⟩
  refine List.forall_mem_cons.2 ⟨⟨123, by decide +kernel, woExact7689⟩, ?_⟩
  refine List.forall_mem_cons.2 ⟨⟨124, by decide +kernel, woExact7814⟩, ?_⟩
  refine List.forall_mem_cons.2 ⟨⟨125, by decide +kernel, woExact7939⟩, ?_⟩
  exact fun e he => absurd he List.not_mem_nil

end IntegratorXX
