import Verif.Lemmas.Sharp
import Verif.Lemmas.TableForms
import Verif.Model.Angular

/-!
# Errors of the shipped grids one degree above their order: evaluation

The Ahrens-Beylkin grids are split into pieces to limit the memory.
-/

set_option maxRecDepth 100000
set_option Elab.async false

namespace IntegratorXX

open Tables

/-- One more than the order in the table. -/
def degAbove (fam : AngFam) (n : Nat) : Nat := (fam.orderByNpts n + 1).toNat

/-- The check of a Lebedev-Laikov grid. -/
noncomputable def llAbove (e : Nat × List OctaRow) : Bool :=
  forceNat (degAbove .lebedevLaikov e.1) fun d => Nat.beq d 0 ||
    (Nat.ble 3 d && Nat.ble d 255 && Nat.beq (d % 2) 0 && octaSharp llRep e.2 d)

/-- The check of a Delley grid. -/
noncomputable def deAbove (e : Nat × List OctaRow) : Bool :=
  forceNat (degAbove .delley e.1) fun d => Nat.beq d 0 ||
    (Nat.ble 3 d && Nat.ble d 255 && Nat.beq (d % 2) 0 && octaSharp deRep e.2 d)

/-- The check of an Ahrens-Beylkin grid. -/
noncomputable def abAbove (e : Nat × IcosaGrid) : Bool :=
  forceNat (degAbove .ahrensBeylkin e.1) fun d => Nat.beq d 0 ||
    (Nat.ble 2 d && Nat.ble d 255 && icosaSharp e.2 d)

theorem ll_above : llGrids.all llAbove = true := by decide +kernel
theorem de_above : deGrids.all deAbove = true := by decide +kernel
theorem ab_above1 : (abGrids.take 20).all abAbove = true := by decide +kernel
theorem ab_above2 : ((abGrids.drop 20).take 10).all abAbove = true := by decide +kernel
theorem ab_above3 : ((abGrids.drop 30).take 8).all abAbove = true := by decide +kernel
theorem ab_above4 : ((abGrids.drop 38).take 6).all abAbove = true := by decide +kernel
theorem ab_above5 : ((abGrids.drop 44).take 4).all abAbove = true := by decide +kernel
theorem ab_above6 : ((abGrids.drop 48).take 4).all abAbove = true := by decide +kernel
theorem ab_above7 : ((abGrids.drop 52).take 3).all abAbove = true := by decide +kernel
theorem ab_above8 : (abGrids.drop 55).all abAbove = true := by decide +kernel

theorem ab_above : abGrids.all abAbove = true := by
  have e : abGrids = abGrids.take 20 ++ ((abGrids.drop 20).take 10 ++ ((abGrids.drop 30).take 8 ++
    ((abGrids.drop 38).take 6 ++ ((abGrids.drop 44).take 4 ++ ((abGrids.drop 48).take 4 ++
    ((abGrids.drop 52).take 3 ++ abGrids.drop 55)))))) := rfl
  rw [e, List.all_append, List.all_append, List.all_append, List.all_append, List.all_append,
    List.all_append, List.all_append, ab_above1, ab_above2, ab_above3, ab_above4, ab_above5, ab_above6,
    ab_above7, ab_above8]
  rfl

end IntegratorXX
