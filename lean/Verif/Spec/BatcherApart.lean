import Verif.Spec.Batcher
import Verif.F64

/-!
# Boxes separated by coordinate planes
-/

namespace IntegratorXX.Spec

open Arith

/-- The first box ends, in one of the three coordinates, no later than the second one begins. -/
def Before {F : Type} [Arith F] (up lo' : Pt F) : Prop :=
  lt lo'.x up.x = false ∨ lt lo'.y up.y = false ∨ lt lo'.z up.z = false

/-- Of two cells of an interval divided into two or three, what the first one contains is not larger than what the
second one contains.  This holds for exact arithmetic and for finite `double` numbers (rounding is monotone). -/
structure CutArith (F : Type) [Add F] [Sub F] [Mul F] [Div F] [Arith F] (S : F → Prop) : Prop
    extends BoxArith F S where
  cuts : ∀ lo up x y : F, S lo → S up → S x → S y → lt up lo = false → ∀ n i j, n = 2 ∨ n = 3 → i < j → j < n →
    lt (cut n lo up (i + 1)) x = false → lt y (cut n lo up j) = false → lt y x = false

/-- A finite `double`. -/
def Finite64 {L : Libm} (a : F64 L) : Prop := ∃ x, a = F64.fin x ∧ IsF64 x

end IntegratorXX.Spec
