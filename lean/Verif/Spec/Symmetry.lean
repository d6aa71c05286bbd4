import Verif.Arith
import Verif.Model.Angular
import Verif.Model.Composite

/-!
# Symmetries of rules on the sphere

Written without reference to the model of any generator.
-/

namespace IntegratorXX.Spec

variable {F : Type}

/-- Reflection `x ↦ -x`. -/
def flipX [Neg F] (u : Pt F) : Pt F := ⟨-u.x, u.y, u.z⟩

/-- Reflection exchanging `x` and `y`. -/
def swapXY (u : Pt F) : Pt F := ⟨u.y, u.x, u.z⟩

/-- Rotation by 120 degrees about the diagonal. -/
def cycleXYZ (u : Pt F) : Pt F := ⟨u.y, u.z, u.x⟩

/-- Rotation by 180 degrees about the `x` axis. -/
def turnX [Neg F] (u : Pt F) : Pt F := ⟨u.x, -u.y, -u.z⟩

/-- The 48 symmetries of the octahedron, generated by two reflections and a rotation. -/
inductive Octahedral [Neg F] : (Pt F → Pt F) → Prop
  | one : Octahedral id
  | flip {g} : Octahedral g → Octahedral (fun u => flipX (g u))
  | swap {g} : Octahedral g → Octahedral (fun u => swapXY (g u))
  | cycle {g} : Octahedral g → Octahedral (fun u => cycleXYZ (g u))

/-- The 12 rotations of the tetrahedron. -/
inductive Tetrahedral [Neg F] : (Pt F → Pt F) → Prop
  | one : Tetrahedral id
  | turn {g} : Tetrahedral g → Tetrahedral (fun u => turnX (g u))
  | cycle {g} : Tetrahedral g → Tetrahedral (fun u => cycleXYZ (g u))

/-- Moving the points by `g` and keeping the weights gives the same rule, up to the order of its
entries. -/
def Invariant (g : Pt F → Pt F) (q : Quad (Pt F) F) : Prop :=
  ((q.points.map g).zip q.weights).Perm (q.points.zip q.weights)

/-- The symmetries claimed for a family of angular grids: those of the octahedron, the rotations of the tetrahedron (a
subgroup of those of the icosahedron), or none. -/
def FamSymmetry [Neg F] : AngFam → (Pt F → Pt F) → Prop
  | .lebedevLaikov, g => Octahedral g
  | .delley, g => Octahedral g
  | .ahrensBeylkin, g => Tetrahedral g
  | .womersley, g => g = id

/-- Arithmetic in which changing the sign of an operand changes the sign of the result. -/
structure SignSymmetric (F : Type) [Add F] [Mul F] [Neg F] [Arith F] : Prop where
  lit_neg : ∀ q : Rat, (Arith.lit (-q) : F) = -Arith.lit q
  mul_neg : ∀ a b : F, a * -b = -(a * b)
  neg_add_zero : ∀ a : F, -a + Arith.lit 0 = -(a + Arith.lit 0)

end IntegratorXX.Spec
