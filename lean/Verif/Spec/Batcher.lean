import Verif.Model.Batcher
import Verif.Spec.Composite

/-!
# Specification vocabulary for the batcher
-/

namespace IntegratorXX.Spec

open Arith

/-- What the C++ standard requires of `std::partition` ([alg.partitions]). -/
structure StdPartition {F : Type} (part : PartitionFn F) : Prop where
  perm : ∀ p l, (part p l).1.Perm l
  le : ∀ p l, (part p l).2 ≤ l.length
  pos : ∀ p l, ∀ e ∈ (part p l).1.take (part p l).2, p e = true
  neg : ∀ p l, ∀ e ∈ (part p l).1.drop (part p l).2, p e = false

/-- Comparison is asymmetric, and a strict weak order on the values in `S` (for IEEE numbers:
those that are not NaN). -/
structure WeakOrder (F : Type) [Arith F] (S : F → Prop) : Prop where
  asymm : ∀ a b : F, lt a b = true → lt b a = false
  negTrans : ∀ a b c : F, S a → S b → S c → lt a b = false → lt b c = false → lt a c = false

/-- Moreover adding `0 * d` to `lo` does not give something larger than a value not below
`lo`. -/
structure BoxArith (F : Type) [Add F] [Sub F] [Mul F] [Div F] [Arith F] (S : F → Prop) : Prop
    extends WeakOrder F S where
  zeroStep : ∀ (lo up x : F) (n : Nat), S lo → S up → S x → lt x lo = false →
    lt x (lo + ofNat 0 * ((up - lo) / ofNat n)) = false

/-- All coordinates of the point are in `S`. -/
def PtIn {F : Type} (S : F → Prop) (p : Pt F) : Prop := S p.x ∧ S p.y ∧ S p.z

/-- The closed box `[lo, up]`, by comparisons. -/
def InBox {F : Type} [Arith F] (lo up p : Pt F) : Prop :=
  (lt up.x p.x = false ∧ lt p.x lo.x = false) ∧ (lt up.y p.y = false ∧ lt p.y lo.y = false) ∧
  (lt up.z p.z = false ∧ lt p.z lo.z = false)

/-- The `i`-th of the `n + 1` cuts of the interval `[lo, up]`. -/
def cut {F : Type} [Add F] [Sub F] [Mul F] [Div F] [Arith F] (n : Nat) (lo up : F) (i : Nat) : F :=
  if i < n then lo + ofNat i * ((up - lo) / ofNat n) else up

/-- The point with the given cuts as coordinates. -/
def gridPt {F : Type} [Add F] [Sub F] [Mul F] [Div F] [Arith F] (n : Nat) (lo up : Pt F)
    (i j k : Nat) : Pt F := ⟨cut n lo.x up.x i, cut n lo.y up.y j, cut n lo.z up.z k⟩

/-- Moreover incomparable values are equal, and no cell of a subdivision of `[lo, up]` into two or
three contains both `lo` and `up`.  Exact arithmetic has this property; with rounding it fails
for neighbouring numbers. -/
structure SplitArith (F : Type) [Add F] [Sub F] [Mul F] [Div F] [Arith F] (S : F → Prop) : Prop
    extends BoxArith F S where
  tri : ∀ a b : F, S a → S b → lt a b = false → lt b a = false → a = b
  split : ∀ lo up : F, S lo → S up → lt lo up = true → ∀ n, n = 2 ∨ n = 3 → ∀ i, i < n →
    ¬(lt lo (cut n lo up i) = false ∧ lt (cut n lo up (i + 1)) up = false)

/-- Whenever an interval `[lo, up]` containing `a` and `b` is divided into two or three, no part contains both `lo` and
`up`. -/
def Parted {F : Type} [Add F] [Sub F] [Mul F] [Div F] [Arith F] (S : F → Prop) (a b : F) : Prop :=
  ∀ lo up : F, S lo → S up → lt a lo = false → lt b lo = false → lt up a = false → lt up b = false →
    ∀ n, n = 2 ∨ n = 3 → ∀ i, i < n → ¬(lt lo (cut n lo up i) = false ∧ lt (cut n lo up (i + 1)) up = false)

/-- In some coordinate. -/
def PtParted {F : Type} [Add F] [Sub F] [Mul F] [Div F] [Arith F] (S : F → Prop) (p q : Pt F) : Prop :=
  Parted S p.x q.x ∨ Parted S p.y q.y ∨ Parted S p.z q.z

/-- The batches of a quadrature given by split positions. -/
def batchesAt {α : Type} : List Nat → List α → List (List α)
  | a :: b :: rest, l => ((l.take b).drop a) :: batchesAt (b :: rest) l
  | _, _ => []

/-- `its` splits `0..n` into non-empty parts. -/
def SplitsRange (its : List Nat) (n : Nat) : Prop :=
  its.head? = some 0 ∧ its.getLast? = some n ∧ its.Pairwise (· < ·)

/-- Families of batchers sharing a quadrature, as prescribed by the operations alone: the number
of families so far, and the family of every batcher (`none` when moved from).  A copy or moved-to
batcher belongs to the family of its source, a clone starts a new one. -/
def familyStep {F : Type} (s : Nat × List (Option Nat)) : BOp F → Nat × List (Option Nat)
  | .copy h => (s.1, s.2 ++ [s.2[h]?.join])
  | .move h => (s.1, s.2.set h none ++ [s.2[h]?.join])
  | .clone _ => (s.1 + 1, s.2 ++ [some s.1])
  | .recenter _ _ => s

/-- The families after a history starting with `n` separately built batchers. -/
def families {F : Type} (n : Nat) (ops : List (BOp F)) : List (Option Nat) :=
  (ops.foldl familyStep (n, (List.range n).map some)).2

/-- A world of `n` separately built batchers, each with its own quadrature. -/
def FreshWorld {F : Type} (n : Nat) (w : BWorld F) : Prop :=
  w.quads.length = n ∧ w.handles.map BHandle.quad = (List.range n).map some

end IntegratorXX.Spec
