import Verif.Model.Composite
import Mathlib.Data.List.Sort

/-!
# The micro-batcher (`/repo/include/integratorxx/batch/spherical_micro_batcher.hpp`)

Iterators into the scratch vector `q` are positions (natural numbers).
-/

namespace IntegratorXX

open Arith

/-- `pw_type`, `spherical_micro_batcher.hpp:48-49`. -/
abbrev PW (F : Type) := Pt F × F

/-- An implementation of `std::partition`: the reordered range and the number of elements in the
first group.  What the standard requires of it is `Spec.StdPartition`; theorems hold for every
conforming implementation.
Called at `spherical_micro_batcher.hpp:186-189`. -/
abbrev PartitionFn (F : Type) := (PW F → Bool) → List (PW F) → List (PW F) × Nat

section
variable {F : Type} [Arith F]

/-- `point_in_box`, `spherical_micro_batcher.hpp:16-28`; `a > b` is `b < a`. -/
def pointInBox (lo up pt : Pt F) : Bool :=
  if lt up.x pt.x || lt pt.x lo.x then false
  else if lt up.y pt.y || lt pt.y lo.y then false
  else if lt up.z pt.z || lt pt.z lo.z then false
  else true

/-- The coordinate found by the first iterator of `std::minmax_element` over a range starting
with `best`: the first element no other is smaller than.
`spherical_micro_batcher.hpp:78-90`, `118-130`. -/
def minCoord (c : Pt F → F) : F → List (Pt F) → F
  | best, [] => best
  | best, p :: ps => minCoord c (if lt (c p) best then c p else best) ps

/-- The coordinate found by the second iterator: the last element that is smaller than none. -/
def maxCoord (c : Pt F → F) : F → List (Pt F) → F
  | best, [] => best
  | best, p :: ps => maxCoord c (if lt (c p) best then best else c p) ps

/-- `get_box_bounds_points`, `spherical_micro_batcher.hpp:98-136` (and `get_box_bounds`, 58-96,
which reads the points of pairs).  For an empty range `minmax_element` returns the end iterator,
whose dereference is undefined. -/
def boxBounds : List (Pt F) → Outcome (Pt F × Pt F)
  | [] => .ub
  | p :: ps => .ok
    (⟨minCoord Pt.x p.x ps, minCoord Pt.y p.y ps, minCoord Pt.z p.z ps⟩,
     ⟨maxCoord Pt.x p.x ps, maxCoord Pt.y p.y ps, maxCoord Pt.z p.z ps⟩)

end

/-- `std::unique` followed by `erase`: of equal neighbours the first is kept.
`spherical_micro_batcher.hpp:193-194`, `573-575`. -/
def uniq : List Nat → List Nat
  | [] => []
  | [a] => [a]
  | a :: b :: l => if a = b then uniq (b :: l) else a :: uniq (b :: l)

/-- `std::set_union` of two sorted ranges.
`spherical_micro_batcher.hpp:578-583`. -/
def setUnion : List Nat → List Nat → List Nat
  | [], l => l
  | l, [] => l
  | a :: l, b :: m =>
    if a < b then a :: setUnion l (b :: m)
    else if b < a then b :: setUnion (a :: l) m
    else a :: setUnion l m
termination_by l m => l.length + m.length

/-- `std::partition(q.begin()+st, q.begin()+en, pred)`: the new vector and the returned
position.
`spherical_micro_batcher.hpp:186-189`. -/
def partitionRange {F : Type} (part : PartitionFn F) (pred : PW F → Bool) (q : List (PW F))
    (st en : Nat) : Outcome (List (PW F) × Nat) :=
  if st ≤ en ∧ en ≤ q.length then
    let r := part pred ((q.take en).drop st)
    .ok (q.take st ++ r.1 ++ q.drop en, st + r.2)
  else .ub

section
variable {F : Type} [Add F] [Sub F] [Mul F] [Div F] [Arith F]

/-- One of the vectors `x_part`, `y_part`, `z_part`,
`spherical_micro_batcher.hpp:151-167`. -/
def boxCuts (npart : Nat) (lo up : F) : Outcome (List F) := do
  let extent := up - lo
  let delta := extent / ofNat npart
  let v ← forRange 0 npart (fun i (v : List F) => vset v i (lo + ofNat i * delta))
    (List.replicate (npart + 1) (lit 0))
  vset v npart up

/-- Body of the triple loop, `spherical_micro_batcher.hpp:174-189`. -/
def cellStep (part : PartitionFn F) (xs ys zs : List F) (en i j k : Nat)
    (s : List (PW F) × List Nat) : Outcome (List (PW F) × List Nat) := do
  let box_lo : Pt F := ⟨← vget xs i, ← vget ys j, ← vget zs k⟩
  let box_up : Pt F := ⟨← vget xs (i + 1), ← vget ys (j + 1), ← vget zs (k + 1)⟩
  match s.2.getLast? with
  | none => .ub
  | some back =>
    let (q, it) ← partitionRange part (fun pw => pointInBox box_lo box_up pw.1) s.1 back en
    pure (q, s.2 ++ [it])

/-- `partition_box`, `spherical_micro_batcher.hpp:142-199`: the reordered vector and the split
positions. -/
def partitionBox (part : PartitionFn F) (npart : Nat) (lo up : Pt F) (q : List (PW F))
    (st en : Nat) : Outcome (List (PW F) × List Nat) := do
  let xs ← boxCuts npart lo.x up.x
  let ys ← boxCuts npart lo.y up.y
  let zs ← boxCuts npart lo.z up.z
  let (q, its) ← forRange 0 npart (fun i s => forRange 0 npart (fun j s =>
    forRange 0 npart (fun k s => cellStep part xs ys zs en i j k s) s) s) (q, [st])
  pure (q, uniq its)

/-- `std::vector::iterator` range as points.
`spherical_micro_batcher.hpp:556-559`. -/
def slice {α : Type} (l : List α) (st en : Nat) : List α := (l.take en).drop st

/-- `part_counts`, `spherical_micro_batcher.hpp:530-534`, `587-591`. -/
def partCounts (its : List Nat) : List Nat := List.zipWith (fun a b => subWrap b a) its its.tail

/-- Body of the loop over the parts, `spherical_micro_batcher.hpp:553-569`. -/
def refinePart (part : PartitionFn F) (maxBatch : Nat) (its counts : List Nat) (ip : Nat)
    (s : List (PW F) × List Nat) : Outcome (List (PW F) × List Nat) := do
  let c ← vget counts ip
  if c > maxBatch then
    let st ← vget its ip
    let en ← vget its (ip + 1)
    let (lo, up) ← boxBounds ((slice s.1 st en).map Prod.fst)
    let npart := if pointInBox lo up ⟨lit 0, lit 0, lit 0⟩ then 3 else 2
    let (q, bits) ← partitionBox part npart lo up s.1 st en
    pure (q, s.2 ++ bits)
  else pure s

/-- One iteration of the `while` loop, `spherical_micro_batcher.hpp:550-591`. -/
def refine (part : PartitionFn F) (maxBatch : Nat) (s : List (PW F) × List Nat) :
    Outcome (List (PW F) × List Nat) := do
  let counts := partCounts s.2
  let (q, new) ← forRange 0 counts.length (refinePart part maxBatch s.2 counts) (s.1, [])
  pure (q, setUnion s.2 (uniq (new.mergeSort (· ≤ ·))))

/-- The condition of the `while` loop, `spherical_micro_batcher.hpp:538-540`. -/
def tooLarge (maxBatch : Nat) (its : List Nat) : Bool := (partCounts its).any (· > maxBatch)

/-- The `while` loop, `spherical_micro_batcher.hpp:539-595`, run for at most `fuel` evaluations
of its condition; `none` when that is not enough.  The loop returns when this is not `none` for
some `fuel`; it runs forever when it is `none` for all. -/
def refineLoop (part : PartitionFn F) (maxBatch : Nat) :
    Nat → List (PW F) × List Nat → Option (Outcome (List (PW F) × List Nat))
  | 0, _ => none
  | fuel + 1, s =>
    if tooLarge maxBatch s.2 then
      match refine part maxBatch s with
      | .ok s' => refineLoop part maxBatch fuel s'
      | .throws e => some (.throws e)
      | .assertFail => some .assertFail
      | .ub => some .ub
    else some (.ok s)

/-- Filling the scratch vector, `spherical_micro_batcher.hpp:520-523`. -/
def gather (q : Quad (Pt F) F) : Outcome (List (PW F)) :=
  forRange 0 q.npts (fun i (v : List (PW F)) => do
    let p ← vget q.points i
    let w ← vget q.weights i
    vset v i (p, w)) (List.replicate q.npts (⟨lit 0, lit 0, lit 0⟩, lit 0))

/-- Writing back, `spherical_micro_batcher.hpp:621-622`. -/
def scatter (s : List (PW F)) (q : Quad (Pt F) F) : Outcome (Quad (Pt F) F) := do
  let (p, w) ← forRange 0 q.npts (fun i (pw : List (Pt F) × List F) => do
    let e ← vget s i
    let p ← vset pw.1 i e.1
    let w ← vset pw.2 i e.2
    pure (p, w)) (q.points, q.weights)
  pure ⟨p, w⟩

/-- The first partition, `spherical_micro_batcher.hpp:529` with the overload 203-213. -/
def firstPartition (part : PartitionFn F) (v : List (PW F)) :
    Outcome (List (PW F) × List Nat) := do
  let (lo, up) ← boxBounds (v.map Prod.fst)
  partitionBox part 3 lo up v 0 v.length

/-- `generate_batches`, `spherical_micro_batcher.hpp:515-632`: the reordered quadrature and the
partition indices (timers and printing are left out).  `none` when the `while` loop needs more
than `fuel` evaluations of its condition. -/
def generateBatches (part : PartitionFn F) (maxBatch : Nat) (fuel : Nat) (q : Quad (Pt F) F) :
    Option (Outcome (Quad (Pt F) F × List Nat)) :=
  match gather q >>= firstPartition part with
  | .ok s =>
    (refineLoop part maxBatch fuel s).map (fun r => do
      let (v, its) ← r
      let q ← scatter v q
      pure (q, its))
  | .throws e => some (.throws e)
  | .assertFail => some .assertFail
  | .ub => some .ub

end

/-! ## The class -/

/-- The data of a `SphericalMicroBatcher` (`spherical_micro_batcher.hpp:246-249`) together with
the quadrature it points to. -/
structure Batcher (F : Type) where
  maxBatch : Nat
  quad : SphQuad F
  partIdx : List Nat
deriving DecidableEq, Repr

/-- What dereferencing a batch iterator returns (`value_type`,
`spherical_micro_batcher.hpp:256-257`). -/
structure Batch (F : Type) where
  lo : Pt F
  up : Pt F
  points : List (Pt F)
  weights : List F
deriving DecidableEq, Repr

section
variable {F : Type} [Add F] [Sub F] [Mul F] [Div F] [Arith F]

/-- The constructors taking a quadrature (`spherical_micro_batcher.hpp:400-405`, `416-421`,
`432-437`, and `make_batcher`, 637-665), run with `fuel` for the `while` loop. -/
def Batcher.make (part : PartitionFn F) (fuel : Nat) (maxBatch : Nat) (q : SphQuad F) :
    Option (Outcome (Batcher F)) :=
  (generateBatches part maxBatch fuel q.quad).map (fun r => do
    let (quad, its) ← r
    pure ⟨maxBatch, ⟨quad, q.center⟩, its⟩)

/-- `nbatches()`, `spherical_micro_batcher.hpp:505`: `size_t` subtraction. -/
def Batcher.nbatches (b : Batcher F) : Nat := subWrap b.partIdx.length 1

/-- Dereferencing an iterator at position `n` of the index vector: `range()` and `operator*`,
`spherical_micro_batcher.hpp:288-317` (const version 359-388). -/
def Batcher.deref (b : Batcher F) (n : Nat) : Outcome (Batch F) := do
  let idx ← vget b.partIdx n
  let idx_next ← vget b.partIdx (n + 1)
  let points ← vrange b.quad.quad.points idx idx_next
  let weights ← vrange b.quad.quad.weights idx idx_next
  let (lo, up) ← boxBounds points
  pure ⟨lo, up, points, weights⟩

/-- `static_cast<int>(i)` for a `size_t` (modulo `2^32`).
`spherical_micro_batcher.hpp:472`, `479`. -/
def toInt32 (n : Nat) : Int :=
  if n % 4294967296 < 2147483648 then (n % 4294967296 : Nat)
  else ((n % 4294967296 : Nat) : Int) - 4294967296

/-- `at(i)`, `spherical_micro_batcher.hpp:468-480`; an iterator outside the index vector is
undefined. -/
def Batcher.at (b : Batcher F) (i : Nat) : Outcome (Batch F) :=
  if i ≥ b.nbatches then .throws (.runtimeError "Index out of bounds")
  else
    let off := toInt32 i
    if 0 ≤ off ∧ off ≤ b.partIdx.length then b.deref off.toNat else .ub

/-- `for (auto it = begin(); it != end(); ++it)` from position `n`, collecting `*it`;
`begin`/`end` are `spherical_micro_batcher.hpp:450-457`. -/
def Batcher.iterFrom (b : Batcher F) (n : Nat) : Outcome (List (Batch F)) :=
  if n = b.partIdx.length - 1 then .ok []
  else if n < b.partIdx.length - 1 then do
    let e ← b.deref n
    let es ← b.iterFrom (n + 1)
    pure (e :: es)
  else .ub
termination_by b.partIdx.length - n

/-- The whole iteration; `partition_idx_.end()-1` of an empty vector is undefined.
`spherical_micro_batcher.hpp:450-457` with `271`, `305-317`. -/
def Batcher.batches (b : Batcher F) : Outcome (List (Batch F)) :=
  if b.partIdx.length = 0 then .ub else b.iterFrom 0

/-- `recenter`, `spherical_micro_batcher.hpp:509-511`. -/
def Batcher.recenter (c : Pt F) (b : Batcher F) : Outcome (Batcher F) := do
  let q ← IntegratorXX.recenter c b.quad
  pure ⟨b.maxBatch, q, b.partIdx⟩

end

/-! ### Sharing

Batchers hold their quadrature through a `std::shared_ptr`; here an address into a list of
quadratures, `none` for a null pointer (a moved-from batcher). -/

/-- A batcher as stored: `spherical_micro_batcher.hpp:246-249`. -/
structure BHandle where
  maxBatch : Nat
  quad : Option Nat
  partIdx : List Nat
deriving DecidableEq, Repr

/-- All quadratures and batchers of a program.
Members `spherical_micro_batcher.hpp:246-249`. -/
structure BWorld (F : Type) where
  quads : List (SphQuad F)
  handles : List BHandle

/-- Client operations on batchers (new batchers are appended).
`spherical_micro_batcher.hpp:483-511`. -/
inductive BOp (F : Type) where
  /-- copy construction, `spherical_micro_batcher.hpp:483` -/
  | copy (h : Nat)
  /-- move construction, 484 -/
  | move (h : Nat)
  /-- `clone()`, 487-489 -/
  | clone (h : Nat)
  /-- `recenter(c)`, 509-511 -/
  | recenter (h : Nat) (c : Pt F)

section
variable {F : Type} [Add F] [Sub F] [Mul F] [Div F] [Arith F]

/-- Effect of an operation.  Dereferencing a null pointer is undefined; `clone` of the
quadrature is `spherical_quadrature.hpp:168-170`/`pruned_spherical_quadrature.hpp:215-217`, a
copy. -/
def BWorld.step (w : BWorld F) : BOp F → Outcome (BWorld F)
  | .copy h => do
    let b ← vget w.handles h
    pure ⟨w.quads, w.handles ++ [b]⟩
  | .move h => do
    let b ← vget w.handles h
    pure ⟨w.quads, w.handles.set h ⟨b.maxBatch, none, []⟩ ++ [b]⟩
  | .clone h => do
    let b ← vget w.handles h
    match b.quad with
    | none => .ub
    | some a =>
      let q ← vget w.quads a
      pure ⟨w.quads ++ [q], w.handles ++ [⟨b.maxBatch, some w.quads.length, b.partIdx⟩]⟩
  | .recenter h c => do
    let b ← vget w.handles h
    match b.quad with
    | none => .ub
    | some a =>
      let q ← vget w.quads a
      let q ← IntegratorXX.recenter c q
      pure ⟨w.quads.set a q, w.handles⟩

/-- A history of operations.
Any sequence of the calls `spherical_micro_batcher.hpp:483-511`. -/
def BWorld.run : List (BOp F) → BWorld F → Outcome (BWorld F)
  | [], w => .ok w
  | o :: os, w => w.step o >>= BWorld.run os

/-- What a client sees through a batcher.
`spherical_micro_batcher.hpp:487-511`. -/
def BWorld.view (w : BWorld F) (h : Nat) : Option (Batcher F) := do
  let b ← w.handles[h]?
  let a ← b.quad
  let q ← w.quads[a]?
  pure ⟨b.maxBatch, q, b.partIdx⟩

end

end IntegratorXX
