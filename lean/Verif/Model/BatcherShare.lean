import Verif.Model.Batcher

/-!
# Programs that build several batchers from the same quadrature objects

`BWorld` (`Verif.Model.Batcher`) with all constructors of `SphericalMicroBatcher`.  A quadrature object is an address
in `BWorld.quads`; the program may hold it itself, through `std::shared_ptr` or by value.
-/

namespace IntegratorXX

open Arith

/-- What a program can do with quadrature objects and batchers.
`spherical_micro_batcher.hpp:395-511`. -/
inductive SOp (F : Type) where
  /-- `SphericalMicroBatcher(m, shared_ptr)`, `spherical_micro_batcher.hpp:400-405` -/
  | share (a m : Nat)
  /-- `SphericalMicroBatcher(m, shared_ptr, idx)`, 396-398: the indices are stored as given -/
  | shareIdx (a m : Nat) (idx : List Nat)
  /-- `SphericalMicroBatcher(m, const Quad&)`, 416-421 -/
  | fromCopy (a m : Nat)
  /-- `SphericalMicroBatcher(m, const Quad&, idx)`, 424-430 -/
  | fromCopyIdx (a m : Nat) (idx : List Nat)
  /-- `SphericalMicroBatcher(m, Quad&&)`, 432-437 -/
  | fromMove (a m : Nat)
  /-- `SphericalMicroBatcher(m, Quad&&, idx)`, 440-446 -/
  | fromMoveIdx (a m : Nat) (idx : List Nat)
  /-- `recenter` on the quadrature object itself, `spherical_quadrature.hpp:55-75` -/
  | recenterQuad (a : Nat) (c : Pt F)
  /-- copy, move, clone and `recenter` of a batcher -/
  | batcher (o : BOp F)

/-- What moving out of a quadrature leaves behind: empty vectors (the move constructor of `std::vector`), and a copied
centre (`std::array`).
`spherical_micro_batcher.hpp:432-446`; the moved members are those of `quadrature.hpp` and `spherical_quadrature.hpp:40`. -/
def movedFrom {F : Type} (q : SphQuad F) : SphQuad F := ⟨⟨[], []⟩, q.center⟩

section
variable {F : Type} [Add F] [Sub F] [Mul F] [Div F] [Arith F]

/-- Effect of an operation; `none` when `generate_batches` is not done within `fuel` iterations.  Using an address that
does not exist stands for dereferencing a null pointer.
`spherical_micro_batcher.hpp:395-511`, `637-665`. -/
def BWorld.sstep (part : PartitionFn F) (fuel : Nat) (w : BWorld F) : SOp F → Option (Outcome (BWorld F))
  | .share a m =>
    match w.quads[a]? with
    | none => some .ub
    | some q => (Batcher.make part fuel m q).map (fun r => do
        let b ← r
        pure ⟨w.quads.set a b.quad, w.handles ++ [⟨m, some a, b.partIdx⟩]⟩)
  | .shareIdx a m idx =>
    match w.quads[a]? with
    | none => some .ub
    | some _ => some (.ok ⟨w.quads, w.handles ++ [⟨m, some a, idx⟩]⟩)
  | .fromCopy a m =>
    match w.quads[a]? with
    | none => some .ub
    | some q => (Batcher.make part fuel m q).map (fun r => do
        let b ← r
        pure ⟨w.quads ++ [b.quad], w.handles ++ [⟨m, some w.quads.length, b.partIdx⟩]⟩)
  | .fromCopyIdx a m idx =>
    match w.quads[a]? with
    | none => some .ub
    | some q => some (.ok ⟨w.quads ++ [q], w.handles ++ [⟨m, some w.quads.length, idx⟩]⟩)
  | .fromMove a m =>
    match w.quads[a]? with
    | none => some .ub
    | some q => (Batcher.make part fuel m q).map (fun r => do
        let b ← r
        pure ⟨w.quads.set a (movedFrom q) ++ [b.quad], w.handles ++ [⟨m, some w.quads.length, b.partIdx⟩]⟩)
  | .fromMoveIdx a m idx =>
    match w.quads[a]? with
    | none => some .ub
    | some q => some (.ok ⟨w.quads.set a (movedFrom q) ++ [q], w.handles ++ [⟨m, some w.quads.length, idx⟩]⟩)
  | .recenterQuad a c =>
    match w.quads[a]? with
    | none => some .ub
    | some q => some (do
        let q' ← IntegratorXX.recenter c q
        pure ⟨w.quads.set a q', w.handles⟩)
  | .batcher o => some (w.step o)

/-- A history of operations.
Any sequence of the calls `spherical_micro_batcher.hpp:395-511`. -/
def BWorld.srun (part : PartitionFn F) (fuel : Nat) : List (SOp F) → BWorld F → Option (Outcome (BWorld F))
  | [], w => some (.ok w)
  | o :: os, w =>
    match w.sstep part fuel o with
    | some (.ok w') => BWorld.srun part fuel os w'
    | r => r

end

end IntegratorXX
