import Verif.Model.BatcherShare

/-!
# Where the quadrature objects of a program come from, as prescribed by its operations alone
-/

namespace IntegratorXX.Spec

/-- `origin a`: the quadrature of the beginning that object `a` descends from (`none` once it was moved from).
`handle h`: the object a batcher uses (`none` once moved from), and whether its batches were generated by the library
(and not given by the program). -/
structure Lineage where
  origin : List (Option Nat)
  handle : List (Option (Nat × Bool))

/-- Effect of an operation: copies and clones descend from the same quadrature, `share` uses the object itself. -/
def Lineage.step {F : Type} (s : Lineage) : SOp F → Lineage
  | .share a _ => ⟨s.origin, s.handle ++ [some (a, true)]⟩
  | .shareIdx a _ _ => ⟨s.origin, s.handle ++ [some (a, false)]⟩
  | .fromCopy a _ => ⟨s.origin ++ [s.origin[a]?.join], s.handle ++ [some (s.origin.length, true)]⟩
  | .fromCopyIdx a _ _ => ⟨s.origin ++ [s.origin[a]?.join], s.handle ++ [some (s.origin.length, false)]⟩
  | .fromMove a _ => ⟨s.origin.set a none ++ [s.origin[a]?.join], s.handle ++ [some (s.origin.length, true)]⟩
  | .fromMoveIdx a _ _ => ⟨s.origin.set a none ++ [s.origin[a]?.join], s.handle ++ [some (s.origin.length, false)]⟩
  | .recenterQuad _ _ => s
  | .batcher (.copy h) => ⟨s.origin, s.handle ++ [s.handle[h]?.join]⟩
  | .batcher (.move h) => ⟨s.origin, s.handle.set h none ++ [s.handle[h]?.join]⟩
  | .batcher (.clone h) =>
    match s.handle[h]?.join with
    | none => s
    | some (a, g) => ⟨s.origin ++ [s.origin[a]?.join], s.handle ++ [some (s.origin.length, g)]⟩
  | .batcher (.recenter _ _) => s

/-- The lineage after a history that starts with `n` quadratures and no batchers. -/
def lineage {F : Type} (n : Nat) (ops : List (SOp F)) : Lineage :=
  ops.foldl Lineage.step ⟨(List.range n).map some, []⟩

/-- The entries of a quadrature moved to another centre. -/
def movedTo (q : SphQuad ℝ) (c : Pt ℝ) : List (Pt ℝ × ℝ) :=
  (q.quad.points.zip q.quad.weights).map (fun e =>
    (⟨e.1.x + (c.x - q.center.x), e.1.y + (c.y - q.center.y), e.1.z + (c.z - q.center.z)⟩, e.2))

end IntegratorXX.Spec
