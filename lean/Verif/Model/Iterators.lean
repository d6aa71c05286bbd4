import Verif.Model.Batcher

/-!
# Iterator variables

The iterators of `SphericalMicroBatcher` and of `RadialGridPartition` as variables of a program.  An iterator is the
position of its `idx_it` in the index vector of length `len`; the other members of the batcher's iterator do not change,
and `quad_it` of `rgp_iterator` moves in step with `idx_it`.
-/

namespace IntegratorXX

/-- What a program does with its iterator variables (new variables are appended).
`spherical_micro_batcher.hpp:271-281`, `pruned_spherical_quadrature.hpp:99-110`. -/
inductive ItOp where
  /-- `++v`, `spherical_micro_batcher.hpp:271`, `pruned_spherical_quadrature.hpp:99` -/
  | preInc (v : Nat)
  /-- `auto u = v++`, `spherical_micro_batcher.hpp:272-276`, `pruned_spherical_quadrature.hpp:100-104` -/
  | postInc (v : Nat)
  /-- `auto u = v + i`, `spherical_micro_batcher.hpp:278-281`, `pruned_spherical_quadrature.hpp:106-110`: the operator
  is a member that is not `const`, moves the iterator and returns a reference to it; `u` is a copy of that -/
  | plus (v : Nat) (i : Int)
  /-- `auto u = v` -/
  | copy (v : Nat)

/-- `idx_it += i`: a position outside `[0, len]` is undefined.
`spherical_micro_batcher.hpp:271-281`, `pruned_spherical_quadrature.hpp:99-110`. -/
def itMove (len : Nat) (i : Int) (p : Nat) : Outcome Nat :=
  if 0 ≤ (p : Int) + i ∧ (p : Int) + i ≤ len then .ok ((p : Int) + i).toNat else .ub

/-- Effect on the variables. -/
def itStep (len : Nat) (s : List Nat) : ItOp → Outcome (List Nat)
  | .preInc v => do
    let p ← vget s v
    let p' ← itMove len 1 p
    vset s v p'
  | .postInc v => do
    let p ← vget s v
    let p' ← itMove len 1 p
    let s ← vset s v p'
    pure (s ++ [p])
  | .plus v i => do
    let p ← vget s v
    let p' ← itMove len i p
    let s ← vset s v p'
    let u ← vget s v
    pure (s ++ [u])
  | .copy v => do
    let p ← vget s v
    pure (s ++ [p])

section
variable {F : Type} [Arith F]

/-- Body of the loop of `neighbourLoop`: what is appended to `out`, and the position of `it` afterwards.  Variable 0 is
`it`, variable 1 (made by `plus`) is `next`.
Client of `spherical_micro_batcher.hpp:254-320`. -/
def neighbourBody (b : Batcher F) (it : Nat) : Outcome (List (Batch F × Batch F) × Nat) := do
  let len := b.partIdx.length
  let s ← itStep len [it] (.plus 0 1)
  let it ← vget s 0
  let next ← vget s 1
  let here ←
    if next ≠ len - 1 then do
      let x ← b.deref it
      let y ← b.deref next
      pure [(x, y)]
    else pure []
  let s ← itStep len s (.preInc 0)
  let it ← vget s 0
  pure (here, it)

/-- A client that looks at neighbouring batches:
`for (auto it = b.begin(); it != b.end(); ++it) { auto next = it + 1; if (next != b.end()) out.push_back({*it, *next}); }`,
run with `fuel` for the loop; the index vector must not be empty.
Client of `spherical_micro_batcher.hpp:254-320`. -/
def neighbourLoop (b : Batcher F) : Nat → Nat → List (Batch F × Batch F) → Option (Outcome (List (Batch F × Batch F)))
  | 0, _, _ => none
  | fuel + 1, it, out =>
    if it = b.partIdx.length - 1 then some (.ok out)
    else match neighbourBody b it with
      | .ok (here, it) => neighbourLoop b fuel it (out ++ here)
      | .throws e => some (.throws e)
      | .assertFail => some .assertFail
      | .ub => some .ub

end

end IntegratorXX
