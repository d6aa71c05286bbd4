import Verif.Model.Quadrature
import Verif.Arith

/-!
# Composite quadratures (`/repo/include/integratorxx/composite_quadratures/*.hpp`)
-/

namespace IntegratorXX

open Arith

/-- `cartesian_pt_t<RealType> = std::array<RealType,3>` (`types.hpp`). -/
structure Pt (F : Type) where
  x : F
  y : F
  z : F
deriving DecidableEq, Repr

/-! ## Product quadrature -/

/-- Body of the double loop of `product_quadrature.hpp:82-89`. -/
def productStep {P₁ P₂ P W₁ W₂ W : Type} (opP : P₁ → P₂ → P) (opW : W₁ → W₂ → W)
    (q1 : Quad P₁ W₁) (q2 : Quad P₂ W₂) (ij i j : Nat) (s : List P × List W) :
    Outcome (List P × List W) := do
  let p1 ← vget q1.points i
  let p2 ← vget q2.points j
  let points ← vset s.1 ij (opP p1 p2)
  let w1 ← vget q1.weights i
  let w2 ← vget q2.weights j
  let weights ← vset s.2 ij (opW w1 w2)
  pure (points, weights)

/-- `product_quadrature.hpp:65-92`, `quadrature_traits<ProductQuadrature>::generate`.
`opP`/`opW` are the overloads of `CombineOp` for points and weights; `p0`/`w0` are the
value-initialised elements.  `npts1 * npts2` is assumed not to overflow `size_t`. -/
def productGenerate {P₁ P₂ P W₁ W₂ W : Type} (opP : P₁ → P₂ → P) (opW : W₁ → W₂ → W)
    (p0 : P) (w0 : W) (q1 : Quad P₁ W₁) (q2 : Quad P₂ W₂) : Outcome (List P × List W) :=
  let npts1 := q1.npts
  let npts2 := q2.npts
  let npts := npts1 * npts2
  forRange 0 npts2 (fun j s =>
    forRange 0 npts1 (fun i s => productStep opP opW q1 q2 (i + j * npts1) i j s) s)
    (List.replicate npts p0, List.replicate npts w0)

/-! ## Spherical quadrature -/

section
variable {F : Type} [Add F] [Sub F] [Mul F] [Arith F]

/-- `spherical_combine_op::operator()` on points, `spherical_quadrature.hpp:14-17`. -/
def combinePt (r : F) (a : Pt F) : Pt F := ⟨r * a.x, r * a.y, r * a.z⟩

/-- `spherical_combine_op::operator()` on weights, `spherical_quadrature.hpp:19-21`. -/
def combineWt (x y : F) : F := x * y

/-- Body of the Jacobian loop, `spherical_quadrature.hpp:228-229` (same code
`pruned_spherical_quadrature.hpp:291-292`). -/
def jacobianStep (rp : List F) (ij i : Nat) (weights : List F) : Outcome (List F) := do
  let r ← vget rp i
  let w ← vget weights ij
  vset weights ij (w * (r * r))

/-- The Jacobian loop, `spherical_quadrature.hpp:224-231`,
`pruned_spherical_quadrature.hpp:287-294`. -/
def jacobianLoop (rp : List F) (npr npa : Nat) (weights : List F) : Outcome (List F) :=
  forRange 0 npa (fun j s => forRange 0 npr (fun i s => jacobianStep rp (i + j * npr) i s) s)
    weights

/-- `p[k] += v[k]`.
`spherical_quadrature.hpp:65-70`, `196-206`. -/
def shiftPt (v p : Pt F) : Pt F := ⟨p.x + v.x, p.y + v.y, p.z + v.z⟩

/-- The in-place translation loop: `shift_grid` (`spherical_quadrature.hpp:196-206`,
`pruned_spherical_quadrature.hpp:249-259`) and the loop in `recenter`
(`spherical_quadrature.hpp:65-70`). -/
def shiftGrid (v : Pt F) (points : List (Pt F)) : Outcome (List (Pt F)) :=
  forRange 0 points.length (fun i (s : List (Pt F)) => do
    let p ← vget s i
    vset s i (shiftPt v p)) points

/-- `product_quadrature.hpp:65-92` at the spherical combine operation. -/
def sphProduct (r : Quad F F) (a : Quad (Pt F) F) : Outcome (List (Pt F) × List F) :=
  productGenerate combinePt combineWt ⟨lit 0, lit 0, lit 0⟩ (lit 0) r a

/-- `spherical_quadrature.hpp:210-238`, `quadrature_traits<SphericalQuadrature>::generate`. -/
def sphGenerate (r : Quad F F) (a : Quad (Pt F) F) (cen : Pt F) :
    Outcome (List (Pt F) × List F) := do
  let (points, weights) ← sphProduct r a
  let weights ← jacobianLoop r.points r.npts a.npts weights
  let points ← shiftGrid cen points
  pure (points, weights)

/-- The data of a `SphericalQuadrature` / `PrunedSphericalQuadrature` object:
its `Quadrature` base and the `center_` of `SphericalQuadratureBase`
(`spherical_quadrature.hpp:40`). -/
structure SphQuad (F : Type) where
  quad : Quad (Pt F) F
  center : Pt F
deriving DecidableEq, Repr

/-- `SphericalQuadrature(rq, aq, cen)`, `spherical_quadrature.hpp:147-153`. -/
def sphConstruct (b : Build) (r : Quad F F) (a : Quad (Pt F) F) (cen : Pt F) :
    Outcome (SphQuad F) := do
  let q ← construct b (sphGenerate r a cen)
  pure ⟨q, cen⟩

/-- `operator==` of `std::array<F,3>`.
Used at `spherical_quadrature.hpp:57`. -/
def ptEq (p q : Pt F) : Bool := eq p.x q.x && eq p.y q.y && eq p.z q.z

/-- `recenter`, `spherical_quadrature.hpp:55-75`. -/
def recenter (newc : Pt F) (s : SphQuad F) : Outcome (SphQuad F) :=
  if !ptEq newc s.center then do
    let shift : Pt F := ⟨newc.x - s.center.x, newc.y - s.center.y, newc.z - s.center.z⟩
    let points ← shiftGrid shift s.quad.points
    pure ⟨⟨points, s.quad.weights⟩, newc⟩
  else .ok s

/-- A history of `recenter` calls.
Repeated calls of `spherical_quadrature.hpp:55-75`. -/
def recenterAll : List (Pt F) → SphQuad F → Outcome (SphQuad F)
  | [], s => .ok s
  | c :: cs, s => recenter c s >>= recenterAll cs

end

/-! ## Sub-quadratures -/

/-- `std::vector(v.begin() + i, v.begin() + j)`: forming an iterator past the end, or a reversed
range, is undefined behaviour.
`sub_quadrature.hpp:56-59`, `spherical_micro_batcher.hpp:288-303`. -/
def vrange {α : Type u} (v : List α) (i j : Nat) : Outcome (List α) :=
  if i ≤ j ∧ j ≤ v.length then .ok ((v.take j).drop i) else .ub

/-- `sub_quadrature.hpp:47-62`, `quadrature_traits<SubQuadrature>::generate`.  The two
assertions `>= 0` on unsigned values are always true. -/
def subGenerate {P W : Type} (b : Build) (range : Nat × Nat) (q : Quad P W) :
    Outcome (List P × List W) := do
  cassert b (range.1 ≤ q.npts)
  cassert b (range.2 ≤ q.npts)
  cassert b (range.1 < range.2)
  let points ← vrange q.points range.1 range.2
  let weights ← vrange q.weights range.1 range.2
  pure (points, weights)

/-- `SubQuadrature(idx_range, quad)`, `sub_quadrature.hpp:27-28`. -/
def subConstruct {P W : Type} (b : Build) (range : Nat × Nat) (q : Quad P W) :
    Outcome (Quad P W) := construct b (subGenerate b range q)

/-! ## Radial grid partitions -/

/-- `RadialGridPartition` (`pruned_spherical_quadrature.hpp:13-149`): its two vectors.  The
angular quadrature type is a parameter, as only values of it are stored. -/
structure Partition (A : Type) where
  idx : List Nat
  quads : List A
deriving DecidableEq, Repr

namespace Partition
variable {A : Type}

/-- Default construction, `pruned_spherical_quadrature.hpp:54`. -/
def empty : Partition A := ⟨[], []⟩

/-- `add_quad`, `pruned_spherical_quadrature.hpp:34-43`; `npts` is `rq.npts()`.  The
subtraction wraps around. -/
def addQuad (b : Build) (npts : Nat) (i : Nat) (q : A) (p : Partition A) :
    Outcome (Partition A) := do
  cassert b (match p.idx.getLast? with
    | some back => decide (i > back) && decide (i < subWrap npts 1)
    | none => i == 0)
  pure ⟨p.idx ++ [i], p.quads ++ [q]⟩

/-- `finalize`, `pruned_spherical_quadrature.hpp:46-50`; `back()` of an empty vector is
undefined. -/
def finalize (npts : Nat) (p : Partition A) : Outcome (Partition A) :=
  match p.idx.getLast? with
  | some back => if back ≠ npts then .ok ⟨p.idx ++ [npts], p.quads⟩ else .ok p
  | none => .ub

/-- The sequence of `add_quad` calls made by `add_quads`
(`pruned_spherical_quadrature.hpp:21-28`) or by the pruning code
(`generators/impl/pruned_grid.hpp:15-40`). -/
def addAll (b : Build) (npts : Nat) : List (Nat × A) → Partition A → Outcome (Partition A)
  | [], p => .ok p
  | (i, q) :: rest, p => addQuad b npts i q p >>= addAll b npts rest

/-- The variadic constructor, `pruned_spherical_quadrature.hpp:73-77` with `add_quads` (18-28):
all regions, then `finalize`. -/
def make (b : Build) (npts : Nat) (regions : List (Nat × A)) : Outcome (Partition A) :=
  addAll b npts regions empty >>= finalize npts

/-- The loop of a range-`for` from the iterator position `(i, j)`:
`operator!=`, `operator*` and `operator++` of `rgp_iterator`
(`pruned_spherical_quadrature.hpp:92-120`) against `end()` (139-148).  Dereferencing
reads `idx[i]`, `idx[i+1]` and `quads[j]`. -/
def loopFrom {σ : Type} (p : Partition A) (body : (Nat × Nat) × A → σ → Outcome σ)
    (i j : Nat) (s : σ) : Outcome σ :=
  if i = p.idx.length - 1 ∧ j = p.quads.length then .ok s
  else if h : i + 1 < p.idx.length ∧ j < p.quads.length then
    body ((p.idx[i]'(by omega), p.idx[i + 1]'h.1), p.quads[j]'h.2) s >>= fun s' =>
      loopFrom p body (i + 1) (j + 1) s'
  else .ub
termination_by p.idx.length - i

/-- `for (const auto&& [range, a] : std::as_const(rgp)) body`;
`begin()`/`end()` of `pruned_spherical_quadrature.hpp:136-148`.  `cend()-1` on an empty index
vector is undefined. -/
def forEach {σ : Type} (p : Partition A) (body : (Nat × Nat) × A → σ → Outcome σ) (s : σ) :
    Outcome σ :=
  if p.idx.length = 0 then .ub else loopFrom p body 0 0 s

/-- What an iteration over the partition visits.
Client loop over `pruned_spherical_quadrature.hpp:136-148`, as in 273-299. -/
def visited (p : Partition A) : Outcome (List ((Nat × Nat) × A)) :=
  forEach p (fun e acc => .ok (acc ++ [e])) []

end Partition

/-! ## Pruned spherical quadrature -/

section
variable {F : Type} [Add F] [Sub F] [Mul F] [Arith F]

/-- Body of the region loop, `pruned_spherical_quadrature.hpp:273-299`. -/
def prunedStep (b : Build) (r : Quad F F) (e : (Nat × Nat) × Quad (Pt F) F)
    (s : List (Pt F) × List F) : Outcome (List (Pt F) × List F) := do
  let r_subquad ← subConstruct b e.1 r
  let (sub_points, sub_weights) ← sphProduct r_subquad e.2
  let sub_weights ← jacobianLoop r_subquad.points r_subquad.npts e.2.npts sub_weights
  pure (s.1 ++ sub_points, s.2 ++ sub_weights)

/-- `pruned_spherical_quadrature.hpp:262-307`,
`quadrature_traits<PrunedSphericalQuadrature>::generate`. -/
def prunedGenerate (b : Build) (r : Quad F F) (rgp : Partition (Quad (Pt F) F)) (cen : Pt F) :
    Outcome (List (Pt F) × List F) := do
  let (points, weights) ← rgp.forEach (prunedStep b r) ([], [])
  let points ← shiftGrid cen points
  pure (points, weights)

/-- `PrunedSphericalQuadrature(rq, rgp, cen)`, `pruned_spherical_quadrature.hpp:194-200`. -/
def prunedConstruct (b : Build) (r : Quad F F) (rgp : Partition (Quad (Pt F) F)) (cen : Pt F) :
    Outcome (SphQuad F) := do
  let q ← construct b (prunedGenerate b r rgp cen)
  pure ⟨q, cen⟩

end

end IntegratorXX
