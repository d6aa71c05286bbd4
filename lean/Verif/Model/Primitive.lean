import Verif.Base
import Verif.Arith
import Verif.Model.Quadrature

/-!
# Primitive one-dimensional quadratures
(`/repo/include/integratorxx/quadratures/primitive/*.hpp`, `util/legendre.hpp`)
-/

namespace IntegratorXX

variable {F : Type} [Add F] [Sub F] [Mul F] [Div F] [Neg F] [Arith F]

open Arith

/-- `gausschebyshev1.hpp:57-97`, `quadrature_traits<GaussChebyshev1>::generate`.
`i - 1` is a natural number subtraction because `i = npts - idx ≥ 1` inside the loop. -/
def gaussChebyshev1 (npts : Nat) : Outcome (List F × List F) := do
  let points : List F := List.replicate npts (lit 0)
  let weights : List F := List.replicate npts (lit 0)
  let pi_ov_npts : F := pi / ofNat npts
  let pi_ov_2npts : F := pi_ov_npts / lit 2
  let (points, weights) ← forRange 0 (npts / 2) (fun idx (s : List F × List F) => do
    let i := npts - idx
    let ti := (lit 2 * ofNat i - lit 1) * pi_ov_2npts
    let xi := cos ti
    let wi := pi_ov_npts
    let wi := wi * sqrt (lit 1 - xi * xi)
    let points ← vset s.1 idx xi
    let weights ← vset s.2 idx wi
    let points ← vset points (i - 1) (-xi)
    let weights ← vset weights (i - 1) wi
    pure (points, weights)) (points, weights)
  if npts % 2 ≠ 0 then
    let points ← vset points (npts / 2) (lit 0)
    let weights ← vset weights (npts / 2) pi_ov_npts
    pure (points, weights)
  else pure (points, weights)

/-- `gausschebyshev2.hpp:62-99`, `quadrature_traits<GaussChebyshev2>::generate`. -/
def gaussChebyshev2 (npts : Nat) : Outcome (List F × List F) := do
  let pi_ov_npts_p_1 : F := pi / ofNat (npts + 1)
  let weights : List F := List.replicate npts (lit 0)
  let points : List F := List.replicate npts (lit 0)
  let (points, weights) ← forRange 0 (npts / 2) (fun idx (s : List F × List F) => do
    let i := npts - idx
    let ti := ofNat i * pi_ov_npts_p_1
    let xi := cos ti
    let wi := pi_ov_npts_p_1 * sqrt (lit 1 - xi * xi)
    let points ← vset s.1 idx xi
    let weights ← vset s.2 idx wi
    let points ← vset points (i - 1) (-xi)
    let weights ← vset weights (i - 1) wi
    pure (points, weights)) (points, weights)
  if npts % 2 ≠ 0 then
    let points ← vset points (npts / 2) (lit 0)
    let weights ← vset weights (npts / 2) pi_ov_npts_p_1
    pure (points, weights)
  else pure (points, weights)

/-- `gausschebyshev2modified.hpp:61-98`, `quadrature_traits<GaussChebyshev2Modified>::generate`.
`npts + 1` is an integer sum in line 62 and a floating point sum in lines 84 and 94. -/
def gaussChebyshev2Modified (npts : Nat) : Outcome (List F × List F) := do
  let oonpp : F := lit 1 / ofNat (npts + 1)
  let points : List F := List.replicate npts (lit 0)
  let weights : List F := List.replicate npts (lit 0)
  let (points, weights) ← forRange 0 (npts / 2) (fun idx (s : List F × List F) => do
    let i := npts - idx
    let ti := ofNat i * pi * oonpp
    let sine := sin ti
    let sinesq := sine * sine
    let cosine := cos ti
    let points ← vset s.1 idx
      (lit 1 - lit 2 * ofNat i * oonpp
        + twoOverPi * (lit 1 + lit 2 / lit 3 * sinesq) * cosine * sine)
    let weights ← vset s.2 idx (lit 16 / lit 3 / (ofNat npts + lit 1) * sinesq * sinesq)
    let pidx ← vget points idx
    let points ← vset points (i - 1) (-pidx)
    let widx ← vget weights idx
    let weights ← vset weights (i - 1) widx
    pure (points, weights)) (points, weights)
  if npts % 2 ≠ 0 then
    let points ← vset points (npts / 2) (lit 0)
    let weights ← vset weights (npts / 2) (lit 16 / lit 3 / (ofNat npts + lit 1))
    pure (points, weights)
  else pure (points, weights)

/-- `gausschebyshev3.hpp:57-84`, `quadrature_traits<GaussChebyshev3>::generate`.
`2 * npts + 1` (line 58) and `2 * i - 1` (line 69, with `i ≥ 1`) are integer expressions. -/
def gaussChebyshev3 (npts : Nat) : Outcome (List F × List F) := do
  let pi_ov_2n_p_1 : F := pi / ofNat (2 * npts + 1)
  let weights : List F := List.replicate npts (lit 0)
  let points : List F := List.replicate npts (lit 0)
  forRange 0 npts (fun idx (s : List F × List F) => do
    let i := npts - idx
    let ti := lit (1/2) * ofNat (2 * i - 1) * pi_ov_2n_p_1
    let cti := cos ti
    let xi := cti * cti
    let wi := lit 2 * pi_ov_2n_p_1 * xi
    let wi := wi * sqrt ((lit 1 - xi) / xi)
    let points ← vset s.1 idx xi
    let weights ← vset s.2 idx wi
    pure (points, weights)) (points, weights)

/-- `util/legendre.hpp:20-39`, `eval_Pn`: returns `(p_n, dp_n, p_n_m1)`.  The loop cannot
fail, so it is a plain fold over `m = 1, …, n` on the state `(p_n, p_n_m1, p_n_m2)`. -/
def evalPn (x : F) (n : Nat) : F × F × F :=
  let s := (List.range' 1 n).foldl (fun (s : F × F × F) m =>
      let p_n_m2 := s.2.1
      let p_n_m1 := s.1
      (((lit 2 * ofNat m - lit 1) * x * p_n_m1 - (ofNat m - lit 1) * p_n_m2) / ofNat m,
        p_n_m1, p_n_m2)) (lit 1, lit 0, lit 0)
  let p_n := s.1
  let p_n_m1 := s.2.1
  let dp_n := (x * p_n - p_n_m1) * (ofNat n / (x * x - lit 1))
  (p_n, dp_n, p_n_m1)

/-- The Newton loop `gausslegendre.hpp:68-81`: `it` iterations are left, the current iterate
is `z`.  Returns the accepted `z` and the derivative `dp_n` evaluated at the *previous*
iterate (the variable `dp_n` as left by the loop), or `none` when the iterations are used up. -/
def glNewton (npts : Nat) : Nat → F → Option (F × F)
  | 0, _ => none
  | it + 1, z =>
    let e := evalPn z npts
    let p_n := e.1
    let dp_n := e.2.1
    let z_old := z
    let z := z - p_n / dp_n
    if le (abs (z - z_old)) eps then some (z, dp_n) else glNewton npts it z

/-- The message of `gausslegendre.hpp:85`. -/
def glMsg : String := "Gauss-Legendre Newton Iterations Failed to Converge"

/-- Body of the outer loop, `gausslegendre.hpp:54-101`.
`npts - 1 - idx` does not wrap since `idx < mid ≤ npts`. -/
def glStep (npts idx : Nat) (s : List F × List F) : Outcome (List F × List F) :=
  let i : F := ofNat (idx + 1)
  let z := cos (pi * (i - lit (1/4)) / (ofNat npts + lit (1/2)))
  match glNewton npts 100 z with
  | none => .throws (.runtimeError glMsg)
  | some (z, dp_n) => do
    let pt := z
    let wgt := lit 2 / ((lit 1 - z * z) * dp_n * dp_n)
    let points ← vset s.1 idx (-pt)
    let weights ← vset s.2 idx wgt
    let points ← vset points (npts - 1 - idx) pt
    let weights ← vset weights (npts - 1 - idx) wgt
    pure (points, weights)

/-- `gausslegendre.hpp:43-103`, `quadrature_traits<GaussLegendre>::generate`. -/
def gaussLegendre (npts : Nat) : Outcome (List F × List F) :=
  let points : List F := List.replicate npts (lit 0)
  let weights : List F := List.replicate npts (lit 0)
  let mid := (npts + 1) / 2
  forRange 0 mid (glStep npts) (points, weights)

/-- The Newton loop `gausslobatto.hpp:60-77`; returns the accepted `z` and the value `p_nm1`
evaluated at the previous iterate. -/
def lobNewton (npts : Nat) : Nat → F → Option (F × F)
  | 0, _ => none
  | it + 1, z =>
    let e := evalPn z (npts - 1)
    let p_nm1 := e.1
    let p_nm2 := e.2.2
    let z_old := z
    let z := z - (z * p_nm1 - p_nm2) / (ofNat npts * p_nm1)
    if le (abs (z - z_old)) eps then some (z, p_nm1) else lobNewton npts it z

/-- The message of `gausslobatto.hpp:81`. -/
def lobMsg : String := "Gauss-Lobatto Newton Iterations Failed to Converge"

/-- Body of the outer loop, `gausslobatto.hpp:48-95`.
`npts - 1 - idx` in lines 49, 93, 94 does not wrap (`1 ≤ idx < mid`); the size argument
`npts - 1` of line 62 is only evaluated here, where `npts ≥ 3`. -/
def lobStep (npts : Nat) (two_ov_nnm1 : F) (idx : Nat) (s : List F × List F) :
    Outcome (List F × List F) :=
  let i : F := ofNat (npts - 1 - idx)
  let z := cos (i * pi / (ofNat npts - lit 1))
  match lobNewton npts 100 z with
  | none => .throws (.runtimeError lobMsg)
  | some (z, p_nm1) => do
    let pt := z
    let wgt := two_ov_nnm1 / (p_nm1 * p_nm1)
    let points ← vset s.1 idx pt
    let weights ← vset s.2 idx wgt
    let points ← vset points (npts - 1 - idx) (-pt)
    let weights ← vset weights (npts - 1 - idx) wgt
    pure (points, weights)

/-- `gausslobatto.hpp:33-109`, `quadrature_traits<GaussLobatto>::generate`.
The index `npts - 1` of lines 100-101 wraps for `npts = 0`, hence `subWrap`. -/
def gaussLobatto (npts : Nat) : Outcome (List F × List F) := do
  let points : List F := List.replicate npts (lit 0)
  let weights : List F := List.replicate npts (lit 0)
  let two_ov_nnm1 : F := lit 2 / (ofNat npts * (ofNat npts - lit 1))
  let mid := (npts + 1) / 2
  let (points, weights) ← forRange 1 mid (lobStep npts two_ov_nnm1) (points, weights)
  let points ← vset points 0 (-(lit 1))
  let weights ← vset weights 0 two_ov_nnm1
  let points ← vset points (subWrap npts 1) (lit 1)
  let weights ← vset weights (subWrap npts 1) two_ov_nnm1
  if npts % 2 = 1 then
    let points ← vset points (npts / 2) (lit 0)
    pure (points, weights)
  else pure (points, weights)

/-- `uniform.hpp:48-64`, `quadrature_traits<UniformTrapezoid>::generate(npts, lo, up)`.
`npts_use = npts - 1` wraps for `npts = 0`.  The loop condition is `i <= npts_use`, i.e.
`npts_use + 1` iterations; for `npts = 0` it never becomes false, but the first iteration
already writes out of range.  `front()`/`back()` of an empty vector are undefined. -/
def uniformTrapezoid (npts : Nat) (lo up : F) : Outcome (List F × List F) := do
  let npts_use := subWrap npts 1
  let delta_x := (up - lo) / ofNat npts_use
  let points : List F := List.replicate npts (lit 0)
  let weights : List F := List.replicate npts delta_x
  let points ← forRange 0 (npts_use + 1)
    (fun i (points : List F) => vset points i (lo + ofNat i * delta_x)) points
  let w0 ← vget weights 0
  let weights ← vset weights 0 (w0 * lit (1/2))
  let wb ← vget weights (weights.length - 1)
  let weights ← vset weights (weights.length - 1) (wb * lit (1/2))
  pure (points, weights)

/-- `uniform.hpp:66-67`, the one-argument overload on `[0,1]`. -/
def uniformTrapezoid01 (npts : Nat) : Outcome (List F × List F) :=
  uniformTrapezoid npts (lit 0) (lit 1)

end IntegratorXX
