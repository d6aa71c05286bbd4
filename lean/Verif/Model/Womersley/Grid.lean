/-!
# The format of the Womersley tables

A separate file without dependencies, so that the tables need nothing else.
-/

namespace IntegratorXX

/-- The array `points` of a file: the number of points, the number `s` of decimals, the number `h` of
hexadecimal digits of a coordinate, and the coordinates (in units of `10^-s`, with `10^s` added) of 64
points at a time, first point in the lowest digits, in the order x, y, z.
`s2/womersley/womersley_<n>.hpp`, from line 13. -/
structure WoGrid where
  npts : Nat
  s : Nat
  h : Nat
  chunks : List Nat

/-- The lowest `3k` digits of `v` in base `b` in groups of three.
Part of the encoding of `s2/womersley/*.hpp`. -/
def woDigits (b : Nat) : Nat → Nat → List (Nat × Nat × Nat)
  | 0, _ => []
  | k + 1, v => (v % b, v / b % b, v / b / b % b) :: woDigits b k (v / b / b / b)

/-- The digits of `n` points from numbers of 64 points each. -/
def woRaw (b : Nat) : Nat → List Nat → List (List (Nat × Nat × Nat))
  | _, [] => []
  | n, v :: vs => woDigits b (min n 64) v :: woRaw b (n - 64) vs

end IntegratorXX
