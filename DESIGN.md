# Formal model of IntegratorXX: design

The code under study is the C++ header library in `/repo` (IntegratorXX).  It is
read as text only; nothing is compiled or run.  The Lean project in `lean/`
models the library function by function and proves the properties listed in
`properties.jsonl`.

## 1. Modelling conventions

* **Outcomes.**  Every C++ operation that can fail is a function into
  `Outcome α`: `ok a`, `throws e` (C++ exception `e`), `assertFail`
  (a failing `assert` in a build without `NDEBUG`), `ub` (undefined behaviour,
  e.g. an out-of-range vector access).  A `Build` flag says whether asserts are
  compiled in.  Loops that need not terminate (`while` in the batcher) are
  modelled by an iteration function together with a fuel-indexed run; "hangs"
  means no fuel suffices.
* **Vectors** are `List`s; `v[i]` reads/writes go through `vget`/`vset`, which
  return `ub` out of range.  `.at(i)` throws `out_of_range`.
  `for` loops are `forRange lo hi body`, the literal imperative loop.
* **size_t** is `Nat`; where the code subtracts and may wrap (`npts-1` in
  `UniformTrapezoid` and `RadialGridPartition::add_quad`, `size()-1` in the
  batcher) wrap-around modulo 2^64 is explicit (`subWrap`).  Sizes are otherwise
  assumed to be far from 2^64 (memory exhaustion is not modelled).
* **Arithmetic.**  Generators are written over an arbitrary scalar type `F`
  with uninterpreted operations (`+ - * / neg`, literals, `size_t` conversion,
  `sqrt sin cos log pow`, `pi`, comparisons): class `Arith F` plus Lean's
  `Add Sub Mul Div Neg`.  No laws are assumed.  Structural theorems (sizes,
  memory safety, symmetry, indexing, permutation, dispatch) are proved for every
  `F`, hence also for IEEE doubles.  Analytic theorems (exactness, monotonicity,
  Jacobians) are proved at `F = ℝ`, i.e. for the formulas in exact arithmetic;
  rounding error is *not* covered by those theorems unless stated.
  Division by zero and `log 0` in ℝ are excluded by hypotheses, or handled in
  the extended type `XReal` (finite, +inf, -inf, NaN) when the property is about
  them.  The type `F64 L` models `double`: every operation is the exact one of
  `XReal` followed by rounding to 53 binary digits, ties to even, with gradual
  underflow and overflow to infinity; `sqrt` is correctly rounded; `sin`, `cos`,
  `log`, `pow` come from a library `L` about which theorems assume
  `Libm.Accurate` (relative error at most 2^-52; for `sin` plus the smallest subnormal) or nothing.
  Simplifications: one zero without sign, one NaN, no fused multiply-add and no
  excess precision.
* **Templates** are instantiated at the types the library uses.
* **Static tables** (orders, sizes, dispatch chains) are transcribed as lists by
  a script from the text of `/repo`; the C++ `switch`/`if` chain becomes a list
  lookup with the same default.
* **Shared pointers** are modelled by an explicit heap when aliasing matters
  (batcher copies vs. clones).
* **Standard library.**  `std::partition` is any function satisfying its
  standard contract (permutation of the range, true-prefix / false-suffix);
  `std::minmax_element`, `std::unique`, `std::sort`, `std::set_union` are
  modelled by list functions with their standard meaning.

## 2. Files

| file | contents |
| --- | --- |
| `Verif/Base.lean` | outcomes, vectors, loops, wrap-around |
| `Verif/Arith.lean` | scalar interface and its ℝ instance |
| `Verif/XReal.lean` | reals with +inf, -inf and NaN (exact arithmetic, IEEE special values) |
| `Verif/F64.lean` | IEEE binary64: exact operations followed by rounding to nearest even; C library with stated accuracy |
| `Verif/Model/*.lean` | the model; each definition cites file and lines |
| `Verif/Model/OctaTables`, `IcosaTables`, `Womersley/*`, `WomersleyTables`, `AngularData` | the static arrays of all angular grids |
| `Verif/Lemmas/*.lean` | helper lemmas (loop invariants, trigonometry, Legendre theory) |
| `Verif/Lemmas/*Check`, `*Exact`, `PowVec`, `*Moments*`, `Angular*` | moments of the tabulated grids |
| `Verif/Spec/*.lean` | specifications written without the model's helpers |
| `Verif/Prop/*.lean` | the property theorems `C01_...` and non-vacuity examples |

`lean/Verif.lean` imports everything.  The table modules and the `Moments` modules are generated; they
are committed as source.

### Angular tables

The numbers of `s2/<family>/<family>_<n>.hpp` are transcribed exactly (decimal literals as rationals).
To keep the modules small they are stored compactly:

* Lebedev-Laikov and Delley files are lists of octahedral orbits; a table row is one orbit
  (`OctaRow`), and `octaPoints` writes out its points in file order.
* Ahrens-Beylkin files are 12 vertices followed by blocks of 60 points in a fixed pattern of signs and
  cyclic shifts of five triples (`IcosaRow`).
* Womersley files have no usable symmetry; 64 points are packed into one number (`WoGrid`), the weights
  are `4.0*M_PI/N.0` as in the code.

The transcription script compared the expansion of every table with every number of every file.

The moment checks evaluate integer inequalities in the kernel.  A grid has up to 15012 points and
22000 moments, so sums are not evaluated one by one: the powers `x^i y^j` of a point (fixed point, 63
binary digits) are packed into one large natural number with slots of up to 156 bits, built by doubling
(`PowVec`), summed over the points, and every slot is compared with the exact moment.  The lemmas
`HasVec`, `HasMat`, `slotsOk_spec` bound the truncation error, so that the conclusions
(`OctaExact`, `ReducedExact`) are statements about the exact decimal tables over ℝ.

## 3. Properties: what is modelled and how it is proved

| id | model | proof |
| --- | --- | --- |
| C01,C02 | the four Chebyshev `generate` loops with `vset` | loop invariant giving the closed form of both vectors, any `F` |
| C03,C05,C07 | closed forms at ℝ | monotonicity of cos on [0,π], positivity of sqrt |
| C04 | same | Mathlib Chebyshev–Gauss theorem, reindexed |
| C06 | same | discrete orthogonality of sin((k+1)θ), Chebyshev U basis |
| C08 | same | reduction of the √(x/(1-x)) weight to an even trigonometric sum |
| C09,C10 | same | closed trigonometric sums; derivative of the substitution map |
| C11 | `evalPn` loop | Legendre polynomials in ℝ[X] defined by Bonnet recursion; derivative identity by induction |
| C12,C15 | Newton loops with fuel 100, exception on failure | loop invariants, any `F` |
| C13 | same at ℝ | real-rootedness of P_n and p'/p = Σ 1/(z-r) |
| C14,C16 | weight formulas at exact roots | orthogonality, Christoffel numbers |
| C17 | `uniformTrapezoid` | closed form; Mathlib trapezoidal error bound |
| C18 | same with wrap-around / `XReal` | direct computation |
| C19,C20 | four radial traits at ℝ | `HasDerivAt`, limits and the intermediate value theorem |
| C21,C22,C24 | `radialTransform.generate` | closed form from C01/C17 plus C20 |
| C23 | same | sums; change of variables for improper integrals, C06 |
| C25 | `boundTransform` over `XReal` bounds | derivative per branch; negation proved for the bad branch, positive part `_partial` |
| C26–C29 | product / spherical generators | nested loop invariant; finite sums |
| C30 | `recenter` state machine | induction over the history |
| C31–C37 | sub-quadrature, partition object, pruned generator | induction over regions; `List.Perm` |
| C38–C41 | pruning schemes | `omega`; table facts |
| C42–C45 | factory functions | case analysis on outcomes |
| C46–C49 | tables as lists | finite check over the complete table lifted to all int64 |
| C50 | string parsers with ASCII `toupper` | case analysis |
| C51–C54 | traits objects as a sum type | case analysis |
| C55–C60 | batcher as a state machine on lists | invariants; progress measure for termination |
| C61 | heap of quadratures | invariants over operation histories |
| C62 | `QuadratureBase` accessors | direct |
| C63–C67 | numeric tables transcribed as exact decimals | kernel evaluation of integer inequalities over the complete tables; error propagation over ℝ |
| C68,C69 | Newton loops at `XReal` | Sturm comparison localises the angles of the roots; near a root a Newton step of a real-rooted polynomial contracts by 3/5, so 100 steps suffice |
| C70,C71 | returned rules at `XReal` | Sonin's function bounds the relative weight error; perturbation of the exact rules of C14, C16 |
| C72 | Chebyshev generators at `F64` | running error analysis of the closed forms; spacing of cos |
| C73 | UniformTrapezoid at `F64` | error of the rounded step; monotonicity of rounding, 1+2^-53 rounds to 1 |
| C74 | batcher at `F64` | the generic theorems C55–C58 for doubles that are not NaN; inner cuts lie strictly inside when the interval is at least 8u wide; a block that is its own first cell is never split |
| C75 | radial rules at `F64` | relative error calculus for positive quantities (`RelP`), 1∓cos bounded below by 2/(n+1)²; consecutive exact radii differ by a fraction of at least 1/(n+1) (1/(16(n+1)) for Treutler-Ahlrichs) |
| C76 | `evalPn` at `F64` | the recurrence does not increase (a-xb)²+(1-x²)b², so errors add up linearly in that norm |
| C77 | GaussLegendre at `F64` | Newton's map contracts by 3/5 on a neighbourhood that survives perturbation; Sonin's function bounds P' below at the iterates and the weights |
| C78 | GaussLobatto at `F64` | as C77; Sonin's function bounds P_m below where the Newton step is small; m(m+1) is computed exactly |
| C79 | Chebyshev rules as Riemann sums after the substitution the rule is built on | limit for continuous functions, explicit rate for Lipschitz functions |
| C80 | radial rules as Riemann sums of `f(r) dr` in the divided variable | explicit error for all four schemes; limits only for Becke and TreutlerAhlrichs, whose constructors have no size limit (a limit for the other two would only speak about `npts + 2 < 2^64`, so it would be an empty statement) |
| C81 | grids from `SphericalGridFactory` against Lebesgue measure of ℝ³ (`Spec.E3`), iterated angular integral against the surface measure | AB 552 excluded; only unpruned grids (C82: pruned); exact real arithmetic |
| C82 | error of every pruned factory grid over ℝ³ in terms of the error of its radial rule; robust and treutler specs | not asymptotic; AB 552 excluded; `H` (sensitivity of the integrand to nodes off the sphere) is supplied by the user of the theorem; exact real arithmetic |
| C83 | histories of several batchers over shared, copied and moved quadrature objects | exact real arithmetic; a moved-from `std::vector` is taken to be empty |
| C84 | positions of iterator variables under `+`, copies and increments; client loop over neighbours | |
| C85 | tables and the `4 π` scaling of all angular grids in `double`, entry by entry | |
| C86 | unpruned and pruned factory grids in `double` against the same grid over ℝ, entry by entry | ranges of C75 (`Spec.SameScheme`); one angular family per grid |
| C87 | value of such a grid on an integrand against the integral over ℝ³ | the sum over the grid and the integrand are evaluated exactly; `K` is supplied by the user of the theorem |
| C88 | histories of `recenter` in `double`: drift, collapse, NaN and infinite centres | one zero instead of two |
| C89 | GaussChebyshev2Modified at `F64` | running error analysis; 400 nodes lie within 180 units of -1, where fewer doubles exist |
| C90 | `boundTransform` at `F64` | relative errors of sums, products and quotients; `x*x` is compared with the double `2x-1` near 1; witnesses for the loss of digits, the overflow and the point outside the interval |
| C91 | angular rules and factory grids in any arithmetic with `SignSymmetric`; instances for the reals and `F64` | the generators of the group permute the sign patterns of every orbit (`decide +kernel` on the patterns); products with a radius and the shift by the zero centre are odd |
| C92 | angular rules and factory grids over ℝ; batchers over them | sets of hashed keys, checked by `decide +kernel` for every table of Womersley; orbits of the other families by a polynomial that separates them; consecutive shells differ by more than the tables deviate from the unit sphere |
| C93 | factory grid of an unavailable angular size and the batcher over it, over ℝ and `F64` | combines C49 with the loop invariant of C58 |
| C94 | Chebyshev rules, UniformTrapezoid and the radial rules over ℝ | closed forms of the nodes |
| C95 | Becke and MurrayHandyLaming over ℝ | closed forms of the nodes |
| C96 | GaussLegendre and GaussLobatto over `XReal` and `F64` on Lipschitz functions | positive weights and exactness of the true rules; Bernstein polynomials for the rate |
| C97 | `SphericalMicroBatcher` in `F64` over the grids of the factory | lower bounds on the distance of any two points: gaps of the exact radii against their rounding errors, hashed buckets of 2^-36 for every Womersley table (`decide +kernel`), orbits of the other families; the cuts of a box by interval estimates |
| C98 | Chebyshev and radial rules over ℝ for integrands with a Lipschitz derivative | midpoint and trapezoidal rule in the angle, integration by parts in every cell |
| C99 | `SphericalMicroBatcher`, two runs with different point orders and different `std::partition` | every step of the construction maps permuted blocks to permuted blocks; needs that incomparable coordinates are equal (true over ℝ and for doubles that are not NaN; the model does not distinguish the two zeros of `double`, and neither do its comparisons) |
| C100 | Chebyshev, Legendre, Lobatto and trapezoidal rules over ℝ, one degree above exactness | the square of the nodal polynomial (for Lobatto times 1−x²) is integrated to 0 by the rule, its integral is known |
| C101 | radial rules over ℝ for decaying integrands | second derivative of `f(r) dr` in the divided variable, bounded by hand for each of the four substitutions; then C98 |
| C102 | factory grids over space for decaying integrands | C101 put into the error split of C82; nodes off the sphere by the mean value theorem along the ray, the rule sums of the majorants by C101 again |
| C103 | `radial_from_type`, `angular_from_type` over terms for quadrature types | case distinction on the type; a type is its template with its arguments, type aliases are unfolded |
| C104 | errors of the shipped angular grids one degree above the tabulated order | the polynomials `z^j Re (x+iy)^k` and `z^j Im (x+iy)^k` have integral 0; their sums over orbits are evaluated in the kernel in fixed point with a proved error bound; not done for Womersley, whose grids have no symmetry to save work |
| C105 | number of points of robust, Treutler and unpruned factory grids, any arithmetic | sizes of the regions (C42), comparison of the tabulated sizes by `decide +kernel` over the complete tables |
| C106 | AhrensBeylkin grids of even order over ℝ | the polynomial of C104 is homogeneous of odd degree, an invariant rule would give 0 for it |
| C107 | boxes of different batches of `SphericalMicroBatcher`, ℝ and finite doubles | the blocks stay in lexicographic order of the cells they come from, cuts are monotone (also rounded: rounding is monotone); any two batches are separated by a coordinate plane |
| C108 | region bounds of the pruning schemes as distances, over ℝ | `i + 1 < n/k + 1` says that the fraction `(i+1)/(n+1)` is below `1/k`; the radial map is strictly increasing |
| C109 | first and last radial point, over ℝ | half angle formulas, `2y/π ≤ sin y ≤ y ≤ tan y`, `log x ≤ x - 1` for `x` and `1/x` |
| C110 | UniformTrapezoid on harmonics of the interval, over ℝ | geometric sum over the roots of unity, trapezoidal_integral of Mathlib through C17 |
| C111 | rules applied to functions with a power series; GaussLegendre, GaussLobatto also in double | partial sums as approximating polynomials, C96 with explicit Lipschitz constant; Chebyshev: exactness C04/C06/C08 and positive weights |
| C112 | number of passes of the batcher, over ℝ | boxes halve in each pass; a box with too many points would be a small cube with too many points |
| C113 | every direction has a near grid point | test function (c - t) r(t)^2 with the Legendre polynomial divided by the factor of its largest zero; rotation invariance of the surface measure; C65, C67 |
| C114 | passes of the batcher over factory grids, over ℝ | C112 with the distances of shells (C92) and of the points of each angular table (the hashed buckets of C97) |
| C115 | angular grids on exponentials and plane waves, over ℝ | power series in the component along a direction; C67 for the powers up to the order, C65 and C64 for the remainder |
| C116 | charged points of an angular grid have the potential of a sphere, over ℝ | the binomial series of the inverse distance in the component along the direction of the observer, summed as in C115; the lengths of the points (C64) by a Lipschitz bound |
| C117 | the grids have few points for their order | a polynomial without z^2 that vanishes at the points of a shorter rule; such polynomials are determined by their values on the sphere; complete tables |
| C118 | Chebyshev, Legendre and Lobatto rules over ℝ, competing rules | the product of the nodal polynomial of the competitor with that of all but one node of the rule shows that the node is shared; then the weights by interpolation |

### Where the code disagrees with its documentation or with what one expects

For each of these the negation or the exact behaviour is proved with a concrete witness.

* C25: `bound_transform` on (-inf, up] has the wrong sign of the weight factor.  The other combinations are
  proved (`_partial`).
* C90: in `double` the map onto (lo, up) can leave the interval (lo below 2^-54, up = 1, point -1), overflows for
  bounds 2^1024 apart, and the weight for (-inf, inf) loses half of its digits near the ends.
* C41: sizes chosen by robust pruning are not monotone.
* C38–C45: pruning a rule with at most 4 radial points fails an assertion (debug) or is undefined for at
  most 2 (release); the unpruned round trip fails for radial size 0; a pruned and an unpruned specification
  with two defects report different errors.
* C48: `lebedev_laikov_5294.hpp` is never used.  C49: unsupported sizes give an all-zero rule, not an
  error as the README says; `Delley` with more than 2^31-1 points overflows an `int` counter.
* C09: `GaussChebyshev2Modified` with one point has weight 8/3, not 2.
* C53: specifications with a NaN scale differ from their copies.  C54: calling a scheme directly with null
  traits dereferences a null pointer (the documented entry points do check).
* C58: the batcher hangs for `max_batch_size = 0` and for more coincident points than the batch size; an
  empty quadrature is undefined behaviour.  C60: `at(i)` for i >= 2^31 converts to `int`.
* C63, C66, C67: the shipped Ahrens-Beylkin table with 552 points has weights summing to about 12.1045
  instead of 4π and is therefore not exact for constants.  C65: negative weights in Lebedev-Laikov 74, 230,
  266 and Ahrens-Beylkin 1572.
* C105: both pruning schemes enlarge small grids (robust: order below 7; Treutler: order at most 7; not AhrensBeylkin).
* C104: the Womersley table gives order 2 for 6 points (an octahedron), which is exact up to degree 3.
* C73: in `double` arithmetic UniformTrapezoid with 50 points on [0,1] ends at 1-2^-53, not at 1.
* C74: in `double` arithmetic the batcher hangs for three different points with batch size one.
* C97: for the grids of the factory it does not hang, but it does after a `recenter` so far away that points coincide.
* C83: a batcher sharing its quadrature object with one that was moved into another batcher keeps indices into
  empty vectors.  C84: `it + i` moves `it`.
* C88: `recenter` is not reversible in `double`; a NaN centre destroys the grid for good.
* C89: in `double` arithmetic GaussChebyshev2Modified with a million points or more has equal nodes.
* C75: in `double` arithmetic MuraKnowles with at least 2^19-1 points puts its first two radii at exactly 0.

### Not decided

* C77, C78: that the Newton iterations of GaussLegendre and GaussLobatto meet their criterion `|z - z_old| <= eps` in `double`
  arithmetic is proved for GaussLegendre with up to three points and GaussLobatto with up to four
  (`FloatGLTwo`, `FloatGLThree`, `FloatLobFew`, `FloatLobFour`: operation by operation, near the roots).
  For more points even the operation-by-operation bound of the rounding errors in one step is larger
  than `eps`, so the `runtime_error` is one of the outcomes of the theorem.  (In exact
  arithmetic it is unreachable, C68, C69.)

For the record: while these two were studied, a hand-written C transcription of the two Newton loops
(not the library itself) was compiled and run on two occasions as a numerical experiment.  That comes too
close to building and running the code, which this work is not to do.  The files are deleted; nothing in
the model, the statements or the proofs uses what they printed, and the item above stays undecided.

### Partial results

* C25 (above).

## 4. Trusted base

* the Lean 4.33 kernel and Mathlib's definitions (ℝ, cos, integrals, polynomials);
* the axioms `propext`, `Classical.choice`, `Quot.sound` only; `AXIOMS.md` lists what each theorem depends on;
* the reading of the C++ text into the model (each definition cites its lines),
  including the scripts that transcribe tables;
* the assumed contracts of the standard library listed in section 1.

Not modelled: I/O and timing in the batcher (verbosity output), template
metaprogramming (`type_traits.hpp`; the type comparisons of the factories are modelled, C103),
the C++ type-level quirks, allocation
failure, threads, floating-point rounding for the theorems stated at ℝ or `XReal`
(C72 to C78, C85 to C90, C93, C96, C97 and part of C111 are stated for `double`).
