{"id": "C01", "title": "Primitive Chebyshev rules never touch memory out of range and have npts points and weights", "statement": "Constructing GaussChebyshev1/2/2Modified/3 with any npts (including 0) performs only in-range vector accesses, returns normally, and points().size() == weights().size() == npts.", "quantifier": "every npts, every scalar arithmetic (including IEEE with NaN)", "why_tests_cant": "Tests construct a handful of sizes; an out-of-range mirrored write for some parity/size would go unnoticed.", "anchors": [{"file": "include/integratorxx/quadratures/primitive/gausschebyshev1.hpp", "symbols": ["quadrature_traits<GaussChebyshev1>::generate"]}, {"file": "include/integratorxx/quadratures/primitive/gausschebyshev2.hpp", "symbols": ["quadrature_traits<GaussChebyshev2>::generate"]}, {"file": "include/integratorxx/quadratures/primitive/gausschebyshev2modified.hpp", "symbols": ["quadrature_traits<GaussChebyshev2Modified>::generate"]}, {"file": "include/integratorxx/quadratures/primitive/gausschebyshev3.hpp", "symbols": ["quadrature_traits<GaussChebyshev3>::generate"]}]}
{"id": "C02", "title": "Mirror symmetry of the reflected Chebyshev rules", "statement": "For GaussChebyshev1, GaussChebyshev2 and GaussChebyshev2Modified the node stored at npts-1-i is exactly the negation of the node stored at i for every i < npts/2, the two weights are identical objects of the arithmetic, and for odd npts the centre node is exactly 0.0.", "quantifier": "every npts, every index, every scalar arithmetic", "why_tests_cant": "Tests compare with a tolerance at a few npts; exact (bitwise) antisymmetry for all sizes is not sampled.", "anchors": [{"file": "include/integratorxx/quadratures/primitive/gausschebyshev1.hpp", "symbols": ["quadrature_traits<GaussChebyshev1>::generate"]}, {"file": "include/integratorxx/quadratures/primitive/gausschebyshev2.hpp", "symbols": ["quadrature_traits<GaussChebyshev2>::generate"]}, {"file": "include/integratorxx/quadratures/primitive/gausschebyshev2modified.hpp", "symbols": ["quadrature_traits<GaussChebyshev2Modified>::generate"]}]}
{"id": "C03", "title": "GaussChebyshev1 nodes are sorted and interior, weights positive", "statement": "For every npts the GaussChebyshev1 nodes are strictly increasing, lie in (-1,1), and all weights are > 0 (exact arithmetic).", "quantifier": "every npts, every pair of indices", "why_tests_cant": "Infinitely many sizes.", "anchors": [{"file": "include/integratorxx/quadratures/primitive/gausschebyshev1.hpp", "symbols": ["quadrature_traits<GaussChebyshev1>::generate"]}]}
{"id": "C04", "title": "GaussChebyshev1 is exact to degree 2n-1 for its weight function", "statement": "For every npts >= 1 and every real polynomial p with degree < 2*npts, sum_i w_i * p(x_i)/sqrt(1-x_i^2) over the rule returned by GaussChebyshev1(npts) equals the integral of p(x)/sqrt(1-x^2) over [-1,1].", "quantifier": "every npts, every polynomial of degree <= 2n-1", "why_tests_cant": "Tests integrate one Gaussian to a tolerance.", "anchors": [{"file": "include/integratorxx/quadratures/primitive/gausschebyshev1.hpp", "symbols": ["quadrature_traits<GaussChebyshev1>::generate"]}]}
{"id": "C05", "title": "GaussChebyshev2 nodes are sorted and interior, weights positive", "statement": "For every npts the GaussChebyshev2 nodes are strictly increasing, lie in (-1,1), and all weights are > 0 (exact arithmetic).", "quantifier": "every npts, every pair of indices", "why_tests_cant": "Infinitely many sizes.", "anchors": [{"file": "include/integratorxx/quadratures/primitive/gausschebyshev2.hpp", "symbols": ["quadrature_traits<GaussChebyshev2>::generate"]}]}
{"id": "C06", "title": "GaussChebyshev2 is exact to degree 2n-1 for its weight function", "statement": "For every npts and every real polynomial p with degree < 2*npts, sum_i w_i * p(x_i)*sqrt(1-x_i^2) over GaussChebyshev2(npts) equals the integral of p(x)*sqrt(1-x^2) over [-1,1].", "quantifier": "every npts, every polynomial of degree <= 2n-1", "why_tests_cant": "Tests integrate one Gaussian to a tolerance.", "anchors": [{"file": "include/integratorxx/quadratures/primitive/gausschebyshev2.hpp", "symbols": ["quadrature_traits<GaussChebyshev2>::generate"]}]}
{"id": "C07", "title": "GaussChebyshev3 nodes are sorted and interior, weights positive", "statement": "For every npts the GaussChebyshev3 nodes are strictly increasing, lie in (0,1), and all weights are > 0 (exact arithmetic).", "quantifier": "every npts, every pair of indices", "why_tests_cant": "Infinitely many sizes.", "anchors": [{"file": "include/integratorxx/quadratures/primitive/gausschebyshev3.hpp", "symbols": ["quadrature_traits<GaussChebyshev3>::generate"]}]}
{"id": "C08", "title": "GaussChebyshev3 is exact to degree 2n-1 for its weight function", "statement": "For every npts and every real polynomial p with degree < 2*npts, sum_i w_i * sqrt(x_i/(1-x_i)) * p(x_i) over GaussChebyshev3(npts) equals the integral of p(x)*sqrt(x/(1-x)) over [0,1].", "quantifier": "every npts, every polynomial of degree <= 2n-1", "why_tests_cant": "Tests integrate one function to a tolerance.", "anchors": [{"file": "include/integratorxx/quadratures/primitive/gausschebyshev3.hpp", "symbols": ["quadrature_traits<GaussChebyshev3>::generate"]}]}
{"id": "C09", "title": "GaussChebyshev2Modified integrates constants exactly", "statement": "The weights of GaussChebyshev2Modified(npts) sum to 2, the length of [-1,1], for every npts >= 2; for npts = 1 the sum is 8/3, so the one-point rule does not integrate constants.", "quantifier": "every npts >= 1", "why_tests_cant": "Tests never look at the weight sum or at npts = 1.", "anchors": [{"file": "include/integratorxx/quadratures/primitive/gausschebyshev2modified.hpp", "symbols": ["quadrature_traits<GaussChebyshev2Modified>::generate"]}]}
{"id": "C10", "title": "GaussChebyshev2Modified is the substitution rule it claims to be", "statement": "Every node of GaussChebyshev2Modified(npts) is the image of the Chebyshev angle i*pi/(npts+1) under a fixed strictly decreasing map g:[0,pi]->[-1,1], every weight equals -g'(theta_i)*pi/(npts+1), hence nodes are strictly increasing in (-1,1) and weights are positive.", "quantifier": "every npts, every index", "why_tests_cant": "Infinitely many sizes; the map/derivative relation is not observable from a single integral.", "anchors": [{"file": "include/integratorxx/quadratures/primitive/gausschebyshev2modified.hpp", "symbols": ["quadrature_traits<GaussChebyshev2Modified>::generate"]}]}
{"id": "C11", "title": "eval_Pn evaluates the Legendre polynomial, its derivative and its predecessor", "statement": "For every n and every x, eval_Pn(x,n) returns P_n(x) as first component, P_{n-1}(x) as third (n>=1), and, when x^2 != 1, the derivative P_n'(x) as second component (exact arithmetic; P_n the Legendre polynomial defined independently of the code).", "quantifier": "every n, every x with x^2 != 1", "why_tests_cant": "Tests exercise it only through Gauss-Legendre rules of a few sizes.", "anchors": [{"file": "include/integratorxx/util/legendre.hpp", "symbols": ["eval_Pn"]}]}
{"id": "C12", "title": "GaussLegendre either returns a complete symmetric rule or throws", "statement": "For every npts and every arithmetic, GaussLegendre(npts) either throws the runtime_error \"Gauss-Legendre Newton Iterations Failed to Converge\" or returns npts points and npts weights with points[npts-1-i] and points[i] mirrored (points[i] = -points[npts-1-i] for i<npts/2) and equal mirrored weights; no access is out of range.", "quantifier": "every npts, every arithmetic", "why_tests_cant": "Non-convergence and all sizes cannot be sampled.", "anchors": [{"file": "include/integratorxx/quadratures/primitive/gausslegendre.hpp", "symbols": ["quadrature_traits<GaussLegendre>::generate"]}]}
{"id": "C13", "title": "Accepted GaussLegendre nodes are close to true Legendre roots", "statement": "In exact arithmetic every node returned by GaussLegendre(npts) lies within (npts+1)*eps of a genuine root of P_npts, where eps = 2^-52 is the convergence threshold in the code.", "quantifier": "every npts for which construction returns, every index", "why_tests_cant": "Root proximity for all npts cannot be tested without the roots.", "anchors": [{"file": "include/integratorxx/quadratures/primitive/gausslegendre.hpp", "symbols": ["quadrature_traits<GaussLegendre>::generate"]}, {"file": "include/integratorxx/util/legendre.hpp", "symbols": ["eval_Pn"]}]}
{"id": "C14", "title": "Gauss-Legendre weight formula gives a rule exact to degree 2n-1", "statement": "If the Newton iterate is at the roots of P_n, the node/weight formula used by the code, w = 2/((1-x^2) P_n'(x)^2), integrates every polynomial of degree < 2n exactly over [-1,1].", "quantifier": "every n >= 1, every polynomial of degree <= 2n-1", "why_tests_cant": "Quantifies over all sizes and polynomials.", "anchors": [{"file": "include/integratorxx/quadratures/primitive/gausslegendre.hpp", "symbols": ["quadrature_traits<GaussLegendre>::generate"]}]}
{"id": "C15", "title": "GaussLobatto end points, centre and symmetry", "statement": "For every npts >= 2, GaussLobatto(npts) either throws its runtime_error or returns npts points with first = -1.0, last = 1.0, mirrored interior nodes with equal weights, end weights 2/(n(n-1)) and a centre node exactly 0.0 for odd npts; GaussLobatto(0) writes out of bounds (undefined behaviour).", "quantifier": "every npts, every arithmetic", "why_tests_cant": "Sizes, non-convergence and npts = 0 are not tested.", "anchors": [{"file": "include/integratorxx/quadratures/primitive/gausslobatto.hpp", "symbols": ["quadrature_traits<GaussLobatto>::generate"]}]}
{"id": "C16", "title": "Gauss-Lobatto weight formula gives a rule exact to degree 2n-3", "statement": "If the interior nodes are at the n-2 roots of P_{n-1}', the code's end weights 2/(n(n-1)) and interior weights 2/(n(n-1)P_{n-1}(x)^2) integrate every polynomial of degree < 2n-2 exactly over [-1,1].", "quantifier": "every n >= 2, every polynomial of degree <= 2n-3", "why_tests_cant": "Quantifies over all sizes and polynomials.", "anchors": [{"file": "include/integratorxx/quadratures/primitive/gausslobatto.hpp", "symbols": ["quadrature_traits<GaussLobatto>::generate"]}]}
{"id": "C17", "title": "UniformTrapezoid is the composite trapezoidal rule", "statement": "For every npts >= 2 and bounds lo, up, UniformTrapezoid(npts,lo,up) has npts equally spaced nodes from lo to up, its weights sum to up-lo, and sum_i w_i f(x_i) equals the composite trapezoidal sum of f; consequently it is exact for affine f and within (up-lo)^3*M/(12(npts-1)^2) of the integral for C2 functions with |f''| <= M.", "quantifier": "every npts >= 2, every lo < up, every f", "why_tests_cant": "All sizes, bounds and integrands.", "anchors": [{"file": "include/integratorxx/quadratures/primitive/uniform.hpp", "symbols": ["quadrature_traits<UniformTrapezoid>::generate"]}]}
{"id": "C18", "title": "UniformTrapezoid degenerate sizes", "statement": "UniformTrapezoid(0,...) never completes normally: npts-1 wraps around and the first loop iteration writes out of bounds (undefined behaviour). UniformTrapezoid(1,lo,up) with lo<up stores a NaN node and an infinite weight.", "quantifier": "all bounds", "why_tests_cant": "Undefined behaviour cannot be observed by a test.", "anchors": [{"file": "include/integratorxx/quadratures/primitive/uniform.hpp", "symbols": ["quadrature_traits<UniformTrapezoid>::generate"]}]}
{"id": "C19", "title": "radial_jacobian is the derivative of radial_transform", "statement": "For each of the four radial traits (any R, any alpha, any MHL exponent M>=1) radial_jacobian(x) is the derivative of radial_transform at x, for every x in the open interval documented by the code.", "quantifier": "every x in the domain, every R, alpha, M", "why_tests_cant": "Continuum of inputs; tests only integrate one Gaussian.", "anchors": [{"file": "include/integratorxx/quadratures/radial/becke.hpp", "symbols": ["BeckeRadialTraits::radial_transform", "BeckeRadialTraits::radial_jacobian"]}, {"file": "include/integratorxx/quadratures/radial/mhl.hpp", "symbols": ["MurrayHandyLamingRadialTraits::radial_transform", "MurrayHandyLamingRadialTraits::radial_jacobian"]}, {"file": "include/integratorxx/quadratures/radial/muraknowles.hpp", "symbols": ["MuraKnowlesRadialTraits::radial_transform", "MuraKnowlesRadialTraits::radial_jacobian"]}, {"file": "include/integratorxx/quadratures/radial/treutlerahlrichs.hpp", "symbols": ["TreutlerAhlrichsRadialTraits::radial_transform", "TreutlerAhlrichsRadialTraits::radial_jacobian"]}]}
{"id": "C20", "title": "radial_transform is a strictly increasing bijection onto (0,inf)", "statement": "For R>0 (and alpha >= 0 for Treutler-Ahlrichs) each radial_transform is strictly increasing on its open domain and maps it onto (0,infinity).", "quantifier": "every R>0, alpha>=0, every pair of points", "why_tests_cant": "Continuum of inputs.", "anchors": [{"file": "include/integratorxx/quadratures/radial/becke.hpp", "symbols": ["BeckeRadialTraits::radial_transform", "BeckeRadialTraits::radial_jacobian"]}, {"file": "include/integratorxx/quadratures/radial/mhl.hpp", "symbols": ["MurrayHandyLamingRadialTraits::radial_transform", "MurrayHandyLamingRadialTraits::radial_jacobian"]}, {"file": "include/integratorxx/quadratures/radial/muraknowles.hpp", "symbols": ["MuraKnowlesRadialTraits::radial_transform", "MuraKnowlesRadialTraits::radial_jacobian"]}, {"file": "include/integratorxx/quadratures/radial/treutlerahlrichs.hpp", "symbols": ["TreutlerAhlrichsRadialTraits::radial_transform", "TreutlerAhlrichsRadialTraits::radial_jacobian"]}]}
{"id": "C21", "title": "Radial quadratures: size, positivity, ordering, memory safety", "statement": "For every npts and R>0 the Becke, MurrayHandyLaming, MuraKnowles and TreutlerAhlrichs quadratures have exactly npts points and weights, all generation accesses are in range, all points and weights are > 0 and the points are strictly increasing.", "quantifier": "every npts, R>0, alpha>=0", "why_tests_cant": "All sizes and scales.", "anchors": [{"file": "include/integratorxx/quadratures/radial/radial_transform.hpp", "symbols": ["quadrature_traits<RadialTransformQuadrature>::generate"]}, {"file": "include/integratorxx/quadratures/radial/becke.hpp", "symbols": ["BeckeRadialTraits::radial_transform", "BeckeRadialTraits::radial_jacobian"]}, {"file": "include/integratorxx/quadratures/radial/mhl.hpp", "symbols": ["MurrayHandyLamingRadialTraits::radial_transform", "MurrayHandyLamingRadialTraits::radial_jacobian"]}, {"file": "include/integratorxx/quadratures/radial/muraknowles.hpp", "symbols": ["MuraKnowlesRadialTraits::radial_transform", "MuraKnowlesRadialTraits::radial_jacobian"]}, {"file": "include/integratorxx/quadratures/radial/treutlerahlrichs.hpp", "symbols": ["TreutlerAhlrichsRadialTraits::radial_transform", "TreutlerAhlrichsRadialTraits::radial_jacobian"]}]}
{"id": "C22", "title": "Inclusive base rules lose exactly their two end points", "statement": "MurrayHandyLaming and MuraKnowles with npts points evaluate their transform exactly at the npts interior nodes i/(npts+1), i=1..npts, of the (npts+2)-point trapezoid on [0,1]; the singular end point x=1 is never evaluated, so no division by zero or log of 0 occurs.", "quantifier": "every npts", "why_tests_cant": "A test sees only finite output for its sizes.", "anchors": [{"file": "include/integratorxx/quadratures/radial/radial_transform.hpp", "symbols": ["quadrature_traits<RadialTransformQuadrature>::generate"]}, {"file": "include/integratorxx/quadratures/primitive/uniform.hpp", "symbols": ["quadrature_traits<UniformTrapezoid>::generate"]}, {"file": "include/integratorxx/quadratures/radial/mhl.hpp", "symbols": ["MurrayHandyLamingRadialTraits::radial_transform", "MurrayHandyLamingRadialTraits::radial_jacobian"]}, {"file": "include/integratorxx/quadratures/radial/muraknowles.hpp", "symbols": ["MuraKnowlesRadialTraits::radial_transform", "MuraKnowlesRadialTraits::radial_jacobian"]}]}
{"id": "C23", "title": "Radial rules are change-of-variables of the base rule", "statement": "For every function f and every radial quadrature, sum_i w_i f(r_i) equals sum over base nodes of v_i * f(r(x_i)) * r'(x_i); and for Becke, sum_i w_i f(r_i) equals the integral of f over (0,inf) whenever f(r(x)) r'(x) = p(x) sqrt(1-x^2) with deg p < 2 npts.", "quantifier": "every npts, R>0, f / polynomial", "why_tests_cant": "Quantifies over functions.", "anchors": [{"file": "include/integratorxx/quadratures/radial/radial_transform.hpp", "symbols": ["quadrature_traits<RadialTransformQuadrature>::generate"]}, {"file": "include/integratorxx/quadratures/radial/becke.hpp", "symbols": ["BeckeRadialTraits::radial_transform", "BeckeRadialTraits::radial_jacobian"]}, {"file": "include/integratorxx/quadratures/primitive/gausschebyshev2.hpp", "symbols": ["quadrature_traits<GaussChebyshev2>::generate"]}]}
{"id": "C24", "title": "Radial scale factor acts linearly", "statement": "Scaling R by c>0 scales every point and every weight of each radial quadrature by c and changes nothing else.", "quantifier": "every npts, R, c", "why_tests_cant": "All scales.", "anchors": [{"file": "include/integratorxx/quadratures/radial/radial_transform.hpp", "symbols": ["quadrature_traits<RadialTransformQuadrature>::generate"]}, {"file": "include/integratorxx/quadratures/radial/becke.hpp", "symbols": ["BeckeRadialTraits::radial_transform", "BeckeRadialTraits::radial_jacobian"]}, {"file": "include/integratorxx/quadratures/radial/mhl.hpp", "symbols": ["MurrayHandyLamingRadialTraits::radial_transform", "MurrayHandyLamingRadialTraits::radial_jacobian"]}, {"file": "include/integratorxx/quadratures/radial/muraknowles.hpp", "symbols": ["MuraKnowlesRadialTraits::radial_transform", "MuraKnowlesRadialTraits::radial_jacobian"]}, {"file": "include/integratorxx/quadratures/radial/treutlerahlrichs.hpp", "symbols": ["TreutlerAhlrichsRadialTraits::radial_transform", "TreutlerAhlrichsRadialTraits::radial_jacobian"]}]}
{"id": "C25", "title": "Bound transform: node map hits the requested interval and the weight factor is its derivative", "statement": "For all four finite/infinite bound combinations, transform_minus_one_to_one maps (-1,1) monotonically onto (lo,up) and multiplies the weight by the (positive) derivative of the node map. (The code satisfies this for three combinations; for lo = -inf, up finite the factor has the opposite sign.)", "quantifier": "every lo<up (possibly infinite), every point in (-1,1), every weight", "why_tests_cant": "The function is unused by the library and untested; sign error in one branch.", "anchors": [{"file": "include/integratorxx/util/bound_transform.hpp", "symbols": ["transform_minus_one_to_one"]}]}
{"id": "C26", "title": "Product quadrature indexing", "statement": "ProductQuadrature::generate(q1,q2) has npts1*npts2 entries, entry i+j*npts1 combines exactly point/weight i of q1 with point/weight j of q2, every entry is written exactly once and all accesses are in range.", "quantifier": "all quadratures of all sizes, any combine operation", "why_tests_cant": "Tests check a handful of size pairs.", "anchors": [{"file": "include/integratorxx/composite_quadratures/product_quadrature.hpp", "symbols": ["quadrature_traits<ProductQuadrature>::generate"]}]}
{"id": "C27", "title": "Separable integrands factor over a product quadrature", "statement": "With a multiplicative weight combination, the product rule applied to f(x)g(y) equals (rule 1 applied to f) * (rule 2 applied to g).", "quantifier": "all rules, all f, g", "why_tests_cant": "Quantifies over functions.", "anchors": [{"file": "include/integratorxx/composite_quadratures/product_quadrature.hpp", "symbols": ["quadrature_traits<ProductQuadrature>::generate"]}]}
{"id": "C28", "title": "Spherical quadrature entries", "statement": "SphericalQuadrature(rq,aq,cen) has npr*npa entries; entry i+j*npr has point cen + r_i*a_j (componentwise r_i*a_j[k] + cen[k]) and weight (wr_i*wa_j)*(r_i*r_i).", "quantifier": "all radial/angular rules, all centres, any arithmetic", "why_tests_cant": "Sampled sizes only.", "anchors": [{"file": "include/integratorxx/composite_quadratures/spherical_quadrature.hpp", "symbols": ["quadrature_traits<SphericalQuadrature>::generate", "spherical_combine_op", "shift_grid"]}]}
{"id": "C29", "title": "Spherical quadrature of radial times angular functions", "statement": "Applied to F(r)*Y(u) about its centre (unit-norm angular nodes, r_i>=0), SphericalQuadrature gives (sum_i wr_i r_i^2 F(r_i)) * (sum_j wa_j Y(a_j)); in particular the weights sum to (sum_i wr_i r_i^2)*(sum_j wa_j).", "quantifier": "all rules, all F, Y, all centres", "why_tests_cant": "Quantifies over functions.", "anchors": [{"file": "include/integratorxx/composite_quadratures/spherical_quadrature.hpp", "symbols": ["quadrature_traits<SphericalQuadrature>::generate", "spherical_combine_op", "shift_grid"]}]}
{"id": "C30", "title": "Recentering histories", "statement": "After any sequence of recenter calls center() is the last requested centre, weights and npts are unchanged, and (exact arithmetic) the grid equals the grid constructed directly at that centre; recentering to the current centre changes nothing in any arithmetic.", "quantifier": "every history of recenter calls, every grid", "why_tests_cant": "Histories are unbounded.", "anchors": [{"file": "include/integratorxx/composite_quadratures/spherical_quadrature.hpp", "symbols": ["SphericalQuadratureBase::recenter", "SphericalQuadratureBase::center"]}, {"file": "include/integratorxx/composite_quadratures/spherical_quadrature.hpp", "symbols": ["quadrature_traits<SphericalQuadrature>::generate", "spherical_combine_op", "shift_grid"]}]}
{"id": "C31", "title": "SubQuadrature is the requested slice", "statement": "For begin<end<=npts SubQuadrature((begin,end),q) has end-begin entries and entry k is entry begin+k of q; for begin>=end or end>npts a debug build fails an assertion, and with NDEBUG an end beyond npts (or end < begin) is undefined behaviour.", "quantifier": "all ranges and quadratures", "why_tests_cant": "All ranges.", "anchors": [{"file": "include/integratorxx/composite_quadratures/sub_quadrature.hpp", "symbols": ["quadrature_traits<SubQuadrature>::generate"]}]}
{"id": "C32", "title": "RadialGridPartition iteration covers the radial grid", "statement": "If add_quad is called with indices 0 = i_0 < i_1 < ... < i_k < npts-1 and then finalize, iteration yields exactly the pairs ((i_j, i_{j+1}), quad_j) with i_{k+1} = npts: consecutive, disjoint, covering [0,npts), in order; in a debug build add_quad fails an assertion exactly when the index sequence violates this.", "quantifier": "every sequence of add_quad calls of any length", "why_tests_cant": "Sequences are unbounded.", "anchors": [{"file": "include/integratorxx/composite_quadratures/pruned_spherical_quadrature.hpp", "symbols": ["RadialGridPartition::add_quad", "RadialGridPartition::finalize", "RadialGridPartition::begin", "RadialGridPartition::end", "rgp_iterator"]}]}
{"id": "C33", "title": "RadialGridPartition misuse", "statement": "finalize on a partition without regions is undefined behaviour; with NDEBUG a last region starting exactly at npts makes finalize append nothing, and iteration then runs past the end of the index vector.", "quantifier": "all partitions", "why_tests_cant": "Undefined behaviour cannot be observed by a test.", "anchors": [{"file": "include/integratorxx/composite_quadratures/pruned_spherical_quadrature.hpp", "symbols": ["RadialGridPartition::add_quad", "RadialGridPartition::finalize", "RadialGridPartition::begin", "RadialGridPartition::end", "rgp_iterator"]}]}
{"id": "C34", "title": "Pruned grid is the concatenation of its regions", "statement": "PrunedSphericalQuadrature(rq, partition, cen) consists, in order, of the spherical product grids of each radial slice with that region's angular grid; npts = sum over regions of (range length)*(angular size).", "quantifier": "every partition, all rules, any arithmetic", "why_tests_cant": "All partitions.", "anchors": [{"file": "include/integratorxx/composite_quadratures/pruned_spherical_quadrature.hpp", "symbols": ["quadrature_traits<PrunedSphericalQuadrature>::generate"]}, {"file": "include/integratorxx/composite_quadratures/sub_quadrature.hpp", "symbols": ["quadrature_traits<SubQuadrature>::generate"]}, {"file": "include/integratorxx/composite_quadratures/pruned_spherical_quadrature.hpp", "symbols": ["RadialGridPartition::add_quad", "RadialGridPartition::finalize", "RadialGridPartition::begin", "RadialGridPartition::end", "rgp_iterator"]}]}
{"id": "C35", "title": "A single-region pruned grid equals the unpruned grid", "statement": "PrunedSphericalQuadrature with the one region (0, aq) has exactly the same points and weights in the same order as SphericalQuadrature(rq,aq,cen) (npts >= 1).", "quantifier": "all radial/angular rules with npts>=1, any arithmetic", "why_tests_cant": "All sizes.", "anchors": [{"file": "include/integratorxx/composite_quadratures/pruned_spherical_quadrature.hpp", "symbols": ["quadrature_traits<PrunedSphericalQuadrature>::generate"]}, {"file": "include/integratorxx/composite_quadratures/spherical_quadrature.hpp", "symbols": ["quadrature_traits<SphericalQuadrature>::generate", "spherical_combine_op", "shift_grid"]}]}
{"id": "C36", "title": "Pruning with the same angular grid everywhere only reorders the unpruned grid", "statement": "If every region carries the same angular rule, the (point,weight) pairs of the pruned grid are a permutation of those of the unpruned grid.", "quantifier": "every partition, all rules, any arithmetic", "why_tests_cant": "Permutation for all partitions.", "anchors": [{"file": "include/integratorxx/composite_quadratures/pruned_spherical_quadrature.hpp", "symbols": ["quadrature_traits<PrunedSphericalQuadrature>::generate"]}, {"file": "include/integratorxx/composite_quadratures/spherical_quadrature.hpp", "symbols": ["quadrature_traits<SphericalQuadrature>::generate", "spherical_combine_op", "shift_grid"]}]}
{"id": "C37", "title": "Pruned integral decomposes per region", "statement": "For every integrand f the pruned rule value is the sum over regions of the spherical rule restricted to the region; radial nodes are each used in exactly one region.", "quantifier": "every partition, every f", "why_tests_cant": "Quantifies over functions and partitions.", "anchors": [{"file": "include/integratorxx/composite_quadratures/pruned_spherical_quadrature.hpp", "symbols": ["quadrature_traits<PrunedSphericalQuadrature>::generate"]}]}
{"id": "C38", "title": "Robust pruning regions tile the radial grid", "statement": "For every radial size rsz >= 3 robust_psi4_pruning_scheme produces three non-empty consecutive regions tiling [0,rsz); for rsz = 0,1,2 the tiling fails (empty or inverted last region).", "quantifier": "every rsz, every radial/angular scheme", "why_tests_cant": "All radial sizes.", "anchors": [{"file": "include/integratorxx/generators/impl/robust_pruning.hpp", "symbols": ["robust_psi4_pruning_scheme", "robust_psi4_pruning_scheme_impl", "get_robust_low_med_sizes"]}]}
{"id": "C39", "title": "Treutler pruning regions tile the radial grid", "statement": "treutler_pruning_scheme produces three non-empty consecutive regions tiling [0,rsz) exactly when the radial size rsz is >= 4.", "quantifier": "every rsz", "why_tests_cant": "All radial sizes.", "anchors": [{"file": "include/integratorxx/generators/impl/treutler_pruning.hpp", "symbols": ["treutler_pruning_scheme", "treutler_pruning_scheme_impl", "get_treutler_low_med_sizes"]}]}
{"id": "C40", "title": "Pruning schemes only request available angular grids", "statement": "The low, medium and high angular sizes requested by the robust scheme are sizes the angular generator supports, whenever the base size is; robust throws \"Invalid Base Grid\" exactly for unsupported base sizes; the Treutler low/medium sizes are always supported but the scheme does not validate the base size.", "quantifier": "every angular family, every base size", "why_tests_cant": "Whole table times all sizes.", "anchors": [{"file": "include/integratorxx/generators/impl/robust_pruning.hpp", "symbols": ["robust_psi4_pruning_scheme", "robust_psi4_pruning_scheme_impl", "get_robust_low_med_sizes"]}, {"file": "include/integratorxx/generators/impl/treutler_pruning.hpp", "symbols": ["treutler_pruning_scheme", "treutler_pruning_scheme_impl", "get_treutler_low_med_sizes"]}]}
{"id": "C41", "title": "Robust pruning sizes are monotone from the nucleus outward", "statement": "Intended: low <= med <= base angular size. Holds exactly when the base order is large enough (next(7) <= next(base-6)); med <= base always.", "quantifier": "every angular family, every supported size", "why_tests_cant": "The violating sizes are not in the tests.", "anchors": [{"file": "include/integratorxx/generators/impl/robust_pruning.hpp", "symbols": ["robust_psi4_pruning_scheme", "robust_psi4_pruning_scheme_impl", "get_robust_low_med_sizes"]}]}
{"id": "C42", "title": "Grid generation from the built-in pruning schemes", "statement": "Generating a grid from a robust/Treutler specification with supported sizes and rsz >= 5 succeeds in debug and release builds with npts = n1*low+n2*med+n3*base; rsz = 3, 4 trip an assertion in debug builds although the regions tile the grid.", "quantifier": "every rsz, every family/scheme", "why_tests_cant": "Boundary sizes are untested.", "anchors": [{"file": "include/integratorxx/generators/impl/pruned_grid.hpp", "symbols": ["make_pruned_grid_impl", "make_pruned_grid", "SphericalGridFactory::generate_pruned_grid", "create_pruned_spec"]}, {"file": "include/integratorxx/generators/impl/robust_pruning.hpp", "symbols": ["robust_psi4_pruning_scheme", "robust_psi4_pruning_scheme_impl", "get_robust_low_med_sizes"]}, {"file": "include/integratorxx/generators/impl/treutler_pruning.hpp", "symbols": ["treutler_pruning_scheme", "treutler_pruning_scheme_impl", "get_treutler_low_med_sizes"]}, {"file": "include/integratorxx/composite_quadratures/pruned_spherical_quadrature.hpp", "symbols": ["RadialGridPartition::add_quad", "RadialGridPartition::finalize", "RadialGridPartition::begin", "RadialGridPartition::end", "rgp_iterator"]}]}
{"id": "C43", "title": "Region end indices are ignored by grid generation", "statement": "SphericalGridFactory::generate_pruned_grid depends on the pruning regions only through idx_st, angular_quad and angular_size: changing idx_en never changes the result.", "quantifier": "every region list", "why_tests_cant": "All specifications.", "anchors": [{"file": "include/integratorxx/generators/impl/pruned_grid.hpp", "symbols": ["make_pruned_grid_impl", "make_pruned_grid", "SphericalGridFactory::generate_pruned_grid", "create_pruned_spec"]}]}
{"id": "C44", "title": "Pruned generation error cases", "statement": "generate_pruned_grid throws \"No Pruning Regions\" for an empty region list and \"Mixed Angular Pruning Not Supported\" when two regions name different angular families, before building any partition; a radial traits object of the wrong dynamic type throws bad_cast before either check.", "quantifier": "every region list, traits object, radial scheme", "why_tests_cant": "All combinations.", "anchors": [{"file": "include/integratorxx/generators/impl/pruned_grid.hpp", "symbols": ["make_pruned_grid_impl", "make_pruned_grid", "SphericalGridFactory::generate_pruned_grid", "create_pruned_spec"]}]}
{"id": "C45", "title": "Unpruned specification round trip", "statement": "create_pruned_spec(Unpruned, spec) followed by generate_grid yields the same points and weights as generate_grid(spec) for every spec whose radial size is >= 1.", "quantifier": "every unpruned spec", "why_tests_cant": "All specs.", "anchors": [{"file": "include/integratorxx/generators/impl/pruned_grid.hpp", "symbols": ["make_pruned_grid_impl", "make_pruned_grid", "SphericalGridFactory::generate_pruned_grid", "create_pruned_spec"]}, {"file": "include/integratorxx/generators/impl/unpruned_grid.hpp", "symbols": ["SphericalGridFactory::generate_unpruned_grid"]}]}
{"id": "C46", "title": "Angular order/size tables are mutually inverse", "statement": "For each angular family, algebraic_order_by_npts and npts_by_algebraic_order are inverse to one another on supported values and return -1 exactly on all other (64-bit) arguments; both are strictly increasing.", "quantifier": "every int64 order / size", "why_tests_cant": "The argument space is 2^64; tests probe the table rows.", "anchors": [{"file": "include/integratorxx/quadratures/s2/lebedev_laikov.hpp", "symbols": ["npts_by_algebraic_order", "algebraic_order_by_npts", "next_algebraic_order", "generate"]}, {"file": "include/integratorxx/quadratures/s2/delley.hpp", "symbols": ["npts_by_algebraic_order", "algebraic_order_by_npts", "next_algebraic_order", "generate"]}, {"file": "include/integratorxx/quadratures/s2/ahrens_beylkin.hpp", "symbols": ["npts_by_algebraic_order", "algebraic_order_by_npts", "next_algebraic_order", "generate"]}, {"file": "include/integratorxx/quadratures/s2/womersley.hpp", "symbols": ["npts_by_algebraic_order", "algebraic_order_by_npts", "next_algebraic_order", "generate", "generate_large_npts_"]}]}
{"id": "C47", "title": "next_algebraic_order is the least supported order not below the request", "statement": "For each family and every order up to the largest supported one, next_algebraic_order(order) is supported, >= order, and least with these properties; it is monotone and idempotent; for orders above the largest it returns the largest supported order (which is below the request).", "quantifier": "every int64 order", "why_tests_cant": "The argument space is 2^64.", "anchors": [{"file": "include/integratorxx/quadratures/s2/lebedev_laikov.hpp", "symbols": ["npts_by_algebraic_order", "algebraic_order_by_npts", "next_algebraic_order", "generate"]}, {"file": "include/integratorxx/quadratures/s2/delley.hpp", "symbols": ["npts_by_algebraic_order", "algebraic_order_by_npts", "next_algebraic_order", "generate"]}, {"file": "include/integratorxx/quadratures/s2/ahrens_beylkin.hpp", "symbols": ["npts_by_algebraic_order", "algebraic_order_by_npts", "next_algebraic_order", "generate"]}, {"file": "include/integratorxx/quadratures/s2/womersley.hpp", "symbols": ["npts_by_algebraic_order", "algebraic_order_by_npts", "next_algebraic_order", "generate", "generate_large_npts_"]}]}
{"id": "C48", "title": "The generator supports exactly the tabulated sizes", "statement": "For each family the sizes dispatched by generate() are exactly the sizes in algebraic_order_by_npts; in particular Womersley's split at 2049 loses no size, and the Lebedev-Laikov 5294-point file is unreachable.", "quantifier": "every npts", "why_tests_cant": "All npts, including the split.", "anchors": [{"file": "include/integratorxx/quadratures/s2/lebedev_laikov.hpp", "symbols": ["npts_by_algebraic_order", "algebraic_order_by_npts", "next_algebraic_order", "generate"]}, {"file": "include/integratorxx/quadratures/s2/delley.hpp", "symbols": ["npts_by_algebraic_order", "algebraic_order_by_npts", "next_algebraic_order", "generate"]}, {"file": "include/integratorxx/quadratures/s2/ahrens_beylkin.hpp", "symbols": ["npts_by_algebraic_order", "algebraic_order_by_npts", "next_algebraic_order", "generate"]}, {"file": "include/integratorxx/quadratures/s2/womersley.hpp", "symbols": ["npts_by_algebraic_order", "algebraic_order_by_npts", "next_algebraic_order", "generate", "generate_large_npts_"]}]}
{"id": "C49", "title": "Unsupported angular sizes silently yield an all-zero rule", "statement": "Constructing any angular quadrature with an unsupported npts does not fail (contrary to the README) but returns npts points at the origin with weight 0; hence every such rule integrates everything to 0.", "quantifier": "every unsupported npts, every family", "why_tests_cant": "Untested, and all npts.", "anchors": [{"file": "include/integratorxx/quadratures/s2/lebedev_laikov.hpp", "symbols": ["npts_by_algebraic_order", "algebraic_order_by_npts", "next_algebraic_order", "generate"]}, {"file": "include/integratorxx/quadratures/s2/delley.hpp", "symbols": ["npts_by_algebraic_order", "algebraic_order_by_npts", "next_algebraic_order", "generate"]}, {"file": "include/integratorxx/quadratures/s2/ahrens_beylkin.hpp", "symbols": ["npts_by_algebraic_order", "algebraic_order_by_npts", "next_algebraic_order", "generate"]}, {"file": "include/integratorxx/quadratures/s2/womersley.hpp", "symbols": ["npts_by_algebraic_order", "algebraic_order_by_npts", "next_algebraic_order", "generate", "generate_large_npts_"]}]}
{"id": "C50", "title": "radial_from_string / angular_from_string are case-insensitive and total", "statement": "Each parser accepts exactly the documented names and abbreviations in any ASCII letter case, maps them to the right enumerator, and throws the corresponding \"Unrecognized ...\" runtime_error for every other string.", "quantifier": "every string", "why_tests_cant": "Infinitely many strings.", "anchors": [{"file": "include/integratorxx/generators/impl/radial_factory.hpp", "symbols": ["radial_from_string"]}, {"file": "include/integratorxx/generators/impl/s2_factory.hpp", "symbols": ["angular_from_string"]}]}
{"id": "C51", "title": "make_radial_traits constructs or throws by arity", "statement": "make_radial_traits(rq, npts, [R, [alpha]]) succeeds for 1-2 numeric arguments for all schemes and for 3 arguments only for TreutlerAhlrichs, otherwise throws \"RadialTraits Construction Failed\"; omitted parameters default to R=1, alpha=0.6.", "quantifier": "every scheme and argument list", "why_tests_cant": "All combinations.", "anchors": [{"file": "include/integratorxx/generators/radial_factory.hpp", "symbols": ["make_radial_traits"]}, {"file": "include/integratorxx/quadratures/radial/becke.hpp", "symbols": ["constructor"]}, {"file": "include/integratorxx/quadratures/radial/mhl.hpp", "symbols": ["constructor"]}, {"file": "include/integratorxx/quadratures/radial/muraknowles.hpp", "symbols": ["constructor"]}, {"file": "include/integratorxx/quadratures/radial/treutlerahlrichs.hpp", "symbols": ["constructor"]}]}
{"id": "C52", "title": "Radial factory dispatch and dynamic type checks", "statement": "RadialFactory::generate(rq,traits) succeeds exactly when the dynamic type of traits matches rq, in which case it returns that scheme's quadrature for those parameters; otherwise it throws std::bad_cast.", "quantifier": "every scheme x traits", "why_tests_cant": "All combinations.", "anchors": [{"file": "include/integratorxx/generators/impl/radial_factory.hpp", "symbols": ["RadialFactory::generate"]}, {"file": "include/integratorxx/quadratures/radial/radial_transform.hpp", "symbols": ["radial_traits_cast"]}]}
{"id": "C53", "title": "Traits comparison and specification copies", "statement": "RadialTraits::compare is an equivalence relation that identifies exactly equal type and parameters (non-NaN parameters); copies/assignments of grid specifications compare equal and are independent of the original; with a NaN scale a specification is not equal to its own copy.", "quantifier": "all specifications", "why_tests_cant": "All values including NaN.", "anchors": [{"file": "include/integratorxx/generators/spherical_factory.hpp", "symbols": ["PrunedSphericalGridSpecification", "UnprunedSphericalGridSpecification", "PruningRegion"]}, {"file": "include/integratorxx/quadratures/radial/becke.hpp", "symbols": ["compare", "operator=="]}, {"file": "include/integratorxx/quadratures/radial/mhl.hpp", "symbols": ["compare", "operator=="]}, {"file": "include/integratorxx/quadratures/radial/muraknowles.hpp", "symbols": ["compare", "operator=="]}, {"file": "include/integratorxx/quadratures/radial/treutlerahlrichs.hpp", "symbols": ["compare", "operator=="]}]}
{"id": "C54", "title": "Null traits are rejected", "statement": "generate_grid and create_pruned_spec throw \"RadialTraits Not Set\" for specifications without radial traits, and never dereference the null pointer.", "quantifier": "all specifications and schemes", "why_tests_cant": "All specs.", "anchors": [{"file": "include/integratorxx/generators/spherical_factory.hpp", "symbols": ["SphericalGridFactory::generate_grid"]}, {"file": "include/integratorxx/generators/impl/pruned_grid.hpp", "symbols": ["make_pruned_grid_impl", "make_pruned_grid", "SphericalGridFactory::generate_pruned_grid", "create_pruned_spec"]}]}
{"id": "C55", "title": "Batcher preserves the quadrature as a multiset", "statement": "Building a SphericalMicroBatcher over any non-empty quadrature permutes its (point, weight) pairs: the multiset of pairs is unchanged, so every rule value over the whole grid is unchanged.", "quantifier": "every quadrature, batch size, every conforming std::partition, any arithmetic", "why_tests_cant": "Tests check one grid and one STL.", "anchors": [{"file": "include/integratorxx/batch/spherical_micro_batcher.hpp", "symbols": ["generate_batches", "partition_box"]}]}
{"id": "C56", "title": "Batches tile the grid and respect the size limit", "statement": "Whenever construction returns, the partition indices start at 0, end at npts, are strictly increasing, and consecutive differences are between 1 and max_batch_size.", "quantifier": "every quadrature, batch size, any arithmetic satisfying lo+0*d=lo", "why_tests_cant": "Sampled grids only.", "anchors": [{"file": "include/integratorxx/batch/spherical_micro_batcher.hpp", "symbols": ["generate_batches", "partition_box", "SphericalMicroBatcher"]}]}
{"id": "C57", "title": "Batch bounding boxes are tight", "statement": "The box returned when dereferencing a batch contains all its points, and each face touches a point of the batch.", "quantifier": "every non-empty batch", "why_tests_cant": "All batches.", "anchors": [{"file": "include/integratorxx/batch/spherical_micro_batcher.hpp", "symbols": ["get_box_bounds_points", "iterator::operator*", "get_box_bounds"]}]}
{"id": "C58", "title": "Batch generation terminates exactly when multiplicities allow", "statement": "In exact arithmetic generate_batches terminates iff no point occurs more often than max_batch_size (so max_batch_size = 0 on a non-empty grid, or more coincident points than the limit, hang); an empty quadrature is undefined behaviour.", "quantifier": "every quadrature and batch size", "why_tests_cant": "Non-termination is not testable.", "anchors": [{"file": "include/integratorxx/batch/spherical_micro_batcher.hpp", "symbols": ["generate_batches"]}]}
{"id": "C59", "title": "partition_box splits a range by boxes", "statement": "partition_box reorders only the given range, returns strictly increasing split positions from begin to end, every point of the range lands in some part, and every part lies in one closed grid cell of the npart^3 subdivision of the bounding box.", "quantifier": "every range, npart >= 1, every conforming std::partition", "why_tests_cant": "All ranges.", "anchors": [{"file": "include/integratorxx/batch/spherical_micro_batcher.hpp", "symbols": ["partition_box", "point_in_box"]}]}
{"id": "C60", "title": "Batch access: at() and iteration agree", "statement": "at(i) throws \"Index out of bounds\" exactly when i >= nbatches(), otherwise returns the i-th batch of the iteration; concatenating all batches yields the whole (reordered) grid.", "quantifier": "every batcher, every i", "why_tests_cant": "All indices.", "anchors": [{"file": "include/integratorxx/batch/spherical_micro_batcher.hpp", "symbols": ["at", "nbatches", "begin", "end", "iterator::range"]}]}
{"id": "C61", "title": "Copies of a batcher alias, clones do not", "statement": "Recentering a copy-constructed batcher also moves the original's points (shared quadrature), whereas recentering a clone leaves the original unchanged, under any interleaving of recenter calls on originals, copies and clones; partition indices are never affected.", "quantifier": "every sequence of copy/clone/recenter operations", "why_tests_cant": "Histories are unbounded.", "anchors": [{"file": "include/integratorxx/batch/spherical_micro_batcher.hpp", "symbols": ["SphericalMicroBatcher", "clone", "recenter"]}]}
{"id": "C62", "title": "Checked element access", "statement": "points(i)/weights(i) on a quadrature return the i-th element for i < npts() and throw std::out_of_range otherwise; copies are independent values and a moved-from quadrature is empty.", "quantifier": "every quadrature and index", "why_tests_cant": "All indices.", "anchors": [{"file": "include/integratorxx/quadrature.hpp", "symbols": ["QuadratureBase::points", "QuadratureBase::weights", "QuadratureBase::npts", "Quadrature"]}]}
{"id": "C63", "title": "Angular weights are normalised to 4 pi", "statement": "For every grid shipped for Lebedev-Laikov, Delley, Ahrens-Beylkin and Womersley except Ahrens-Beylkin with 552 points the constructed weights sum to 4*pi up to 1e-12 relative error. The weights of the shipped Ahrens-Beylkin 552-point table sum to less than 12.11 (4*pi is more than 12.56).", "quantifier": "every grid in the tables", "why_tests_cant": "The 552-point table is not covered by a failing test; whole table.", "anchors": [{"file": "include/integratorxx/quadratures/s2/lebedev_laikov.hpp", "symbols": ["npts_by_algebraic_order", "algebraic_order_by_npts", "next_algebraic_order", "generate"]}, {"file": "include/integratorxx/quadratures/s2/delley.hpp", "symbols": ["npts_by_algebraic_order", "algebraic_order_by_npts", "next_algebraic_order", "generate"]}, {"file": "include/integratorxx/quadratures/s2/ahrens_beylkin.hpp", "symbols": ["npts_by_algebraic_order", "algebraic_order_by_npts", "next_algebraic_order", "generate"]}, {"file": "include/integratorxx/quadratures/s2/womersley.hpp", "symbols": ["npts_by_algebraic_order", "algebraic_order_by_npts", "next_algebraic_order", "generate", "generate_large_npts_"]}]}
{"id": "C64", "title": "Angular points lie on the unit sphere", "statement": "Every tabulated angular point has squared norm 1 up to 1e-14.", "quantifier": "every point of every grid", "why_tests_cant": "Hundreds of thousands of entries.", "anchors": [{"file": "include/integratorxx/quadratures/s2/lebedev_laikov.hpp", "symbols": ["npts_by_algebraic_order", "algebraic_order_by_npts", "next_algebraic_order", "generate"]}, {"file": "include/integratorxx/quadratures/s2/delley.hpp", "symbols": ["npts_by_algebraic_order", "algebraic_order_by_npts", "next_algebraic_order", "generate"]}, {"file": "include/integratorxx/quadratures/s2/ahrens_beylkin.hpp", "symbols": ["npts_by_algebraic_order", "algebraic_order_by_npts", "next_algebraic_order", "generate"]}, {"file": "include/integratorxx/quadratures/s2/womersley.hpp", "symbols": ["npts_by_algebraic_order", "algebraic_order_by_npts", "next_algebraic_order", "generate", "generate_large_npts_"]}]}
{"id": "C65", "title": "Sign of the angular weights", "statement": "All tabulated angular weights are positive except for the Lebedev-Laikov grids with 74, 230 and 266 points and the Ahrens-Beylkin grid with 1572 points, which contain negative weights. For every supported grid the absolute values of the constructed weights sum to at most 8*pi.", "quantifier": "every grid", "why_tests_cant": "Whole table.", "anchors": [{"file": "include/integratorxx/quadratures/s2/lebedev_laikov.hpp", "symbols": ["npts_by_algebraic_order", "algebraic_order_by_npts", "next_algebraic_order", "generate"]}, {"file": "include/integratorxx/quadratures/s2/delley.hpp", "symbols": ["npts_by_algebraic_order", "algebraic_order_by_npts", "next_algebraic_order", "generate"]}, {"file": "include/integratorxx/quadratures/s2/ahrens_beylkin.hpp", "symbols": ["npts_by_algebraic_order", "algebraic_order_by_npts", "next_algebraic_order", "generate"]}, {"file": "include/integratorxx/quadratures/s2/womersley.hpp", "symbols": ["npts_by_algebraic_order", "algebraic_order_by_npts", "next_algebraic_order", "generate", "generate_large_npts_"]}]}
{"id": "C66", "title": "Angular grids are exact for low-degree polynomials", "statement": "Every shipped grid except Ahrens-Beylkin with 552 points integrates every polynomial of degree <= min(order, 3) over the sphere with an error of at most 4*pi*1e-13 times the sum of the absolute values of its coefficients.", "quantifier": "every grid, every polynomial of degree at most 3", "why_tests_cant": "Whole table.", "anchors": [{"file": "include/integratorxx/quadratures/s2/lebedev_laikov.hpp", "symbols": ["npts_by_algebraic_order", "algebraic_order_by_npts", "next_algebraic_order", "generate"]}, {"file": "include/integratorxx/quadratures/s2/delley.hpp", "symbols": ["npts_by_algebraic_order", "algebraic_order_by_npts", "next_algebraic_order", "generate"]}, {"file": "include/integratorxx/quadratures/s2/ahrens_beylkin.hpp", "symbols": ["npts_by_algebraic_order", "algebraic_order_by_npts", "next_algebraic_order", "generate"]}, {"file": "include/integratorxx/quadratures/s2/womersley.hpp", "symbols": ["npts_by_algebraic_order", "algebraic_order_by_npts", "next_algebraic_order", "generate", "generate_large_npts_"]}]}
{"id": "C67", "title": "Angular grids are exact to their tabulated order", "statement": "A grid with algebraic_order_by_npts(npts) = L integrates every polynomial of degree <= L over the sphere up to rounding of the table: error at most 4*pi*1e-13 (octahedral families) or 5e-14 (the others; polynomials at most linear in z, to which every polynomial reduces on the sphere) times the sum of the absolute values of the coefficients. The Ahrens-Beylkin 552-point grid is not even exact for constants.", "quantifier": "every grid except Ahrens-Beylkin 552, every polynomial of degree up to the order", "why_tests_cant": "Tests try a few spherical harmonics at a few sizes; a wrong digit in one table goes unnoticed.", "anchors": [{"file": "include/integratorxx/quadratures/s2/lebedev_laikov.hpp", "symbols": ["npts_by_algebraic_order", "algebraic_order_by_npts", "next_algebraic_order", "generate"]}, {"file": "include/integratorxx/quadratures/s2/delley.hpp", "symbols": ["npts_by_algebraic_order", "algebraic_order_by_npts", "next_algebraic_order", "generate"]}, {"file": "include/integratorxx/quadratures/s2/ahrens_beylkin.hpp", "symbols": ["npts_by_algebraic_order", "algebraic_order_by_npts", "next_algebraic_order", "generate"]}, {"file": "include/integratorxx/quadratures/s2/womersley.hpp", "symbols": ["npts_by_algebraic_order", "algebraic_order_by_npts", "next_algebraic_order", "generate", "generate_large_npts_"]}]}
{"id": "C68", "title": "GaussLegendre converges for every size", "statement": "In exact arithmetic with IEEE special values GaussLegendre(npts) returns for every npts (no Newton iteration runs out of its 100 steps, the runtime_error is unreachable); the i-th node lies within 1.5*2^-52 of the i-th smallest root of P_npts, all nodes lie in (-1,1), all weights are finite and positive; up to 2^20 points the nodes are strictly increasing.", "quantifier": "every npts", "why_tests_cant": "Tests cover a few sizes; convergence to the right root at every size cannot be sampled.", "anchors": [{"file": "include/integratorxx/quadratures/primitive/gausslegendre.hpp", "symbols": ["quadrature_traits<GaussLegendre>::generate"]}]}
{"id": "C69", "title": "GaussLobatto converges for every size", "statement": "In exact arithmetic with IEEE special values GaussLobatto(npts) returns for every npts >= 2 that fits size_t; the i-th node lies within 1.5*2^-52 of the i-th smallest element of {-1, 1} and the roots of P'_{npts-1}, the ends are exact, all weights are finite and positive; up to 2^20 points the nodes are strictly increasing.", "quantifier": "every npts >= 2", "why_tests_cant": "Tests cover a few sizes.", "anchors": [{"file": "include/integratorxx/quadratures/primitive/gausslobatto.hpp", "symbols": ["quadrature_traits<GaussLobatto>::generate"]}]}
{"id": "C70", "title": "Accuracy of the computed GaussLegendre rule", "statement": "For 1 <= npts <= 2^20 the rule actually returned by GaussLegendre(npts) in exact arithmetic (Newton iterates stopped by the eps test, weights from the last derivative) integrates every polynomial of degree < 2*npts over [-1,1] with an error of at most 12*(npts+1)^2*2^-52 times the sum of the absolute values of its coefficients.", "quantifier": "every npts up to 2^20, every polynomial of degree < 2*npts", "why_tests_cant": "Tests use a few polynomials and sizes.", "anchors": [{"file": "include/integratorxx/quadratures/primitive/gausslegendre.hpp", "symbols": ["quadrature_traits<GaussLegendre>::generate"]}]}
{"id": "C71", "title": "Accuracy of the computed GaussLobatto rule", "statement": "For 2 <= npts <= 2^20 the rule actually returned by GaussLobatto(npts) in exact arithmetic integrates every polynomial of degree < 2*npts-2 over [-1,1] with an error of at most 8*npts^2*2^-52 times the sum of the absolute values of its coefficients.", "quantifier": "every npts from 2 to 2^20, every polynomial of degree < 2*npts-2", "why_tests_cant": "Tests use a few polynomials and sizes.", "anchors": [{"file": "include/integratorxx/quadratures/primitive/gausslobatto.hpp", "symbols": ["quadrature_traits<GaussLobatto>::generate"]}]}
{"id": "C72", "title": "Chebyshev rules in double precision", "statement": "In IEEE double arithmetic with a C library whose sin and cos err by at most one unit in the last place, GaussChebyshev1(n) and GaussChebyshev2(n) with n <= 2^20 consist of finite numbers, the nodes increase strictly and lie in (-1,1), the weights are positive, nodes differ from the exact rule by at most 2^-48 and weights by at most 2^-45. The same holds for GaussChebyshev3(n) on (0,1) with 2^-47 for the nodes.", "quantifier": "every n up to 2^20, every such C library", "why_tests_cant": "Tests compare a few sizes on one machine.", "anchors": [{"file": "include/integratorxx/quadratures/primitive/gausschebyshev1.hpp", "symbols": ["quadrature_traits<GaussChebyshev1>::generate"]}, {"file": "include/integratorxx/quadratures/primitive/gausschebyshev2.hpp", "symbols": ["quadrature_traits<GaussChebyshev2>::generate"]}, {"file": "include/integratorxx/quadratures/primitive/gausschebyshev3.hpp", "symbols": ["quadrature_traits<GaussChebyshev3>::generate"]}]}
{"id": "C73", "title": "UniformTrapezoid in double precision", "statement": "In IEEE double arithmetic UniformTrapezoid(n) on [0,1] with 2 <= n <= 2^50 starts exactly at 0, increases strictly, stays in [0,1], ends at 1 or 1-2^-53, has positive weights; node i differs from i/(n-1) by at most 2^-51 relatively and weights by 2^-53 relatively. The grid with 50 points ends at 1-2^-53, not at 1.", "quantifier": "every n up to 2^50", "why_tests_cant": "Whether the last node leaves the interval depends on the rounding of 1/(n-1) at every single size.", "anchors": [{"file": "include/integratorxx/quadratures/primitive/uniform.hpp", "symbols": ["quadrature_traits<UniformTrapezoid>::generate"]}]}
{"id": "C74", "title": "The micro-batcher in double precision", "statement": "In IEEE double arithmetic and for coordinates that are not NaN: when constructing a batcher returns, points and weights are permuted, the batches tile them, hold between 1 and max_batch_size points and lie in the reported boxes. It returns when no point occurs more often than max_batch_size and different coordinates differ by at least 2^-50 relatively. Distinct points are not enough: for max_batch_size 1 and the points with x = 1+2^-52, 1+2^-51, 2 (equal y, equal z) it never returns.", "quantifier": "every quadrature of doubles, every batch size, every conforming std::partition", "why_tests_cant": "The hang needs two neighbouring doubles whose midpoint rounds up; a test would have to run forever.", "anchors": [{"file": "include/integratorxx/batch/spherical_micro_batcher.hpp", "symbols": ["SphericalMicroBatcher::generate_batches", "partition_box", "get_box_bounds", "point_in_box"]}]}
{"id": "C75", "title": "Radial rules in double precision", "statement": "In IEEE double arithmetic with a C library whose sin, cos, log and pow err by at most one unit in the last place, and for a scale factor R between 2^-50 and 2^50: Becke (n < 2^15), MurrayHandyLaming (exponent 1 to 4, n < 2^15), TreutlerAhlrichs (alpha between 2^-30 and 1, n < 2^13) and MuraKnowles (n < 2^12) return finite numbers, radii that are positive and strictly increasing and positive weights; relative errors against exact arithmetic are at most 2^-47 (n+1)^2 / 2^-46 (n+1)^2 (radii / weights; Becke, TreutlerAhlrichs), 2^-48 (n+1)^2 (MurrayHandyLaming) and 2^-50 (n+1)^3 / 2^-48 (n+1) (MuraKnowles). MuraKnowles with 2^19 <= n+1 <= 2^53 returns a radius of exactly 0 for its first two points.", "quantifier": "every n in the stated ranges, every scale, every such C library", "why_tests_cant": "Tests compare a few sizes with reference values on one machine; cancellation in 1-x and 1-x^3 grows with n.", "anchors": [{"file": "include/integratorxx/quadratures/radial/radial_transform.hpp", "symbols": ["quadrature_traits<RadialTransformQuadrature>::generate"]}, {"file": "include/integratorxx/quadratures/radial/becke.hpp", "symbols": ["BeckeRadialTraits::radial_transform", "BeckeRadialTraits::radial_jacobian"]}, {"file": "include/integratorxx/quadratures/radial/mhl.hpp", "symbols": ["MurrayHandyLamingRadialTraits::radial_transform", "MurrayHandyLamingRadialTraits::radial_jacobian"]}, {"file": "include/integratorxx/quadratures/radial/muraknowles.hpp", "symbols": ["MuraKnowlesRadialTraits::radial_transform", "MuraKnowlesRadialTraits::radial_jacobian"]}, {"file": "include/integratorxx/quadratures/radial/treutlerahlrichs.hpp", "symbols": ["TreutlerAhlrichsRadialTraits::radial_transform", "TreutlerAhlrichsRadialTraits::radial_jacobian"]}]}
{"id": "C76", "title": "eval_Pn in double precision", "statement": "In IEEE double arithmetic and for |x| <= 1, n <= 2^20, eval_Pn(x,n) returns finite values of P_n and P_{n-1} with errors of at most 4*n^2*2^-52, for P_n also at most 4*n*2^-52/sqrt(1-x^2); for 1-x^2 >= 1000*2^-52 the derivative is finite with an error of at most n/(1-x^2)*(5*n+9/(1-x^2))*2^-52.", "quantifier": "every double x in [-1,1], every n up to 2^20", "why_tests_cant": "Error growth along a recurrence of a million steps cannot be sampled.", "anchors": [{"file": "include/integratorxx/util/legendre.hpp", "symbols": ["eval_Pn"]}]}
{"id": "C77", "title": "GaussLegendre in double precision", "statement": "In IEEE double arithmetic with a C library whose cos errs by at most one unit in the last place, GaussLegendre(npts) with 1 <= npts <= 2^15 throws its runtime_error or returns finite numbers: strictly increasing nodes in (-1,1) within 25*sqrt(npts)*2^-52 of the roots of P_npts, positive weights with relative error at most 100*sqrt(npts)*(npts+1)^2*2^-52, exact symmetry off the centre, and every polynomial of degree < 2*npts is integrated with an error of at most 200*sqrt(npts)*(npts+1)^2*2^-52 times the sum of the absolute values of its coefficients. With one, two or three points GaussLegendre does not throw.", "quantifier": "every npts up to 2^15, every such C library, every polynomial of degree < 2*npts", "why_tests_cant": "Tests compare a few sizes on one machine.", "anchors": [{"file": "include/integratorxx/quadratures/primitive/gausslegendre.hpp", "symbols": ["quadrature_traits<GaussLegendre>::generate"]}]}
{"id": "C78", "title": "GaussLobatto in double precision", "statement": "In IEEE double arithmetic with a C library whose cos errs by at most one unit in the last place, GaussLobatto(npts) with 2 <= npts <= 2^15 throws its runtime_error or returns finite numbers: first node exactly -1, last exactly 1, strictly increasing nodes within 30*sqrt(npts)*2^-52 of {-1, 1} and the roots of P'_{npts-1}, positive weights with relative error at most 40*sqrt(npts)*npts^2*2^-52, exact symmetry (the centre node of an odd rule is exactly 0), and every polynomial of degree < 2*npts-2 is integrated with an error of at most 150*sqrt(npts)*npts^2*2^-52 times the sum of the absolute values of its coefficients. GaussLobatto(2) returns exactly -1, 1 with weights 1, 1, and with two, three or four points GaussLobatto does not throw.", "quantifier": "every npts from 2 to 2^15, every such C library, every polynomial of degree < 2*npts-2", "why_tests_cant": "Tests compare a few sizes on one machine.", "anchors": [{"file": "include/integratorxx/quadratures/primitive/gausslobatto.hpp", "symbols": ["quadrature_traits<GaussLobatto>::generate"]}]}
{"id": "C79", "title": "The Chebyshev rules converge", "statement": "In exact arithmetic, for every function continuous on the interval the values of GaussChebyshev1, GaussChebyshev2, GaussChebyshev2Modified (interval [-1,1]) and GaussChebyshev3 (interval [0,1]) tend to the plain integral of the function as npts grows. For Lipschitz constant K and bound M the errors are at most pi^2 (K+M)/n, pi^2 (K+M)/(n+1), pi^2 (3K+7M)/(n+1) and pi^2 (K+2M)/(2n+1).", "quantifier": "every continuous function, every npts", "why_tests_cant": "Tests integrate one or two smooth functions at one size.", "anchors": [{"file": "include/integratorxx/quadratures/primitive/gausschebyshev1.hpp", "symbols": ["quadrature_traits<GaussChebyshev1>::generate"]}, {"file": "include/integratorxx/quadratures/primitive/gausschebyshev2.hpp", "symbols": ["quadrature_traits<GaussChebyshev2>::generate"]}, {"file": "include/integratorxx/quadratures/primitive/gausschebyshev2modified.hpp", "symbols": ["quadrature_traits<GaussChebyshev2Modified>::generate"]}, {"file": "include/integratorxx/quadratures/primitive/gausschebyshev3.hpp", "symbols": ["quadrature_traits<GaussChebyshev3>::generate"]}]}
{"id": "C80", "title": "Error and convergence of the radial rules", "statement": "In exact arithmetic, for every f continuous on (0,infinity): let G be f(r) dr in the variable that is divided into npts+1 equal parts (the angle of the Chebyshev rule for Becke and TreutlerAhlrichs, length T=pi; the unit interval for MurrayHandyLaming and MuraKnowles, T=1). If |G| <= M and G varies by at most e over one part, then f is integrable and the rule value differs from the integral of f over (0,infinity) by at most e*T + M*T/(npts+1). Becke converges whenever |f(r)| (R+r)^2 is bounded, TreutlerAhlrichs whenever |f(r)| 2^(r/R) is bounded.", "quantifier": "every continuous integrand, all four schemes, every npts and scale", "why_tests_cant": "Tests integrate Gaussians at a few sizes.", "anchors": [{"file": "include/integratorxx/quadratures/radial/radial_transform.hpp", "symbols": ["quadrature_traits<RadialTransformQuadrature>::generate"]}, {"file": "include/integratorxx/quadratures/radial/becke.hpp", "symbols": ["BeckeRadialTraits::radial_transform", "BeckeRadialTraits::radial_jacobian"]}, {"file": "include/integratorxx/quadratures/radial/mhl.hpp", "symbols": ["MurrayHandyLamingRadialTraits::radial_transform", "MurrayHandyLamingRadialTraits::radial_jacobian"]}, {"file": "include/integratorxx/quadratures/radial/muraknowles.hpp", "symbols": ["MuraKnowlesRadialTraits::radial_transform", "MuraKnowlesRadialTraits::radial_jacobian"]}, {"file": "include/integratorxx/quadratures/radial/treutlerahlrichs.hpp", "symbols": ["TreutlerAhlrichsRadialTraits::radial_transform", "TreutlerAhlrichsRadialTraits::radial_jacobian"]}]}
{"id": "C81", "title": "Grids of the factory integrate over space", "statement": "In exact arithmetic, for a grid Becke x angular (or TreutlerAhlrichs x angular) generated by SphericalGridFactory from an unpruned specification with a supported angular size (not Ahrens-Beylkin 552), and for every integrand F(|x|) p(x) with p homogeneous of degree l at most the order of the angular grid and F continuous on (0,infinity) with r^(2+l) |F(r)| (R+r)^2 bounded (Becke) or r^(2+l) |F(r)| bounded by C exp(-k r), k >= 0.6932/R (TreutlerAhlrichs): the integrand is integrable over space, and the sums over the grid come, for all large radial sizes, within any positive bound plus (4*pi*1e-13*(l+3) + e)*|coefficients of p|_1 * |int r^(2+l) F| of its Lebesgue integral over R^3, where e = 4*pi*1e-13 for Lebedev-Laikov and Delley and 3^floor(l/2)*6e-14 for the others. The exact value used for the angular grids is the integral in the surface measure.", "quantifier": "every such integrand, every supported angular grid, every scale", "why_tests_cant": "Tests integrate one Gaussian on a few grids.", "anchors": [{"file": "include/integratorxx/composite_quadratures/spherical_quadrature.hpp", "symbols": ["quadrature_traits<SphericalQuadrature>::generate", "spherical_combine_op", "shift_grid"]}, {"file": "include/integratorxx/quadratures/radial/radial_transform.hpp", "symbols": ["quadrature_traits<RadialTransformQuadrature>::generate"]}, {"file": "include/integratorxx/generators/impl/unpruned_grid.hpp", "symbols": ["SphericalGridFactory::generate_unpruned_grid"]}]}
{"id": "C82", "title": "Error of pruned grids over space", "statement": "In exact arithmetic, for a pruned grid generated by SphericalGridFactory from any radial scheme and any regions accepted by the partition (angular grids of one family, supported, not Ahrens-Beylkin 552, order at least l), and for every integrand F(|x|) p(x) with p homogeneous of degree l: the sum over the grid differs from the Lebesgue integral over R^3 by at most |int_S2 p| times the error of the radial rule on f(r) = r^(2+l) F(r), plus e*|p|_1 times the rule value of |f| (e = 4*pi*1e-13 for Lebedev-Laikov and Delley, 3^floor(l/2)*6e-14 for the others), plus 16*pi*|p|_1 times the rule value of a bound H of the change of f under a relative shift 1e-14 of the argument of F. The grids made from create_pruned_spec with robust or treutler and at least 5 radial points satisfy this for l <= 7, l+6 <= order of the base grid, except for Ahrens-Beylkin.", "quantifier": "every radial scheme and size, every pruning, both builds, every such integrand", "why_tests_cant": "Tests integrate one Gaussian on a few grids; regions are combined freely by users.", "anchors": [{"file": "include/integratorxx/composite_quadratures/product_quadrature.hpp", "symbols": ["quadrature_traits<ProductQuadrature>::generate"]}, {"file": "include/integratorxx/generators/impl/pruned_grid.hpp", "symbols": ["make_pruned_grid_impl", "make_pruned_grid", "SphericalGridFactory::generate_pruned_grid", "create_pruned_spec"]}, {"file": "include/integratorxx/generators/impl/robust_pruning.hpp", "symbols": ["robust_psi4_pruning_scheme", "robust_psi4_pruning_scheme_impl", "get_robust_low_med_sizes"]}, {"file": "include/integratorxx/generators/impl/treutler_pruning.hpp", "symbols": ["treutler_pruning_scheme", "treutler_pruning_scheme_impl", "get_treutler_low_med_sizes"]}]}
{"id": "C83", "title": "Batchers that share a quadrature object", "statement": "In exact arithmetic, after any history of constructing batchers (from shared pointers, copies and temporaries, several from one object, with given or generated indices), copying, moving, cloning and recentring: every batcher with generated indices whose quadrature object has not been moved away still visits nbatches() batches of 1 to max_batch_size points, at(i) returns the i-th, and together they are a permutation of the entries of the originating quadrature moved to the present centre, even when other constructors have reordered the shared object. When the shared object was moved into another batcher, at(0) is undefined behaviour.", "quantifier": "every history of operations, every conforming std::partition, fewer than 2^31 points", "why_tests_cant": "Tests build one batcher from one quadrature; interleavings of sharing, moving and recentring are unbounded.", "anchors": [{"file": "include/integratorxx/batch/spherical_micro_batcher.hpp", "symbols": ["SphericalMicroBatcher::SphericalMicroBatcher", "recenter", "clone", "at"]}]}
{"id": "C84", "title": "operator+ of the batch iterator moves its operand", "statement": "For iterators of SphericalMicroBatcher, auto u = v + i also moves v; v keeps its position exactly when i = 0. Copies and increments behave like standard iterators. A client walking over neighbouring batches with next = it + 1 sees every second batch paired with itself when the number of batches is even and dereferences past the end when it is odd.", "quantifier": "every batcher with fewer than 2^31 points, every position and offset", "why_tests_cant": "Tests use only range-based loops.", "anchors": [{"file": "include/integratorxx/batch/spherical_micro_batcher.hpp", "symbols": ["SphericalMicroBatcher::iterator::operator+"]}]}
{"id": "C85", "title": "Angular grids in double precision", "statement": "In IEEE double arithmetic every supported angular grid (LebedevLaikov, AhrensBeylkin, Delley, Womersley) consists of finite numbers; each coordinate differs from the decimal number written in the table (sign and permutation applied) by at most 2^-52 relatively, each weight from the exact product of the tabulated weight with the 4*pi scaling by at most 2^-50 relatively.", "quantifier": "every supported size of every family", "why_tests_cant": "Tests compare sums, not single entries.", "anchors": [{"file": "include/integratorxx/quadratures/s2/lebedev_laikov.hpp", "symbols": ["npts_by_algebraic_order", "algebraic_order_by_npts", "next_algebraic_order", "generate"]}, {"file": "include/integratorxx/quadratures/s2/delley.hpp", "symbols": ["npts_by_algebraic_order", "algebraic_order_by_npts", "next_algebraic_order", "generate"]}, {"file": "include/integratorxx/quadratures/s2/ahrens_beylkin.hpp", "symbols": ["npts_by_algebraic_order", "algebraic_order_by_npts", "next_algebraic_order", "generate"]}, {"file": "include/integratorxx/quadratures/s2/womersley.hpp", "symbols": ["npts_by_algebraic_order", "algebraic_order_by_npts", "next_algebraic_order", "generate", "generate_large_npts_"]}]}
{"id": "C86", "title": "Molecular grids in double precision", "statement": "In IEEE double arithmetic with a C library whose sin, cos, log and pow err by at most one unit in the last place, the grids SphericalGridFactory generates from a radial scheme in the range of the previous double precision property for radial rules (relative errors p of radii and w of weights) and supported angular grids, pruned with any regions accepted by the partition or unpruned, consist of finite numbers with relative errors of at most p + 2^-50 in every coordinate and 1.1*(w+2p) + 2^-49 in every weight against the same grid in exact arithmetic.", "quantifier": "all four radial schemes, every size in range, every pruning, both builds, every such C library", "why_tests_cant": "Tests integrate one Gaussian on a few grids.", "anchors": [{"file": "include/integratorxx/composite_quadratures/spherical_quadrature.hpp", "symbols": ["quadrature_traits<SphericalQuadrature>::generate", "spherical_combine_op", "shift_grid"]}, {"file": "include/integratorxx/composite_quadratures/product_quadrature.hpp", "symbols": ["quadrature_traits<ProductQuadrature>::generate"]}, {"file": "include/integratorxx/generators/impl/unpruned_grid.hpp", "symbols": ["SphericalGridFactory::generate_unpruned_grid"]}, {"file": "include/integratorxx/generators/impl/pruned_grid.hpp", "symbols": ["make_pruned_grid_impl", "make_pruned_grid", "SphericalGridFactory::generate_pruned_grid", "create_pruned_spec"]}]}
{"id": "C87", "title": "Integrals computed with grids in double precision", "statement": "For the pruned grids of the previous property and an integrand f = F(|x|) p(x), p homogeneous of degree at most the order of every angular grid used: the sum over the stored doubles differs from the Lebesgue integral over R^3 by at most the bound of exact arithmetic (error of the radial rule, rounding of the angular tables) plus sum |w| (W |f(x)| + (1+W) K(x)) over the exact grid, W the relative error of the weights and K(x) a bound of the change of f when coordinates move by the relative error of the points.", "quantifier": "every such grid and integrand, every such C library", "why_tests_cant": "Tests compare one integral with a tolerance.", "anchors": [{"file": "include/integratorxx/composite_quadratures/spherical_quadrature.hpp", "symbols": ["quadrature_traits<SphericalQuadrature>::generate", "spherical_combine_op", "shift_grid"]}, {"file": "include/integratorxx/composite_quadratures/product_quadrature.hpp", "symbols": ["quadrature_traits<ProductQuadrature>::generate"]}, {"file": "include/integratorxx/generators/impl/pruned_grid.hpp", "symbols": ["make_pruned_grid_impl", "make_pruned_grid", "SphericalGridFactory::generate_pruned_grid", "create_pruned_spec"]}]}
{"id": "C88", "title": "recenter in double precision", "statement": "In IEEE double arithmetic, for k <= 2^50 calls of recenter with centres and a grid radius of at most B (2^-100 <= B <= 2^100): every coordinate stays within k*2^-50*B of its exact position, the weights do not change and center() is the last centre. recenter is not reversible: a grid around the origin whose x coordinates are at most 32, moved to x = 2^60 and back, has x = 0 at every point. After a centre with a NaN coordinate, or an infinite one followed by a finite one, all points keep a NaN in that coordinate whatever centres follow.", "quantifier": "every grid, every history of centres", "why_tests_cant": "Tests recenter once, between small centres.", "anchors": [{"file": "include/integratorxx/composite_quadratures/spherical_quadrature.hpp", "symbols": ["quadrature_traits<SphericalQuadrature>::generate", "spherical_combine_op", "shift_grid"]}]}
{"id": "C89", "title": "GaussChebyshev2Modified in double precision", "statement": "In IEEE double arithmetic with a C library whose sin and cos err by at most one unit in the last place, GaussChebyshev2Modified(n) with n <= 2^20 consists of finite numbers, nodes are within 2^-46 and weights within 2^-45 of the exact rule, the weights are positive and have a relative error of at most 2^-26. The nodes do not increase strictly as they do in exact arithmetic: for 10^6 <= n <= 2^20 two of them are equal.", "quantifier": "every n up to 2^20, every such C library", "why_tests_cant": "Tests use at most a few hundred points, where nodes are still distinct.", "anchors": [{"file": "include/integratorxx/quadratures/primitive/gausschebyshev2modified.hpp", "symbols": ["quadrature_traits<GaussChebyshev2Modified>::generate"]}]}
{"id": "C90", "title": "The bound transformation in double arithmetic", "statement": "transform_minus_one_to_one in double: (a) for finite bounds of magnitude at most M <= 2^100 at least 2^-100 apart and |pt| <= 1 the new point differs from the exact one by at most 2^-50 M and the new weight by a relative error of at most 2^-51; (b) with one infinite bound and -1 < pt < 1 the point has an error of at most 2^-50 (|finite bound| + distance from it) and the weight a relative error of at most 2^-50 (with the wrong sign of C25 for a lower bound -inf); (c) with both bounds infinite the point has a relative error of at most 2^-50, the weight one of at most 2^-26, and for pt = 1 - 2^-28 the weight is wrong by more than 2^-29; (d) for 0 < lo < 2^-54 and up = 1 the point -1 is mapped to 0, outside of the interval; (e) finite bounds with up - lo >= 2^1024 give an infinite weight and a NaN or infinite point; (f) pt = 1 or -1 at an infinite bound gives an infinite point and an infinite weight.", "quantifier": "for all double bounds, points and weights in the stated ranges, and all builds", "why_tests_cant": "The result depends on two bounds, a point and a weight, 2^256 combinations, and the cancellation in pt*pt - 1 costs digits only for points very near to 1.", "anchors": [{"file": "include/integratorxx/util/bound_transform.hpp", "symbols": ["transform_minus_one_to_one"]}]}
{"id": "C91", "title": "Symmetry of the grids", "statement": "Every LebedevLaikov and Delley quadrature is mapped to itself, points with their weights, by each of the 48 symmetries of the octahedron, every AhrensBeylkin quadrature by the 12 rotations of the tetrahedron; so is every unpruned and every pruned grid the factory makes from them, whatever the radial scheme and its parameters. This holds exactly, for the stored doubles as well as in exact arithmetic. Hence an integrand and the transformed integrand have the same value, and an integrand that changes its sign under one of the symmetries (all odd functions, for the octahedral families) has the value 0.", "quantifier": "every supported size, every radial scheme and size, every pruning, every integrand", "why_tests_cant": "Tests integrate spherical harmonics up to a degree with a tolerance; a wrong sign or a swapped coordinate of one point in a high order table stays below it.", "anchors": [{"file": "include/integratorxx/quadratures/s2/lebedev_laikov.hpp", "symbols": ["npts_by_algebraic_order", "algebraic_order_by_npts", "next_algebraic_order", "generate"]}, {"file": "include/integratorxx/quadratures/s2/delley.hpp", "symbols": ["npts_by_algebraic_order", "algebraic_order_by_npts", "next_algebraic_order", "generate"]}, {"file": "include/integratorxx/quadratures/s2/ahrens_beylkin.hpp", "symbols": ["npts_by_algebraic_order", "algebraic_order_by_npts", "next_algebraic_order", "generate"]}, {"file": "include/integratorxx/composite_quadratures/spherical_quadrature.hpp", "symbols": ["quadrature_traits<SphericalQuadrature>::generate", "spherical_combine_op", "shift_grid"]}, {"file": "include/integratorxx/composite_quadratures/pruned_spherical_quadrature.hpp", "symbols": ["quadrature_traits<PrunedSphericalQuadrature>::generate"]}, {"file": "include/integratorxx/generators/impl/pruned_grid.hpp", "symbols": ["make_pruned_grid_impl", "make_pruned_grid", "SphericalGridFactory::generate_pruned_grid", "create_pruned_spec"]}]}
{"id": "C92", "title": "No point occurs twice", "statement": "In exact arithmetic no supported angular quadrature of any of the four families contains the same point twice, and no unpruned or pruned grid that SphericalGridFactory makes from one of the radial schemes with positive scale and at most 5000000 radial points does. Hence a SphericalMicroBatcher over such a grid is constructed after finitely many steps for every max_batch_size except 0.", "quantifier": "every supported size, every radial scheme, every size up to 5000000, every pruning, every batch size, every conforming std::partition", "why_tests_cant": "Tests look at sums; a duplicated point with half the weight does not change them, and a batcher that never returns shows up only as a time-out for one combination.", "anchors": [{"file": "include/integratorxx/quadratures/s2/lebedev_laikov.hpp", "symbols": ["npts_by_algebraic_order", "algebraic_order_by_npts", "next_algebraic_order", "generate"]}, {"file": "include/integratorxx/quadratures/s2/delley.hpp", "symbols": ["npts_by_algebraic_order", "algebraic_order_by_npts", "next_algebraic_order", "generate"]}, {"file": "include/integratorxx/quadratures/s2/ahrens_beylkin.hpp", "symbols": ["npts_by_algebraic_order", "algebraic_order_by_npts", "next_algebraic_order", "generate"]}, {"file": "include/integratorxx/quadratures/s2/womersley.hpp", "symbols": ["npts_by_algebraic_order", "algebraic_order_by_npts", "next_algebraic_order", "generate", "generate_large_npts_"]}, {"file": "include/integratorxx/composite_quadratures/spherical_quadrature.hpp", "symbols": ["quadrature_traits<SphericalQuadrature>::generate", "spherical_combine_op", "shift_grid"]}, {"file": "include/integratorxx/composite_quadratures/product_quadrature.hpp", "symbols": ["quadrature_traits<ProductQuadrature>::generate"]}, {"file": "include/integratorxx/generators/impl/pruned_grid.hpp", "symbols": ["make_pruned_grid_impl", "make_pruned_grid", "SphericalGridFactory::generate_pruned_grid", "create_pruned_spec"]}, {"file": "include/integratorxx/batch/spherical_micro_batcher.hpp", "symbols": ["SphericalMicroBatcher::generate_batches", "partition_box", "get_box_bounds", "point_in_box"]}]}
{"id": "C93", "title": "An unavailable angular size makes the batcher hang", "statement": "When the angular size of a specification is not available (for Delley: and fits an int), the factory returns a grid of that size with all points at the centre, and the constructor of SphericalMicroBatcher over that grid never returns if max_batch_size is smaller than the number of points; in exact arithmetic and in IEEE double arithmetic.", "quantifier": "every family, every unavailable size, every radial scheme, every smaller batch size, every conforming std::partition", "why_tests_cant": "A test would have to run forever.", "anchors": [{"file": "include/integratorxx/generators/impl/pruned_grid.hpp", "symbols": ["make_pruned_grid_impl", "make_pruned_grid", "SphericalGridFactory::generate_pruned_grid", "create_pruned_spec"]}, {"file": "include/integratorxx/batch/spherical_micro_batcher.hpp", "symbols": ["SphericalMicroBatcher::generate_batches", "partition_box", "get_box_bounds", "point_in_box"]}, {"file": "include/integratorxx/quadratures/s2/lebedev_laikov.hpp", "symbols": ["npts_by_algebraic_order", "algebraic_order_by_npts", "next_algebraic_order", "generate"]}, {"file": "include/integratorxx/quadratures/s2/delley.hpp", "symbols": ["npts_by_algebraic_order", "algebraic_order_by_npts", "next_algebraic_order", "generate"]}, {"file": "include/integratorxx/quadratures/s2/ahrens_beylkin.hpp", "symbols": ["npts_by_algebraic_order", "algebraic_order_by_npts", "next_algebraic_order", "generate"]}, {"file": "include/integratorxx/quadratures/s2/womersley.hpp", "symbols": ["npts_by_algebraic_order", "algebraic_order_by_npts", "next_algebraic_order", "generate", "generate_large_npts_"]}]}
{"id": "C94", "title": "Rules contained in finer rules", "statement": "In exact arithmetic: GaussChebyshev1(n) is contained in GaussChebyshev1((2m+1)n), GaussChebyshev2(n) and GaussChebyshev2Modified(n) in the rule with k(n+1)-1 points, GaussChebyshev3(n) in the rule with (2m+1)n+m points, UniformTrapezoid(n) in the rule with k(n-1)+1 points on the same interval, and Becke, MurrayHandyLaming, MuraKnowles and TreutlerAhlrichs with n points in the rule of the same parameters with k(n+1)-1 points: every k-th (2m+1-th) node of the fine rule, from a fixed offset on, is a node of the coarse rule, and its weight is the coarse weight divided by k (2m+1).", "quantifier": "every n, k and m, every scale and interval", "why_tests_cant": "Tests compare sums at single sizes; a shift of all nodes by a fraction of the spacing hardly changes them.", "anchors": [{"file": "include/integratorxx/quadratures/primitive/gausschebyshev1.hpp", "symbols": ["quadrature_traits<GaussChebyshev1>::generate"]}, {"file": "include/integratorxx/quadratures/primitive/gausschebyshev2.hpp", "symbols": ["quadrature_traits<GaussChebyshev2>::generate"]}, {"file": "include/integratorxx/quadratures/primitive/gausschebyshev2modified.hpp", "symbols": ["quadrature_traits<GaussChebyshev2Modified>::generate"]}, {"file": "include/integratorxx/quadratures/primitive/gausschebyshev3.hpp", "symbols": ["quadrature_traits<GaussChebyshev3>::generate"]}, {"file": "include/integratorxx/quadratures/primitive/uniform.hpp", "symbols": ["quadrature_traits<UniformTrapezoid>::generate"]}, {"file": "include/integratorxx/quadratures/radial/radial_transform.hpp", "symbols": ["quadrature_traits<RadialTransformQuadrature>::generate"]}, {"file": "include/integratorxx/quadratures/radial/becke.hpp", "symbols": ["BeckeRadialTraits::radial_transform", "BeckeRadialTraits::radial_jacobian"]}, {"file": "include/integratorxx/quadratures/radial/mhl.hpp", "symbols": ["MurrayHandyLamingRadialTraits::radial_transform", "MurrayHandyLamingRadialTraits::radial_jacobian"]}, {"file": "include/integratorxx/quadratures/radial/muraknowles.hpp", "symbols": ["MuraKnowlesRadialTraits::radial_transform", "MuraKnowlesRadialTraits::radial_jacobian"]}, {"file": "include/integratorxx/quadratures/radial/treutlerahlrichs.hpp", "symbols": ["TreutlerAhlrichsRadialTraits::radial_transform", "TreutlerAhlrichsRadialTraits::radial_jacobian"]}]}
{"id": "C95", "title": "Inversion symmetry of the radial rules", "statement": "In exact arithmetic the radii of Becke(n,R) are R tan^2((i+1) pi/(2(n+1))) and those of MurrayHandyLaming with exponent M are R ((i+1)/(n-i))^M. For both the radii r_i and r_(n-1-i) multiply to R^2 and the weight of the second is that of the first times (R/r_i)^2; for odd n and positive R the radius in the middle is R.", "quantifier": "every n, every scale, every exponent M >= 1", "why_tests_cant": "Tests integrate Gaussians with a tolerance.", "anchors": [{"file": "include/integratorxx/quadratures/radial/radial_transform.hpp", "symbols": ["quadrature_traits<RadialTransformQuadrature>::generate"]}, {"file": "include/integratorxx/quadratures/radial/becke.hpp", "symbols": ["BeckeRadialTraits::radial_transform", "BeckeRadialTraits::radial_jacobian"]}, {"file": "include/integratorxx/quadratures/radial/mhl.hpp", "symbols": ["MurrayHandyLamingRadialTraits::radial_transform", "MurrayHandyLamingRadialTraits::radial_jacobian"]}]}
{"id": "C96", "title": "Gauss rules on arbitrary integrands", "statement": "For every function with Lipschitz constant K on [-1,1] and |f| <= M: the value of GaussLegendre(npts) differs from the integral over [-1,1] by at most 4 times the distance of f from the polynomials of degree < 2*npts (maximum norm), plus a*K + b*M, where a = 3*2^-52, b = 8*(npts+1)^2*2^-52 in exact arithmetic (npts <= 2^20) and a = 50*sqrt(npts)*2^-52, b = 200*sqrt(npts)*(npts+1)^2*2^-52 for the doubles it returns (npts <= 2^15, unless it throws). For GaussLobatto(npts) the degree is < 2*npts-2 and a = 3*2^-52, b = 4*npts^2*2^-52, respectively a = 60*sqrt(npts)*2^-52, b = 80*sqrt(npts)*npts^2*2^-52. In particular the error is at most 4*K/sqrt(2*npts-1) + a*K + b*M (GaussLobatto: sqrt(2*npts-3)).", "quantifier": "every npts in the stated ranges, every Lipschitz function, every C library whose cos errs by at most one unit in the last place", "why_tests_cant": "Tests integrate polynomials and a few smooth functions.", "anchors": [{"file": "include/integratorxx/quadratures/primitive/gausslegendre.hpp", "symbols": ["quadrature_traits<GaussLegendre>::generate"]}, {"file": "include/integratorxx/quadratures/primitive/gausslobatto.hpp", "symbols": ["quadrature_traits<GaussLobatto>::generate"]}]}
{"id": "C97", "title": "A batcher in double over a factory grid is always built", "statement": "For every grid the factory builds in double (Becke, MurrayHandyLaming, MuraKnowles or TreutlerAhlrichs radial rule with an ordinary scale, any available angular grid, pruned or not), any two points differ in some coordinate by at least 2^-49 of the larger magnitude and by at least 2^-190, so that the rounding of the cutting planes cannot keep them together: the constructor of SphericalMicroBatcher returns for every batch size from 1 on, after at most npts()+1 rounds.  Any two points of one angular grid differ by 2^-36 in some coordinate.  The distance from the origin matters: after recenter to (2^60, 2^60, 2^60) all points of a grid of radius 32 coincide and the constructor does not return for any batch size below npts().", "quantifier": "all radial schemes with at most 4095 (MuraKnowles), 8191 (TreutlerAhlrichs) or 32767 points and scales between 2^-50 and 2^50, all angular grids, all pruning schemes, all batch sizes, every libm within the stated accuracy, every std::partition", "why_tests_cant": "C74 shows that different points do not suffice in double; a test tries a few grids and batch sizes, and a hang would show as a timeout only for the unlucky ones", "anchors": [{"file": "include/integratorxx/batch/spherical_micro_batcher.hpp", "symbols": ["SphericalMicroBatcher::generate_batches", "partition_box", "get_box_bounds", "point_in_box"]}, {"file": "include/integratorxx/composite_quadratures/spherical_quadrature.hpp", "symbols": ["quadrature_traits<SphericalQuadrature>::generate", "spherical_combine_op", "shift_grid"]}, {"file": "include/integratorxx/quadratures/radial/becke.hpp", "symbols": ["BeckeRadialTraits::radial_transform", "BeckeRadialTraits::radial_jacobian"]}, {"file": "include/integratorxx/quadratures/radial/mhl.hpp", "symbols": ["MurrayHandyLamingRadialTraits::radial_transform", "MurrayHandyLamingRadialTraits::radial_jacobian"]}, {"file": "include/integratorxx/quadratures/radial/muraknowles.hpp", "symbols": ["MuraKnowlesRadialTraits::radial_transform", "MuraKnowlesRadialTraits::radial_jacobian"]}, {"file": "include/integratorxx/quadratures/radial/treutlerahlrichs.hpp", "symbols": ["TreutlerAhlrichsRadialTraits::radial_transform", "TreutlerAhlrichsRadialTraits::radial_jacobian"]}, {"file": "include/integratorxx/quadratures/s2/lebedev_laikov.hpp", "symbols": ["npts_by_algebraic_order", "algebraic_order_by_npts", "next_algebraic_order", "generate"]}, {"file": "include/integratorxx/quadratures/s2/delley.hpp", "symbols": ["npts_by_algebraic_order", "algebraic_order_by_npts", "next_algebraic_order", "generate"]}, {"file": "include/integratorxx/quadratures/s2/ahrens_beylkin.hpp", "symbols": ["npts_by_algebraic_order", "algebraic_order_by_npts", "next_algebraic_order", "generate"]}, {"file": "include/integratorxx/quadratures/s2/womersley.hpp", "symbols": ["npts_by_algebraic_order", "algebraic_order_by_npts", "next_algebraic_order", "generate", "generate_large_npts_"]}]}
{"id": "C98", "title": "Second-order convergence of the Chebyshev and radial rules", "statement": "For an integrand whose derivative is Lipschitz with constant K and bounded by K1, and which is bounded by M, the rules of GaussChebyshev1, 2, 2Modified and 3 miss its plain integral by at most pi^3 (K+3K1+M)/(24 n^2), pi^3 (K+3K1+M)/(12 (n+1)^2), pi^3 (5K+35K1+28M)/(12 (n+1)^2) and pi^3 (K+8K1+8M)/(48 (2n+1)^2).  The four radial rules miss the integral over (0,inf) by at most T^3 L/(12 (npts+1)^2) whenever f(r) dr, written in the variable that is divided into npts+1 equal parts of [0,T], extends to the closed interval with value 0 at both ends and a derivative of Lipschitz constant L; MuraKnowles integrates exp(-2r/R) with an error of at most 11 R/(2 (n+1)^2).", "quantifier": "all numbers of points, all integrands with a Lipschitz derivative, all four radial schemes with all scales", "why_tests_cant": "an error bound for every integrand of a class and every number of points; a test compares single integrals and cannot tell an order of convergence from a lucky value", "anchors": [{"file": "include/integratorxx/quadratures/primitive/gausschebyshev1.hpp", "symbols": ["quadrature_traits<GaussChebyshev1>::generate"]}, {"file": "include/integratorxx/quadratures/primitive/gausschebyshev2.hpp", "symbols": ["quadrature_traits<GaussChebyshev2>::generate"]}, {"file": "include/integratorxx/quadratures/primitive/gausschebyshev2modified.hpp", "symbols": ["quadrature_traits<GaussChebyshev2Modified>::generate"]}, {"file": "include/integratorxx/quadratures/primitive/gausschebyshev3.hpp", "symbols": ["quadrature_traits<GaussChebyshev3>::generate"]}, {"file": "include/integratorxx/quadratures/radial/becke.hpp", "symbols": ["BeckeRadialTraits::radial_transform", "BeckeRadialTraits::radial_jacobian"]}, {"file": "include/integratorxx/quadratures/radial/mhl.hpp", "symbols": ["MurrayHandyLamingRadialTraits::radial_transform", "MurrayHandyLamingRadialTraits::radial_jacobian"]}, {"file": "include/integratorxx/quadratures/radial/muraknowles.hpp", "symbols": ["MuraKnowlesRadialTraits::radial_transform", "MuraKnowlesRadialTraits::radial_jacobian"]}, {"file": "include/integratorxx/quadratures/radial/treutlerahlrichs.hpp", "symbols": ["TreutlerAhlrichsRadialTraits::radial_transform", "TreutlerAhlrichsRadialTraits::radial_jacobian"]}]}
{"id": "C99", "title": "The batches depend only on the set of points", "statement": "Two SphericalMicroBatchers built with the same max_batch_size over quadratures that hold the same points with the same weights in any two orders, with any two conforming implementations of std::partition, have the same number of batches, and the n-th batches of the two have the same box and hold the same points with the same weights (up to the order within the batch).  Hence batching a quadrature that a batcher has reordered gives the same batches again, and a pruned grid whose angular quadratures are all equal has the batches of the unpruned grid.  The number of batches lies between npts/max_batch_size and npts.  In double this needs coordinates that are not NaN: with a NaN the box, and so everything after it, depends on the order.", "quantifier": "every quadrature, every order of its points, every batch size, every pair of conforming std::partition, exact and double arithmetic", "why_tests_cant": "std::partition leaves the order within the two groups open; a test runs with one standard library and one order of the points", "anchors": [{"file": "include/integratorxx/batch/spherical_micro_batcher.hpp", "symbols": ["SphericalMicroBatcher::generate_batches", "partition_box", "get_box_bounds", "point_in_box"]}, {"file": "include/integratorxx/composite_quadratures/pruned_spherical_quadrature.hpp", "symbols": ["quadrature_traits<PrunedSphericalQuadrature>::generate"]}]}
{"id": "C100", "title": "Error of the rules at the first degree they miss", "statement": "In exact arithmetic, for a polynomial p of degree at most 2n with coefficient c of x^(2n), the integral of p against the weight function of the rule is the value of the rule with n points plus c pi/2^(2n-1) for GaussChebyshev1, c pi/2^(2n+1) for GaussChebyshev2 and c pi/2^(4n+1) for GaussChebyshev3, and c/l^2 2/(2n+1) for the rule that the weight formula of GaussLegendre gives at the zeros of the Legendre polynomial, l its leading coefficient.  For GaussLobatto with m+1 points and degree 2m it is the value of the rule minus c/l^2 2(m+1)/(m(2m+1)), for UniformTrapezoid and a quadratic function the value of the rule minus c (up-lo)^3/(6 (npts-1)^2).  So none of the rules is exact for one degree more than claimed, and the sign of the error is known.", "quantifier": "every number of points, every polynomial of that degree", "why_tests_cant": "tests check that a rule is exact to a tolerance, from some size on the error of the next degree is below every tolerance", "anchors": [{"file": "include/integratorxx/quadratures/primitive/gausschebyshev1.hpp", "symbols": ["quadrature_traits<GaussChebyshev1>::generate"]}, {"file": "include/integratorxx/quadratures/primitive/gausschebyshev2.hpp", "symbols": ["quadrature_traits<GaussChebyshev2>::generate"]}, {"file": "include/integratorxx/quadratures/primitive/gausschebyshev2modified.hpp", "symbols": ["quadrature_traits<GaussChebyshev2Modified>::generate"]}, {"file": "include/integratorxx/quadratures/primitive/gausschebyshev3.hpp", "symbols": ["quadrature_traits<GaussChebyshev3>::generate"]}, {"file": "include/integratorxx/quadratures/primitive/gausslegendre.hpp", "symbols": ["quadrature_traits<GaussLegendre>::generate"]}, {"file": "include/integratorxx/quadratures/primitive/gausslobatto.hpp", "symbols": ["quadrature_traits<GaussLobatto>::generate"]}, {"file": "include/integratorxx/quadratures/primitive/uniform.hpp", "symbols": ["quadrature_traits<UniformTrapezoid>::generate"]}]}
{"id": "C101", "title": "Error of the radial rules on integrands that decay", "statement": "In exact arithmetic, for every integrand f that is twice differentiable on (0,inf): if R^k (1+r/R)^(3+k) |f^(k)(r)| <= A_k for k = 0, 1, 2, then Becke(n,R) misses the integral of f over (0,inf) by at most pi^3 R (6 A_0 + 9 A_1 + 2 A_2)/(48 (n+1)^2) and MurrayHandyLaming(n,R) by at most 4 R (6 A_0 + 9 A_1 + 2 A_2)/(3 (n+1)^2).  If R^k exp(3r/R) |f^(k)(r)| <= A_k, MuraKnowles(n,R) misses it by at most 9 R (2 A_0 + 3 A_1 + A_2)/(4 (n+1)^2); if R^k exp(r/R) |f^(k)(r)| <= A_k and 1/2 <= alpha <= 1, TreutlerAhlrichs(n,R,alpha) by at most 5 pi^3 R (2 A_0 + 27 A_1 + 36 A_2)/(2 (n+1)^2).  The integrals exist.", "quantifier": "every number of points, every scale, every twice differentiable integrand with that decay", "why_tests_cant": "a bound for every integrand of a class and every number of points; tests integrate a few Gaussians", "anchors": [{"file": "include/integratorxx/quadratures/radial/becke.hpp", "symbols": ["BeckeRadialTraits::radial_transform", "BeckeRadialTraits::radial_jacobian"]}, {"file": "include/integratorxx/quadratures/radial/mhl.hpp", "symbols": ["MurrayHandyLamingRadialTraits::radial_transform", "MurrayHandyLamingRadialTraits::radial_jacobian"]}, {"file": "include/integratorxx/quadratures/radial/muraknowles.hpp", "symbols": ["MuraKnowlesRadialTraits::radial_transform", "MuraKnowlesRadialTraits::radial_jacobian"]}, {"file": "include/integratorxx/quadratures/radial/treutlerahlrichs.hpp", "symbols": ["TreutlerAhlrichsRadialTraits::radial_transform", "TreutlerAhlrichsRadialTraits::radial_jacobian"]}, {"file": "include/integratorxx/quadratures/radial/radial_transform.hpp", "symbols": ["quadrature_traits<RadialTransformQuadrature>::generate"]}]}
{"id": "C102", "title": "Error of the grids in space with explicit constants", "statement": "In exact arithmetic, for the integrand F(|x|) p(x) with p a homogeneous polynomial of degree l, at most the order of every angular grid used, and f(r) = r^(2+l) F(r) twice differentiable: the value of a grid that the factory makes with n radial points, unpruned or with any admissible pruning regions, differs from the integral over three-dimensional space by at most |p| R (c (a0 A_0 + a1 A_1 + a2 A_2)/(n+1)^2 + W t A_0 + pi ((l+2) A_0 + A_1) 32 W 1e-14), with |p| the sum of the absolute coefficients and t the rounding of the angular table (4 pi 1e-13, or 3^(l/2) 6e-14 for AhrensBeylkin and Womersley).  For Becke and MurrayHandyLaming A_k bounds R^k (1+r/R)^(3+k) |f^(k)(r)| and (a0,a1,a2) = (6,9,2), c = pi^4/12 and 16 pi/3, W = 10 and 20; for MuraKnowles A_k bounds R^k exp(4r/R) |f^(k)(r)|, (a0,a1,a2) = (2,3,1), c = 9 pi, W = 12; for TreutlerAhlrichs with 1/2 <= alpha <= 1 A_k bounds R^k exp(2r/R) |f^(k)(r)|, (a0,a1,a2) = (2,27,36), c = 10 pi^4, W = 1300.  The integral exists.", "quantifier": "every radial scheme, number of radial points and scale, every family and available angular size (not AhrensBeylkin 552), every list of pruning regions, every such integrand, every build", "why_tests_cant": "a bound for every integrand of a class on every grid; tests integrate a few Gaussians on a few grids", "anchors": [{"file": "include/integratorxx/composite_quadratures/spherical_quadrature.hpp", "symbols": ["quadrature_traits<SphericalQuadrature>::generate", "spherical_combine_op", "shift_grid"]}, {"file": "include/integratorxx/generators/impl/pruned_grid.hpp", "symbols": ["make_pruned_grid_impl", "make_pruned_grid", "SphericalGridFactory::generate_pruned_grid", "create_pruned_spec"]}, {"file": "include/integratorxx/quadratures/radial/becke.hpp", "symbols": ["BeckeRadialTraits::radial_transform", "BeckeRadialTraits::radial_jacobian"]}, {"file": "include/integratorxx/quadratures/radial/mhl.hpp", "symbols": ["MurrayHandyLamingRadialTraits::radial_transform", "MurrayHandyLamingRadialTraits::radial_jacobian"]}, {"file": "include/integratorxx/quadratures/radial/muraknowles.hpp", "symbols": ["MuraKnowlesRadialTraits::radial_transform", "MuraKnowlesRadialTraits::radial_jacobian"]}, {"file": "include/integratorxx/quadratures/radial/treutlerahlrichs.hpp", "symbols": ["TreutlerAhlrichsRadialTraits::radial_transform", "TreutlerAhlrichsRadialTraits::radial_jacobian"]}, {"file": "include/integratorxx/quadratures/s2/lebedev_laikov.hpp", "symbols": ["npts_by_algebraic_order", "algebraic_order_by_npts", "next_algebraic_order", "generate"]}, {"file": "include/integratorxx/quadratures/s2/delley.hpp", "symbols": ["npts_by_algebraic_order", "algebraic_order_by_npts", "next_algebraic_order", "generate"]}, {"file": "include/integratorxx/quadratures/s2/ahrens_beylkin.hpp", "symbols": ["npts_by_algebraic_order", "algebraic_order_by_npts", "next_algebraic_order", "generate"]}, {"file": "include/integratorxx/quadratures/s2/womersley.hpp", "symbols": ["npts_by_algebraic_order", "algebraic_order_by_npts", "next_algebraic_order", "generate", "generate_large_npts_"]}]}
{"id": "C103", "title": "Quadrature types, enumerators and names agree", "statement": "radial_from_type<Q>() returns an enumerator exactly when Q is Becke, MurrayHandyLaming (exponent 2), MuraKnowles or TreutlerAhlrichs for some point and weight type, namely the enumerator of that method, and throws runtime_error(\"Unrecognized Radial Quadrature\") for every other quadrature type; angular_from_type<Q>() likewise for AhrensBeylkin, Delley, LebedevLaikov and Womersley.  One of the two always throws.  The enumerators so obtained are those that radial_from_string and angular_from_string can return.  For a radial Q on double, Q(n, args...) compiles exactly when make_radial_traits(radial_from_type<Q>(), n, args...) succeeds, and RadialFactory::generate with these traits has the same outcome as Q(n, args...); S2Factory::generate with angular_from_type<Q>() constructs Q.  An enumerator that belongs to no type makes RadialFactory::generate and S2Factory::generate throw runtime_error for every size and traits object.", "quantifier": "every quadrature type built from the templates of the library, every point and weight type, every argument list of numbers", "why_tests_cant": "the types form an infinite family; the tests instantiate the functions for the double versions only", "anchors": [{"file": "include/integratorxx/generators/radial_factory.hpp", "symbols": ["radial_from_type", "make_radial_traits"]}, {"file": "include/integratorxx/generators/s2_factory.hpp", "symbols": ["angular_from_type"]}, {"file": "include/integratorxx/generators/impl/pruned_grid.hpp", "symbols": ["make_pruned_grid_impl", "make_pruned_grid", "SphericalGridFactory::generate_pruned_grid", "create_pruned_spec"]}]}
{"id": "C104", "title": "The tabulated angular orders cannot be raised", "statement": "In exact arithmetic on the shipped decimals: for every size n available in LebedevLaikov, Delley or AhrensBeylkin there is a homogeneous polynomial of degree algebraic_order_by_npts(n)+1, of absolute value at most 1 on the unit sphere, whose integral over the sphere is 0 while the sum of weight times value over the points returned by the constructor is at least 3e-8 in absolute value, far above the rounding of the tables.  So the order the traits class reports is not smaller than the true one.  Exception in the fourth family: Womersley reports order 2 for 6 points, but that grid integrates all polynomials of degree at most 3 to 2e-13 times the sum of the absolute coefficients.", "quantifier": "every available size of LebedevLaikov (31), Delley (18) and AhrensBeylkin (56), every build; for Womersley 6 every polynomial of degree at most 3", "why_tests_cant": "tests check that a grid is exact up to the order in the table; a table that understates an order passes them", "anchors": [{"file": "include/integratorxx/quadratures/s2/lebedev_laikov.hpp", "symbols": ["npts_by_algebraic_order", "algebraic_order_by_npts", "next_algebraic_order", "generate"]}, {"file": "include/integratorxx/quadratures/s2/delley.hpp", "symbols": ["npts_by_algebraic_order", "algebraic_order_by_npts", "next_algebraic_order", "generate"]}, {"file": "include/integratorxx/quadratures/s2/ahrens_beylkin.hpp", "symbols": ["npts_by_algebraic_order", "algebraic_order_by_npts", "next_algebraic_order", "generate"]}, {"file": "include/integratorxx/quadratures/s2/womersley.hpp", "symbols": ["npts_by_algebraic_order", "algebraic_order_by_npts", "next_algebraic_order", "generate", "generate_large_npts_"]}]}
{"id": "C105", "title": "When pruning saves points", "statement": "For at least 5 radial points and an available angular size n, the grid the factory generates from the robust pruning of a specification has at most as many points as the grid generated from the specification itself exactly when the family is AhrensBeylkin or the order of the angular grid is at least 7, and strictly fewer in all these cases except AhrensBeylkin with 72 points; for orders below 7 pruning enlarges the grid.  Treutler pruning does not enlarge the grid for AhrensBeylkin and for orders of at least 9, and enlarges it for all other grids of order at most 7.  The unpruned grid has radial size times angular size points.", "quantifier": "every radial scheme with at least 5 points, every family and available angular size, every build and arithmetic", "why_tests_cant": "a test generates a few grids; the statement divides all available sizes into those where pruning helps and those where it does not", "anchors": [{"file": "include/integratorxx/generators/impl/robust_pruning.hpp", "symbols": ["robust_psi4_pruning_scheme", "robust_psi4_pruning_scheme_impl", "get_robust_low_med_sizes"]}, {"file": "include/integratorxx/generators/impl/treutler_pruning.hpp", "symbols": ["treutler_pruning_scheme", "treutler_pruning_scheme_impl", "get_treutler_low_med_sizes"]}, {"file": "include/integratorxx/generators/impl/pruned_grid.hpp", "symbols": ["make_pruned_grid_impl", "make_pruned_grid", "SphericalGridFactory::generate_pruned_grid", "create_pruned_spec"]}]}
{"id": "C106", "title": "Ahrens-Beylkin grids without inversion symmetry", "statement": "In exact arithmetic on the shipped decimals, an AhrensBeylkin quadrature whose tabulated order is even (24 of the 56 sizes, among them 72 and 15012 points) is not mapped to itself, points with their weights, by the inversion at the origin nor by the reflection x -> -x.  So the rotations of C91 cannot be extended by them, and odd functions are not integrated to 0 by symmetry as with the octahedral families.", "quantifier": "every available size of even order, every build", "why_tests_cant": "the statement is about all points of a grid and their images, for all sizes; no test looks at symmetry", "anchors": [{"file": "include/integratorxx/quadratures/s2/lebedev_laikov.hpp", "symbols": ["npts_by_algebraic_order", "algebraic_order_by_npts", "next_algebraic_order", "generate"]}, {"file": "include/integratorxx/quadratures/s2/delley.hpp", "symbols": ["npts_by_algebraic_order", "algebraic_order_by_npts", "next_algebraic_order", "generate"]}, {"file": "include/integratorxx/quadratures/s2/ahrens_beylkin.hpp", "symbols": ["npts_by_algebraic_order", "algebraic_order_by_npts", "next_algebraic_order", "generate"]}, {"file": "include/integratorxx/quadratures/s2/womersley.hpp", "symbols": ["npts_by_algebraic_order", "algebraic_order_by_npts", "next_algebraic_order", "generate", "generate_large_npts_"]}]}
{"id": "C107", "title": "Boxes of different batches do not overlap", "statement": "For a SphericalMicroBatcher constructed over a grid with finite coordinates, and batches number m < n: in at least one of the three coordinates the upper bound of the box of batch m is not larger than the lower bound of the box of batch n.  So the boxes that the iterator returns for different batches meet at most in their boundaries, no point of a batch lies strictly inside the box of another batch, and batches are ordered in space.  It holds for every conforming std::partition, in exact arithmetic and in double, also when the cuts are rounded or the extent of the box overflows.", "quantifier": "every quadrature with finite coordinates, every batch size for which the construction returns, every pair of batches, every conforming std::partition", "why_tests_cant": "a statement about all pairs of batches of all grids; the library's tests sum over the batches of one grid and compare the boxes of two batchers over equal grids", "anchors": [{"file": "include/integratorxx/batch/spherical_micro_batcher.hpp", "symbols": ["SphericalMicroBatcher::generate_batches", "partition_box", "get_box_bounds", "point_in_box"]}, {"file": "include/integratorxx/composite_quadratures/pruned_spherical_quadrature.hpp", "symbols": ["quadrature_traits<PrunedSphericalQuadrature>::generate"]}]}
{"id": "C108", "title": "The distances at which the pruning schemes change the angular grid", "statement": "In exact arithmetic, for every radial scheme with positive scale R and every number of radial points: the innermost region of robust pruning consists of the radial points with distance below rho(4) and one more, the innermost two regions of those with distance below rho(2) and one more; for Treutler pruning the same with rho(3) and rho(2).  rho(k) does not depend on the number of points: R tan^2(pi/(2k)) for Becke, R/(k-1)^M for MurrayHandyLaming, -R log(1-1/k^3) for MuraKnowles, R/ln2 (1-cos(pi/k))^alpha log(2/(1+cos(pi/k))) for TreutlerAhlrichs.  So the outermost angular grid is used from distance R on for Becke and MurrayHandyLaming (TreutlerAhlrichs: up to 1e-23 R), but already from R log(8/7) on for MuraKnowles.", "quantifier": "every radial scheme and scale, every number of radial points, every specification the schemes accept", "why_tests_cant": "tests look at the region indices of a few sizes; the statement translates them into distances for all sizes", "anchors": [{"file": "include/integratorxx/generators/impl/robust_pruning.hpp", "symbols": ["robust_psi4_pruning_scheme", "robust_psi4_pruning_scheme_impl", "get_robust_low_med_sizes"]}, {"file": "include/integratorxx/generators/impl/treutler_pruning.hpp", "symbols": ["treutler_pruning_scheme", "treutler_pruning_scheme_impl", "get_treutler_low_med_sizes"]}, {"file": "include/integratorxx/quadratures/radial/becke.hpp", "symbols": ["BeckeRadialTraits::radial_transform", "BeckeRadialTraits::radial_jacobian"]}, {"file": "include/integratorxx/quadratures/radial/mhl.hpp", "symbols": ["MurrayHandyLamingRadialTraits::radial_transform", "MurrayHandyLamingRadialTraits::radial_jacobian"]}, {"file": "include/integratorxx/quadratures/radial/muraknowles.hpp", "symbols": ["MuraKnowlesRadialTraits::radial_transform", "MuraKnowlesRadialTraits::radial_jacobian"]}, {"file": "include/integratorxx/quadratures/radial/treutlerahlrichs.hpp", "symbols": ["TreutlerAhlrichsRadialTraits::radial_transform", "TreutlerAhlrichsRadialTraits::radial_jacobian"]}]}
{"id": "C109", "title": "The distances a radial grid covers", "statement": "In exact arithmetic, for every number n >= 1 of points and scale R > 0, the first and last radial point are: Becke: last between 2/pi^2 (n+1)^2 R and 4/pi^2 (n+1)^2 R, product of the two R^2; MurrayHandyLaming: exactly R/n^M and R n^M; MuraKnowles: first between R/(n+1)^3 and 8/7 R/(n+1)^3, last between R log((n+1)/3) and R log(n+1); TreutlerAhlrichs with alpha >= 0: first between (2/(n+1)^2)^alpha (1/(n+1)^2) R/ln2 and (pi^2/(2(n+1)^2))^(1+alpha) R/ln2, last between 2 log(2(n+1)/pi) R/ln2 and 2^(1+alpha) log(n+1) R/ln2.  So the range grows with a power of n for the first two schemes and only with the logarithm of n for the other two.", "quantifier": "every radial scheme and scale, every number of points of at least 1", "why_tests_cant": "the statement is about the growth with the number of points; tests use a few sizes", "anchors": [{"file": "include/integratorxx/quadratures/radial/becke.hpp", "symbols": ["BeckeRadialTraits::radial_transform", "BeckeRadialTraits::radial_jacobian"]}, {"file": "include/integratorxx/quadratures/radial/mhl.hpp", "symbols": ["MurrayHandyLamingRadialTraits::radial_transform", "MurrayHandyLamingRadialTraits::radial_jacobian"]}, {"file": "include/integratorxx/quadratures/radial/muraknowles.hpp", "symbols": ["MuraKnowlesRadialTraits::radial_transform", "MuraKnowlesRadialTraits::radial_jacobian"]}, {"file": "include/integratorxx/quadratures/radial/treutlerahlrichs.hpp", "symbols": ["TreutlerAhlrichsRadialTraits::radial_transform", "TreutlerAhlrichsRadialTraits::radial_jacobian"]}]}
{"id": "C110", "title": "UniformTrapezoid on periodic integrands", "statement": "In exact arithmetic, UniformTrapezoid(npts, lo, up) with lo != up applied to a function of period up - lo: of cos(2 pi k (x-lo)/(up-lo) + phi) it returns the exact integral unless k is a positive multiple of npts-1; for these the integral is 0 but the rule returns (up-lo) cos(phi).  So it integrates every trigonometric polynomial with frequencies below npts-1 exactly, although as a rule for polynomials it is exact only up to degree 1, and the frequency npts-1 is the first it misses.", "quantifier": "every number of points from 2 below 2^64, every interval, every frequency and phase, all coefficients", "why_tests_cant": "the statement quantifies over all frequencies and sizes; the library's test integrates one function", "anchors": [{"file": "include/integratorxx/quadratures/primitive/uniform.hpp", "symbols": ["quadrature_traits<UniformTrapezoid>::generate"]}]}
{"id": "C111", "title": "Geometric convergence of the Gauss rules on power series", "statement": "If f is on [-1,1] the sum of a power series with |a_k| <= A rho^k, 0 <= rho < 1, then the rule with n points returns the integral of f up to: 2 pi A rho^(2n)/(1-rho) for GaussChebyshev1, pi A rho^(2n)/(1-rho) for GaussChebyshev2 and GaussChebyshev3 (integrals with their weight functions), 4 A rho^(2n)/(1-rho) for GaussLegendre and 4 A rho^(2n-2)/(1-rho) for GaussLobatto plus a multiple of 2^-52 for the tolerance of the Newton iteration; in double arithmetic the same for GaussLegendre and GaussLobatto with larger multiples of 2^-52, unless the constructor throws.", "quantifier": "every such function, every number of points (GaussLegendre, GaussLobatto: up to 2^20, in double up to 2^15)", "why_tests_cant": "the statement is about all functions with a convergent power series and the rate of convergence; tests integrate a few functions", "anchors": [{"file": "include/integratorxx/quadratures/primitive/gausschebyshev1.hpp", "symbols": ["quadrature_traits<GaussChebyshev1>::generate"]}, {"file": "include/integratorxx/quadratures/primitive/gausschebyshev2.hpp", "symbols": ["quadrature_traits<GaussChebyshev2>::generate"]}, {"file": "include/integratorxx/quadratures/primitive/gausschebyshev3.hpp", "symbols": ["quadrature_traits<GaussChebyshev3>::generate"]}, {"file": "include/integratorxx/quadratures/primitive/gausslegendre.hpp", "symbols": ["quadrature_traits<GaussLegendre>::generate"]}, {"file": "include/integratorxx/quadratures/primitive/gausslobatto.hpp", "symbols": ["quadrature_traits<GaussLobatto>::generate"]}]}
{"id": "C112", "title": "The number of refinements the batcher needs", "statement": "In exact arithmetic, let all points of a non-empty quadrature fit in a cube of side D and let no cube of side D/(3 2^k) contain more than max_batch_size of them.  Then constructing a SphericalMicroBatcher returns normally after at most k refinements of the initial division into 27 boxes.  In particular, if any two points differ in some coordinate by more than d, log2(D/(3d)) refinements suffice (rounded up) for every max_batch_size of at least 1.", "quantifier": "every consistent spherical quadrature with less than 2^64 points, every D, k and max_batch_size, every partition function satisfying the contract of std::partition", "why_tests_cant": "the bound holds for all point sets; tests run the batcher on one molecule's grid and only see that it returned", "anchors": [{"file": "include/integratorxx/batch/spherical_micro_batcher.hpp", "symbols": ["SphericalMicroBatcher::generate_batches", "partition_box", "get_box_bounds", "point_in_box"]}, {"file": "include/integratorxx/composite_quadratures/pruned_spherical_quadrature.hpp", "symbols": ["quadrature_traits<PrunedSphericalQuadrature>::generate"]}]}
{"id": "C113", "title": "The angular grids leave no holes on the sphere", "statement": "Let an angular grid have positive weights (every supported grid except LebedevLaikov 74, 230, 266 and AhrensBeylkin 1572; AhrensBeylkin 552, which does not have its nominal order, is excluded too) and order at least L.  Then for every unit vector u some grid point x has u.x >= c, with c = -0.001, 0.577, 0.774, 0.861, 0.906, 0.932, 0.949, 0.960, 0.967 for L = 1, 3, 5, ..., 17; for LebedevLaikov and Delley also c = 0.968, 0.973, 0.977, 0.978 for L = 17, 19, 21, 23.  (Up to rounding, c is the largest zero of the Legendre polynomial of degree (L+1)/2.)  The grids computed in double have the same property up to 2^-51.  For L = 3 the constant is within 0.001 of the best one: LebedevLaikov 6 has order 3 and a direction u with u.x <= 0.578 for all its points.", "quantifier": "every supported grid of all four angular families, every direction", "why_tests_cant": "the statement quantifies over all directions; tests only integrate a few functions", "anchors": [{"file": "include/integratorxx/quadratures/s2/lebedev_laikov.hpp", "symbols": ["npts_by_algebraic_order", "algebraic_order_by_npts", "next_algebraic_order", "generate"]}, {"file": "include/integratorxx/quadratures/s2/delley.hpp", "symbols": ["npts_by_algebraic_order", "algebraic_order_by_npts", "next_algebraic_order", "generate"]}, {"file": "include/integratorxx/quadratures/s2/ahrens_beylkin.hpp", "symbols": ["npts_by_algebraic_order", "algebraic_order_by_npts", "next_algebraic_order", "generate"]}, {"file": "include/integratorxx/quadratures/s2/womersley.hpp", "symbols": ["npts_by_algebraic_order", "algebraic_order_by_npts", "next_algebraic_order", "generate", "generate_large_npts_"]}]}
{"id": "C114", "title": "The number of refinements of the batcher over a grid of the factory", "statement": "In exact arithmetic, constructing a SphericalMicroBatcher over an unpruned or pruned grid of SphericalGridFactory with less than 2^16 radial points returns normally after at most 37 + log2(z/a) refinements (rounded up), where a and z are the first and the last radial point, for every max_batch_size of at least 1 and every supported angular grid.  For the radial schemes of the factory with n >= 1 points (alpha at most 1 for TreutlerAhlrichs) this is at most 38 + 5 log2(n+1): 72 refinements for 99 radial points.", "quantifier": "every factory grid with up to 65535 radial points of any radial scheme and any scale, every angular grid, every valid list of pruning regions, every max_batch_size and every partition function satisfying the contract of std::partition", "why_tests_cant": "a loop that runs too long is only seen for the grids a test happens to use; the bound holds for all of them", "anchors": [{"file": "include/integratorxx/batch/spherical_micro_batcher.hpp", "symbols": ["SphericalMicroBatcher::generate_batches", "partition_box", "get_box_bounds", "point_in_box"]}, {"file": "include/integratorxx/composite_quadratures/pruned_spherical_quadrature.hpp", "symbols": ["quadrature_traits<PrunedSphericalQuadrature>::generate"]}, {"file": "include/integratorxx/generators/impl/pruned_grid.hpp", "symbols": ["make_pruned_grid_impl", "make_pruned_grid", "SphericalGridFactory::generate_pruned_grid", "create_pruned_spec"]}]}
{"id": "C115", "title": "Plane waves and exponentials on the angular grids", "statement": "In exact arithmetic, let a supported angular grid (except AhrensBeylkin 552) have order L and let f(t) = sum a_k t^k with |a_k| <= A kappa^k/k!, for example exp(kappa t), exp(-kappa t), cos(kappa t), sin(kappa t) with A = 1.  For every unit vector u the grid returns the surface integral of f(u.x), which is 2 pi times the integral of f over [-1,1], up to 12 pi A kappa^(L+1)/(L+1)! exp(kappa) (kappa enlarged by a relative 1e-14) plus the contribution of the digits of the tables, A 4 pi 1e-13 exp(sqrt(3) kappa) for LebedevLaikov and Delley, A 6e-14 exp(3 kappa) for AhrensBeylkin and Womersley.", "quantifier": "every supported grid of all four angular families, every direction, every wave number kappa >= 0, every such function", "why_tests_cant": "quantifies over directions, wave numbers and functions; the library's tests integrate spherical harmonics only", "anchors": [{"file": "include/integratorxx/quadratures/s2/lebedev_laikov.hpp", "symbols": ["npts_by_algebraic_order", "algebraic_order_by_npts", "next_algebraic_order", "generate"]}, {"file": "include/integratorxx/quadratures/s2/delley.hpp", "symbols": ["npts_by_algebraic_order", "algebraic_order_by_npts", "next_algebraic_order", "generate"]}, {"file": "include/integratorxx/quadratures/s2/ahrens_beylkin.hpp", "symbols": ["npts_by_algebraic_order", "algebraic_order_by_npts", "next_algebraic_order", "generate"]}, {"file": "include/integratorxx/quadratures/s2/womersley.hpp", "symbols": ["npts_by_algebraic_order", "algebraic_order_by_npts", "next_algebraic_order", "generate", "generate_large_npts_"]}]}
{"id": "C116", "title": "The potential of a charged shell", "statement": "In exact arithmetic, let a supported angular grid (except AhrensBeylkin 552) have order L.  (a) For f(t) = sum a_k t^k on [-r,r], r = 1 + 1e-14, with |a_k| <= A rho^k and rho r < 1, and every unit vector u, the grid returns the surface integral of f(u.x) up to 12 pi A (rho r)^(L+1)/(1 - rho r) plus A times the contribution D(rho) of the digits of the tables, D = 4 pi 1e-13 sum_{k<=L} (sqrt(3) rho)^k for LebedevLaikov and Delley, 6e-14 sum_{k<=L} (3 rho)^k for AhrensBeylkin and Womersley.  (b) The points scaled by s and charged with the weights have at every point c at distance R from the origin the potential sum w_i/|s x_i - c| = 4 pi/max(s,R), inside and outside the sphere, up to (D(tau) + 12 pi (tau r)^(L+1)/(1 - tau r) + 16 pi 1e-14/(1 - sigma)^3)/max(s,R), where sigma = min(s,R)/max(s,R) <= 1 - 4e-7 and tau = 2 sigma/(1 + sigma^2).", "quantifier": "every supported grid of all four angular families, every radius s >= 0, every observation point off the sphere", "why_tests_cant": "quantifies over radii and observation points; the library's tests contain no singular integrand", "anchors": [{"file": "include/integratorxx/quadratures/s2/lebedev_laikov.hpp", "symbols": ["npts_by_algebraic_order", "algebraic_order_by_npts", "next_algebraic_order", "generate"]}, {"file": "include/integratorxx/quadratures/s2/delley.hpp", "symbols": ["npts_by_algebraic_order", "algebraic_order_by_npts", "next_algebraic_order", "generate"]}, {"file": "include/integratorxx/quadratures/s2/ahrens_beylkin.hpp", "symbols": ["npts_by_algebraic_order", "algebraic_order_by_npts", "next_algebraic_order", "generate"]}, {"file": "include/integratorxx/quadratures/s2/womersley.hpp", "symbols": ["npts_by_algebraic_order", "algebraic_order_by_npts", "next_algebraic_order", "generate", "generate_large_npts_"]}]}
{"id": "C117", "title": "The number of points of the angular grids", "statement": "Every rule for the unit sphere (any points, any weights) that is exact for all polynomials of degree at most L has at least (floor(L/2)+1)^2 points.  The supported grids with n points and order L satisfy (L+1)^2 + 2 <= 3n <= (L+1)^2 + 38 (LebedevLaikov), (L+1)^2 + 6 <= 3n <= (L+1)^2 + 14 (Delley), (L+1)^2 - 9 <= 3n <= (L+1)^2 + 515 (AhrensBeylkin), (L+1)^2 <= 2n <= (L+1)^2 + 3 (Womersley).  Hence no rule exact to the tabulated order of a grid saves more than a factor 13/8 (LebedevLaikov, Delley), 68/49 (AhrensBeylkin) or 3 (Womersley) in the number of points.", "quantifier": "every supported grid of all four angular families; every other rule for the sphere, with any points and weights of any sign", "why_tests_cant": "quantifies over all conceivable rules and all polynomials", "anchors": [{"file": "include/integratorxx/quadratures/s2/lebedev_laikov.hpp", "symbols": ["npts_by_algebraic_order", "algebraic_order_by_npts", "next_algebraic_order", "generate"]}, {"file": "include/integratorxx/quadratures/s2/delley.hpp", "symbols": ["npts_by_algebraic_order", "algebraic_order_by_npts", "next_algebraic_order", "generate"]}, {"file": "include/integratorxx/quadratures/s2/ahrens_beylkin.hpp", "symbols": ["npts_by_algebraic_order", "algebraic_order_by_npts", "next_algebraic_order", "generate"]}, {"file": "include/integratorxx/quadratures/s2/womersley.hpp", "symbols": ["npts_by_algebraic_order", "algebraic_order_by_npts", "next_algebraic_order", "generate", "generate_large_npts_"]}]}
{"id": "C118", "title": "The Gauss rules are the only rules of their order", "statement": "In exact arithmetic, let a rule have at most n nodes, inside the interval, with any weights, and be exact for all polynomials of degree below 2n against the weight function of GaussChebyshev1, GaussChebyshev2 or GaussChebyshev3; then up to order its points and weights are those of the constructed rule with n points.  The same holds for the rule that the weight formula of GaussLegendre gives at the zeros of the Legendre polynomial, and for GaussLobatto among the rules with at most n nodes that include both ends and are exact below degree 2n-2.", "quantifier": "every number of points, every competing rule", "why_tests_cant": "quantifies over all conceivable rules and all polynomials", "anchors": [{"file": "include/integratorxx/quadratures/primitive/gausschebyshev1.hpp", "symbols": ["quadrature_traits<GaussChebyshev1>::generate"]}, {"file": "include/integratorxx/quadratures/primitive/gausschebyshev2.hpp", "symbols": ["quadrature_traits<GaussChebyshev2>::generate"]}, {"file": "include/integratorxx/quadratures/primitive/gausschebyshev2modified.hpp", "symbols": ["quadrature_traits<GaussChebyshev2Modified>::generate"]}, {"file": "include/integratorxx/quadratures/primitive/gausschebyshev3.hpp", "symbols": ["quadrature_traits<GaussChebyshev3>::generate"]}, {"file": "include/integratorxx/quadratures/primitive/gausslegendre.hpp", "symbols": ["quadrature_traits<GaussLegendre>::generate"]}, {"file": "include/integratorxx/quadratures/primitive/gausslobatto.hpp", "symbols": ["quadrature_traits<GaussLobatto>::generate"]}]}
