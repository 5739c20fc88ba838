{"id": "C01", "title": "Point generators enumerate every arrangement exactly once", "statement": "rd(n, items) and fsd(n, *tuples) return rows of length n that are exactly the arrangements of the given values (for fsd with every independent choice of sign on each nonzero slot) with the given multiplicities and zeros elsewhere; every slot assignment appears exactly once, so that for every function the sum over the returned rows equals the sum over all slot assignments, and the number of rows is the multinomial coefficient times 2 to the number of signed slots. fs_array does the same for one slot per entry.", "quantifier": "every dimension n, every list of (value, count) pairs the assertions admit, every summed function", "why_tests_cant": "The row count grows exponentially with n and tests run only the few (n, counts) used by shipped schemes; a missed or doubled arrangement at larger n changes every scheme built on the helper.", "anchors": ["quadpy/helpers/combinatorics.py: combine, rd, fsd, fs_array"]}
{"id": "C02", "title": "Sign generators pm and pm_roll", "statement": "pm(v) returns every sign pattern of v once, without doubling zero entries (2^k rows, k nonzero entries); pm_roll(v) returns the concatenation of all n cyclic shifts of those rows, n*2^k rows; both lists are closed under changing the sign of any coordinate.", "quantifier": "every vector v of every length", "why_tests_cant": "Closure under every reflection for every length is a statement about all vectors; tests only see the handful of literal vectors in the scheme files.", "anchors": ["quadpy/helpers/combinatorics.py: pm, pm_roll"]}
{"id": "C03", "title": "get_all_exponents is a complete, duplicate-free table of monomials", "statement": "Level d of get_all_exponents(dim, max_degree) contains every tuple of dim natural numbers with sum d, and contains each exactly once; there are max_degree+1 levels.", "quantifier": "every dim >= 1 and every max_degree", "why_tests_cant": "The generator is recursive in both arguments; enumerating against a second generator checks finitely many sizes only. A missed exponent would make every exactness test silently weaker.", "anchors": ["quadpy/helpers/combinatorics.py: get_all_exponents, augment"]}
{"id": "C04", "title": "untangle keeps weights and points aligned", "statement": "For every list of (weight, group of points), untangle returns as many weights as points and, for every integrand, the dot product of values and weights equals the sum over groups of weight times the sum of the integrand over the group.", "quantifier": "every list of groups, every integrand", "why_tests_cant": "Alignment must hold for every partition of the points into groups, including empty and repeated ones.", "anchors": ["quadpy/helpers/misc.py: untangle"]}
{"id": "C05", "title": "gamma_n_2(n) is Gamma(n/2)", "statement": "For every n >= 1 the closed form returned by gamma_n_2(n) (factorial for even n, factorial ratio times sqrt(pi) for odd n) equals Gamma(n/2).", "quantifier": "every natural n >= 1", "why_tests_cant": "An identity between a closed form and an improper integral for every n.", "anchors": ["quadpy/helpers/misc.py: gamma_n_2"]}
{"id": "C06", "title": "get_nsimplex_points is a regular simplex inscribed in the unit sphere", "statement": "For every n >= 1, get_nsimplex_points(n) returns n+1 rows of length n with Euclidean norm 1, pairwise inner product -1/n and sum zero.", "quantifier": "every n >= 1, every pair of rows", "why_tests_cant": "Closed form in n with square roots; every sphere/Gaussian scheme built on it needs the identity at the n it is called with.", "anchors": ["quadpy/helpers/misc.py: get_nsimplex_points"]}
{"id": "C07", "title": "Closed-form monomial integral over the unit simplex", "statement": "integrate_monomial_over_unit_simplex(k) terminates for every exponent list and equals the Lebesgue integral of x^k over {x >= 0, sum x <= 1}.", "quantifier": "every dimension and every exponent list", "why_tests_cant": "It is the oracle other tests use; recursion over unbounded exponents, value an integral.", "anchors": ["quadpy/tn/_helpers.py: integrate_monomial_over_unit_simplex"]}
{"id": "C08", "title": "Closed-form monomial integral over a box", "statement": "integrate_monomial_over_ncube(limits, k) equals the Lebesgue integral of x^k over the box with these limits (a_i <= b_i).", "quantifier": "every dimension, every box, every exponent list", "why_tests_cant": "It is the reference value used to test schemes.", "anchors": ["quadpy/cn/_helpers.py: integrate_monomial_over_ncube"]}
{"id": "C09", "title": "Symmetry expansion is consistent", "statement": "expand_symmetries returns as many weights as points; every orbit generator returns the number of points announced; triangle and tetrahedron orbit points are barycentric (coordinates sum to 1) for every orbit parameter; the resulting rule is invariant under the symmetry group of the key (permuting barycentric coordinates, the square and cube groups, quarter turns) for every integrand.", "quantifier": "every symmetry key, every parameter value, every list of weights, every integrand", "why_tests_cant": "Parameters are real numbers, integrands arbitrary functions.", "anchors": ["quadpy/helpers/symmetries.py: expand_symmetries, _d3_aa, _d3_ab, _c3_ab, _centroid, _vertex, _d4_aa, _d4_a0, _d4_ab, _sxy, _c2_a0, _c2_0a, _symm_r00, _symm_rr0, _symm_rrr, _symm_rrs, _symm_rs0_roll, _symm_rss_pm, _d", "quadpy/t3/_helpers.py: expand_symmetries"]}
{"id": "C10", "title": "C1Scheme.integrate transfers exactness to every interval", "statement": "If a scheme integrates every polynomial of degree <= d exactly over [-1, 1], then integrate(f, [a, b]) equals the integral of f over [a, b] for every polynomial of degree <= d and all a <= b; with a > b the value is the unsigned integral over [b, a], not the signed one.", "quantifier": "every scheme, every interval, every polynomial of the degree", "why_tests_cant": "Uncountably many intervals and polynomials.", "anchors": ["quadpy/c1/_helpers.py: C1Scheme.integrate"]}
{"id": "C11", "title": "TnScheme.integrate transfers exactness to every simplex", "statement": "If a scheme (barycentric points, weights) integrates every polynomial of degree <= d exactly over the unit simplex, integrate(f, simplex) equals the integral of f over the simplex spanned by the n+1 given vertices of R^n for every polynomial of degree <= d.", "quantifier": "every dimension, every vertex set, every polynomial of the degree", "why_tests_cant": "Uncountably many simplices and polynomials.", "anchors": ["quadpy/tn/_helpers.py: TnScheme.integrate, transform"]}
{"id": "C12", "title": "get_vol is the simplex volume", "statement": "The Cayley-Menger expression of get_vol equals |det(v_i - v_0)|/n! for every n+1 points of R^n; it is nonnegative and unchanged by translation and by reordering the vertices; it is zero exactly for degenerate simplices.", "quantifier": "every dimension, every vertex list", "why_tests_cant": "A determinant identity in all dimensions.", "anchors": ["quadpy/tn/_helpers.py: get_vol"]}
{"id": "C13", "title": "CnScheme.integrate transfers exactness to boxes and parallelotopes", "statement": "If a scheme integrates every polynomial of degree <= d exactly over [-1,1]^n, integrate(f, ncube_points(...)) equals the integral over the box for every polynomial of degree <= d; transform maps the cube vertices to the given corners, and get_detJ is the determinant of the derivative of transform.", "quantifier": "every dimension, every box, every reference point, every polynomial of the degree", "why_tests_cant": "Uncountably many boxes and polynomials.", "anchors": ["quadpy/cn/_helpers.py: CnScheme.integrate, transform, get_detJ, ncube_points"]}
{"id": "C14", "title": "Vectorised CnScheme.integrate agrees with one call per cube", "statement": "Calling integrate on an array of cubes returns the array of the results for the single cubes.", "quantifier": "every number of extra axes, every scheme, every integrand", "why_tests_cant": "The volume factor depends on the number of axes of the argument, tests only pass one cube.", "anchors": ["quadpy/cn/_helpers.py: CnScheme.integrate (ref_vol)"]}
{"id": "C15", "title": "SnScheme and UnScheme integrate transfer exactness to every ball and sphere", "statement": "If a scheme is exact to degree d on the unit ball (unit sphere), integrate(f, center, radius) is the integral over the ball (sphere) of that center and radius for every polynomial of degree <= d.", "quantifier": "every dimension, center, radius > 0, polynomial of the degree", "why_tests_cant": "Uncountably many balls and polynomials.", "anchors": ["quadpy/sn/_helpers.py: SnScheme.integrate", "quadpy/un/_helpers.py: UnScheme.integrate"]}
{"id": "C16", "title": "Newton-Cotes rules have the degree they claim", "statement": "newton_cotes_closed(n) (n >= 1) and newton_cotes_open(n) (n >= 2) integrate every polynomial up to the degree attribute exactly over [-1, 1]: the interpolation degree, and one more in the symmetric case.", "quantifier": "every index n, every polynomial of the degree", "why_tests_cant": "Unbounded n; floating point makes large n untestable, and a parity slip shows up only in one half of the indices.", "anchors": ["quadpy/c1/_newton_cotes.py: newton_cotes_closed, newton_cotes_open"]}
{"id": "C17", "title": "Chebyshev-Gauss rules have the degree they claim", "statement": "chebyshev_gauss_1(n) and chebyshev_gauss_2(n) integrate every polynomial p up to the degree attribute exactly against 1/sqrt(1-x^2) and sqrt(1-x^2) on [-1, 1].", "quantifier": "every n >= 1, every polynomial of the degree", "why_tests_cant": "Unbounded n.", "anchors": ["quadpy/c1/_chebyshev_gauss.py: chebyshev_gauss_1, chebyshev_gauss_2"]}
{"id": "C18", "title": "Clenshaw-Curtis and Fejer rules have the degree they claim", "statement": "clenshaw_curtis(n), fejer_1(n) and fejer_2(n) integrate every polynomial of degree up to the degree attribute exactly over [-1, 1].", "quantifier": "every admissible n, every polynomial of the degree", "why_tests_cant": "Unbounded n; weights come out of an FFT of a closed form.", "anchors": ["quadpy/c1/_clenshaw_curtis.py: clenshaw_curtis", "quadpy/c1/_fejer.py: fejer_1, fejer_2"]}
{"id": "C19", "title": "Rules built from recurrence coefficients are exact to degree 2n-1", "statement": "scheme_from_rc(alpha, beta, int_1), given the recurrence coefficients of the monic orthogonal polynomials of a weight, returns points and weights that integrate every polynomial of degree <= 2n-1 exactly against that weight; hence gauss_legendre, gauss_jacobi, gauss_laguerre and gauss_hermite have the degree 2n-1 they claim. The weights are nonnegative and sum to int_1.", "quantifier": "every n >= 1, every weight functional, every polynomial of the degree", "why_tests_cant": "Unbounded n and arbitrary weights.", "anchors": ["quadpy/tools/main.py: scheme_from_rc, _scheme_from_rc_numpy", "quadpy/c1/_gauss_legendre.py", "quadpy/c1/_gauss_jacobi.py", "quadpy/e1r/_gauss_laguerre.py", "quadpy/e1r2/_gauss_hermite.py"]}
{"id": "C20", "title": "Gauss-Lobatto and Gauss-Radau rules contain their endpoints and have the degree they claim", "statement": "gauss_lobatto(n) has both endpoints among its points and integrates degree 2n-3 exactly; gauss_radau(n) has the left endpoint among its points and integrates every polynomial up to its degree attribute exactly.", "quantifier": "every n, every polynomial of the degree", "why_tests_cant": "Unbounded n; the modified last recurrence coefficients must work for each n.", "anchors": ["quadpy/c1/_gauss_lobatto.py: gauss_lobatto, _lobatto", "quadpy/c1/_gauss_radau.py: gauss_radau, _radau"]}
{"id": "C21", "title": "Claimed degrees of n-cube rules hold in every dimension", "statement": "stroud_cn_1_1, stroud_cn_1_2, ewing, tyler, thacher, hammer_stroud_1n, hammer_stroud_2n, mustard_lyness_blatt, phillips, stroud_cn_3_2, 3_4, 3_6, stroud_1957_2, stroud_1957_3, stroud_1966_a..d, stroud_1968, mcnamee_stenger_3 and 5 integrate every polynomial of total degree up to the degree attribute exactly over [-1, 1]^n.", "quantifier": "every dimension n the constructor accepts, every polynomial of the degree", "why_tests_cant": "Tests build the schemes for a few n and check with rounding tolerance; the claim is for every n.", "anchors": ["quadpy/cn/*.py"]}
{"id": "C22", "title": "Claimed degrees of n-simplex rules hold in every dimension", "statement": "stroud_tn_1_1, hammer_stroud_1a, 1b, 2, lauffer_1..., stroud_1961, stroud_1964, stroud_1966_1..., stroud_1969, walkington_1, 2, 3 integrate every polynomial of total degree up to the degree attribute exactly over the n-simplex.", "quantifier": "every dimension n the constructor accepts, every polynomial of the degree", "why_tests_cant": "As for the cube.", "anchors": ["quadpy/tn/*.py"]}
{"id": "C23", "title": "Grundmann-Moeller rules have degree 2s+1 in every dimension", "statement": "grundmann_moeller(n, s) integrates every polynomial of degree <= 2s+1 exactly over the n-simplex.", "quantifier": "every n >= 1, every s >= 0, every polynomial of the degree", "why_tests_cant": "Two unbounded parameters; alternating weights make floating point tests meaningless for large s.", "anchors": ["quadpy/tn/_grundmann_moeller.py: grundmann_moeller"]}
{"id": "C24", "title": "Claimed degrees of n-ball rules hold in every dimension", "statement": "Each rule for the unit ball given in closed form (hammer_stroud_11n/12n, stroud_1957, stroud_sn_3_1, 3_2, 5_2, stroud_1966_a..d, dobrodeev_1970, stroud_1967_7_a/b/c, stoyanova, mcnamee_stenger_3, 5, 7a/b, 9a/b), whenever the constructor returns, integrates every polynomial of total degree up to its degree attribute exactly over the unit ball; hammer_stroud_11n/12n with parameter alpha integrate against |x|^alpha. (The rules in decimal tables are C58.)", "quantifier": "every dimension n the constructor accepts, every alpha, every polynomial of the degree", "why_tests_cant": "As for the cube; alpha is a real parameter.", "anchors": ["quadpy/sn/*.py"]}
{"id": "C25", "title": "Claimed degrees of n-sphere rules hold in every dimension", "statement": "stroud_un_3_1, 3_2, 5_1, 5_2, 5_3, 5_4, 7_1, 7_2, stroud_1967, stroud_1969, mysovskikh_1, mysovskikh_2 integrate every polynomial of total degree up to the degree attribute exactly over the unit sphere.", "quantifier": "every dimension n the constructor accepts, every polynomial of the degree", "why_tests_cant": "As for the cube.", "anchors": ["quadpy/un/*.py"]}
{"id": "C26", "title": "Claimed degrees of exp(-r) rules hold in every dimension", "statement": "The enr family (stroud_secrest_1..., stroud_enr_5_3, 5_4, mcnamee_stenger_3, 5) integrates every polynomial of total degree up to the degree attribute exactly against exp(-|x|) over R^n.", "quantifier": "every dimension n the constructor accepts, every polynomial of the degree", "why_tests_cant": "As for the cube.", "anchors": ["quadpy/enr/*.py"]}
{"id": "C27", "title": "Claimed degrees of exp(-r^2) rules hold in every dimension", "statement": "Each rule for exp(-|x|^2) on R^n given in closed form (stroud_secrest_1..4, phillips, xiu, stroud_enr2_5_3, 5_4, 5_5a/b, 5_6, cools_haegemans_1, 2, 3, stroud_1967_7_2a/b, 7_4, lu_darmofal_1, mcnamee_stenger_3, 5, 7a/b, 9a/b) integrates every polynomial of total degree up to its degree attribute exactly. (The rules in decimal tables are C58.)", "quantifier": "every dimension n the constructor accepts, every polynomial of the degree", "why_tests_cant": "As for the cube.", "anchors": ["quadpy/enr2/*.py"]}
{"id": "C28", "title": "Dobrodeev equal-weight construction", "statement": "compute_dobrodeev with exact moments I0, I2, I22, I4 of a fully symmetric domain yields radii a, b, c and a common weight such that the three orbits integrate degree 5 exactly, whenever the radicands are nonnegative; the radicand F of the sphere variant vanishes identically (a TODO in the code).", "quantifier": "every dimension, every (i, j, k), both sign variants", "why_tests_cant": "Nested square roots with five integer parameters.", "anchors": ["quadpy/helpers/misc.py: compute_dobrodeev", "quadpy/un/_dobrodeev_1978.py", "quadpy/cn/_dobrodeev_1978.py"]}
{"id": "C29", "title": "Equidistant circle rule has degree n-1", "statement": "krylov(n) integrates every polynomial in x, y of total degree <= n-1 exactly over the unit circle, and the degree claim is sharp.", "quantifier": "every n >= 1, every polynomial of the degree", "why_tests_cant": "Unbounded n.", "anchors": ["quadpy/u2/_krylov.py: krylov"]}
{"id": "C30", "title": "Disk product rules have the degree they claim", "statement": "peirce_1957(m) has degree 4m+3 and s2 lether(n) has degree 2n-1 on the unit disk, given Gauss-Legendre points and weights.", "quantifier": "every m, n, every polynomial of the degree", "why_tests_cant": "Unbounded parameters.", "anchors": ["quadpy/s2/_peirce_1957.py: peirce_1957", "quadpy/s2/_lether.py: lether"]}
{"id": "C31", "title": "Triangle conical product rule has degree 2(n-1)", "statement": "t2 lether(n) integrates every polynomial of degree <= 2n-2 exactly over the triangle, given Gauss-Legendre points and weights.", "quantifier": "every n >= 1, every polynomial of the degree", "why_tests_cant": "Unbounded n.", "anchors": ["quadpy/t2/_lether.py: lether"]}
{"id": "C32", "title": "Cartesian product rules have the degree of the 1-D rule", "statement": "c2.product(s) and c3.product(s) integrate every polynomial of total degree <= s.degree exactly over the square and the cube when s does over [-1, 1]; a list of distinct 1-D rules is handled in the same way.", "quantifier": "every 1-D rule, every polynomial of the degree", "why_tests_cant": "Every rule; the pairing of weights and points must be right for every number of points.", "anchors": ["quadpy/c2/_product.py: product", "quadpy/c3/_product.py: product"]}
{"id": "C33", "title": "Parametrised square rules keep their degree for every parameter", "statement": "franke_1(lmbda) has degree 5 for every admitted lmbda and waldron(r, alpha) has degree 3 for every admitted r and every angle.", "quantifier": "every parameter value the guard admits, every polynomial of the degree", "why_tests_cant": "The parameter is a real number; tests use defaults only.", "anchors": ["quadpy/c2/_franke.py: franke_1", "quadpy/c2/_waldron.py: waldron"]}
{"id": "C34", "title": "Parametrised cube rule hammer_wymore keeps degree 7 for every parameter", "statement": "hammer_wymore(lmbda) integrates every polynomial of degree <= 7 exactly over the cube, for every lmbda for which the formulas are real and the divisors nonzero.", "quantifier": "every admissible lmbda", "why_tests_cant": "Real parameter.", "anchors": ["quadpy/c3/_hammer_wymore.py: hammer_wymore"]}
{"id": "C35", "title": "Parametrised disk and ball rules", "statement": "radon(alpha), mysovskih_1(alpha) and ditkin_1(alpha) integrate every polynomial of their degree exactly against the weight r^alpha (normalised), and against the plain area only when alpha = 0.", "quantifier": "every alpha > -2 (-3)", "why_tests_cant": "Real parameter.", "anchors": ["quadpy/s2/_radon.py: radon", "quadpy/s2/_mysovskih.py: mysovskih_1", "quadpy/s3/_ditkin.py: ditkin_1"]}
{"id": "C36", "title": "Adaptive integration covers the requested interval exactly", "statement": "At every moment of integrate_adaptive the accepted and the pending subintervals partition the requested interval, and when it returns, the value is the sum of the Gauss values over a partition of the interval into bisection subintervals, and the error is the sum of their error estimates.", "quantifier": "every integrand, every interval, every tolerance, every history of accept/reject decisions", "why_tests_cant": "Unbounded histories of bisection.", "anchors": ["quadpy/c1/_adaptive.py: integrate_adaptive"]}
{"id": "C37", "title": "Adaptive integration respects the absolute tolerance it is given", "statement": "When integrate_adaptive with only eps_abs returns, the reported error is below eps_abs.", "quantifier": "every integrand, interval, eps_abs, every history", "why_tests_cant": "The allowance is redistributed in every round; the bound needs an invariant over all rounds.", "anchors": ["quadpy/c1/_adaptive.py: integrate_adaptive"]}
{"id": "C38", "title": "Adaptive integration respects max_num_subintervals and terminates", "statement": "integrate_adaptive never evaluates more than max_num_subintervals subintervals, and with a finite limit it returns or raises IntegrationError after finitely many rounds.", "quantifier": "every integrand, tolerance, limit", "why_tests_cant": "A liveness statement over all histories.", "anchors": ["quadpy/c1/_adaptive.py: integrate_adaptive"]}
{"id": "C39", "title": "Adaptive integration respects minimum_interval_length", "statement": "No value of a subinterval shorter than minimum_interval_length created by bisection enters the result: integrate_adaptive raises instead; with a positive minimum length it stops after at most log2(length/minimum)+1 rounds.", "quantifier": "every integrand, interval, minimum length", "why_tests_cant": "Over all histories.", "anchors": ["quadpy/c1/_adaptive.py: integrate_adaptive"]}
{"id": "C40", "title": "Adaptive integration of several intervals", "statement": "For a set of intervals integrate_adaptive returns the sum of the integrals (or one value per interval); it does not fail.", "quantifier": "every number of intervals", "why_tests_cant": "The shape of the argument is unbounded.", "anchors": ["quadpy/c1/_adaptive.py: integrate_adaptive (reshape)"]}
{"id": "C41", "title": "Adaptive integration is exact for polynomials", "statement": "For a polynomial of degree <= 2k-1 (k = kronrod_degree) integrate_adaptive returns the exact integral whatever the accept/reject history.", "quantifier": "every polynomial of the degree, every interval, every history", "why_tests_cant": "Every history of subdivisions.", "anchors": ["quadpy/c1/_adaptive.py: integrate_adaptive"]}
{"id": "C42", "title": "Adaptive triangle integration", "statement": "t2.integrate_adaptive keeps a partition of the area of the given triangles, returns the sum of scheme1 values over it, and its error estimate is below eps when it returns; it stops after at most ten refinements with the default minimum area.", "quantifier": "every integrand, triangle set, eps, every history", "why_tests_cant": "Over all histories.", "anchors": ["quadpy/t2/_tools.py: integrate_adaptive"]}
{"id": "C43", "title": "quad wrapper: reversed and infinite ranges", "statement": "quad(f, a, b) equals -quad(f, b, a); for infinite limits the substituted integrand on (0, 1] or [0, 1] has the same integral as f on the original range; extra args are passed to f on every branch.", "quantifier": "every integrand, args tuple and pair of limits", "why_tests_cant": "All integrands.", "anchors": ["quadpy/_scipy_compat.py: quad"]}
{"id": "C44", "title": "Kronrod error estimate", "statement": "The error estimate of one Gauss-Kronrod evaluation is nonnegative when the weights are, at most I_tilde, and zero when Gauss and Kronrod values agree and I_tilde is not tiny; nesting pairs each Gauss node with the odd Kronrod node.", "quantifier": "every integrand", "why_tests_cant": "All integrands.", "anchors": ["quadpy/c1/_gauss_kronrod.py: _gauss_kronrod_integrate"]}
{"id": "C45", "title": "get_good_scheme returns a scheme of at least the requested degree or None", "statement": "For every degree the lookup returns a scheme of at least the requested degree, or None when the request exceeds the table; it never fails with a KeyError for a nonnegative degree.", "quantifier": "every integer degree, each domain", "why_tests_cant": "The table is finite but the guard admits every integer below its limit.", "anchors": ["quadpy/c2/_helpers.py, c3/_helpers.py, s2/_helpers.py, s3/_helpers.py, t2/_helpers.py, u3/_helpers.py, e2r/_helpers.py, e2r2/_helpers.py, e3r/_helpers.py, e3r2/_helpers.py, t3/_get_good_scheme.py: get_good_scheme"]}
{"id": "C46", "title": "points_inside tells whether the points are inside", "statement": "points_inside() of a ball scheme tells whether the points lie strictly inside the unit ball.", "quantifier": "every scheme", "why_tests_cant": "Every point set.", "anchors": ["quadpy/sn/_helpers.py: SnScheme.points_inside"]}
{"id": "C47", "title": "Gauss-Kronrod claims", "statement": "gauss_kronrod(n) reports a degree it attains.", "quantifier": "every n", "why_tests_cant": "Unbounded n.", "anchors": ["quadpy/c1/_gauss_kronrod.py: gauss_kronrod"]}
{"id": "C48", "title": "Fixed closed-form rules have the degree they claim on every target domain", "statement": "Each closed-form scheme of c2, c3, s2, s3, t2, t3, u3, e2r, e2r2, e3r, e3r2, p3, w3 listed in the manifest integrates every polynomial up to its degree attribute exactly, in exact arithmetic.", "quantifier": "every polynomial of the degree", "why_tests_cant": "A rounding tolerance in tests hides wrong constants close to the true ones; exactness over all polynomials is an algebraic identity.", "anchors": ["quadpy/c2/*.py", "quadpy/c3/*.py", "quadpy/t2/*.py", "quadpy/t3/*.py", "quadpy/s2/*.py", "quadpy/s3/*.py", "quadpy/u3/*.py", "quadpy/e2r/*.py", "quadpy/e3r/*.py"]}
{"id": "C49", "title": "Silvester interpolatory rules have the degree they claim", "statement": "silvester(dim, variant, n) integrates every polynomial of degree <= n exactly over the simplex.", "quantifier": "every dim, n, both variants", "why_tests_cant": "Unbounded n and dim.", "anchors": ["quadpy/tn/_silvester.py: silvester"]}
{"id": "C50", "title": "Pyramid and wedge schemes have the degree they claim on every affine pyramid and prism", "statement": "P3 felippa_1..8 and W3 felippa_1..3: scheme.integrate(f, vertices) equals the integral over the convex hull of the vertices for every polynomial f of degree <= scheme.degree, for every pyramid whose base is a parallelogram and every wedge whose three connecting edges are equal vectors, degenerate or not; the vertices are the images of the reference vertices, and the factor used by integrate is the determinant of the derivative of the vertex map, for every pyramid and every wedge.", "quantifier": "every scheme, every pyramid with parallelogram base / every prism, every polynomial up to the degree", "why_tests_cant": "The tests integrate monomials over one fixed pyramid and wedge, numerically; vertex positions and polynomials form a continuum.", "anchors": ["quadpy/p3/_helpers.py: P3Scheme.integrate, _transform, _get_det_J", "quadpy/p3/_felippa.py", "quadpy/w3/_helpers.py: W3Scheme.integrate, _transform, _get_detJ", "quadpy/w3/_felippa.py"]}
{"id": "C51", "title": "coefficients_from_gauss inverts scheme_from_rc", "statement": "quadpy.tools.coefficients_from_gauss(points, weights) returns (alpha, beta, int_1) such that scheme_from_rc(alpha, beta, int_1) gives back exactly points and weights, for every rule with strictly ascending points and nonnegative weights; applied to the Gauss rule of a three-term recurrence with positive beta it gives back alpha, beta[1:] and int_1; the tridiagonal reduction it asks LAPACK for exists for every such rule.", "quantifier": "every number of points, every ascending point set, every nonnegative weight vector; every recurrence with positive beta", "why_tests_cant": "The tests recover the coefficients of a few classical rules in floating point; rules form a continuum and the tridiagonal reduction is only determined up to signs.", "anchors": ["quadpy/tools/main.py: coefficients_from_gauss", "quadpy/tools/main.py: scheme_from_rc"]}
{"id": "C52", "title": "integrate on arrays of balls, spheres and simplices", "statement": "SnScheme, S2Scheme, S3Scheme, UnScheme, U2Scheme, U3Scheme and TnScheme.integrate called with arrays of domains (centres of shape (..., n), radii of shape (...), simplices of shape (n+1, ..., n)) return an array of the shape of the array of domains, whose entry at each index is the value of the rule on the domain at that index.", "quantifier": "every scheme, every integrand, every number of domains, every number of array axes", "why_tests_cant": "The tests integrate over one domain, or over a single axis; the claim is about all shapes and lengths.", "anchors": ["quadpy/sn/_helpers.py: SnScheme.integrate", "quadpy/un/_helpers.py: UnScheme.integrate", "quadpy/u2/_helpers.py: U2Scheme.integrate", "quadpy/u3/_helpers.py: U3Scheme.integrate", "quadpy/s2/_helpers.py: S2Scheme.integrate", "quadpy/s3/_helpers.py: S3Scheme.integrate", "quadpy/tn/_helpers.py: TnScheme.integrate"]}
{"id": "C53", "title": "Spherical coordinates of U3 rules", "statement": "U3Scheme.integrate_spherical(f) equals the sum of the rule over f(theta, phi) at spherical coordinates of its points: the polar angles lie in [0, pi], the azimuths in (-pi, pi], and they give back the point; integrating a function of position through its spherical form agrees with integrate over the unit sphere; for rules of degree d and polynomials of degree <= d it is the double integral of f sin(theta).", "quantifier": "every rule whose points are unit vectors, every integrand; every list of symmetry orbits", "why_tests_cant": "Every point of the sphere including the poles and the branch cut, every integrand.", "anchors": ["quadpy/u3/_helpers.py: cartesian_to_spherical", "quadpy/u3/_helpers.py: U3Scheme.integrate_spherical", "quadpy/u3/_helpers.py: expand_symmetries"]}
{"id": "C54", "title": "C1Scheme.integrate on arrays of intervals and array-valued integrands", "statement": "C1Scheme.integrate(f, intervals) with intervals of shape (2, *I) and a function mapping (*D, *I, k) to (*R, *I, k) returns an array of shape (*R, *I) with the value of the rule for every component and interval; the shapes of domain and range are found from the shapes of the interval and of the values, or taken from the arguments domain_shape and range_shape.", "quantifier": "every shape of intervals, domain and range, every integrand", "why_tests_cant": "Shapes of every rank; the default detection is right for all shapes but those the theorem describes.", "anchors": ["quadpy/c1/_helpers.py: C1Scheme.integrate", "quadpy/c1/_helpers.py: _find_shapes"]}
{"id": "C55", "title": "Gauss-Patterson rules: nested symmetric points, interpolatory weights", "statement": "gauss_patterson(index) returns a rule exactly for index = 0, ..., 8. It has 2^(index+1)-1 strictly ascending points, symmetric about 0, which contain the points of all smaller indices. For every polynomial up to the reported degree (1 for index 0, 3*2^index-1 otherwise) the value of the rule differs from the integral by at most 1e-14 times the integral of sum |c_k| |x|^k. For index < 6 the weights are those of the interpolatory rule, so that every polynomial of degree up to the number n of points is integrated exactly; degree n+m holds exactly when the nodal polynomial is orthogonal to all polynomials of degree m. _get_weights gives interpolatory weights for every odd number of different points.", "quantifier": "every index, every polynomial up to the reported degree; for the statements on interpolatory weights every table of different positive numbers", "why_tests_cant": "Tests check a handful of moments with a floating-point tolerance; the claim is about every polynomial and any set of points.", "anchors": ["quadpy/c1/_gauss_patterson.py: gauss_patterson", "quadpy/c1/_gauss_patterson.py: _get_points", "quadpy/c1/_gauss_patterson.py: _get_weights"]}
{"id": "C56", "title": "Rules given by decimal numbers have their degree up to a stated error", "statement": "For the rules whose points and weights are decimal numbers in the Python source (not in the JSON data files) (Lyness-Jespersen, Laursen-Gellert, Strang-Fix-Cowper, Franke on triangles; Keast on tetrahedra; Franke on squares; Witherden-Vincent on cubes; Kubatko-Yeager-Maggi on wedges): for every polynomial of the stated degree the value of the rule differs from the integral by at most eps times the sum of the absolute values of the coefficients times the volume, with eps between 1e-11 and 1e-38 according to the number of digits.", "quantifier": "every polynomial of the stated degree; for wedges every affine prism", "why_tests_cant": "Tests check single monomials or orthogonal polynomials in floating point with a tolerance; the claim bounds the error of the decimal rule itself for all polynomials.", "anchors": ["quadpy/t2/_lyness_jespersen.py", "quadpy/t2/_laursen_gellert/__init__.py", "quadpy/t2/_strang_fix_cowper/__init__.py", "quadpy/t2/_franke.py", "quadpy/t3/_keast/__init__.py", "quadpy/c2/_franke.py", "quadpy/c3/_witherden_vincent/__init__.py", "quadpy/w3/_kubatko_yeager_maggi.py"]}
{"id": "C57", "title": "Rules mixing decimal numbers with square roots or pi have their degree up to a stated error", "statement": "For the rules whose data combine decimal numbers of the source with square roots or pi (Franke 2a-3c and Hammer-Stroud 3-2 on squares, Hammer-Stroud 6-3 on cubes, Hammer-Stroud 19 and 21 and Wissmann-Becker and Mysovskih 3 on disks, the conical rules Stroud T2 7-1 and T3 7-1 on triangles and tetrahedra, McLaren 10 (Stroud U3 14-1) on the sphere and the rules Stroud S3 14-1 and E3r2 14-1 built on it, Felippa 9 on pyramids, Felippa 4-6 on wedges): for every polynomial up to the reported degree the value of the rule differs from the integral by at most eps times the sum of the absolute values of the coefficients times the volume, with eps between 4.2e-11 (E3r2 14-1) and 1e-40 (McLaren 10) according to the number of digits; and the rules report the stated degrees.", "quantifier": "every polynomial up to the reported degree; for pyramids and wedges every affine image of the reference domain", "why_tests_cant": "Tests evaluate finitely many monomials in floating point with a tolerance of 1e-12 or so; the claim bounds the error of the rule itself (not of its float evaluation) for all polynomials.", "anchors": ["quadpy/c2/_franke.py", "quadpy/c2/_hammer_stroud.py", "quadpy/c3/_hammer_stroud.py", "quadpy/s2/_hammer_stroud.py", "quadpy/s2/_wissmann_becker.py", "quadpy/p3/_felippa.py", "quadpy/w3/_felippa.py", "quadpy/s2/_mysovskih.py", "quadpy/t2/_stroud.py", "quadpy/t3/_stroud.py", "quadpy/u3/_mclaren.py", "quadpy/s3/_stroud.py", "quadpy/e3r2/_stroud.py"]}
{"id": "C58", "title": "The tabulated n-dimensional rules of Stenger and Stroud have their degree up to a stated error", "statement": "sn.stenger_7a/7b/9a/9b/11a/11b, enr2.stenger_7a/7b/9a/9b/11a/11b, sn.stroud_1967_5_a/b and enr2.stroud_1967_5_a/b return a rule exactly for the dimensions in their tables; whenever they return one, it reports the degree in its name, and for every polynomial up to that degree the value of the rule differs from the integral (over the unit ball, or against exp(-|x|^2)) by at most eps times the sum of the absolute values of the coefficients times the volume, where eps is between 1e-14 and 1e-11. enr2.stroud_1967_5_a(6), whose table holds roots, is exact.", "quantifier": "every dimension n, every polynomial of n variables up to the reported degree", "why_tests_cant": "Tests evaluate finitely many monomials in floating point and compare with a tolerance which was fitted to the result (1.1e-13 to 2.7e-12); the claim bounds the error of the table itself for all polynomials and says for which dimensions there is a rule.", "anchors": ["quadpy/sn/_stenger.py", "quadpy/enr2/_stenger.py", "quadpy/sn/_stroud_1967_5.py", "quadpy/enr2/_stroud_1967_5.py"]}
{"id": "C59", "title": "The nested rules of Genz and Keister", "statement": "e1r2.genz_keister(n) returns a rule exactly for n = 0, ..., 7. Its points are strictly ascending and symmetric about 0, the weights are symmetric, there are 1, 3, 9, 19, 35, 37, 41, 43 points, and the reported degrees are 1, 5, 15, 29, 51, 55, 63, 67. For n <= 3 the points are among those of every later rule. For every polynomial p up to the reported degree the value of the rule differs from the integral of p(x) exp(-x^2) by at most 1e-14 times the integral of sum |c_k| |x|^k exp(-x^2); for n = 0, 1 it is exact.", "quantifier": "every n, every polynomial up to the reported degree", "why_tests_cant": "Tests compare finitely many monomials in floating point, where moments up to 1e40 appear and an error in the small outer weights cannot be seen; nestedness and order of the points are not tested.", "anchors": ["quadpy/e1r2/_genz_keister.py: genz_keister"]}
{"id": "C60", "title": "quadpy-optimize writes a better rule of the same structure, and its new tolerance bounds the error", "statement": "For a T2 data file, when optimize() returns data, they have the keys of the file in the same order with as many weights and coordinates; the number returned is the root of the sum of the squared errors of the rule described by these data for the orthogonal polynomials up to the degree, so the error for any combination of them is at most this number times the norm of the coefficients, and the number is 0 exactly if the rule is exact for all of them. If the points in the file determine the weights, this number is smaller than for the rule in the file with any weights. The command line tool leaves the file alone or writes the new data, divided by the weight factor, such that reading the file gives this rule; name, domain, degree and factor are kept, comments are kept and one is added once, \"data\" is the last key. For C2, S2 (ImportError), U3 (TypeError), an unknown or missing domain (exit), and whenever there are not more polynomials than weights, there is never a result.", "quantifier": "all data files, all behaviours of lstsq and minimize within their documentation, all polynomials in the span", "why_tests_cant": "The tool is not tested at all; a test would run one file with one minimiser, while the claim covers every file and every path of the search, including the splitting of the coordinate vector and the assignment of weights to orbits.", "anchors": ["quadpy/_optimize.py: optimize, _optimize", "quadpy/_cli.py: main", "quadpy/helpers/symmetries.py: expand_symmetries_points_only", "quadpy/t2/_helpers.py: _read"]}
{"id": "C61", "title": "plot and show draw a disc or ball for each point, at the point, with the size in proportion to the weight", "statement": "C1, C2, S2, T2, E2, U2 plot and C3, W3, P3, S3, E3, T3 show, with each documented backend and any domain, draw exactly one disc or ball for each point, centred at the image of the point in the given domain, with area or volume |w|/sum(w) of the total; these add up to the total area or volume of the domain if no weight is negative. For U3 the surface drawn for a point is the spherical cap around it with the part |w| of the area of the sphere.", "quantifier": "all schemes, all domains, both backends, all weights", "why_tests_cant": "The test suite only calls a few show methods (or none, as they open windows) and never looks at what is drawn; shapes which happen to work for three points hide a transposed array.", "anchors": ["quadpy/helpers/plot.py: plot_disks_1d, plot_disks, show_mpl, show_vtk", "quadpy/c1/_helpers.py: C1Scheme.plot", "quadpy/c2/_helpers.py: C2Scheme.plot", "quadpy/t3/_helpers.py: T3Scheme.show", "quadpy/u3/_helpers.py: U3Scheme.plot, _plot_spherical_cap_mpl"]}
{"id": "C62", "title": "integrate on unbounded domains gives the weighted integral", "statement": "scheme.integrate(f) of E1r, E1r2, E2r, E2r2, E3r, E3r2, Enr, Enr2 schemes equals the integral of f with the weight exp(-x) over [0, inf), exp(-x^2) over the line, exp(-|x|) or exp(-|x|^2) over the plane, the space, R^n, for every polynomial f up to the degree of the scheme; the factors in the code are the integrals of the weights. For decimal schemes the error is bounded by the error of the moments.", "quantifier": "all schemes of the claimed degree, all dimensions, all polynomials up to the degree", "why_tests_cant": "The tests check some schemes with monomials in a few dimensions through the package ndim, which also supplies the volume.", "anchors": ["quadpy/e1r/_helpers.py: E1rScheme.integrate", "quadpy/e1r2/_helpers.py: E1r2Scheme.integrate", "quadpy/e2r/_helpers.py: E2rScheme.integrate", "quadpy/e2r2/_helpers.py: E2r2Scheme.integrate", "quadpy/e3r/_helpers.py: E3rScheme.integrate", "quadpy/e3r2/_helpers.py: E3r2Scheme.integrate", "quadpy/enr/_helpers.py: EnrScheme.integrate", "quadpy/enr2/_helpers.py: Enr2Scheme.integrate"]}
{"id": "C63", "title": "The degree of a rule read from a data file is decided by its invariant moments", "statement": "Let a data file use the keys of the square (zero, d4_aa, d4_a0, d4_ab), the cube on the sphere (a1, a2, a3, llm, pq0, rsw and variants), the triangle (centroid, vertex, d3_aa, d3_ab) or the tetrahedron (s4, s31, s22, s211, s1111). The scheme which _read returns has the degree d in the file if and only if: on C2, S2, E2r, E2r2 it integrates x^2i y^2j for j <= i, 2i+2j <= d; on U3 it integrates x^2i y^2j z^2k for k <= j <= i, i+j+k = d//2; on T2 and T3 it integrates the monomials of degree d in barycentric coordinates with decreasing exponents. The values are given as quotients of factorials. An even degree may be raised by one.", "quantifier": "all data files with such keys, all weights and parameters, all degrees", "why_tests_cant": "A test evaluates one file and all monomials; that few equations are enough, for every file and degree, is a theorem.", "anchors": ["quadpy/helpers/symmetries.py: expand_symmetries", "quadpy/c2/_helpers.py: _read", "quadpy/s2/_helpers.py: _read", "quadpy/t2/_helpers.py: _read", "quadpy/t3/_helpers.py", "quadpy/u3/_helpers.py: _read", "quadpy/e2r/_helpers.py: _read", "quadpy/e2r2/_helpers.py: _read"]}
{"id": "C64", "title": "U3Scheme.compute_residuals tells the degree of the rule", "statement": "compute_residuals(level) returns level+1 numbers; the k-th is the largest error of the rule for the spherical harmonics of degree k. All numbers up to d vanish if and only if the rule has degree d, so that the degree is one less than the index of the first number which does not vanish; the error for any polynomial is bounded by the residuals times its coefficients.", "quantifier": "all rules with points on the sphere, all levels, all evaluators which supply mean-free polynomials that span", "why_tests_cant": "The tests use this function to measure the degree of every U3 rule; nothing checks the function itself, and a test with finitely many rules cannot show the equivalence.", "anchors": ["quadpy/u3/_helpers.py: U3Scheme.compute_residuals, U3Scheme.integrate"]}
{"id": "C65", "title": "Scheme constructors keep what they are given and warn of low precision", "statement": "For each of the 23 scheme classes, constructing a scheme with float, integer or symbolic data of the right shape succeeds; the object has the given name, degree, source, tolerance, points and weights (times the weight factor), keeps the symbolic data, and warns exactly if the tolerance exceeds 1e-12. str(scheme) shows the number of weights, the largest quotient of absolute weights (inf exactly if a weight is 0) and whether all weights are positive.", "quantifier": "all classes, all names, degrees, tolerances, arrays", "why_tests_cant": "No rule in the package has low precision in the classes where the warning fails; a future rule would raise an AttributeError at construction.", "anchors": ["quadpy/helpers/_class.py: QuadratureScheme.__init__, __str__", "quadpy/un/_helpers.py: UnScheme.__init__", "quadpy/s3/_helpers.py: S3Scheme.__init__", "quadpy/u2/_helpers.py: U2Scheme.__init__", "quadpy/e3r2/_helpers.py: E3r2Scheme.__init__", "quadpy/p3/_helpers.py: P3Scheme.__init__"]}
{"id": "C66", "title": "check_degree tells the degree of a rule", "statement": "check_degree(quadrature, exact, dim, max_degree, tol) returns (d, e): all monomials of degree at most d have an error below (1+|exact|) tol, and d is max_degree or some monomial of degree d+1 has not; hence a rule which is exact up to degree n gets at least min(n, max_degree), and a rule which gets d has the degree d up to tol for all polynomials. e is the largest relative error (of the monomials of degree less than max_degree, if one fails). It fails exactly if max_degree is 0 and the constant has a large error.", "quantifier": "all dimensions, functionals, moments, max_degree, tolerances", "why_tests_cant": "This is the function with which the tests measure the degree of rules in e2r, e3r, enr, p3, s3, sn, t3, tn, u2, un, w3; nothing tests it, and finitely many rules cannot show that the number is right.", "anchors": ["test/helpers.py: check_degree", "quadpy/helpers/combinatorics.py: get_all_exponents"]}
{"id": "C67", "title": "find_best_scheme returns the best eligible scheme", "statement": "find_best_scheme(schemes, degree, is_points_okay, is_symmetries_okay) returns None exactly if no scheme has at least the degree, nonnegative weights, allowed points and symmetries, and full precision. Otherwise it returns such a scheme with the fewest points, among these with the smallest quotient of largest and smallest weight, among these of the earliest year, among these the last one.", "quantifier": "all lists of schemes, degrees, predicates", "why_tests_cant": "The tests compare get_good_scheme with the result of this function; if it is wrong, so is the table in the package.", "anchors": ["test/helpers.py: find_best_scheme"]}
{"id": "C68", "title": "find_equal reports the schemes which coincide", "statement": "find_equal(schemes) reports a pair of schemes with different names exactly if their weighted points are the same up to the order.", "quantifier": "all lists of schemes", "why_tests_cant": "The function only prints; nothing looks at its output.", "anchors": ["test/helpers.py: find_equal"]}
{"id": "C69", "title": "Every scheme is in the dictionary of its domain under the name it is registered with", "statement": "After import quadpy, quadpy.<domain>.schemes[name] is the function which the modules of the domain pass to register under that name, for every function passed; no function replaces another; the names which get_good_scheme looks up are keys.", "quantifier": "all domains, all calls of register; for the dictionary operations: all sequences of calls", "why_tests_cant": "The tests iterate over schemes.values() and so never see a name which is missing.", "anchors": ["quadpy/c2/_helpers.py: register, schemes", "quadpy/c2/_stroud.py: imports, register", "quadpy/t2/_helpers.py: register", "quadpy/u3/_stroud.py", "quadpy/s2/_stroud.py"]}
{"id": "C70", "title": "Adaptive integration of a continuous function ends", "statement": "integrate_adaptive(f, [a, b], eps_abs, eps_rel) with eps_abs > 0 and f continuous on the interval ends after finitely many rounds, whatever the limits; without limits it returns, and the error it reports is below the tolerance.", "quantifier": "all continuous integrands (vector-valued, on segments of any dimension), intervals, tolerances above zero, Gauss-Kronrod rules with nonnegative weights", "why_tests_cant": "A test runs the loop on some integrands; that it ends for all continuous ones is a statement about all executions, and the integrands on which it does not end have to be constructed.", "anchors": ["quadpy/c1/_adaptive.py: integrate_adaptive", "quadpy/c1/_gauss_kronrod.py: _gauss_kronrod_integrate"]}
{"id": "C71", "title": "Adaptive triangle integration of a continuous function ends", "statement": "t2.integrate_adaptive(f, triangles, eps, minimum_triangle_area=0) with eps > 0 and f continuous on the triangles ends after finitely many rounds, returns a value, and the error estimate it returns is below eps.", "quantifier": "all continuous integrands, lists of non-degenerate triangles in R^m for any m, tolerances above zero, rules with points in the triangle", "why_tests_cant": "A test runs the loop on some integrands and, because of the default minimum area, for at most ten rounds; that the loop always ends by its own criterion is a statement about all executions.", "anchors": ["quadpy/t2/_tools.py: integrate_adaptive", "quadpy/tn/_helpers.py: get_vol"]}
{"id": "C72", "title": "Every second Kronrod point is a Gauss point", "statement": "When gauss_kronrod(n, a, b) has a result, gauss_kronrod(n, a, b).points[1::2] are the points of gauss_jacobi(n, a, b) in the same order, the points are distinct and the weights positive; hence val_gauss_legendre inside integrate_adaptive is the Gauss value, and polynomials of degree 2n-1 are integrated exactly.", "quantifier": "all n, all a, b > -1 (the algorithm: all coefficient sequences) for which the algorithm divides by no zero", "why_tests_cant": "A test compares points for some n within a tolerance; that the table computed by the two loops always makes the trailing block similar to the leading one is a loop invariant over tables of any size.", "anchors": ["quadpy/c1/_gauss_kronrod.py: _r_kronrod", "quadpy/c1/_gauss_kronrod.py: gauss_kronrod", "quadpy/c1/_gauss_kronrod.py: _gauss_kronrod_integrate"]}
{"id": "C73", "title": "One-dimensional rules are determined by their arguments and symmetric for symmetric weights", "statement": "gauss_legendre(n), gauss_hermite(n), gauss_jacobi(n, a, a), gauss_lobatto(n, a, a), gauss_kronrod(n, a, a), newton_cotes_closed(n), newton_cotes_open(n), clenshaw_curtis(n), fejer_1(n), fejer_2(n), chebyshev_gauss_1(n), chebyshev_gauss_2(n) satisfy points == -points[::-1] and weights == weights[::-1]; gauss_jacobi(n, b, a) and gauss_lobatto(n, b, a) are gauss_jacobi(n, a, b) and gauss_lobatto(n, a, b) reflected. So scheme.integrate(f, [c, d]) is zero for every f antisymmetric about the midpoint. The points and weights do not depend on the choice of eigenvectors.", "quantifier": "all n, all a, b > -1, all integrands and intervals; for gauss_kronrod: calls that divide by no zero", "why_tests_cant": "A test checks some n, a, b within a tolerance; the symmetry for all of them comes from a similarity of matrices and, for Kronrod rules, from an invariant of two loops.", "anchors": ["quadpy/tools/main.py: scheme_from_rc", "quadpy/c1/_gauss_jacobi.py: gauss_jacobi", "quadpy/c1/_gauss_lobatto.py: _lobatto", "quadpy/c1/_gauss_kronrod.py: _r_kronrod", "quadpy/c1/_newton_cotes.py: newton_cotes_closed", "quadpy/c1/_clenshaw_curtis.py: clenshaw_curtis", "quadpy/c1/_helpers.py: C1Scheme.integrate"]}
{"id": "C74", "title": "Error bounds and convergence for functions that are no polynomials", "statement": "For a rule of degree d on [-1, 1] with points in the interval, scheme.integrate(f, [a, b]) differs from the integral of a continuous f by at most (b - a)(sum|w|/2 + 1) times the distance of f to the polynomials of degree d, hence by O((b - a)^(d+2)) for f with d+1 continuous derivatives, and the sum over N equal parts by O(N^-(d+1)). The weights of clenshaw_curtis(n), fejer_1(n), fejer_2(n) are positive. For n to infinity, gauss_legendre(n), clenshaw_curtis(n), fejer_1(n), fejer_2(n) on every interval, gauss_jacobi(n, a, b), gauss_lobatto(n, a, b), gauss_radau(n, a, b), chebyshev_gauss_1(n), chebyshev_gauss_2(n) with their weight functions, product rules on the square and the cube, s2.lether(n), s2.peirce_1957(n) on the disk, t2.lether(n) on the triangle converge for every continuous function. The integrate methods on arbitrary simplices, boxes, parallelotopes, balls and spheres, for rules with points in the domain, err by at most volume * (sum|w| + 1) times the distance of f to the polynomials of the rule's degree; on pyramids with a parallelogram as base and on prisms, with nonnegative weights, by at most twice the volume times this distance; one rule on meshes of simplices whose diameters tend to 0 converges for every continuous f, as does u2.krylov(n) on every circle.", "quantifier": "every continuous (smooth) integrand, every interval, every n; every a, b > -1", "why_tests_cant": "A statement about a limit and about all continuous functions; a test sees some n and some functions.", "anchors": ["quadpy/c1/_helpers.py: C1Scheme.integrate", "quadpy/c1/_clenshaw_curtis.py: clenshaw_curtis", "quadpy/c1/_fejer.py: fejer_1, fejer_2", "quadpy/c1/_gauss_legendre.py: gauss_legendre", "quadpy/c1/_gauss_jacobi.py: gauss_jacobi", "quadpy/c1/_gauss_lobatto.py: gauss_lobatto", "quadpy/c1/_gauss_radau.py: gauss_radau", "quadpy/c1/_chebyshev_gauss.py: chebyshev_gauss_1, chebyshev_gauss_2", "quadpy/c2/_product.py: product", "quadpy/s2/_lether.py: lether", "quadpy/t2/_lether.py: lether", "quadpy/tn/_helpers.py: TnScheme.integrate", "quadpy/cn/_helpers.py: CnScheme.integrate", "quadpy/sn/_helpers.py: SnScheme.integrate", "quadpy/un/_helpers.py: UnScheme.integrate", "quadpy/u2/_krylov.py: krylov", "quadpy/p3/_helpers.py: P3Scheme.integrate", "quadpy/w3/_helpers.py: W3Scheme.integrate"]}
{"id": "C75", "title": "Rounding errors in integrate", "statement": "If every operation of scheme.integrate(f, [a, b]) has a relative error of at most u <= 1 (points and weights are rounded, np.dot adds in any order, a term going through at most k additions), f is Lipschitz with constant L and bounded by F at the abscissae and evaluated with an error of at most eta, the result differs from that of exact arithmetic by at most |b-a|/2 sum|w| ((1+u)^(k+7) (F + eta + L ((1+u)^5 - 1)(|a|+|b|)) - F); for a rule of degree d with nonnegative weights the difference to the integral of f is at most this plus 2(b-a) times the distance of f to the polynomials of degree d. Likewise SnScheme, S2Scheme, S3Scheme, U2Scheme, U3Scheme, TnScheme, CnScheme, P3Scheme, W3Scheme, E1rScheme, E1r2Scheme, E2rScheme, E2r2Scheme, E3rScheme, E3r2Scheme, EnrScheme and Enr2Scheme.integrate: the result differs from that of exact arithmetic by at most volume * sum|w| (for CnScheme, P3Scheme and W3Scheme, a bound on the Jacobian determinants, times 2^n for CnScheme, instead of the volume) * ((1+u)^m (F + eta + L delta) - F), where m is the number of roundings a value goes through (including those of the volume), and delta the error of the points.", "quantifier": "every rule with points in [-1, 1], every interval, every Lipschitz integrand, every order of the additions, every outcome of the roundings", "why_tests_cant": "Quantifies over all roundings, all orders of summation of the linear algebra library and all integrands.", "anchors": ["quadpy/c1/_helpers.py: C1Scheme.integrate", "quadpy/sn/_helpers.py: SnScheme.integrate", "quadpy/s2/_helpers.py: S2Scheme.integrate", "quadpy/s3/_helpers.py: S3Scheme.integrate", "quadpy/u2/_helpers.py: U2Scheme.integrate", "quadpy/u3/_helpers.py: U3Scheme.integrate", "quadpy/tn/_helpers.py: TnScheme.integrate", "quadpy/cn/_helpers.py: CnScheme.integrate", "quadpy/p3/_helpers.py: P3Scheme.integrate", "quadpy/w3/_helpers.py: W3Scheme.integrate", "quadpy/e1r/_helpers.py: integrate", "quadpy/e1r2/_helpers.py: integrate", "quadpy/e2r/_helpers.py: integrate", "quadpy/e2r2/_helpers.py: integrate", "quadpy/e3r/_helpers.py: integrate", "quadpy/e3r2/_helpers.py: integrate", "quadpy/enr/_helpers.py: integrate", "quadpy/enr2/_helpers.py: integrate"]}
{"id": "C76", "title": "The true error of adaptive integration", "statement": "A value returned by c1.integrate_adaptive(f, [a, b], ...) differs from the integral by at most twice the sum, over the accepted intervals, of their length times the distance of f to the polynomials of the degree of the Gauss rule; in particular by at most 2(b-a) times this distance on [a, b], whatever was bisected, and for a Lipschitz f by at most the Lipschitz constant times the sum of the squared lengths. Likewise for t2.integrate_adaptive with the sum of the areas. The tolerances do not bound the error: for every rule, interval and M > 0 there is a polynomial f >= 1 with the integral b-a+M for which (b-a, 0) is returned at once for all tolerances and both criteria connections, and for all triangles a continuous f >= 0 with the integral M for which (0, 0) is returned at once. If the second triangle rule is better than the first by a factor theta < 1 on all triangles, the error is below eps/(1-theta).", "quantifier": "every pair of rules, every interval or list of triangles, every continuous integrand, every tolerance, every history of accepted and rejected parts", "why_tests_cant": "Quantifies over all integrands and all histories of the loop; the negative part needs one integrand that defeats all tolerances.", "anchors": ["quadpy/c1/_adaptive.py: integrate_adaptive", "quadpy/c1/_gauss_kronrod.py: _gauss_kronrod_integrate", "quadpy/t2/_tools.py: integrate_adaptive"]}
{"id": "C77", "title": "Convergence of Gauss-Laguerre and Gauss-Hermite rules", "statement": "For every alpha > -1 and every f that is continuous on [0, oo) with |f(x)| <= C (1+x^2)^m there, e1r.gauss_laguerre(n, alpha).integrate(f) tends to the integral of f(x) x^alpha exp(-x) over (0, oo) as n grows; for every continuous f with |f(x)| <= C (1+x^2)^m, e1r2.gauss_hermite(n).integrate(f) tends to the integral of f(x) exp(-x^2) over the real line. The same holds for every sequence of rules with nonnegative weights and degrees tending to infinity, for a weight w >= 0 for which exp(rho |x|) w(x) is integrable for some rho > 0.", "quantifier": "every continuous integrand of polynomial growth, every alpha > -1", "why_tests_cant": "A limit over infinitely many rules on an unbounded domain, for all integrands; the tests check finitely many monomials for finitely many n.", "anchors": ["quadpy/e1r/_gauss_laguerre.py: gauss_laguerre", "quadpy/e1r2/_gauss_hermite.py: gauss_hermite", "quadpy/e1r/_helpers.py: E1rScheme.integrate", "quadpy/e1r2/_helpers.py: E1r2Scheme.integrate"]}
{"id": "C78", "title": "Rules with nonnegative weights keep bounds by polynomials", "statement": "If all weights of a rule are nonnegative, its points are in the domain, and p <= f <= q on the domain for polynomials p, q of at most the degree of the rule, then integrate(f) lies between the integrals of p and q and differs from the integral of f by at most the integral of q - p. This holds on every simplex, ball, sphere, parallelotope and box, and for the weights exp(-r), exp(-r^2) on R^n, and for weight functions on the line. Consequently the error of e1r2.gauss_hermite(n) is at most 2 M/N! times the integral of x^N exp(-x^2) if |f^(N)| <= M with N even and 0 < N < 2n, and the one of e1r.gauss_laguerre(n, alpha) at most 2 M Gamma(alpha+1+N)/N! if |f^(N)| <= M on [0, oo) with 0 < N < 2n.", "quantifier": "every rule with nonnegative weights, every domain of the listed kinds, every continuous integrand and every pair of polynomials", "why_tests_cant": "Quantifies over all integrands and polynomials; tests evaluate finitely many integrands.", "anchors": ["quadpy/tn/_helpers.py: integrate", "quadpy/sn/_helpers.py: integrate", "quadpy/un/_helpers.py: integrate", "quadpy/cn/_helpers.py: integrate", "quadpy/enr/_helpers.py: integrate", "quadpy/enr2/_helpers.py: integrate", "quadpy/e1r/_helpers.py: integrate", "quadpy/e1r2/_helpers.py: integrate"]}
{"id": "C79", "title": "Values of quad", "statement": "quad(f, a, b) with its built-in 21-point Gauss-Kronrod rule (nothing assumed about the rule): for a polynomial of degree at most 19 and finite limits in any order it returns the integral after one evaluation, for every epsrel and limit and every epsabs > 1e-15, with a reported error of at most 1e-15; likewise on [a, inf) and (-inf, b] for sums of c_k/(1+|x-a|)^(k+2), k <= 19. In general, whatever it returns is off by at most 2 |b-a| times the distance of the integrand to the polynomials of degree 19, on infinite ranges by twice the distance of the substituted integrand on [0, 1].", "quantifier": "every integrand, args tuple, pair of limits, tolerances and limit", "why_tests_cant": "All integrands and tolerances; an infinite range cannot be sampled.", "anchors": ["quadpy/_scipy_compat.py: quad", "quadpy/c1/_adaptive.py: integrate_adaptive", "quadpy/c1/_gauss_kronrod.py: _gauss_kronrod_integrate, gauss_kronrod"]}
{"id": "C80", "title": "comb and prod on every version of Python", "statement": "comb(a, b) is the binomial coefficient and prod(lst) the product of the list, for all natural a, b and all lists, whichever branch the test sys.version < \"3.8\" selects. That test compares strings and only the first digit of the minor version decides: the standard library's math.comb and math.prod are never called before Python 3.8, which lacks them; Python 3.8 and 3.9 call them; Python 3.10 to 3.79 take the fallback again. For a negative argument the branches differ: the fallback returns 0, math.comb raises ValueError.", "quantifier": "all version strings, all natural and negative arguments, all lists", "why_tests_cant": "A test run uses one version of Python and finitely many arguments.", "anchors": ["quadpy/helpers/misc.py:142-148 prod", "quadpy/helpers/misc.py:151-158 comb"]}
