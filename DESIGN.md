# Formal model of quadpy in Lean 4

quadpy 0.16.5 is a library of quadrature rules. This directory has a model of it in Lean 4 and proofs
about the model. `properties.jsonl` lists the properties, `MANIFEST.json` the theorems that prove each
of them, `seeded/LOG.jsonl` the wrong programs the theorems were tested against. This file says what is
modelled, how each property is proved and what has to be trusted.

Contents: 1 layout, 2 trusted base, 3 modelling decisions, 4 what is and is not modelled, 5 the
properties, 6 defects found in the code, 7 testing the theorems.

## 1. Layout

* `lean/Verif/Model/*.lean`: the code, function by function. Every definition cites file and lines.
* `lean/Verif/Spec/*.lean`: the notions the theorems are stated with, independent of the model:
  `Exact.lean` (Lebesgue integrals over cube, simplex, ball, weighted spaces, sphere; polynomials),
  `Schemes.lean` (`ExactOnCube`, `ExactOnBall`, ... : the rule is well shaped and integrates every
  polynomial up to its `degree` attribute exactly), `C1.lean` and `OneDim.lean` (one variable),
  `Bisection.lean` and `Triforce.lean` (partitions of intervals and triangles).
* `lean/Verif/Lemmas/*.lean`: the mathematics in between.
* `lean/Verif/Props/Cnn*.lean`: the theorems, named `Cnn_...`, each with a concrete instance
  (`example`) beside it.

## 2. Trusted base

* The kernel of Lean 4.33.0, and that the statements (Spec + the hypotheses of each theorem) say what
  they are meant to say.
* The axioms `propext`, `Classical.choice` and `Quot.sound`. No theorem uses anything else; there are no
  own axioms, no `sorry`, no `native_decide`, no `bv_decide`.
* The tactic `quad_comb` (`Lemmas/QuadComb.lean`) is not trusted: it only finds the coefficients of a `linear_combination`, which
  the kernel checks.
* That the definitions in `Model` describe the Python code. They were written by reading the sources;
  nothing was run. Mathlib supplies measure theory, polynomials and linear algebra and is checked by the
  same kernel.
* External packages. They are not part of the repository and are represented by contracts:

| package | used for | in the model |
|---|---|---|
| `scipy.linalg.eigh_tridiagonal`, `mpmath tridiag_eigen`, sympy `eigenvects` | `scheme_from_rc` | any orthonormal eigen-decomposition, in increasing order of the eigenvalues (`OneDim.lean`) |
| `scipy.linalg.solve_banded` | Lobatto, Radau | the solution of the linear system |
| `orthopy` (recurrence coefficients) | Gauss rules | the textbook coefficients, *proved* to be those of the weight (C19) |
| `numpy.fft`, `sympy.integrate`, `sympy.poly` | Clenshaw-Curtis, Newton-Cotes, Silvester | the defining sum, the integral, `MvPolynomial` |
| `mpmath.polyroots`, `np.polynomial`-style root finders, `lu_solve` | tn, s2, u3 rules | hypotheses: all roots with multiplicity, a solution of the system |
| `ndim` (volumes, moments) | Sn, Un, Enr, Enr2 | volumes: the recursion of the package, proved right; moments: hypothesis `Integrates` in the McNamee-Stenger theorems |
| `numpy` array operations | everywhere | their documented meaning on lists and functions |

## 3. Modelling decisions

* **Exact arithmetic.** Every float and every sympy number is a real number. Rounding, overflow and the
  distinction between symbolic and floating-point mode are not modelled, except in C75, where `integrate` itself
  is written with one rounding per operation. A rule stated by decimal numbers
  has no exact degree and therefore no theorem.
* **Square roots.** `sqrt` of a negative number is an exception or `nan` in the code. Where that can
  happen a constructor returns an `Option` (`sqrtO`), and the theorem is about what is returned; for
  which parameters something is returned is a theorem of its own (`*_defined`, `Returns`).
* **Assertions** are modelled as `none`.
* **Division** by zero is an exception in the code and 0 in Lean. Theorems carry the parameter range in
  which no divisor is zero, or prove that the model's `Option` guard excludes it.
* **Arrays.** Lists of rows, or functions of an index together with a length. Data types, memory layout
  and views are not modelled.
* **Control flow** of the adaptive integrators: state machines (`Model/Adaptive.lean`,
  `Model/Triangle.lean`) whose loop has unbounded fuel; the theorems quantify over every execution, every
  integrand and every number of rounds.

## 4. What is and is not modelled

Modelled: `helpers/combinatorics.py`, `helpers/misc.py`, `helpers/symmetries.py`, `tools/main.py`
(`scheme_from_rc`, `coefficients_from_gauss`), all of `c1`, `e1r`, `e1r2`,
`_scipy_compat.py`, `t2/_tools.py`, `get_good_scheme` of all domains, `points_inside`, the `integrate`
methods of all domains, the closed-form constructors of cn, tn, sn, un, enr,
enr2, u2, c2, c3, s2, s3, t2, t3, u3, e2r, e2r2, e3r, e3r2, p3, w3.

Not modelled: axes, outlines, styles and meshes in `plot` and `show` (C61 is about what is drawn where),
the text of `__str__` (C65 is about the numbers in it), bibliography, the unused
`_optimize_weights_as_variables`, argument parsing and JSON in `_cli.py`, the test suite, JSON data files (git-LFS stubs in this checkout) and those rules with
decimal data which are not in C55 to C59.

## 5. The properties

"proved": as stated in `properties.jsonl`. "partial": either the statement is false of the code, and then
both the counterexample and the strongest true version are proved, or something is missing, and then the
entry says what.

### Generators and helpers
* **C01** (proved) `combine`, `rd`, `fsd`, `fs_array` as list programs. By induction over the recursion of
  `partitions`: the rows are exactly the distinct arrangements of the slots, each once; the number of rows.
* **C02** (proved) `pm`, `pm_roll`; induction on the vector; closure under sign changes.
* **C03** (proved) `augment` and the loop of `get_all_exponents`; membership iff sum = d, no duplicates.
* **C04** (proved) `untangle`; induction on the groups, for every integrand.
* **C05** (proved) both branches of `gamma_n_2` against Mathlib's `Real.Gamma`.
* **C06** (proved) `get_nsimplex_points`: Gram matrix and sum by telescoping sums.
* **C07** (proved) the recursion of `integrate_monomial_over_unit_simplex` against the Lebesgue integral
  (Dirichlet's formula by induction on the dimension, slices).
* **C08** (proved) `integrate_monomial_over_ncube` against the Lebesgue integral (Fubini).
* **C09** (proved) every orbit generator of `helpers/symmetries.py`, `t3/_helpers.py`, `u3/_helpers.py`:
  number of points, barycentric or unit norm, invariance under the group of the key.
* **C12** (proved) Cayley-Menger determinant = (det / n!)^2; invariance; degenerate iff zero.

### integrate
* **C10** (proved) C1: substitution; also that a reversed interval gives the unsigned value.
* **C11** (proved) Tn: affine change of variables, also for degenerate simplices.
* **C13** (proved) Cn: boxes and parallelotopes; `transform` hits the corners; `get_detJ` is the
  determinant of the Frechet derivative.
* **C14** (partial, false of the code) arrays of cubes: the result is 2^e times the right one.
* **C15** (proved) Sn, Un: scaling and translation; the `ndim` volumes are right.
* **C29** (proved) U2 krylov: sums of roots of unity; sharpness.
* **C46** (partial, false for balls) `points_inside`: right for cubes and simplices.
* **C50** (proved) P3, W3: determinant, vertex map and exactness on affine pyramids and wedges.
* **C51** (proved) `coefficients_from_gauss` inverts `scheme_from_rc`, in both directions. LAPACK's
  `sytrd` is a relation (orthogonal similarity to a tridiagonal matrix that fixes the last basis
  vector); `C51_exists` shows by Householder reflections that it is never empty.
* **C52** (partial, false for two or more axes) arrays of balls, spheres and simplices. `Model/Arrays.lean`
  models numpy arrays (shape and entries), broadcasting, `multiply.outer`, `swapaxes`, `.T`, `dot`;
  the results are computed for every number of axes.
* **C53** (proved) `cartesian_to_spherical` and `integrate_spherical`; surface measure in polar coordinates.
* **C62** (proved) `Model/Unbounded.lean`: `integrate` of E1r, E1r2, E2r, E2r2, E3r, E3r2, Enr, Enr2. The
  reference volumes (in the code literals or the `ndim` package, here closed forms) are the integrals of the
  weight functions. In one variable the integrand gets an array of shape (1, n), so that an integrand which
  works entry by entry gives an array of shape (1,).
* **C54** (partial, false when domain and range end in equal axes) `C1Scheme.integrate` on arrays and `_find_shapes`.

### Rules in one variable
* **C16** (proved) Newton-Cotes: Lagrange interpolation and symmetry.
* **C17** (proved) Chebyshev-Gauss: discrete orthogonality of cosines, substitution x = cos t.
* **C18** (partial, false for even n) Clenshaw-Curtis and Fejer: degree n for odd n, exactly n-1 for even n.
* **C19** (proved) `scheme_from_rc`: functional calculus of the Jacobi matrix; positivity; the
  coefficients of Legendre, Gegenbauer, Jacobi, Laguerre, Hermite belong to their weights.
* **C20** (partial, false for Radau) Lobatto: nodes and degree 2n-3. Radau: degree 2n-2 and not the claimed 2n-1.
* **C44** (proved) the error estimate of one Gauss-Kronrod evaluation.
* **C47** (partial, false for every n) Gauss-Kronrod: Laurie's algorithm; degree at least 3n+1 whenever it returns;
  `Props/C47Two.lean`: `gauss_kronrod(2)` has degree 7 and not 8, and claims 9. That the Gauss points are among its points is C72.
  `Lemmas/KaluzaTwo.lean`, `Lemmas/LegendreChebyshev.lean`, `Props/C47Legendre.lean`: the degree for the Legendre weight is exactly
  3n+1 (even n) or 3n+2 (odd n) and the claimed one larger by two, for every n for which the algorithm divides by no zero
  (`C47_degree`, `C47_claim_false`). More is true: no choice of n+1 further points and weights does better (`C47_no_extension`).
  Proof: the integrals of the Legendre polynomial against Chebyshev polynomials satisfy a two-term recurrence (from Legendre's
  differential equation); the orthogonality of the Stieltjes polynomial makes its Chebyshev coefficients those of a reciprocal
  power series; a variant of Kaluza's theorem for the differences of these coefficients contradicts one more degree.
  `Props/C72ChebyshevFirst.lean`: other weights behave differently. For `a = b = -1/2` the degree is 4n-1 and the claim holds
  exactly for n >= 4 (`C47_chebyshev_first`); for `a = b = 1/2` it holds exactly for n >= 2 (`C47_chebyshev_second`).
* **C55** (proved) Gauss-Patterson: points for any table, degree n of the interpolatory rule, criterion for
  more; the nine rules of the code with all their decimals. For index < 6, where the weights are computed,
  the moments after the first n satisfy the linear recurrence of the nodal polynomial, which the kernel
  evaluates in integers (`checkR`); for index 6 to 8 the tables are checked directly (`checkN`).
* **C59** (proved) Genz-Keister. `Lemmas/GenzKeisterTables.lean` sorts the tables (by a permutation of the
  indices, `sort_eq`) and lets the kernel compare all even moments with rational bounds (`checkQ`), one
  integer computation per table; odd moments vanish by symmetry.

### Rules in n variables
All are proved for every dimension n. Method: a polynomial is a sum of monomials (`exactUpTo_of_mono`);
groups of points that are sign-symmetric kill monomials with an odd exponent; the others are classified
by their exponents (`classify_even`, up to degree 9 in `Degree9.lean`), and sums over `rd`/`fsd` groups
come from C01; moments of cube, simplex, ball, sphere and exponential weights are computed as Lebesgue
integrals (`CubeMoments`, `SimplexMoments`, `Radial`, `Moments9`).
* **C21** cn. All closed-form constructors; refuted for `cools_haegemans_2` with delta2 != 1,
  `dobrodeev_1970(3)`, `(4)`, `stroud_1966_d(2)`, `stroud_1968(1)`.
* **C22** (proved) tn. All constructors; simplex moments through power sums.
* **C23** (proved) `grundmann_moeller`: finite-difference identity for the generating function.
* **C24** sn (proved), **C25** un (proved), **C26** enr (partial), **C27** enr2 (proved): see the notes in the manifest for what is left;
  `mcnamee_stenger_9a/9b` on exp(-r) are refuted for every n >= 4.
* **C28** (proved) `compute_dobrodeev` and the three constructors.
* **C49** (proved) `silvester`: interpolation on the simplex lattice for every dimension and degree.

### Rules in two and three variables
* **C30**, **C31** (proved) `lether`, `peirce_1957`: products of a Gauss rule and an equidistant rule.
* **C32** (partial, false for lists) `product`.
* **C33**, **C34**, **C35** (proved) rules with a parameter, for every value of the parameter.
* **C48** (proved) one theorem per closed-form rule.
* **C56** (proved) decimal rules. `Dec.check` computes all monomial errors of a rule with integer data over
  common denominators; `check_sound` turns the kernel-evaluated `true` into a bound for every polynomial
  of the degree. The error is relative to volume times the sum of |coefficients|. The rules in
  JSON files are not covered.
* **C57** (proved) rules mixing decimals with roots or pi: the roots are enclosed by rationals
  (`Dec.sqrt_near`), the rule is compared with one with integer data (`Dec.near_of_check`), to which
  `Dec.check` applies. p3 `felippa_9` and the conical rules are products and are treated by hand.
  `mclaren_10` is checked as a list of 72 points; `approx_radial` carries the error of a sphere rule over to
  its products with radial rules. The polygons of `mysovskih_3` are rewritten to sign-symmetric orbits.
* **C58** (proved) the tables of Stenger and Stroud (1967): `Dec.checkG` computes the moments of sign- and
  permutation-symmetric groups of points (`Lemmas/CombineDecimal.lean`) for all even exponents; where the
  weights are multiples of a root of pi or of the volume, these factors are divided out first
  (`approx_div`). Every entry of every table is checked.

### Adaptive integration
* **C36** to **C41** `integrate_adaptive`: invariants of the state machine, by induction over rounds.
  C38 and C40 are false of the code and refuted for all inputs of the kind described.
* **C42** (proved) the same for triangles.
* **C43** (partial, false for reversed infinite ranges and for args on the whole line) `quad`.
* **C45** (partial, false for c2 and s3) `get_good_scheme`, for every integer degree.

### The command line tool

* **C60** (proved) `Model/Optimize.lean` models `_optimize.py` and `_cli.py`. numpy's `lstsq` and scipy's
  `minimize` are parameters with the documented behaviour (`LstsqSpec`: the solution is a minimiser, the
  residuals are returned only for full column rank and more rows than columns; `MinimizeSpec`: the value
  returned is the value at the point returned). The orthogonal polynomials are a list of functions. Proofs:
  the split-and-reshape code is inverse to flattening (induction over the entries); summing up the columns
  of equal weights and solving for the weights is the same as the error of the expanded rule. `someLstsq`
  and `tryPoint` show that the assumptions can be met, with a run which finds the degree 2 rule.
  `C60_improves` needs that the weights are determined by the points at the start; otherwise the code
  compares with the number 1 and the rule may get worse. Rounding and nan are not modelled.

### Data files

* **C63** (proved) The files themselves are git-LFS stubs in this checkout, so their numbers cannot be checked;
  what can be proved is which equations decide the degree. `Lemmas/Sobolev.lean` has the invariance arguments
  for any number of variables: odd moments vanish, the others depend on the sorted exponents only, on the
  sphere and for barycentric coordinates the moments of the highest degree imply the lower ones. C63 applies
  this to the model of the readers (`Optimize.read`, C60) for C2, S2, E2r, E2r2, U3, T2, T3.

### The scheme classes

* **C64** (proved) `Model/Residuals.lean`: `U3Scheme.compute_residuals`. orthopy's evaluator is an iterator; the
  number of calls of `next` is the state of the program. What it has to supply is stated in `Evaluator.Good`
  (polynomials of degree k with mean zero which span); `meanFree_good` shows that such evaluators exist.
  `Evaluator.Good` is not proved of orthopy's spherical harmonics.
* **C65** (partial, because false of the code) `Model/SchemeClass.lean`: the constructors of all classes as
  programs which set attributes one by one, and the numbers which `__str__` prints. The label of Enr2, which
  contains the tolerance by mistake, is simplified. The claim is refuted by `C65_low_precision_fails` and
  `C65_int_factor_fails`.

### The adaptive loop ends

* **C70** (partial, because false of the code) `Lemmas/AdaptiveLive.lean`, `Props/C70.lean`: with an absolute tolerance
  above zero and no relative one, every call with a continuous integrand ends (`C70_ends`, any limits) and returns when there
  are no limits (`C70_returns`). The argument: an accepted interval uses less than its share of the allowance, so the
  allowance per pending length never falls (`live_step`); the estimate is at most length times oscillation
  (`errEst_le_osc`); Heine-Cantor. With the default criteria the same holds for polynomials of the degree of the Gauss rule
  (`C70_polynomial`), but not for all continuous integrands: `Props/C70Default.lean` gives, for all tolerances with
  `eps_rel <= 1/10`, a continuous integrand on which the loop never ends (`C70_default_runs`, finding 34). The contract on
  the Kronrod rule is the structure `KronrodRule`.

* **C71** `Props/C71.lean`: adaptive triangle integration ends, and returns with the minimum area switched off, for every
  continuous integrand (`C71_ends`, `C71_returns`), for vector-valued integrands, triangles in `R^m` of any `m`, any non-degenerate
  initial triangles and any two rules with points in the triangle (`InsideRule`; weights of any sign). The loop invariant:
  every pending triangle is a half-size copy of one of the round before, so both its area and its diameter are known; then
  Heine-Cantor. That the area of a pending triangle is not zero is `C12_zero_iff_space` (`Props/C12Space.lean`).
  `C71_nine`: with the default minimum area one proper triangle never fails before the tenth round.

### Kronrod points contain the Gauss points

* **C72** `Lemmas/KronrodPoly.lean`, `Lemmas/KronrodRun.lean`, `Lemmas/KronrodNest.lean`, `Props/C72.lean`: correctness of Laurie's
  algorithm `_r_kronrod`, for every `n` and arbitrary coefficients: when it divides by no zero (`KronrodRegular`, a predicate
  on its execution), the trailing block of the matrix has the characteristic polynomial of the leading one
  (`C72_algorithm`). The loop invariant: the arrays `s` and `t` hold antidiagonals of one table of mixed moments
  (`run1_t`, `run2_t`, `run2_s`, `table_mixed`); a table of that shape forces the two polynomials to be equal
  (`MixedTable.eq`). From this, the points of `gauss_kronrod(n, a, b)` with odd numbers are the points of
  `gauss_jacobi(n, a, b)` in the same order (`C72_points`: the derivative of the characteristic polynomial is negative at the
  Gauss points and alternates in sign along the Kronrod points), which is what `integrate_adaptive` relies on when it takes
  `fx_gk[..., 1::2]`; `C72_adaptive` is C41 with that contract discharged. `Props/C72Chebyshev.lean`: for
  `a = b = 1/2` no division by zero happens for any `n`, and the rule is the Gauss rule with `2n+1` points (`C72_chebyshev`).
  `Props/C72ChebyshevFirst.lean`: for `a = b = -1/2` none happens from `n = 2` on; the points are `cos(k pi / (2n))`, both ends
  included, the weights positive, the degree `4n-1` (`C72_chebyshev_first`). Not proved: that none happens for the Legendre
  weight for every `n` (a zero makes the eigensolver fail). For the default `kronrod_degree=10` it is proved:
  `Lemmas/KronrodCert.lean` shows that a table which satisfies the recurrences and has no zero on its diagonal is the one the
  algorithm computes, and `Props/C72Default.lean` has that table in rational numbers, checked by the kernel (`decide +kernel`,
  no extra axiom). So for the default rule nothing is assumed: it exists, its 21 points are strictly inside the interval, its weights
  are positive, its degree is 31 (claim 33), and it contains the Gauss points (`C72_default`); it satisfies the contract
  `KronrodRule` of C70 (`C70_default_rule`); `integrate_adaptive(p, [a, b])` with all defaults returns the integral of every
  polynomial of degree at most 19 (`C72_default_polynomial`); see also `C70_default_returns` and `C76_default`.

### Symmetry and uniqueness of one-dimensional rules

* **C73** `Lemmas/GaussMirror.lean`, `Props/C73.lean`, `Props/C73Interp.lean`: `scheme_from_rc` gives the same points and weights
  whichever orthonormal eigenvectors scipy returns (`schemeFromRc_unique`), and changing the signs of the diagonal reflects the
  rule (`schemeFromRc_neg`, for every matrix). From these: `gauss_jacobi` and `gauss_lobatto` are reflected when `a` and `b` are
  exchanged; `gauss_legendre`, `gauss_hermite`, `gauss_jacobi(n, a, a)`, `gauss_lobatto(n, a, a)` are symmetric to 0; so is
  `gauss_kronrod(n, a, a)` (where it divides by no zero), because both loops of `_r_kronrod` keep every second mixed moment at
  zero (`kSymm_step1`, `kSymm_step2`, `rKronrod_diag`). The Newton-Cotes, Clenshaw-Curtis, Fejér and Chebyshev-Gauss rules are
  symmetric, too. Consequences for `C1Scheme.integrate` with an arbitrary function: `C73_integrate`, `C73_odd`. As a by-product,
  `C47_exact_odd`: Gauss-Kronrod rules of a symmetric weight with odd `n` have the degree `3 n + 2`.

### Error and convergence

* **C74** `Lemmas/ErrorBound.lean`, `Props/C74.lean`, `Props/C74Families.lean`, `Props/C74Space.lean`, `Props/C74Transfer.lean`: what the degree of a rule
  means for functions that are no polynomials. A rule of degree `d` with its points in the interval is off by at most
  `(b - a) (sum |w| / 2 + 1)` times the distance of `f` to the polynomials of degree `d` (`C74_best`); by Taylor's theorem the
  error for smooth functions is of the order `d + 2` in the length of the interval, and of the order `d + 1` for the sum over
  `N` parts (`C74_smooth`, `C74_composite`, `C74_composite_tendsto`). With Weierstrass's theorem a family with growing degree and
  bounded sums of `|w|` converges for every continuous function (`C74_tendsto`). Applied to `gauss_legendre`, `gauss_jacobi`,
  `gauss_lobatto`, `gauss_radau`, `gauss_kronrod` (with the points in the interval, which is a hypothesis here), `chebyshev_gauss_1/2`,
  and, after proving that all their weights are positive (`C74_positive_*`, from the cosine sums), `clenshaw_curtis`, `fejer_1`,
  `fejer_2`. In several variables: the same bound for any finite measure on a compact set (`C74_space_best`,
  `C74_space_tendsto`, Stone-Weierstrass), and convergence of `c2.product`, `c3.product`, `s2.lether`, `s2.peirce_1957`,
  `t2.lether`. Exact arithmetic. On arbitrary domains of the API: `integrate` on any
  simplex, box, parallelotope, ball, sphere errs by at most `volume * (sum |w| + 1)` times the distance to the polynomials
  (`C74_simplex`, `C74_box`, `C74_parallelotope`, `C74_ball`, `C74_sphere`; `sum |w| = 1` for nonnegative weights;
  `Props/C74Solid.lean`: `C74_pyramid`, `C74_prism`); a single rule
  on finer and finer meshes of simplices converges for every continuous function (`C74_mesh`, `C74_mesh_tendsto`); families of
  rules with growing degree converge on each of these domains (`C74_*_tendsto`), e.g. `u2.krylov` on every circle
  (`C74_krylov`). The points are supposed to lie in the domain, which these rules and most, not all, of quadpy's satisfy.
* **C75** `Model/Rounding.lean`, `Props/C75.lean`, `Props/C75Space.lean`: the one place where the model rounds. `C1Scheme.integrate` is written as a
  relation in which every operation (abscissae, products, additions in any order, the square root of the squared length, the final
  product) has a relative error of at most `u`; points and weights are rounded, too. `C75_integrate` bounds the difference to the
  exact-arithmetic model, for any order of additions; `C75_total` adds the error of the rule (C74); `C75_exact`: for `u = 0` the
  relation is the exact model, so the two models agree. `C75_loop_depth` and `C75_pairwise_depth` give the depth for a plain loop
  and for splitting in halves. Not modelled: overflow, underflow, `nan`. The same for `integrate` on balls, disks, spheres, circles (`C75_sn`,
  `C75_s2`, `C75_s3`, `C75_u2`, `C75_u3`, with the roundings in the volume, which `C75_nball_volume` bounds by `3 n` in dimension
  `n`) and simplices (`C75_simplex`, with a hypothesis on the error of `np.linalg.det`); `C75_sn_total`, `C75_simplex_total` add
  the error of the rule. A power counts as one operation.
  `Props/C75Cube.lean`: the same for `CnScheme.integrate` (`C75_cube`, points with coordinates in `[-1, 1]`, any corners, a hypothesis
  on the error of `np.linalg.det`; `C75_cube_abscissa` for the rounded `transform`, `C75_cube_exact` for `u = 0`,
  `C75_parallelotope_total` with the error of the rule).
  `Model/RoundingExpr.lean`, `Props/C75Mapped.lean`: `P3Scheme.integrate` and `W3Scheme.integrate` (`C75_pyramid`, `C75_wedge`,
  `C75_mapped_exact`, with the error of the rule `C75_pyramid_total`, `C75_prism_total`). Here the code has formulas for points and determinants; they are written as trees of operations, and
  `C75_expr` bounds the error of any such tree by its number of roundings, so that no hypothesis on the determinant is needed.
  `Props/C75Unbounded.lean`: the same for the domains with an exponential weight (`C75_weighted`, `C75_weighted_total`,
  `C75_weighted_exact`, for the one-dimensional classes `C75_half_line`); the values of `ref_vol` that are formulas in
  the code are bounded by `C75_ref_vol`, `ndim.enr.volume` and `ndim.enr2.volume` enter with a hypothesis on their relative error.
* **C76** `Props/C76.lean`: what a value returned by `integrate_adaptive` says about the integral. Upper bounds: the value belongs to a
  partition into accepted intervals and is as good as the Gauss rule is on them (`C76_parts`, `C76_variation`), and never worse than
  the bound of C74 on the whole interval (`C76_uniform`) or on the given triangles (`C76_triangles`). The tolerance is no bound:
  for all rules, intervals and triangles there are integrands that the points do not see, and 0 or `b - a` is returned at once for
  every tolerance (`C76_no_bound`, `C76_no_bound_rel`, `C76_triangles_no_bound`). If the second rule is better than the first by a
  factor `θ < 1` on all triangles, the true error is below the tolerance divided by `1 - θ` (`C76_saturation`).
* **C77** `Lemmas/WeakConv.lean`, `Props/C77.lean`: `gauss_laguerre(n, a)` and `gauss_hermite(n)` converge as `n` grows, for every
  continuous function of polynomial growth (C74 has only bounded domains). Proof: the rules are measures whose moments agree up to
  the degree; the weight has an exponential moment, so the characteristic functions converge near 0 and then, by expanding at
  successive points, everywhere; Levy's theorem gives bounded functions, and the moments cut off the tails. `C77_weighted` is the
  general form, `C77_e1r`, `C77_e1r2` are in terms of `integrate` (model of C62).
* **C78** `Props/C78.lean`: a rule with nonnegative weights keeps inequalities with polynomials: `p <= f <= q` with degrees at most
  the one of the rule implies `∫ p <= integrate(f) <= ∫ q` and an error of at most `∫ (q - p)`. One general theorem (`C78_space`),
  then the domains: exponential weights (`C78_unbounded`), simplices, balls, spheres, parallelotopes, boxes, the line (`C78_line`).
  With Taylor's polynomials: explicit error bounds for `gauss_hermite` and `gauss_laguerre`.
* **C79** `Props/C79.lean`: `quad` from end to end, in exact arithmetic. The rule is the one the algorithms of `gauss_kronrod(10)` and
  `gauss_legendre(10)` give (C72), so no contract is assumed. Exact values after one evaluation: `C79_at_once` and its cases
  `C79_polynomial`, `C79_right`, `C79_left`; bounds for whatever is returned: `C79_error`, `C79_finite`, `C79_infinite`. The
  substitutions are those of C43. That `quad` returns within `limit` subintervals is claimed for the exact cases only.

### The dictionaries of schemes

* **C80** `Model/Compat.lean`, `Props/C80.lean`: `comb` and `prod` of helpers/misc.py with the comparison of `sys.version` as strings.
  Trusted: that `math.factorial`, `math.comb` and `math.prod` do what their documentation says. The branch: `C80_first_digit`,
  `C80_before`, `C80_standard`, `C80_after`; the values: `C80_comb`, `C80_comb_negative`, `C80_prod`.
* **C69** (partial, because false of the code) `Model/Registry.lean`: Python dictionaries, `register`, and what the 121
  calls of `register` in the package pass (`Model/RegistryData.lean`, generated by reading the import statements; a
  function is its file and `__name__`). `from ._burnside import burnside as stroud_c2_5_3` does not change `__name__`, so the
  new name is not a key (`C69_alias`, finding 33). `C69_schemes` says what the dictionaries contain, `C69_good` that the
  names in the tables of `get_good_scheme` (C45) are keys. Strings are compared by a numeric code, which needs no
  injectivity: different codes give different strings.

### The helpers of the tests

`Model/TestHelpers.lean` models test/helpers.py: the functions with which the project measures degrees and chooses
rules. They are not in the package, but what the package says about degrees, and `get_good_scheme`, rest on them.

* **C66** (proved) `check_degree`. The integrand with one component for each monomial is represented by the
  effect of the rule on one component.
* **C67** (proved) `find_best_scheme`: the choice is minimal in (number of points, quotient of weights, year), the last
  among equals. nan and inf of the quotient are modelled; years are strings, compared as Python does.
  The order of strings by code points is Lean's.
* **C68** (partial, because false of the code) `find_equal` compares the rows of an array with one *column* for each
  point, that is coordinates and not points (finding 32).

Concrete cases for theorems of earlier properties, which are too long to stand beside them, are in
`Props/Cases.lean` (adaptive integration: one full run), `Props/Cases2.lean`, `Props/Cases3.lean` and `Props/Cases4.lean` (rules applied to a
monomial; the value is compared with the integral).

### Plotting

* **C61** (partial, because false of the code) `Model/Plot.lean` models helpers/plot.py and the `plot` and
  `show` methods as functions from the scheme and the domain to the list of discs or balls (centre, radius,
  colour) or an error; arrays carry their shape, since most of the defects are transposed arrays. Proofs:
  `C61_size`, `C61_total` (areas and volumes), `C61_plane`, `C61_mapped`, `C61_u2`, `C61_show_good` (what is
  right), `C61_cap` (the cap of a U3 rule as a set: the rotation is an isometry onto, and spherical
  coordinates cover the cap). The claim is refuted by `C61_show_vtk_fails`, `C61_show_mpl_wrong`,
  `C61_t3_never`, `C61_c2_wrong`, `C61_c1_wrong`.

## 6. Defects found in the code

Each of the first list is a theorem; names in the manifest under the property given.

1. `CnScheme.integrate` (also C2, C3) on an array of cubes with e extra axes returns 2^e times the right
   values (C14).
2. `integrate_adaptive`: `max_num_subintervals` counts accepted intervals only. With `eps_abs = 0`, or with
   a relative tolerance only and a vanishing integral, the loop never ends (C38).
3. `integrate_adaptive` on several intervals never returns: the final reshape fails (C40).
4. `quad`: `args` are dropped on (-inf, inf); reversed infinite ranges fail (C43).
5. `clenshaw_curtis(n)`, `fejer_1(n)`, `fejer_2(n)` with even n claim degree n, the true degree is n-1 (C18).
6. `gauss_radau(n)` claims 2n-1, the true degree is 2n-2 for every n (C20).
7. `gauss_kronrod(1)` claims degree 7 with three points, `gauss_kronrod(2)` claims 9 and has 7; for every `n` the claim is
   larger by two than the degree (C47).
8. cn: `cools_haegemans_2` with `delta2 != 1`, `dobrodeev_1970(3)`, `dobrodeev_1970(4)`,
   `stroud_1966_d(2)`, `stroud_1968(1)` do not have the claimed degree (C21).
9. enr: `mcnamee_stenger_9a/9b` do not integrate x^2 y^2 for any n >= 4 (C26).
10. tn: `stroud_1966_2(2)` is 0/0, `walkington_7(2)` and `walkington_5(n)`, n outside {2, 3}, fail;
    `lauffer_3(1)` and `hammer_stroud_1a(0)` ask `rd` for too many slots (C22).
11. enr2: `cools_haegemans_2(n, delta2=1/2)` divides by zero although the guard admits it (C27).
12. c2: `franke_1` at the end points of the admitted interval and `waldron` at r^2 = 1/3 divide by zero (C33).
13. `radon`, `mysovskih_1`, `ditkin_1` with alpha != 0 are exact for the weight |x|^alpha only, while
    `integrate` documents the plain integral (C35).
14. `c2.product(list)` and `c3.product(list)` raise AttributeError (C32).
15. `c2.get_good_scheme(22)` is a KeyError; `s3.get_good_scheme` refuses 8 to 14 although its table has
    them; negative degrees are KeyErrors (C45).
16. `SnScheme.points_inside` sums over the wrong axis (C46).
17. `silvester(dim, variant, 0)` is a TypeError (C49).
18. `stroud_c2_7_4` has degree 1 because a variable is overwritten; `e2r2.stroud_7_2` has degree 1 because
    of a wrong symmetry key (C48).
19. `C1Scheme.integrate` over a reversed interval returns the unsigned integral (C10).
20. `integrate` of Sn, S2, S3, Un, U2 and Tn on arrays of domains with two or more axes uses the centre (or
    the simplex) at the reversed index, or raises (C52). `U3Scheme.integrate` raises for lists of spheres.
21. `C1Scheme.integrate` without `domain_shape`/`range_shape` takes a common tail of both shapes for the
    shape of the set of intervals, silently returning wrong values (C54).
22. c2 `cohen_gismalla_2` claims degree 1 and a comment says "something is fishy". The claim is right, but
    two slips cause it: `g1 = alpha / B / 2`, `h1 = beta / C / 2` use weights which were already divided by
    4, and the fourth point should be (s, r), not (r, s). With both corrected the rule has degree 3 and is
    exact for all monomials up to degree 7 which are even in both variables (C48).
23. `_get_weights` for an even number of points uses a Gauss rule with one point too few (C55; not reached by
    `gauss_patterson`, whose point sets are odd).
24. sn `stoyanova(n)` with the default `delta` takes the square root of a negative number for n = 10, ..., 85
    (ValueError); with `variant_v_plus=False` it does so from n = 85 on (C24). The comment in the source says
    that the default "works".
25. Some tables of Stenger are less accurate than the `test_tolerance` they declare: the weights of
    enr2 `stenger_7a(6)` add up to the volume only up to 6.9e-13 (declared 1.091e-13), of sn `stenger_7a(6)`
    up to 6.4e-13 (5.878e-13), of sn `stenger_11b(5)` up to 3.5e-12 (2.721e-12) (computed outside Lean; the
    proved bounds in C58 are 1e-12, 1e-12, 1e-11).
26. `quadpy-optimize` works for T2 only: for C2 and S2 it is an ImportError (`expand_symmetries_points_only`
    is imported from modules which do not have it), for U3 a TypeError (the function there takes no `dim`).
    It ends with an IndexError when there are not more polynomials than weights (`res[0]` of an empty array),
    and compares with the number 1.0 when the weights are not determined by the initial points (C60).
27. `show_vtk` expects an array of shape (3, n), `show_mpl` one of shape (n, 3). c3 and w3 pass (n, 3) to the
    default vtk: a TypeError unless n = 3. s3, e3r and e3r2 pass (3, n): with backend "mpl" exactly three
    balls are drawn, at meaningless places. `T3Scheme.show` never works: the product has mismatched shapes
    unless there are four points, and then either backend fails (C61).
28. `C2Scheme.plot` takes the area of the triangles 00-10-01 and 00-01-11, which overlap or leave a gap unless
    the quadrilateral is a parallelogram (or has the same area by chance); `C1Scheme.plot(interval)` does not
    move the points to the interval. "The sum of areas equals total_area" fails for negative weights (C61).
29. `_scheme_from_dict` in c2, s2 and t2 cannot work (`expand_symmetries` without `dim`, arrays of weights and
    points given to constructors which expect symmetry data, the degree given twice). It is handed on by
    `_optimize.py`, where the only call is commented out.
30. `QuadratureScheme.__init__` reads `self.domain` in order to warn of low precision, but UnScheme, U2Scheme,
    S3Scheme, E3r2Scheme and P3Scheme set `domain` after the call: with `tol > 1e-12` they raise an
    AttributeError (C65). No rule in the package has such a tolerance in these classes yet.
    `Enr2Scheme.domain` contains the tolerance. `E1rScheme` has no source.
31. `weights *= weight_factor` raises a casting error if all weights in the file are integers (C65).
32. `find_equal` in test/helpers.py loops over the rows of `np.vstack([weights, points])`, which are coordinates, not
    points: it does not find rules with permuted points, and takes some different rules for equal (C68).
33. `register` uses `scheme.__name__`. 116 times functions are registered which were imported under another name (for
    example all `stroud_c2_...` which repeat rules of others): `quadpy.c2.schemes["stroud_c2_5_3"]` is a KeyError (C69).
34. The default criteria of `integrate_adaptive` (`eps_abs`, `eps_rel`, `np.any`) allow a coarse round to accept an interval
    because the tentative total value is still far too large. When later rounds bring the value down, the error accepted is
    more than the whole allowance, no interval can be accepted any more, and the loop bisects for ever (C70).

## 7. Testing the theorems

Model definitions were edited the way a real mistake would look (wrong sign, wrong index, off by one, a
missing factor, a dropped case) in a copy outside this directory, and everything was rebuilt. Each
attempt is a line of `seeded/LOG.jsonl` with the theorems that failed. An edit after which nothing failed
led to a stronger theorem, named in the log.
