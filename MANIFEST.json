{
 "claims": [
  {
   "property": "C01",
   "status": "proved",
   "theorems": [
    "Quadpy.C01_rd_mem",
    "Quadpy.C01_rd_none",
    "Quadpy.C01_rd_length",
    "Quadpy.C01_rd_nodup",
    "Quadpy.C01_fsd_mem",
    "Quadpy.C01_fsd_none",
    "Quadpy.C01_fsd_length",
    "Quadpy.C01_fsd_nodup",
    "Quadpy.C01_fsArray_mem",
    "Quadpy.C01_fsArray_length"
   ],
   "note": ""
  },
  {
   "property": "C02",
   "status": "proved",
   "theorems": [
    "Quadpy.C02_pm_mem",
    "Quadpy.C02_pm_nodup",
    "Quadpy.C02_pm_length",
    "Quadpy.C02_pm_flip",
    "Quadpy.C02_pmRoll_mem",
    "Quadpy.C02_pmRoll_length",
    "Quadpy.C02_pmRoll_flip"
   ],
   "note": ""
  },
  {
   "property": "C03",
   "status": "proved",
   "theorems": [
    "Quadpy.C03_length",
    "Quadpy.C03_get_all_exponents"
   ],
   "note": ""
  },
  {
   "property": "C04",
   "status": "proved",
   "theorems": [
    "Quadpy.C04_untangle_length",
    "Quadpy.C04_untangle_dot",
    "Quadpy.C04_untangle_zip"
   ],
   "note": ""
  },
  {
   "property": "C05",
   "status": "proved",
   "theorems": [
    "Quadpy.C05_gamma_n_2",
    "Quadpy.C05_gamma_n_2_zero"
   ],
   "note": ""
  },
  {
   "property": "C06",
   "status": "proved",
   "theorems": [
    "Quadpy.C06_shape",
    "Quadpy.C06_regular",
    "Quadpy.C06_centred"
   ],
   "note": ""
  },
  {
   "property": "C07",
   "status": "proved",
   "theorems": [
    "Quadpy.Tn.C07_simplex_monomial"
   ],
   "note": ""
  },
  {
   "property": "C08",
   "status": "proved",
   "theorems": [
    "Quadpy.Cn.C08_box_monomial",
    "Quadpy.Cn.C08_oriented"
   ],
   "note": "The closed form equals the Lebesgue integral for every dimension, exponents and ordered limits; for limits in any order it is the product of oriented integrals."
  },
  {
   "property": "C09",
   "status": "proved",
   "theorems": [
    "Quadpy.C09_length",
    "Quadpy.C09_count",
    "Quadpy.C09_sum",
    "Quadpy.C09_triangle",
    "Quadpy.C09_tetrahedron",
    "Quadpy.C09_sphere",
    "Quadpy.C09_rule_invariant",
    "Quadpy.C09_cube_group",
    "Quadpy.C09_roll_group",
    "Quadpy.C09_rss_group",
    "Quadpy.C09_rotation_group",
    "Quadpy.C09_triangle_group",
    "Quadpy.C09_triangle_subgroup",
    "Quadpy.C09_tetrahedron_group",
    "Quadpy.C09_square_group",
    "Quadpy.C09_rectangle_group",
    "Quadpy.C09_plane_subgroups",
    "Quadpy.C09_dihedral_group",
    "Quadpy.C09_hyperoctahedral_group"
   ],
   "note": "All keys of the general dictionary, of t3 and of u3. Modelled as lists of columns; the asserts of _a/_a0 that there is a single column are not modelled (the theorems hold for any number)."
  },
  {
   "property": "C10",
   "status": "proved",
   "theorems": [
    "Quadpy.C1.C10_unsigned",
    "Quadpy.C1.C10_exact",
    "Quadpy.C1.C10_reversed"
   ],
   "note": "Reversed intervals give the unsigned integral (C10_reversed)."
  },
  {
   "property": "C11",
   "status": "proved",
   "theorems": [
    "Quadpy.Tn.C11_volume",
    "Quadpy.Tn.C11_exact",
    "Quadpy.Tn.C11_perm"
   ],
   "note": "Integration over an arbitrary (possibly degenerate) simplex for every polynomial up to the degree of a scheme exact on the reference simplex; the volume computed by get_vol is the Lebesgue measure of the convex hull."
  },
  {
   "property": "C12",
   "status": "proved",
   "theorems": [
    "Quadpy.Tn.C12_gram",
    "Quadpy.Tn.C12_det",
    "Quadpy.Tn.C12_nonneg",
    "Quadpy.Tn.C12_translation",
    "Quadpy.Tn.C12_perm",
    "Quadpy.Tn.C12_zero_iff",
    "Quadpy.Tn.C12_zero_iff_space"
   ],
   "note": ""
  },
  {
   "property": "C13",
   "status": "proved",
   "theorems": [
    "Quadpy.Cn.C13_vertices",
    "Quadpy.Cn.C13_detJ",
    "Quadpy.Cn.C13_parallelotope",
    "Quadpy.Cn.C13_box"
   ],
   "note": "Single cube; exactness on every box and every (possibly degenerate) parallelotope, vertices are mapped to the corners, get_detJ is the determinant of the Frechet derivative of transform for every (multilinear) cube. Exact real arithmetic."
  },
  {
   "property": "C14",
   "status": "partial",
   "theorems": [
    "Quadpy.Cn.C14_factor",
    "Quadpy.Cn.C14_agree_iff"
   ],
   "note": "The property as stated is false. Proved instead: the vectorised result is 2^e times the single results (e extra axes), so it agrees exactly when there are no extra axes or the value is zero."
  },
  {
   "property": "C15",
   "status": "proved",
   "theorems": [
    "Quadpy.C15_ball_volume",
    "Quadpy.C15_sphere_volume",
    "Quadpy.C15_ball",
    "Quadpy.C15_sphere"
   ],
   "note": "One center and one radius. ndim volumes are modelled by their recursions and proved to be the true volumes. The sphere integral of radius r is defined by scaling the unit sphere."
  },
  {
   "property": "C16",
   "status": "proved",
   "theorems": [
    "Quadpy.C16_newton_cotes_closed",
    "Quadpy.C16_newton_cotes_open",
    "Quadpy.C16_midpoint_trapezoidal"
   ],
   "note": "Closed and open Newton-Cotes rules of every size >= 1 have the claimed degree, from Lagrange interpolation and symmetry; midpoint and trapezoidal too. sympy.integrate is modelled by the integral."
  },
  {
   "property": "C17",
   "status": "proved",
   "theorems": [
    "Quadpy.C17_chebyshev_gauss_1_full",
    "Quadpy.C17_chebyshev_gauss_1",
    "Quadpy.C17_chebyshev_gauss_2_full",
    "Quadpy.C17_chebyshev_gauss_2"
   ],
   "note": "Chebyshev-Gauss rules of both kinds, every n >= 1, degree 2n-1."
  },
  {
   "property": "C18",
   "status": "partial",
   "theorems": [
    "Quadpy.C18_clenshaw_curtis_odd",
    "Quadpy.C18_clenshaw_curtis_even_partial",
    "Quadpy.C18_clenshaw_curtis_real",
    "Quadpy.C18_fejer_2_odd",
    "Quadpy.C18_fejer_2_even_partial",
    "Quadpy.C18_fejer_2_real",
    "Quadpy.C18_fejer_1_odd",
    "Quadpy.C18_fejer_1_even_partial",
    "Quadpy.C18_fejer_1_real"
   ],
   "note": "The claimed degree is n, which holds for odd n (proved). For even n the true degree is n-1: proved exact to n-1, and proved not exact to n. The fft-based weights are proved real."
  },
  {
   "property": "C19",
   "status": "proved",
   "theorems": [
    "Quadpy.C19_scheme_from_rc",
    "Quadpy.C19_positive",
    "Quadpy.C19_exists",
    "Quadpy.C19_gauss_jacobi",
    "Quadpy.C19_gauss_laguerre",
    "Quadpy.C19_gauss_hermite",
    "Quadpy.C19_gauss_legendre"
   ],
   "note": "scheme_from_rc is modelled as the relation between its input and the outcome of a correct symmetric tridiagonal eigensolver; the recurrence coefficients of Legendre, Gegenbauer, Jacobi, Laguerre and Hermite are proved to be those of their weights. n points, increasing, inside the support, weights positive, exact to degree 2n-1, for all n. Chebyshev weights are the Jacobi weights with parameters -1/2 and 1/2."
  },
  {
   "property": "C20",
   "status": "partial",
   "theorems": [
    "Quadpy.C20_gauss_lobatto",
    "Quadpy.C20_gauss_radau_partial"
   ],
   "note": "gauss_lobatto proved in full. gauss_radau claims degree 2n-1, which is proved false for every n; exactness to 2n-2 is proved."
  },
  {
   "property": "C21",
   "status": "partial",
   "theorems": [
    "Quadpy.C21_stroudCn11",
    "Quadpy.C21_stroudCn12",
    "Quadpy.C21_stroudCn32",
    "Quadpy.C21_stroudCn34",
    "Quadpy.C21_ewing",
    "Quadpy.C21_tyler",
    "Quadpy.C21_hammerStroud1n",
    "Quadpy.C21_hammerStroud2n",
    "Quadpy.C21_mustardLynessBlatt",
    "Quadpy.C21_stroud1966a",
    "Quadpy.C21_stroud1966c",
    "Quadpy.C21_stroud1966d",
    "Quadpy.C21_coolsHaegemans1",
    "Quadpy.C21_coolsHaegemans2_partial",
    "Quadpy.C21_coolsHaegemans2_wrong",
    "Quadpy.C21_dobrodeev1970",
    "Quadpy.C21_dobrodeev1970_fails",
    "Quadpy.C21_phillips",
    "Quadpy.C21_degrees",
    "Quadpy.C21_stroudCn32_defined",
    "Quadpy.C21_hammerStroud2n_defined",
    "Quadpy.C21_coolsHaegemans1_defined",
    "Quadpy.C21_stroud1966d_defined",
    "Quadpy.C21_dobrodeev1970_defined",
    "Quadpy.C21_phillips_defined",
    "Quadpy.C21_stroud1957_3",
    "Quadpy.C21_thacher",
    "Quadpy.C21_stroud1957_2",
    "Quadpy.C21_stroud1966b",
    "Quadpy.McNameeStenger.C21_cubeIntegrator",
    "Quadpy.McNameeStenger.C21_mcnamee_stenger_3",
    "Quadpy.McNameeStenger.C21_mcnamee_stenger_5",
    "Quadpy.McNameeStenger.C21_mcnamee_stenger_7",
    "Quadpy.McNameeStenger.C21_mcnamee_stenger_9",
    "Quadpy.McNameeStenger.C21_mcnamee_stenger_guard",
    "Quadpy.C21_stroud1968",
    "Quadpy.C21_stroud1968_one",
    "Quadpy.C21_stroudCn36",
    "Quadpy.C21_stroudCn59"
   ],
   "note": "Every closed-form cn constructor is covered for every n: stroud_cn_1_1, 1_2, 3_2, 3_4, 3_6, 5_9, ewing, tyler, thacher, hammer_stroud_1n/2n, mustard_lyness_blatt, stroud_1957_2, 1957_3, 1966_a..d, 1968 (n >= 2), cools_haegemans_1, dobrodeev_1970, phillips, mcnamee_stenger_3, 5, 7a/b, 9a/b. Partial because the property is false of the code at some places (each refuted by a theorem): cools_haegemans_2 with delta2 != 1, dobrodeev_1970(3) and (4), stroud_1966_d(2), stroud_1968(1)."
  },
  {
   "property": "C22",
   "status": "proved",
   "theorems": [
    "Quadpy.Tn.C22_stroudTn11",
    "Quadpy.Tn.C22_hammerStroud2",
    "Quadpy.Tn.C22_lauffer2",
    "Quadpy.Tn.C22_lauffer3",
    "Quadpy.Tn.C22_lauffer4",
    "Quadpy.Tn.C22_lauffer5",
    "Quadpy.Tn.C22_stroud1961",
    "Quadpy.Tn.C22_stroud1966_1",
    "Quadpy.Tn.C22_stroud1966_3",
    "Quadpy.Tn.C22_stroud1966_4",
    "Quadpy.Tn.C22_stroud1966_5",
    "Quadpy.Tn.C22_stroud1966_6",
    "Quadpy.Tn.C22_stroud1966_7",
    "Quadpy.Tn.C22_lauffer1",
    "Quadpy.Tn.C22_hammerStroud1a",
    "Quadpy.Tn.C22_hammerStroud1b",
    "Quadpy.Tn.C22_stroud1966_2",
    "Quadpy.Tn.C22_stroud1966_2_defined",
    "Quadpy.Tn.C22_stroud1966_2_two",
    "Quadpy.Tn.C22_stroud1964",
    "Quadpy.C22_hammerStroud1a_defined",
    "Quadpy.C22_hammerStroud1b_defined",
    "Quadpy.C22_hammerStroud2_defined",
    "Quadpy.C22_lauffer1_defined",
    "Quadpy.C22_lauffer2_defined",
    "Quadpy.C22_lauffer3_defined",
    "Quadpy.C22_lauffer4_defined",
    "Quadpy.C22_lauffer5_defined",
    "Quadpy.C22_stroud1961_defined",
    "Quadpy.C22_stroud1966_1_defined",
    "Quadpy.C22_stroud1966_3_defined",
    "Quadpy.C22_stroud1966_4_defined",
    "Quadpy.C22_stroud1966_5_defined",
    "Quadpy.C22_stroud1966_6_defined",
    "Quadpy.C22_stroud1966_7_defined",
    "Quadpy.C22_degrees",
    "Quadpy.C22_walkington5_degree",
    "Quadpy.C22_walkington7_degree",
    "Quadpy.C22_stroud1969_degree",
    "Quadpy.Tn.C22_stroud1964b_defined",
    "Quadpy.Tn.C22_stroud1969_solvable",
    "Quadpy.Tn.C22_stroud1969",
    "Quadpy.Tn.C22_stroud1969_all",
    "Quadpy.Tn.C22_stroud1969_assert",
    "Quadpy.Tn.C22_walkington1",
    "Quadpy.Tn.C22_walkington2",
    "Quadpy.Tn.C22_walkington3",
    "Quadpy.Tn.C22_walkington5",
    "Quadpy.Tn.C22_walkington7",
    "Quadpy.Tn.C22_walkington_defined"
   ],
   "note": "Every constructor of tn/ except grundmann_moeller (C23) and silvester (C49): degree as claimed, for every n for which the constructor returns. numpy/mpmath root finders enter as contracts (roots of the polynomial). The linear system of stroud_1969 is shown to be regular for every n >= 3, so that rule is unconditional."
  },
  {
   "property": "C23",
   "status": "proved",
   "theorems": [
    "Quadpy.Tn.C23_grundmann_moeller"
   ],
   "note": "all n and s, exact arithmetic (the code evaluates 2**(-2*s) in floating point)"
  },
  {
   "property": "C24",
   "status": "proved",
   "theorems": [
    "Quadpy.C24_stroud1957",
    "Quadpy.McNameeStenger.C24_mcnamee_stenger_357",
    "Quadpy.McNameeStenger.C24_mcnamee_stenger_9",
    "Quadpy.C24_hammerStroud11n",
    "Quadpy.C24_hammerStroud12n",
    "Quadpy.C24_stroudSn31",
    "Quadpy.C24_stroudSn52",
    "Quadpy.C24_stroudSn32",
    "Quadpy.C24_stroud1966a",
    "Quadpy.C24_stroud1966c",
    "Quadpy.C24_stroud1966d",
    "Quadpy.C24_dobrodeev1970",
    "Quadpy.C24_stroud1967_7a",
    "Quadpy.C24_stroud1967_7b",
    "Quadpy.C24_stroud1966b",
    "Quadpy.C24_stroud1967_7c",
    "Quadpy.Sn.C24_stoyanova",
    "Quadpy.Sn.C24_stoyanova_default_plus",
    "Quadpy.Sn.C24_stoyanova_default_minus",
    "Quadpy.Sn.C24_stoyanova_exists"
   ],
   "note": "Proved for every n: hammer_stroud_11n/12n (with |x|^alpha), stroud_1957, stroud_sn_3_1, 3_2, 5_2, stroud_1966_a..d, dobrodeev_1970, stroud_1967_7_a/b/c, stoyanova (every delta, both variants), mcnamee_stenger_3, 5, 7a/b, 9a/b (given the moments of the external ndim package); dobrodeev_1978 is C28. Also proved: with the default delta, stoyanova(n) returns a rule exactly for n = 5..9 and n >= 86, and with variant_v_plus=False exactly for n = 5..84. The stenger and stroud_1967_5 tables are C58."
  },
  {
   "property": "C25",
   "status": "proved",
   "theorems": [
    "Quadpy.C25_stroudUn31",
    "Quadpy.C25_stroudUn32",
    "Quadpy.C25_stroudUn51",
    "Quadpy.C25_stroudUn52",
    "Quadpy.C25_stroudUn54",
    "Quadpy.C25_stroudUn72",
    "Quadpy.C25_stroud1967",
    "Quadpy.C25_stroudUn53",
    "Quadpy.C25_mysovskikh1",
    "Quadpy.C25_mysovskikh2",
    "Quadpy.C25_stroud1969",
    "Quadpy.C25_stroud1969_assert"
   ],
   "note": "Every constructor of un/, for every n for which it returns: stroud_un_3_1, 3_2, 5_1, 5_2, 5_3, 5_4, 7_2, stroud_1967, stroud_1969 (degree 11, every n >= 3), mysovskikh_1/2; dobrodeev_1978 is C28."
  },
  {
   "property": "C26",
   "status": "partial",
   "theorems": [
    "Quadpy.McNameeStenger.C26_mcnamee_stenger_357",
    "Quadpy.McNameeStenger.C26_mcnamee_stenger_9_fails",
    "Quadpy.C26_stroudSecrest2",
    "Quadpy.C26_stroudSecrest3",
    "Quadpy.C26_stroudSecrest4",
    "Quadpy.C26_stroudEnr54",
    "Quadpy.C26_stroudEnr53",
    "Quadpy.C26_stroudSecrest1"
   ],
   "note": "Proved for every n: stroud_secrest_1..4, stroud_enr_5_3, 5_4, mcnamee_stenger_3, 5, 7a/b (given the moments of the external ndim package). False of the code, proved for every n >= 4: mcnamee_stenger_9a/9b do not integrate x_a^2 x_b^2."
  },
  {
   "property": "C27",
   "status": "proved",
   "theorems": [
    "Quadpy.C27_xiu",
    "Quadpy.McNameeStenger.C27_mcnamee_stenger_357",
    "Quadpy.McNameeStenger.C27_mcnamee_stenger_9",
    "Quadpy.C27_stroudSecrest2",
    "Quadpy.C27_stroudSecrest3",
    "Quadpy.C27_stroudSecrest4",
    "Quadpy.C27_phillips",
    "Quadpy.C27_stroudEnr2_53",
    "Quadpy.C27_stroud55",
    "Quadpy.C27_stroudEnr2_56",
    "Quadpy.C27_coolsHaegemans1",
    "Quadpy.C27_coolsHaegemans2",
    "Quadpy.C27_coolsHaegemans2_half",
    "Quadpy.C27_coolsHaegemans3",
    "Quadpy.C27_stroud1967_7_2",
    "Quadpy.C27_stroudEnr2_54",
    "Quadpy.C27_stroud1967_7_4",
    "Quadpy.C27_stroudSecrest1",
    "Quadpy.C27_luDarmofal1"
   ],
   "note": "Proved for every n: stroud_secrest_1..4, phillips, xiu, stroud_enr2_5_3, 5_4, 5_5a/b, 5_6, cools_haegemans_1, 2, 3, stroud_1967_7_2a/b, 7_4, lu_darmofal_1, mcnamee_stenger_3, 5, 7a/b, 9a/b (given the moments of the external ndim package). The stenger and stroud_1967_5 tables are C58."
  },
  {
   "property": "C28",
   "status": "proved",
   "theorems": [
    "Quadpy.C28_compute_dobrodeev",
    "Quadpy.C28_cn",
    "Quadpy.C28_sn",
    "Quadpy.C28_sphere_F_zero",
    "Quadpy.C28_un_compute",
    "Quadpy.C28_un_generate_jk",
    "Quadpy.C28_un_generate_i",
    "Quadpy.C28_un",
    "Quadpy.C28_outside"
   ],
   "note": "The construction for any fully symmetric functional, any (i,j,k), both signs, conditional on its radicands (the code's own condition); F = 0 on the sphere; the three constructors return a degree-5 rule for every n they accept (2..20) and nothing else. _generate_jk is proved for j = k, the only case used; its formula is wrong for j != k."
  },
  {
   "property": "C29",
   "status": "proved",
   "theorems": [
    "Quadpy.C29_krylov",
    "Quadpy.C29_integrate",
    "Quadpy.C29_sharp"
   ],
   "note": "krylov(n) is exact to degree n-1 on the circle for every n, integrate scales with any centre and radius, and degree n fails for every n >= 1 (Re (x+iy)^n)."
  },
  {
   "property": "C30",
   "status": "proved",
   "theorems": [
    "Quadpy.C30_lether",
    "Quadpy.C30_peirce1957",
    "Quadpy.C30_lether_gauss",
    "Quadpy.C30_peirce1957_gauss"
   ],
   "note": "s2 lether(n) and peirce_1957(m) for all n, m, given any Gauss-Legendre rule (points, weights) exact to degree 2n-1 with nodes >= -1."
  },
  {
   "property": "C31",
   "status": "proved",
   "theorems": [
    "Quadpy.C31_lether_gauss",
    "Quadpy.C31_lether"
   ],
   "note": "t2 lether(n) for all n, given any 1-D rule exact to degree 2n-1."
  },
  {
   "property": "C32",
   "status": "partial",
   "theorems": [
    "Quadpy.C32_product_gauss",
    "Quadpy.C32_c2_product",
    "Quadpy.C32_c3_product",
    "Quadpy.C32_list_fails"
   ],
   "note": "c2.product and c3.product of one rule: exact to the degree of the rule, for every rule. The last clause (list of rules) is false of the code: scheme1d.name raises AttributeError for a list (C32_list_fails)."
  },
  {
   "property": "C33",
   "status": "proved",
   "theorems": [
    "Quadpy.C33_franke_1",
    "Quadpy.C33_franke_1_endpoints",
    "Quadpy.C33_waldron",
    "Quadpy.C33_waldron_endpoint"
   ],
   "note": "For every lmbda in (-9/5, 9/4) and every r with r^2 > 1/3 the rule is built and exact to its degree on the square. The guards of the code also admit the end points lmbda = -9/5, 9/4 and r^2 = 1/3, at which no rule can be built; this is proved too."
  },
  {
   "property": "C34",
   "status": "proved",
   "theorems": [
    "Quadpy.C34_hammer_wymore",
    "Quadpy.C34_defined",
    "Quadpy.C34_default"
   ],
   "note": "hammer_wymore(lmbda): every lmbda for which the rule is defined gives an exact degree-7 rule on the cube; definedness and the default value are proved."
  },
  {
   "property": "C35",
   "status": "proved",
   "theorems": [
    "Quadpy.C35_radon",
    "Quadpy.C35_mysovskih_1",
    "Quadpy.C35_ditkin_1"
   ],
   "note": "radon, mysovskih_1 (disk) and ditkin_1 (ball): exact for the weight |x|^alpha for every alpha above the guard; exact for the plain area/volume exactly when alpha = 0."
  },
  {
   "property": "C36",
   "status": "proved",
   "theorems": [
    "Quadpy.Adaptive.C36_running",
    "Quadpy.Adaptive.C36_returned",
    "Quadpy.Adaptive.C36_bisection_additive",
    "Quadpy.Adaptive.C36_bisection_inside"
   ],
   "note": ""
  },
  {
   "property": "C37",
   "status": "proved",
   "theorems": [
    "Quadpy.Adaptive.C37_abs",
    "Quadpy.Adaptive.C37_rel",
    "Quadpy.Adaptive.C37_any",
    "Quadpy.Adaptive.C37_all"
   ],
   "note": ""
  },
  {
   "property": "C38",
   "status": "partial",
   "theorems": [
    "Quadpy.Adaptive.C38_unbounded_eps_zero",
    "Quadpy.Adaptive.C38_unbounded_zero_integral",
    "Quadpy.Adaptive.C38_limit_partial",
    "Quadpy.Adaptive.C38_zero_integral_example"
   ],
   "note": "The claim as listed is false: the counter counts accepted intervals only, so the loop can run for ever. Proved: the two refutations and the bound that does hold (accepted intervals)."
  },
  {
   "property": "C39",
   "status": "proved",
   "theorems": [
    "Quadpy.Adaptive.C39_min_length",
    "Quadpy.Adaptive.C39_stops"
   ],
   "note": ""
  },
  {
   "property": "C40",
   "status": "partial",
   "theorems": [
    "Quadpy.Adaptive.C40_never_returns",
    "Quadpy.Adaptive.C40_reshape_error"
   ],
   "note": "The claim as listed is false: with two or more input intervals a call never returns a value. The refutation is proved for all inputs."
  },
  {
   "property": "C41",
   "status": "proved",
   "theorems": [
    "Quadpy.Adaptive.C41_exact"
   ],
   "note": "Under the contract that the Kronrod and the Gauss rule are exact on the polynomials in question; for the rules of gauss_kronrod and gauss_legendre the contract is proved in C72."
  },
  {
   "property": "C42",
   "status": "proved",
   "theorems": [
    "Quadpy.T2.C42_returned",
    "Quadpy.T2.C42_running",
    "Quadpy.T2.C42_area",
    "Quadpy.T2.C42_error",
    "Quadpy.T2.C42_stops",
    "Quadpy.T2.C42_integral",
    "Quadpy.T2.C42_exact",
    "Quadpy.T2.C42_exact_returns"
   ],
   "note": "Adaptive triangle integration: every run is covered, with the two rules as parameters."
  },
  {
   "property": "C43",
   "status": "partial",
   "theorems": [
    "Quadpy.Quad.C43_reversed",
    "Quadpy.Quad.C43_reversed_infinite_fails",
    "Quadpy.Quad.C43_substitution",
    "Quadpy.Quad.C43_args_dropped"
   ],
   "note": "Finite ranges: sign rule proved. Infinite ranges: substitution proved; reversed infinite ranges and extra args on (-inf, inf) are refuted."
  },
  {
   "property": "C44",
   "status": "proved",
   "theorems": [
    "Quadpy.Adaptive.C44_bounds",
    "Quadpy.Adaptive.C44_zero",
    "Quadpy.Adaptive.C44_zero_iff",
    "Quadpy.Adaptive.C44_saturated",
    "Quadpy.Adaptive.C44_nesting",
    "Quadpy.Adaptive.C44_nesting_length",
    "Quadpy.Adaptive.C44_example"
   ],
   "note": ""
  },
  {
   "property": "C45",
   "status": "partial",
   "theorems": [
    "Quadpy.Good.C45_get_good_scheme_partial",
    "Quadpy.Good.C45_c2_partial",
    "Quadpy.Good.C45_c2_refuted",
    "Quadpy.Good.C45_s3_partial",
    "Quadpy.Good.C45_s3_refuted",
    "Quadpy.Good.C45_negative"
   ],
   "note": "For every degree in range the table lookup returns a scheme and the lookup is total, except c2 at degree 22 (KeyError) and s3 at degrees 8 to 14 (None), which are refuted; the degrees of schemes loaded from JSON data are not available in the repository (LFS stubs)."
  },
  {
   "property": "C46",
   "status": "partial",
   "theorems": [
    "Quadpy.Inside.C46_cn",
    "Quadpy.Inside.C46_tn",
    "Quadpy.Inside.C46_sn_refuted",
    "Quadpy.Inside.C46_sn_refuted_outside",
    "Quadpy.Inside.C46_sn_partial"
   ],
   "note": "points_inside and points_inside_strict are right for cubes and simplices; for balls the code sums over the wrong axis, which is refuted with examples, and the exact relation that does hold is proved."
  },
  {
   "property": "C47",
   "status": "partial",
   "theorems": [
    "Quadpy.C47_exact",
    "Quadpy.C47_degree_refuted",
    "Quadpy.C47_no_extension",
    "Quadpy.C47_degree",
    "Quadpy.C47_claim_false",
    "Quadpy.C47_degree_two",
    "Quadpy.C47_chebyshev_first",
    "Quadpy.C47_chebyshev_second",
    "Quadpy.C47_exact_odd"
   ],
   "note": "Whenever the algorithm has a result: 2n+1 points, nonnegative weights, exact to degree 3n+1. The claimed degree (3n+3 or 3n+4) is false for every n: for the Legendre weight the degree is exactly 3n+1 (even n) or 3n+2 (odd n), and no rule that contains the Gauss points does better (C47_degree, C47_no_extension, C47_claim_false). For n=1 refuted for every Jacobi weight. For the Chebyshev weights the claim holds exactly for n>=4 (first kind) and n>=2 (second kind). That no division by zero happens is a hypothesis for the Legendre weight (KronrodRegular), discharged for n=2 and the default n=10."
  },
  {
   "property": "C48",
   "status": "proved",
   "theorems": [
    "Quadpy.C48_u3_stroud_11_2",
    "Quadpy.C48_c2_albrecht_collatz_1",
    "Quadpy.C48_c2_albrecht_collatz_4",
    "Quadpy.C48_c2_burnside",
    "Quadpy.C48_c2_dunavant_00",
    "Quadpy.C48_c2_hammer_stroud_1_2",
    "Quadpy.C48_c2_hammer_stroud_2_2",
    "Quadpy.C48_c2_irwin_1",
    "Quadpy.C48_c2_irwin_2",
    "Quadpy.C48_c2_maxwell",
    "Quadpy.C48_c2_meister",
    "Quadpy.C48_c2_miller",
    "Quadpy.C48_c2_phillips",
    "Quadpy.C48_c2_stroud_c2_1_1",
    "Quadpy.C48_c2_stroud_c2_3_1",
    "Quadpy.C48_c2_stroud_c2_7_4",
    "Quadpy.C48_c2_stroud_c2_7_4_intended",
    "Quadpy.C48_c2_tyler_1",
    "Quadpy.C48_c2_tyler_2",
    "Quadpy.C48_c2_tyler_3",
    "Quadpy.C48_c2_franke_6",
    "Quadpy.C48_c2_albrecht_collatz_2",
    "Quadpy.C48_c2_albrecht_collatz_3",
    "Quadpy.C48_c2_cohen_gismalla_1",
    "Quadpy.C48_c3_albrecht_collatz",
    "Quadpy.C48_c3_midpoint",
    "Quadpy.C48_c3_vertex",
    "Quadpy.C48_c3_face_midpoint",
    "Quadpy.C48_c3_hammer_stroud_2_3",
    "Quadpy.C48_c3_hammer_stroud_4_3",
    "Quadpy.C48_c3_hammer_stroud_5_3a",
    "Quadpy.C48_c3_hammer_stroud_5_3b",
    "Quadpy.C48_c3_mustard_lyness_blatt_1",
    "Quadpy.C48_c3_mustard_lyness_blatt_2",
    "Quadpy.C48_c3_mustard_lyness_blatt_3",
    "Quadpy.C48_c3_mustard_lyness_blatt_4",
    "Quadpy.C48_c3_mustard_lyness_blatt_5",
    "Quadpy.C48_c3_mustard_lyness_blatt_6",
    "Quadpy.C48_c3_mustard_lyness_blatt_7",
    "Quadpy.C48_c3_sadowsky",
    "Quadpy.C48_c3_tyler_2",
    "Quadpy.C48_c3_stroud_c3_3_2",
    "Quadpy.C48_c3_stroud_1967",
    "Quadpy.C48_e2r_stroud_4_1",
    "Quadpy.C48_e2r_stroud_secrest_5",
    "Quadpy.C48_e2r_stroud_secrest_6",
    "Quadpy.C48_e2r2_stroud_4_1",
    "Quadpy.C48_e2r2_stroud_5_2",
    "Quadpy.C48_e2r2_stroud_7_2",
    "Quadpy.C48_e2r2_stroud_7_2_intended",
    "Quadpy.C48_e2r2_stroud_secrest_5",
    "Quadpy.C48_e2r2_stroud_secrest_6",
    "Quadpy.C48_e3r_stroud_secrest_07",
    "Quadpy.C48_e3r_stroud_secrest_08",
    "Quadpy.C48_e3r_stroud_secrest_09",
    "Quadpy.C48_e3r_stroud_secrest_10",
    "Quadpy.C48_e3r_stroud_secrest_11",
    "Quadpy.C48_e3r2_stroud_secrest_07",
    "Quadpy.C48_e3r2_stroud_secrest_08a",
    "Quadpy.C48_e3r2_stroud_secrest_08b",
    "Quadpy.C48_e3r2_stroud_secrest_09",
    "Quadpy.C48_e3r2_stroud_secrest_10a",
    "Quadpy.C48_e3r2_stroud_secrest_10b",
    "Quadpy.C48_e3r2_stroud_secrest_11a",
    "Quadpy.C48_e3r2_stroud_secrest_11b",
    "Quadpy.C48_c2_schmid_2",
    "Quadpy.C48_c2_schmid_4",
    "Quadpy.C48_c3_sarma_stroud",
    "Quadpy.C48_t2_dunavant_01",
    "Quadpy.C48_t2_dunavant_02",
    "Quadpy.C48_t2_dunavant_03",
    "Quadpy.C48_t2_laursen_gellert_02a",
    "Quadpy.C48_t2_laursen_gellert_02b",
    "Quadpy.C48_t2_taylor_wingate_bos_1",
    "Quadpy.C48_t2_williams_shunn_jameson_1",
    "Quadpy.C48_t2_williams_shunn_jameson_2",
    "Quadpy.C48_t3_witherden_vincent_01",
    "Quadpy.C48_t3_witherden_vincent_02",
    "Quadpy.C48_t3_yu_2",
    "Quadpy.C48_t3_yu_3",
    "Quadpy.C48_c2_cohen_gismalla_2",
    "Quadpy.C48_c2_cohen_gismalla_2_not_two",
    "Quadpy.C48_c2_cohen_gismalla_2_fixed",
    "Quadpy.C48_c2_cohen_gismalla_2_fixed_even",
    "Quadpy.C48_s3_stroud_7_4",
    "Quadpy.C48_s2_midpoint",
    "Quadpy.C48_s2_albrecht_1",
    "Quadpy.C48_s2_albrecht_2",
    "Quadpy.C48_s2_albrecht_3",
    "Quadpy.C48_s2_albrecht_4",
    "Quadpy.C48_s2_hammer_stroud_12_2",
    "Quadpy.C48_s2_hammer_stroud_18",
    "Quadpy.C48_s2_mysovskih_2",
    "Quadpy.C48_s2_peirce_1956_1",
    "Quadpy.C48_s2_peirce_1956_2",
    "Quadpy.C48_s2_peirce_1956_3",
    "Quadpy.C48_s2_albrecht_5",
    "Quadpy.C48_s2_albrecht_6",
    "Quadpy.C48_s2_albrecht_7",
    "Quadpy.C48_s2_albrecht_8",
    "Quadpy.C48_s2_stroud_s2_9_3",
    "Quadpy.C48_s3_midpoint",
    "Quadpy.C48_s3_hammer_stroud_11_3",
    "Quadpy.C48_s3_hammer_stroud_12_3",
    "Quadpy.C48_s3_hammer_stroud_14_3a",
    "Quadpy.C48_s3_hammer_stroud_15_3a",
    "Quadpy.C48_s3_hammer_stroud_14_3b",
    "Quadpy.C48_s3_hammer_stroud_15_3b",
    "Quadpy.C48_s3_ditkin_2",
    "Quadpy.C48_s3_ditkin_3",
    "Quadpy.C48_s3_mysovskih",
    "Quadpy.C48_t2_centroid",
    "Quadpy.C48_t2_vertex",
    "Quadpy.C48_t2_seven_point",
    "Quadpy.C48_t2_albrecht_collatz",
    "Quadpy.C48_t2_hammer_marlowe_stroud_2",
    "Quadpy.C48_t2_hammer_marlowe_stroud_3",
    "Quadpy.C48_t2_hammer_marlowe_stroud_4",
    "Quadpy.C48_t2_hammer_marlowe_stroud_5",
    "Quadpy.C48_t2_hillion_04",
    "Quadpy.C48_t2_hillion_05",
    "Quadpy.C48_t2_hillion_08",
    "Quadpy.C48_t2_hillion_10",
    "Quadpy.C48_t2_liu_vinokur_04",
    "Quadpy.C48_t2_liu_vinokur_06",
    "Quadpy.C48_t2_liu_vinokur_09",
    "Quadpy.C48_t2_liu_vinokur_10",
    "Quadpy.C48_t2_liu_vinokur_11",
    "Quadpy.C48_t2_liu_vinokur_13",
    "Quadpy.C48_t2_walkington_p5",
    "Quadpy.C48_t2_lyness_jespersen_06",
    "Quadpy.C48_t2_lyness_jespersen_07",
    "Quadpy.C48_t2_lyness_jespersen_08",
    "Quadpy.C48_t2_lyness_jespersen_11",
    "Quadpy.C48_t2_hillion_06",
    "Quadpy.C48_t2_hillion_07",
    "Quadpy.C48_t2_liu_vinokur_08",
    "Quadpy.C48_t2_strang_fix_cowper_04",
    "Quadpy.C48_t3_liu_vinokur_01",
    "Quadpy.C48_t3_liu_vinokur_02",
    "Quadpy.C48_t3_liu_vinokur_03",
    "Quadpy.C48_t3_hammer_marlowe_stroud_3",
    "Quadpy.C48_t3_liu_vinokur_04",
    "Quadpy.C48_t3_liu_vinokur_05",
    "Quadpy.C48_t3_liu_vinokur_06",
    "Quadpy.C48_t3_liu_vinokur_07",
    "Quadpy.C48_t3_liu_vinokur_09",
    "Quadpy.C48_t3_liu_vinokur_10",
    "Quadpy.C48_t3_liu_vinokur_11",
    "Quadpy.C48_t3_liu_vinokur_13",
    "Quadpy.C48_t3_liu_vinokur_14",
    "Quadpy.C48_t3_keast_4",
    "Quadpy.C48_t3_keast_6",
    "Quadpy.C48_t3_hammer_marlowe_stroud_1",
    "Quadpy.C48_t3_hammer_marlowe_stroud_2",
    "Quadpy.C48_t3_liu_vinokur_08",
    "Quadpy.C48_t3_liu_vinokur_12",
    "Quadpy.C48_u3_albrecht_collatz_1",
    "Quadpy.C48_u3_albrecht_collatz_2",
    "Quadpy.C48_u3_albrecht_collatz_3",
    "Quadpy.C48_u3_albrecht_collatz_5",
    "Quadpy.C48_u3_albrecht_collatz_4",
    "Quadpy.C48_u3_mclaren_01",
    "Quadpy.C48_u3_mclaren_02",
    "Quadpy.C48_u3_mclaren_05",
    "Quadpy.C48_u3_mclaren_06",
    "Quadpy.C48_u3_mclaren_07",
    "Quadpy.C48_u3_mclaren_08",
    "Quadpy.C48_u3_mclaren_09",
    "Quadpy.C48_u3_mclaren_03",
    "Quadpy.C48_u3_mclaren_04"
   ],
   "note": "One theorem per rule: it integrates every polynomial up to the degree it reports exactly over its domain, and reports that degree. Proved for the closed-form rules of c2, c3, t2, t3, s2, s3, u3 (with stroud_u3_11_2), e2r, e2r2, e3r and e3r2. The JSON data files are stubs in this checkout and not covered; rules with decimal data are C56 and C57; where the code calls mp.polyroots/mp.lu_solve the theorems assume what these return. Also proved: stroud_c2_7_4, e2r2 stroud_7_2 and cohen_gismalla_2 report degree 1 only because of slips (an overwritten variable, a wrong key, weights divided twice and a swapped point); with these corrected they have degree 7, 7 and 3 (exact up to 7 for even monomials)."
  },
  {
   "property": "C49",
   "status": "proved",
   "theorems": [
    "Quadpy.Tn.C49_silvester",
    "Quadpy.Tn.C49_silvester_returns",
    "Quadpy.Tn.C49_silvester_zero"
   ],
   "note": "Silvester's closed and open rules on simplices are exact up to degree n for every dimension and n >= 1; n = 0 raises in the code and is modelled as none."
  },
  {
   "property": "C50",
   "status": "proved",
   "theorems": [
    "Quadpy.P3.C50_pyramid_vertices",
    "Quadpy.P3.C50_pyramid_detJ",
    "Quadpy.P3.C50_felippa_1",
    "Quadpy.P3.C50_felippa_2",
    "Quadpy.P3.C50_felippa_3",
    "Quadpy.P3.C50_felippa_4",
    "Quadpy.P3.C50_felippa_5",
    "Quadpy.P3.C50_felippa_6",
    "Quadpy.P3.C50_felippa_7",
    "Quadpy.P3.C50_felippa_8",
    "Quadpy.W3.C50_wedge_vertices",
    "Quadpy.W3.C50_wedge_detJ",
    "Quadpy.W3.C50_w3_felippa_1",
    "Quadpy.W3.C50_w3_felippa_2",
    "Quadpy.W3.C50_w3_felippa_3",
    "Quadpy.W3.C50_kubatko_1",
    "Quadpy.W3.C50_kubatko_2b",
    "Quadpy.W3.C50_kubatko_3b",
    "Quadpy.W3.C50_kubatko_3c"
   ],
   "note": "Determinant, vertex map and exactness of p3 felippa_1-8, w3 felippa_1-3 and w3 kubatko_yeager_maggi_1, 2b, 3b, 3c for every affine pyramid/prism. The decimal wedge rules are in C56, p3 felippa_9 and w3 felippa_4-6 in C57."
  },
  {
   "property": "C51",
   "status": "proved",
   "theorems": [
    "Quadpy.C51_roundtrip",
    "Quadpy.C51_recurrence",
    "Quadpy.C51_inverse",
    "Quadpy.C51_exists"
   ],
   "note": "LAPACK sytrd enters as a relation (its documented contract, IsSytrd); C51_exists shows that the contract can always be met. Roundtrip in both directions."
  },
  {
   "property": "C52",
   "status": "partial",
   "theorems": [
    "Quadpy.C52_ball_axes",
    "Quadpy.C52_ball_one",
    "Quadpy.C52_ball_list",
    "Quadpy.C52_ball_grid_shape",
    "Quadpy.C52_ball_grid",
    "Quadpy.C52_sn_list",
    "Quadpy.C52_un_list",
    "Quadpy.C52_u2_list",
    "Quadpy.C52_s2_list",
    "Quadpy.C52_s3_list",
    "Quadpy.C52_grid_wrong",
    "Quadpy.C52_u3_one",
    "Quadpy.C52_u3_list",
    "Quadpy.C52_tn_axes",
    "Quadpy.C52_tn_list",
    "Quadpy.C52_tn_one",
    "Quadpy.C52_tn_grid_shape",
    "Quadpy.C52_tn_grid"
   ],
   "note": "True for one domain and for one axis of domains (Sn, Un, U2, S2, S3, Tn), proved for every length. False for two or more axes: C52_ball_axes and C52_tn_axes give what is computed instead (reversed indices), C52_ball_grid_shape/C52_tn_grid_shape the failure for axes of different length, C52_grid_wrong a counterexample. U3 raises for every list of k != 1 spheres (C52_u3_list)."
  },
  {
   "property": "C53",
   "status": "proved",
   "theorems": [
    "Quadpy.C53_coords",
    "Quadpy.C53_inverse",
    "Quadpy.C53_un",
    "Quadpy.C53_integrate",
    "Quadpy.C53_spherical_eq",
    "Quadpy.C53_surface",
    "Quadpy.C53_spherical",
    "Quadpy.C53_orbit",
    "Quadpy.C53_points"
   ],
   "note": "arccos and arctan2 are Real.arccos and Complex.arg. C53_points: every expanded rule has unit vectors as points when its orbits are admissible."
  },
  {
   "property": "C54",
   "status": "partial",
   "theorems": [
    "Quadpy.C1.C54_find_domain",
    "Quadpy.C1.C54_find_range",
    "Quadpy.C1.C54_find_both",
    "Quadpy.C1.C54_find_default",
    "Quadpy.C1.C54_find_iff",
    "Quadpy.C1.C54_value",
    "Quadpy.C1.C54_integrate",
    "Quadpy.C1.C54_integrate_given",
    "Quadpy.C1.C54_scalar",
    "Quadpy.C1.C54_ambiguous"
   ],
   "note": "With domain_shape or range_shape given the result is right for every shape. Without them it is right exactly when D = [], R = [] or the last axes of D and R differ (C54_find_iff); otherwise the common tail is taken for the interval shape (C54_find_default, counterexample C54_ambiguous)."
  },
  {
   "property": "C55",
   "status": "proved",
   "theorems": [
    "Quadpy.C55_weights",
    "Quadpy.C55_even",
    "Quadpy.C55_degree",
    "Quadpy.C55_nested",
    "Quadpy.C55_points",
    "Quadpy.C55_exact",
    "Quadpy.C55_table",
    "Quadpy.C55_patterson",
    "Quadpy.C55_one",
    "Quadpy.Patterson.C55_rule_returns",
    "Quadpy.Patterson.C55_rule_points",
    "Quadpy.Patterson.C55_rule_nested",
    "Quadpy.Patterson.C55_rule_degree"
   ],
   "note": "All nine rules with all decimals of the source (as rational numbers): C55_rule_returns, C55_rule_points, C55_rule_nested, C55_rule_degree (relative error 1e-14; exactly the stated degree is impossible for decimals, C55_one). For any table: C55_points, C55_nested, C55_exact, C55_degree. Index < 6: exact to the number of points (C55_patterson). For even n _get_weights is never interpolatory (C55_even): the Gauss rule has one point too few; gauss_patterson does not reach that case."
  },
  {
   "property": "C56",
   "status": "proved",
   "theorems": [
    "Quadpy.DecimalT2.C56_t2_lyness_jespersen_05",
    "Quadpy.DecimalT2.C56_t2_lyness_jespersen_12",
    "Quadpy.DecimalT2.C56_t2_lyness_jespersen_13",
    "Quadpy.DecimalT2.C56_t2_lyness_jespersen_14",
    "Quadpy.DecimalT2.C56_t2_lyness_jespersen_15",
    "Quadpy.DecimalT2.C56_t2_lyness_jespersen_16",
    "Quadpy.DecimalT2.C56_t2_lyness_jespersen_17",
    "Quadpy.DecimalT2.C56_t2_lyness_jespersen_18",
    "Quadpy.DecimalT2.C56_t2_lyness_jespersen_19",
    "Quadpy.DecimalT2.C56_t2_lyness_jespersen_20",
    "Quadpy.DecimalT2.C56_t2_lyness_jespersen_21",
    "Quadpy.DecimalT2.C56_t2_laursen_gellert_06",
    "Quadpy.DecimalT2.C56_t2_laursen_gellert_07",
    "Quadpy.DecimalT2.C56_t2_strang_fix_cowper_06",
    "Quadpy.DecimalT2.C56_t2_strang_fix_cowper_07",
    "Quadpy.DecimalT2.C56_t2_franke_09",
    "Quadpy.DecimalT2.C56_t2_franke_10",
    "Quadpy.DecimalT3.C56_t3_keast_3",
    "Quadpy.DecimalT3.C56_t3_keast_5",
    "Quadpy.DecimalC2.C56_c2_franke_8",
    "Quadpy.DecimalC3.C56_c3_witherden_vincent_07",
    "Quadpy.DecimalC3.C56_c3_witherden_vincent_09",
    "Quadpy.DecimalC3.C56_c3_witherden_vincent_11",
    "Quadpy.W3.Kubatko.C56_w3_kubatko_yeager_maggi_2a",
    "Quadpy.W3.Kubatko.C56_w3_kubatko_yeager_maggi_3a",
    "Quadpy.W3.Kubatko.C56_w3_kubatko_yeager_maggi_3d",
    "Quadpy.W3.Kubatko.C56_w3_kubatko_yeager_maggi_4a",
    "Quadpy.W3.Kubatko.C56_w3_kubatko_yeager_maggi_4b",
    "Quadpy.W3.Kubatko.C56_w3_kubatko_yeager_maggi_5a",
    "Quadpy.W3.Kubatko.C56_w3_kubatko_yeager_maggi_5b",
    "Quadpy.W3.Kubatko.C56_w3_kubatko_yeager_maggi_5c",
    "Quadpy.W3.Kubatko.C56_w3_kubatko_yeager_maggi_6a",
    "Quadpy.W3.Kubatko.C56_w3_kubatko_yeager_maggi_6b",
    "Quadpy.W3.Kubatko.C56_w3_kubatko_yeager_maggi_6c",
    "Quadpy.W3.Kubatko.C56_w3_kubatko_yeager_maggi_7a",
    "Quadpy.W3.Kubatko.C56_w3_kubatko_yeager_maggi_7b",
    "Quadpy.W3.Kubatko.C56_w3_kubatko_yeager_maggi_7c",
    "Quadpy.W3.Kubatko.C56_w3_kubatko_yeager_maggi_8a",
    "Quadpy.W3.Kubatko.C56_w3_kubatko_yeager_maggi_8b",
    "Quadpy.W3.Kubatko.C56_w3_kubatko_yeager_maggi_9",
    "Quadpy.C56_degrees"
   ],
   "note": "23 rules on triangles, tetrahedra, squares and cubes and 17 wedge rules. The decimals of the source are taken as rational numbers; their rounding to floats is not modelled. Rules mixing decimals with roots or pi are in C57. Not covered: the rules kept in JSON files, which are not part of the checkout."
  },
  {
   "property": "C57",
   "status": "proved",
   "theorems": [
    "Quadpy.Mixed.C57_c2_franke_2a",
    "Quadpy.Mixed.C57_c2_franke_2b",
    "Quadpy.Mixed.C57_c2_franke_3a",
    "Quadpy.Mixed.C57_c2_franke_3b",
    "Quadpy.Mixed.C57_c2_franke_3c",
    "Quadpy.Mixed.C57_c2_hammer_stroud_3_2",
    "Quadpy.Mixed.C57_c3_hammer_stroud_6_3",
    "Quadpy.Mixed.C57_s2_hammer_stroud_19",
    "Quadpy.Mixed.C57_s2_hammer_stroud_21",
    "Quadpy.Mixed.C57_s2_wissmann_becker_6_1",
    "Quadpy.Mixed.C57_s2_wissmann_becker_6_2",
    "Quadpy.Mixed.C57_s2_wissmann_becker_8_1",
    "Quadpy.C57_t2_stroud_7_1",
    "Quadpy.C57_t3_stroud_7_1",
    "Quadpy.C57_stroud_7_1_gauss",
    "Quadpy.C57_degrees",
    "Quadpy.C57_s2_mysovskih_3",
    "Quadpy.P3.C57_p3_felippa_9",
    "Quadpy.C57_u3_mclaren_10_degree",
    "Quadpy.C57_s3_stroud_14_1",
    "Quadpy.C57_e3r2_stroud_14_1",
    "Quadpy.C57_u3_mclaren_10",
    "Quadpy.W3.C57_w3_felippa_4",
    "Quadpy.W3.C57_w3_felippa_5",
    "Quadpy.W3.C57_w3_felippa_6"
   ],
   "note": "12 rules on squares, cubes and disks, s2 mysovskih_3, t2/t3 stroud 7-1 (given any Gauss rule of degree 7; instantiated by C19), u3 mclaren_10, s3 and e3r2 stroud 14-1, p3 felippa_9, w3 felippa_4-6. Decimals are the rational numbers of the source, roots and pi are the real numbers; float rounding is not modelled. One theorem per rule plus the reported degrees."
  },
  {
   "property": "C58",
   "status": "proved",
   "theorems": [
    "Quadpy.C58_enr2_stenger7a_returns",
    "Quadpy.C58_enr2_stenger7a",
    "Quadpy.C58_enr2_stenger7b_returns",
    "Quadpy.C58_enr2_stenger7b",
    "Quadpy.C58_enr2_stenger9a_returns",
    "Quadpy.C58_enr2_stenger9a",
    "Quadpy.C58_enr2_stenger9b_returns",
    "Quadpy.C58_enr2_stenger9b",
    "Quadpy.C58_enr2_stenger11a_returns",
    "Quadpy.C58_enr2_stenger11a",
    "Quadpy.C58_enr2_stenger11b_returns",
    "Quadpy.C58_enr2_stenger11b",
    "Quadpy.C58_sn_stenger7a_returns",
    "Quadpy.C58_sn_stenger7a",
    "Quadpy.C58_sn_stenger7b_returns",
    "Quadpy.C58_sn_stenger7b",
    "Quadpy.C58_sn_stenger9a_returns",
    "Quadpy.C58_sn_stenger9a",
    "Quadpy.C58_sn_stenger9b_returns",
    "Quadpy.C58_sn_stenger9b",
    "Quadpy.C58_sn_stenger11a_returns",
    "Quadpy.C58_sn_stenger11a",
    "Quadpy.C58_sn_stenger11b_returns",
    "Quadpy.C58_sn_stenger11b",
    "Quadpy.C58_enr2_stroud1967_5a_6_exact",
    "Quadpy.C58_enr2_stroud1967_5a_returns",
    "Quadpy.C58_enr2_stroud1967_5a",
    "Quadpy.C58_enr2_stroud1967_5b_returns",
    "Quadpy.C58_enr2_stroud1967_5b",
    "Quadpy.C58_sn_stroud1967_5a_returns",
    "Quadpy.C58_sn_stroud1967_5a",
    "Quadpy.C58_sn_stroud1967_5b_returns",
    "Quadpy.C58_sn_stroud1967_5b"
   ],
   "note": "Decimals are the rational numbers of the source (the weights are multiples of a root of pi or of the volume where the code says so); float rounding is not modelled. One theorem per function and one (_returns) on the dimensions. eps: 1e-14 for stroud_1967_5, and between 1e-11 and 1e-14 for stenger. Some tables are worse than the test_tolerance the constructors declare, see DESIGN section 6."
  },
  {
   "property": "C59",
   "status": "proved",
   "theorems": [
    "Quadpy.GenzKeister.C59_exact",
    "Quadpy.GenzKeister.C59_returns",
    "Quadpy.GenzKeister.C59_sizes",
    "Quadpy.GenzKeister.C59_degree",
    "Quadpy.GenzKeister.C59_symmetric",
    "Quadpy.GenzKeister.C59_nested"
   ],
   "note": "Decimals are the rational numbers of the source, sqrt(1.5) and sqrt(pi) are the real numbers. C59_degree (1e-14), C59_exact for n <= 1, C59_returns, C59_sizes, C59_symmetric, C59_nested."
  },
  {
   "property": "C60",
   "status": "proved",
   "theorems": [
    "Quadpy.Optimize.C60_roundtrip",
    "Quadpy.Optimize.C60_dict",
    "Quadpy.Optimize.C60_run",
    "Quadpy.Optimize.C60_improves",
    "Quadpy.Optimize.C60_bound",
    "Quadpy.Optimize.C60_zero_iff",
    "Quadpy.Optimize.C60_only_t2",
    "Quadpy.Optimize.C60_errors",
    "Quadpy.Optimize.C60_too_many_weights",
    "Quadpy.Optimize.C60_read_eq",
    "Quadpy.Optimize.C60_main",
    "Quadpy.Optimize.C60_outcome",
    "Quadpy.Optimize.C60_main_errors",
    "Quadpy.Optimize.C60_comment_once",
    "Quadpy.Optimize.C60_keys"
   ],
   "note": "numpy.linalg.lstsq and scipy.optimize.minimize are parameters with their documented behaviour; exact arithmetic. Refutes that the tool works for C2, S2, U3."
  },
  {
   "property": "C61",
   "status": "partial",
   "theorems": [
    "Quadpy.Plot.C61_size",
    "Quadpy.Plot.C61_total",
    "Quadpy.Plot.C61_plane",
    "Quadpy.Plot.C61_mapped",
    "Quadpy.Plot.C61_u2",
    "Quadpy.Plot.C61_c1",
    "Quadpy.Plot.C61_c1_wrong",
    "Quadpy.Plot.C61_colour",
    "Quadpy.Plot.C61_c2_parallelogram",
    "Quadpy.Plot.C61_c2_wrong",
    "Quadpy.Plot.C61_show_good",
    "Quadpy.Plot.C61_show_vtk_fails",
    "Quadpy.Plot.C61_show_mpl_wrong",
    "Quadpy.Plot.C61_t3_never",
    "Quadpy.Plot.C61_rotate",
    "Quadpy.Plot.C61_cap"
   ],
   "note": "False of the code: proved where it holds (planes, c3/w3/p3 with mpl, s3/e3 with vtk, caps) and refuted elsewhere (defaults of c3 and w3, mpl of s3 and e3, t3 always, the area in c2, the points in c1)."
  },
  {
   "property": "C62",
   "status": "proved",
   "theorems": [
    "Quadpy.Unbounded.C62_volume",
    "Quadpy.Unbounded.C62_exact",
    "Quadpy.Unbounded.C62_approx",
    "Quadpy.Unbounded.C62_one",
    "Quadpy.Unbounded.C62_laguerre",
    "Quadpy.Unbounded.C62_hermite"
   ],
   "note": "integrate of the eight unbounded domains; the ndim volumes enter as closed forms."
  },
  {
   "property": "C63",
   "status": "proved",
   "theorems": [
    "Quadpy.Optimize.C63_c2",
    "Quadpy.Optimize.C63_s2",
    "Quadpy.Optimize.C63_e2r2",
    "Quadpy.Optimize.C63_e2r",
    "Quadpy.Optimize.C63_even",
    "Quadpy.Optimize.C63_u3",
    "Quadpy.Optimize.C63_t2",
    "Quadpy.Optimize.C63_t3"
   ],
   "note": "Necessary and sufficient moment equations for data-file rules in seven domains; the numbers of the files are not in this checkout (git-LFS stubs)."
  },
  {
   "property": "C64",
   "status": "proved",
   "theorems": [
    "Quadpy.Residuals.C64_residuals",
    "Quadpy.Residuals.C64_bound",
    "Quadpy.Residuals.C64_zero_iff",
    "Quadpy.Residuals.C64_degree"
   ],
   "note": "The evaluator of orthopy is a parameter with a stated specification, which is satisfiable."
  },
  {
   "property": "C65",
   "status": "partial",
   "theorems": [
    "Quadpy.SchemeClass.C65_keeps",
    "Quadpy.SchemeClass.C65_low_precision_fails",
    "Quadpy.SchemeClass.C65_int_factor_fails",
    "Quadpy.SchemeClass.C65_ratio"
   ],
   "note": "False of the code: five classes raise an AttributeError for tol > 1e-12, integer weights with a weight factor raise. Proved for all other cases, both failures proved."
  },
  {
   "property": "C66",
   "status": "proved",
   "theorems": [
    "Quadpy.TestHelpers.C66_degree",
    "Quadpy.TestHelpers.C66_error",
    "Quadpy.TestHelpers.C66_fails",
    "Quadpy.TestHelpers.C66_approx",
    "Quadpy.TestHelpers.C66_exact",
    "Quadpy.TestHelpers.C66_wrong"
   ],
   "note": "The rule is any functional; exact arithmetic."
  },
  {
   "property": "C67",
   "status": "proved",
   "theorems": [
    "Quadpy.TestHelpers.C67_none",
    "Quadpy.TestHelpers.C67_best",
    "Quadpy.TestHelpers.C67_ratio"
   ],
   "note": "Hypothesis of C67_best: no eligible scheme has only zero weights (the quotient would be nan)."
  },
  {
   "property": "C68",
   "status": "partial",
   "theorems": [
    "Quadpy.TestHelpers.C68_reported",
    "Quadpy.TestHelpers.C68_same",
    "Quadpy.TestHelpers.C68_differ",
    "Quadpy.TestHelpers.C68_permuted_fails",
    "Quadpy.TestHelpers.C68_different_fails"
   ],
   "note": "False of the code, which compares coordinates instead of points; refuted in both directions, and what is reported is characterised."
  },
  {
   "property": "C69",
   "status": "partial",
   "theorems": [
    "Quadpy.Registry.C69_lookup",
    "Quadpy.Registry.C69_keys",
    "Quadpy.Registry.C69_schemes",
    "Quadpy.Registry.C69_alias",
    "Quadpy.Registry.C69_alias_fails",
    "Quadpy.Registry.C69_no_alias",
    "Quadpy.Registry.C69_good"
   ],
   "note": "False of the code: functions imported under another name are keys only under their own __name__ (C69_alias, C69_alias_fails). Proved: what the dictionaries contain, that no function replaces another, that get_good_scheme finds its names."
  },
  {
   "property": "C70",
   "status": "partial",
   "theorems": [
    "Quadpy.Adaptive.C70_ends",
    "Quadpy.Adaptive.C70_returns",
    "Quadpy.Adaptive.C70_polynomial",
    "Quadpy.Adaptive.C70_default_runs",
    "Quadpy.C70_default_rule",
    "Quadpy.C70_default_returns"
   ],
   "note": "True with an absolute tolerance only (C70_ends, C70_returns) and, with the default criteria, for polynomials of the degree of the Gauss rule (C70_polynomial). False with the default criteria for some continuous integrands (C70_default_runs, for kronrod_degree=1 and all eps_abs > 0, eps_rel <= 1/10)."
  },
  {
   "property": "C71",
   "status": "proved",
   "theorems": [
    "Quadpy.T2.C71_ends",
    "Quadpy.T2.C71_returns",
    "Quadpy.T2.C71_nine"
   ],
   "note": "C71_ends for every minimum area; C71_returns for minimum area zero (the default is a fraction of the total area, for which C42 bounds the rounds); positive tolerance; continuous integrands."
  },
  {
   "property": "C72",
   "status": "proved",
   "theorems": [
    "Quadpy.C72_algorithm",
    "Quadpy.C72_coefficients",
    "Quadpy.C72_points",
    "Quadpy.C72_legendre",
    "Quadpy.C72_adaptive",
    "Quadpy.C72_chebyshev",
    "Quadpy.C72_chebyshev_first",
    "Quadpy.C72_default_regular",
    "Quadpy.C72_default",
    "Quadpy.C72_default_polynomial"
   ],
   "note": "In exact arithmetic, for calls in which _r_kronrod divides by no zero (KronrodRegular); a zero divisor gives nan in the code and the eigensolver fails. The hypothesis is discharged for the default kronrod_degree=10 (C72_default) and for the two Chebyshev weights and all n."
  },
  {
   "property": "C73",
   "status": "proved",
   "theorems": [
    "Quadpy.C73_integrate",
    "Quadpy.C73_odd",
    "Quadpy.C73_middle",
    "Quadpy.C73_gauss_jacobi",
    "Quadpy.C73_gegenbauer",
    "Quadpy.C73_gauss_legendre",
    "Quadpy.C73_gauss_hermite",
    "Quadpy.C73_gauss_laguerre",
    "Quadpy.C73_gauss_lobatto",
    "Quadpy.C73_gauss_lobatto_symmetric",
    "Quadpy.C73_gauss_kronrod_unique",
    "Quadpy.C73_gauss_kronrod",
    "Quadpy.C73_newton_cotes_closed",
    "Quadpy.C73_newton_cotes_open",
    "Quadpy.C73_clenshaw_curtis",
    "Quadpy.C73_fejer_1",
    "Quadpy.C73_fejer_2",
    "Quadpy.C73_chebyshev_gauss_1",
    "Quadpy.C73_chebyshev_gauss_2"
   ],
   "note": "In exact arithmetic. gauss_kronrod: for calls in which _r_kronrod divides by no zero."
  },
  {
   "property": "C74",
   "status": "proved",
   "theorems": [
    "Quadpy.C74_best",
    "Quadpy.C74_best_nonneg",
    "Quadpy.C74_smooth",
    "Quadpy.C74_composite",
    "Quadpy.C74_composite_tendsto",
    "Quadpy.C74_tendsto",
    "Quadpy.C74_tendsto_nonneg",
    "Quadpy.C74_positive_clenshaw_curtis",
    "Quadpy.C74_positive_fejer_2",
    "Quadpy.C74_positive_fejer_1",
    "Quadpy.C74_clenshaw_curtis",
    "Quadpy.C74_fejer_1",
    "Quadpy.C74_fejer_2",
    "Quadpy.C74_gauss_legendre",
    "Quadpy.C74_weighted",
    "Quadpy.C74_weighted_tendsto",
    "Quadpy.C74_gauss_jacobi",
    "Quadpy.C74_gauss_lobatto",
    "Quadpy.C74_gauss_radau",
    "Quadpy.C74_gauss_kronrod",
    "Quadpy.C74_chebyshev_gauss_1",
    "Quadpy.C74_chebyshev_gauss_2",
    "Quadpy.P3.C74_pyramid",
    "Quadpy.W3.C74_prism",
    "Quadpy.C74_space_best",
    "Quadpy.C74_space_tendsto",
    "Quadpy.C74_product",
    "Quadpy.C74_s2_lether",
    "Quadpy.C74_s2_peirce_1957",
    "Quadpy.C74_t2_lether",
    "Quadpy.C74_simplex",
    "Quadpy.C74_mesh",
    "Quadpy.C74_mesh_tendsto",
    "Quadpy.C74_simplex_tendsto",
    "Quadpy.C74_ball",
    "Quadpy.C74_ball_tendsto",
    "Quadpy.C74_sphere",
    "Quadpy.C74_sphere_tendsto",
    "Quadpy.C74_krylov",
    "Quadpy.C74_parallelotope",
    "Quadpy.C74_box",
    "Quadpy.C74_parallelotope_tendsto"
   ],
   "note": "In exact arithmetic. gauss_kronrod: convergence if its points are in the interval."
  },
  {
   "property": "C75",
   "status": "proved",
   "theorems": [
    "Quadpy.Rounding.C75_dot",
    "Quadpy.Rounding.C75_abscissa",
    "Quadpy.Rounding.C75_length",
    "Quadpy.Rounding.C75_integrate",
    "Quadpy.Rounding.C75_total",
    "Quadpy.Rounding.C75_loop_depth",
    "Quadpy.Rounding.C75_pairwise_depth",
    "Quadpy.Rounding.C75_exact",
    "Quadpy.Rounding.C75_cube_abscissa",
    "Quadpy.Rounding.C75_cube",
    "Quadpy.Rounding.C75_parallelotope_total",
    "Quadpy.Rounding.C75_cube_exact",
    "Quadpy.Rounding.C75_expr",
    "Quadpy.Rounding.C75_mapped",
    "Quadpy.Rounding.C75_pyramid",
    "Quadpy.Rounding.C75_wedge",
    "Quadpy.Rounding.C75_pyramid_total",
    "Quadpy.Rounding.C75_prism_total",
    "Quadpy.Rounding.C75_mapped_exact",
    "Quadpy.Rounding.C75_points",
    "Quadpy.Rounding.C75_ball_abscissa",
    "Quadpy.Rounding.C75_ball_points",
    "Quadpy.Rounding.C75_disk_area",
    "Quadpy.Rounding.C75_ball3_volume",
    "Quadpy.Rounding.C75_circle_length",
    "Quadpy.Rounding.C75_sphere_area",
    "Quadpy.Rounding.C75_nball_volume",
    "Quadpy.Rounding.C75_sn",
    "Quadpy.Rounding.C75_sn_total",
    "Quadpy.Rounding.C75_s2",
    "Quadpy.Rounding.C75_s3",
    "Quadpy.Rounding.C75_u2",
    "Quadpy.Rounding.C75_u3",
    "Quadpy.Rounding.C75_simplex",
    "Quadpy.Rounding.C75_simplex_total",
    "Quadpy.Rounding.C75_exact_space",
    "Quadpy.Rounding.C75_ref_vol",
    "Quadpy.Rounding.C75_weighted",
    "Quadpy.Rounding.C75_weighted_total",
    "Quadpy.Rounding.C75_weighted_exact",
    "Quadpy.Rounding.C75_half_line"
   ],
   "note": "Standard model of rounding: no overflow, underflow or nan."
  },
  {
   "property": "C76",
   "status": "proved",
   "theorems": [
    "Quadpy.C76_default",
    "Quadpy.Adaptive.C76_parts",
    "Quadpy.Adaptive.C76_uniform",
    "Quadpy.Adaptive.C76_variation",
    "Quadpy.Adaptive.C76_no_bound",
    "Quadpy.Adaptive.C76_no_bound_rel",
    "Quadpy.T2.C76_triangles",
    "Quadpy.T2.C76_saturation",
    "Quadpy.T2.C76_triangles_no_bound"
   ],
   "note": "Gauss rule inside the interval with nonnegative weights, triangle rule with points inside."
  },
  {
   "property": "C77",
   "status": "proved",
   "theorems": [
    "Quadpy.C77_weighted",
    "Quadpy.C77_hermite",
    "Quadpy.C77_laguerre",
    "Quadpy.C77_e1r",
    "Quadpy.C77_e1r2"
   ],
   "note": "Modes other than numpy's; exact arithmetic."
  },
  {
   "property": "C78",
   "status": "proved",
   "theorems": [
    "Quadpy.C78_space",
    "Quadpy.Unbounded.C78_unbounded",
    "Quadpy.C78_simplex",
    "Quadpy.C78_ball",
    "Quadpy.C78_sphere",
    "Quadpy.C78_parallelotope",
    "Quadpy.C78_box",
    "Quadpy.C78_line",
    "Quadpy.C78_hermite",
    "Quadpy.C78_laguerre"
   ],
   "note": "Exact arithmetic; f continuous (on the line: measurable)."
  },
  {
   "property": "C79",
   "status": "proved",
   "theorems": [
    "Quadpy.Quad.C79_at_once",
    "Quadpy.Quad.C79_polynomial",
    "Quadpy.Quad.C79_right",
    "Quadpy.Quad.C79_left",
    "Quadpy.Quad.C79_error",
    "Quadpy.Quad.C79_finite",
    "Quadpy.Quad.C79_infinite"
   ],
   "note": "Exact arithmetic. The case of extra args with both limits infinite is excluded (C43: the code drops the args)."
  },
  {
   "property": "C80",
   "status": "proved",
   "theorems": [
    "Quadpy.Compat.C80_first_digit",
    "Quadpy.Compat.C80_before",
    "Quadpy.Compat.C80_standard",
    "Quadpy.Compat.C80_after",
    "Quadpy.Compat.C80_comb",
    "Quadpy.Compat.C80_comb_negative",
    "Quadpy.Compat.C80_prod"
   ],
   "note": "math.factorial, math.comb and math.prod are taken as documented."
  }
 ]
}
