import Verif.Model.Cn
import Verif.Model.Symmetries

/-!
# Model of the closed-form rules on the triangle and the tetrahedron, t2 and t3

`frac` and `sqrt` are exact here; in the code they are sympy's.  Weights given as `[w]` instead of
`[[w]]` (t2/_lyness_jespersen.py:56, 86) expand to the same rule.
-/

namespace Quadpy.FixedT2
open Real

/-- t2/_classical.py:6-8; also liu_vinokur_01 (t2/_liu_vinokur.py:5), hammer_marlowe_stroud_1
(t2/_hammer_marlowe_stroud.py:29-31), hillion_01 (t2/_hillion.py:22-24) -/
noncomputable def centroid : Scheme := schemeOfSym 2 [⟨.centroid, [1], [[]]⟩] 1

/-- t2/_classical.py:11-13; also liu_vinokur_02 (t2/_liu_vinokur.py:7) -/
noncomputable def vertex : Scheme := schemeOfSym 2 [⟨.vertex, [1 / 3], [[]]⟩] 1

/-- t2/_classical.py:16-22; also liu_vinokur_07 (t2/_liu_vinokur.py:6), lyness_jespersen_04
(t2/_lyness_jespersen.py:5) -/
noncomputable def seven_point : Scheme := schemeOfSym 2
  [⟨.centroid, [9 / 20], [[]]⟩, ⟨.vertex, [1 / 20], [[]]⟩, ⟨.d3_aa, [2 / 15], [[1 / 2]]⟩] 3

/-- t2/_albrecht_collatz.py:18-20 -/
noncomputable def albrecht_collatz : Scheme := schemeOfSym 2
  [⟨.d3_aa, [1 / 30, 9 / 30], [[1 / 2], [1 / 6]]⟩] 3

/-- t2/_hammer_marlowe_stroud.py:34-36; also hillion_03 (t2/_hillion.py:32-34), strang_fix_cowper_01
(t2/_strang_fix_cowper/__init__.py:35-37) -/
noncomputable def hammer_marlowe_stroud_2 : Scheme := schemeOfSym 2
  [⟨.d3_aa, [1 / 3], [[1 / 6]]⟩] 2

/-- t2/_hammer_marlowe_stroud.py:39-41; also hillion_02 (t2/_hillion.py:27-29), liu_vinokur_03
(t2/_liu_vinokur.py:21-23), lyness_jespersen_01 (t2/_lyness_jespersen.py:22-24), strang_fix_cowper_02
(t2/_strang_fix_cowper/__init__.py:7) -/
noncomputable def hammer_marlowe_stroud_3 : Scheme := schemeOfSym 2
  [⟨.d3_aa, [1 / 3], [[1 / 2]]⟩] 2

/-- t2/_hammer_marlowe_stroud.py:44-46; also hillion_09 (t2/_hillion.py:86-89), liu_vinokur_05
(t2/_liu_vinokur.py:31-36), lyness_jespersen_03 (t2/_lyness_jespersen.py:35-40), strang_fix_cowper_03
(t2/_strang_fix_cowper/__init__.py:40-42) -/
noncomputable def hammer_marlowe_stroud_4 : Scheme := schemeOfSym 2
  [⟨.centroid, [-(9 / 16)], [[]]⟩, ⟨.d3_aa, [25 / 48], [[1 / 5]]⟩] 3

/-- t2/_hammer_marlowe_stroud.py:49-55; also liu_vinokur_12 (t2/_liu_vinokur.py:117-128) -/
noncomputable def hammer_marlowe_stroud_5 : Scheme :=
  let w1 := (155 - √15) / 1200
  let w2 := (155 + √15) / 1200
  let x1 := (1 + √15) / 7
  let x2 := (1 - √15) / 7
  let b1 := (1 - x1) / 3
  let b2 := (1 - x2) / 3
  schemeOfSym 2 [⟨.centroid, [9 / 40], [[]]⟩, ⟨.d3_aa, [w1, w2], [[b1], [b2]]⟩] 5

/-- t2/_hillion.py:37-40 -/
noncomputable def hillion_04 : Scheme :=
  let a0 := (3 + √3) / 8
  let a1 := (3 - √3) / 8
  schemeOfSym 2 [⟨.s2_static, [1 / 9], [[0]]⟩, ⟨.swap_ab, [4 / 9], [[a0, a1]]⟩] 2

/-- t2/_hillion.py:43-49 -/
noncomputable def hillion_05 : Scheme :=
  let a0 := (3 + √3) / 8
  let a1 := (3 - √3) / 8
  schemeOfSym 2
    [⟨.s2_static, [1 / 9], [[2 / 3]]⟩, ⟨.swap_ab, [4 / 9], [[2 / 3 - a0, 2 / 3 - a1]]⟩] 2

/-- t2/_hillion.py:52-61 -/
noncomputable def hillion_06 : Scheme :=
  let lm := (2 + √(2 + √3)) / 6
  let mu := (2 - √(2 - √3)) / 6
  schemeOfSym 2 [⟨.swap_ab, [1 / 4, 1 / 4], [[lm, mu], [2 / 3 - lm, 2 / 3 - mu]]⟩] 2

/-- t2/_hillion.py:64-73 -/
noncomputable def hillion_07 : Scheme :=
  let a := (6 + √2 + √(6 * (3 + 2 * √2))) / 20
  let b := (6 + √2 - √(6 * (3 + 2 * √2))) / 20
  let c := (6 - √2 + √(6 * (3 - 2 * √2))) / 20
  let d := (6 - √2 - √(6 * (3 - 2 * √2))) / 20
  let w1 := (2 - 3 * (b + c)) / 6 / (a + d - b - c)
  let w2 := (2 - 3 * (a + d)) / 6 / (b + c - a - d)
  schemeOfSym 2 [⟨.swap_ab, [w1, w2], [[a, d], [c, b]]⟩] 3

/-- t2/_hillion.py:76-83 -/
noncomputable def hillion_08 : Scheme :=
  let lambda2 := (32 + 2 * √46) / 105
  let lambda3 := (32 - 2 * √46) / 105
  let w1 := 2 * (3266 + 19 * √46) / 17664
  let w2 := 2 * (3266 - 19 * √46) / 17664
  schemeOfSym 2
    [⟨.swap_ab, [2 * (25 / 384)], [[0, 4 / 5]]⟩, ⟨.s2_static, [w1, w2], [[lambda2], [lambda3]]⟩] 3

/-- t2/_hillion.py:92-99 -/
noncomputable def hillion_10 : Scheme :=
  let lambda1 := (16 + 2 * √14) / 25
  let lambda2 := (16 - 2 * √14) / 25
  let w1 := 2 * (161 + 17 * √14) / 2688
  let w2 := 2 * (161 - 17 * √14) / 2688
  schemeOfSym 2
    [⟨.swap_ab, [w2, w1], [[lambda1, 0], [0, lambda2]]⟩, ⟨.s2_static, [25 / 48], [[2 / 5]]⟩] 3

/-- t2/_liu_vinokur.py:26-28; also lyness_jespersen_02 (t2/_lyness_jespersen.py:27-32) -/
noncomputable def liu_vinokur_04 : Scheme := schemeOfSym 2
  [⟨.centroid, [3 / 4], [[]]⟩, ⟨.vertex, [1 / 12], [[]]⟩] 2

/-- t2/_liu_vinokur.py:39-44 -/
noncomputable def liu_vinokur_06 : Scheme :=
  let alpha1 := (1 - √21) / 10
  let b1 := (1 - alpha1) / 3
  schemeOfSym 2 [⟨.vertex, [(1 + √21) / 120], [[]]⟩, ⟨.d3_aa, [(39 - √21) / 120], [[b1]]⟩] 3

/-- t2/_liu_vinokur.py:47-63 -/
noncomputable def liu_vinokur_08 : Scheme :=
  let sqrt_b := √(950 - 220 * √10)
  let a1 := (-10 + 5 * √10 + sqrt_b) / 30
  let a2 := (-10 + 5 * √10 - sqrt_b) / 30
  let b1 := (1 - a1) / 3
  let b2 := (1 - a2) / 3
  schemeOfSym 2 [⟨.d3_aa,
    [(5 * a2 - 2) / (60 * a1 ^ 2 * (a2 - a1)), (5 * a1 - 2) / (60 * a2 ^ 2 * (a1 - a2))],
    [[b1], [b2]]⟩] 4

/-- t2/_liu_vinokur.py:66-75 -/
noncomputable def liu_vinokur_09 : Scheme :=
  let alpha0 : ℝ := -(1 / 2)
  let alpha1 : ℝ := 2 / 3
  let b0 := (1 - alpha0) / 3
  let b1 := (1 - alpha1) / 3
  schemeOfSym 2 [⟨.centroid, [27 / 80], [[]]⟩, ⟨.d3_aa, [8 / 105, 81 / 560], [[b0], [b1]]⟩] 4

/-- t2/_liu_vinokur.py:78-97 -/
noncomputable def liu_vinokur_10 : Scheme :=
  let alpha0 : ℝ := 1
  let alpha1 : ℝ := -(1 / 2)
  let alpha2 := (-1 + √13) / 6
  let b0 := (1 - alpha0) / 3
  let b1 := (1 - alpha1) / 3
  let b2 := (1 - alpha2) / 3
  schemeOfSym 2 [⟨.d3_aa,
    [(11 - 1 * √13) / 360, (80 - 16 * √13) / 360, (29 + 17 * √13) / 360], [[b0], [b1], [b2]]⟩] 4

/-- t2/_liu_vinokur.py:100-114 -/
noncomputable def liu_vinokur_11 : Scheme :=
  let gamma := (3 + √3) / 6
  let delta := (3 - √3) / 6
  let a := (1 + 2 * gamma - delta) / 3
  let b := (1 + 2 * delta - gamma) / 3
  schemeOfSym 2
    [⟨.centroid, [9 / 20], [[]]⟩, ⟨.vertex, [-(1 / 60)], [[]]⟩, ⟨.d3_ab, [1 / 10], [[a, b]]⟩] 4

/-- t2/_liu_vinokur.py:131-137; also lyness_jespersen_09 (t2/_lyness_jespersen.py:84-90) -/
noncomputable def liu_vinokur_13 : Scheme := schemeOfSym 2
  [⟨.centroid, [81 / 320], [[]]⟩, ⟨.vertex, [1 / 90], [[]]⟩,
   ⟨.d3_aa, [16 / 225, 2401 / 14400], [[1 / 2], [1 / 7]]⟩] 5

/-- t2/_walkington.py:16-20 -/
noncomputable def walkington_p5 : Scheme :=
  let a1 := (155 + √15) / 1200
  let a2 := (155 - √15) / 1200
  let x1 := (6 + √15) / 21
  let x2 := (6 - √15) / 21
  schemeOfSym 2 [⟨.centroid, [9 / 40], [[]]⟩, ⟨.d3_aa, [a1, a2], [[x1], [x2]]⟩] 5

/-- t2/_lyness_jespersen.py:53-60 -/
noncomputable def lyness_jespersen_06 : Scheme :=
  let a0 := (3 + √3) / 6
  let a1 := (3 - √3) / 6
  schemeOfSym 2
    [⟨.centroid, [9 / 20], [[]]⟩, ⟨.vertex, [-(1 / 60)], [[]]⟩, ⟨.d3_ab, [1 / 10], [[a0, a1]]⟩] 4

/-- t2/_lyness_jespersen.py:63-72 -/
noncomputable def lyness_jespersen_07 : Scheme := schemeOfSym 2
  [⟨.vertex, [(11 - √13) / 360], [[]]⟩,
   ⟨.d3_aa, [(10 - 2 * √13) / 45, (29 + 17 * √13) / 360], [[1 / 2], [(7 - √13) / 18]]⟩] 4

/-- t2/_lyness_jespersen.py:75-81 -/
noncomputable def lyness_jespersen_08 : Scheme :=
  let b1 := (155 - √15) / 1200
  let b2 := (155 + √15) / 1200
  let r1 := (6 - √15) / 21
  let r2 := (6 + √15) / 21
  schemeOfSym 2 [⟨.centroid, [9 / 40], [[]]⟩, ⟨.d3_aa, [b1, b2], [[r1], [r2]]⟩] 5

/-- t2/_lyness_jespersen.py:93-101 -/
noncomputable def lyness_jespersen_11 : Scheme :=
  let c := (3 + √6) / 6
  let d := (3 - √6) / 6
  schemeOfSym 2
    [⟨.centroid, [-(81 / 140)], [[]]⟩, ⟨.vertex, [-(5 / 252)], [[]]⟩,
     ⟨.d3_aa, [17 / 315, 128 / 315], [[1 / 2], [1 / 4]]⟩, ⟨.d3_ab, [9 / 210], [[c, d]]⟩] 6

/-- t2/_strang_fix_cowper/__init__.py:45-48.  `roots` is what `np.polynomial.polynomial.polyroots`
returns for `-1 + 15x - 60x² + 60x³`. -/
noncomputable def strang_fix_cowper_04 (roots : Fin 3 → ℝ) : Scheme := schemeOfSym 2
  [⟨.d3_ab, [1 / 6], [[roots 2, roots 1]]⟩] 3

end Quadpy.FixedT2

namespace Quadpy.FixedT3
open Real

/-- t3/_liu_vinokur.py:18-21; also keast_0 (t3/_keast/__init__.py:25-29), shunn_ham_1
(t3/_shunn_ham/__init__.py:20-22) -/
noncomputable def liu_vinokur_01 : Scheme := schemeOfSym 3 [⟨.s4, [1], [[]]⟩] 1

/-- t3/_liu_vinokur.py:24-27 -/
noncomputable def liu_vinokur_02 : Scheme := schemeOfSym 3 [⟨.s31, [1 / 4], [[0]]⟩] 1

/-- t3/_liu_vinokur.py:30-33; also keast_1 (t3/_keast/__init__.py:32-36), shunn_ham_2
(t3/_shunn_ham/__init__.py:25-27) -/
noncomputable def liu_vinokur_03 : Scheme := schemeOfSym 3 [⟨.s31, [1 / 4], [[1 / 4 - √5 / 20]]⟩] 2

/-- t3/_hammer_marlowe_stroud.py:38-43 -/
noncomputable def hammer_marlowe_stroud_1 : Scheme :=
  let r := 1 / √5
  let a := (1 - r) / 4
  schemeOfSym 3 [⟨.s31, [1 / 4], [[a]]⟩] 2

/-- t3/_hammer_marlowe_stroud.py:46-51 -/
noncomputable def hammer_marlowe_stroud_2 : Scheme :=
  let r := -1 / √5
  let a := (1 - r) / 4
  schemeOfSym 3 [⟨.s31, [1 / 4], [[a]]⟩] 2

/-- t3/_hammer_marlowe_stroud.py:55-60 -/
noncomputable def hammer_marlowe_stroud_3 : Scheme :=
  let r : ℝ := 1 / 3
  let a := (1 - r) / 4
  schemeOfSym 3 [⟨.s4, [-(4 / 5)], [[]]⟩, ⟨.s31, [9 / 20], [[a]]⟩] 3

/-- t3/_liu_vinokur.py:36-39 -/
noncomputable def liu_vinokur_04 : Scheme := schemeOfSym 3
  [⟨.s4, [4 / 5], [[]]⟩, ⟨.s31, [1 / 20], [[0]]⟩] 2

/-- t3/_liu_vinokur.py:42-45; also keast_2 (t3/_keast/__init__.py:39-43) -/
noncomputable def liu_vinokur_05 : Scheme := schemeOfSym 3
  [⟨.s4, [-(4 / 5)], [[]]⟩, ⟨.s31, [9 / 20], [[1 / 6]]⟩] 3

/-- t3/_liu_vinokur.py:48-51 -/
noncomputable def liu_vinokur_06 : Scheme := schemeOfSym 3
  [⟨.s31, [1 / 40, 9 / 40], [[0], [1 / 3]]⟩] 3

/-- t3/_liu_vinokur.py:54-62 -/
noncomputable def liu_vinokur_07 : Scheme :=
  let b := (1 + 2 * √70 / 28) / 4
  schemeOfSym 3
    [⟨.s4, [-(148 / 1875)], [[]]⟩, ⟨.s31, [343 / 7500], [[1 / 14]]⟩, ⟨.s22, [56 / 375], [[b]]⟩] 4

/-- t3/_liu_vinokur.py:65-79 -/
noncomputable def liu_vinokur_08 : Scheme :=
  let alpha1 := (√(65944 - 19446 * √11) + 51 * √11 - 154) / 89
  let alpha2 := (-√(65944 - 19446 * √11) + 51 * √11 - 154) / 89
  schemeOfSym 3
    [⟨.s31, [(17 * alpha2 - 7) / (420 * alpha1 ^ 2 * (alpha2 - alpha1)),
        (17 * alpha1 - 7) / (420 * alpha2 ^ 2 * (alpha1 - alpha2))],
      [[(1 - alpha1) / 4], [(1 - alpha2) / 4]]⟩,
     ⟨.s22, [2 / 105], [[0]]⟩] 4

/-- t3/_liu_vinokur.py:82-89 -/
noncomputable def liu_vinokur_09 : Scheme := schemeOfSym 3
  [⟨.s4, [-(32 / 15)], [[]]⟩, ⟨.s31, [3 / 280, 125 / 168], [[0], [1 / 5]]⟩,
   ⟨.s22, [2 / 105], [[0]]⟩] 4

/-- t3/_liu_vinokur.py:92-104 -/
noncomputable def liu_vinokur_10 : Scheme :=
  let gamma1 := (2 + √2) / 4
  let gamma2 := (2 - √2) / 4
  let a := (1 - gamma1 - gamma2) / 4
  let b := (1 + 3 * gamma1 - gamma2) / 4
  schemeOfSym 3
    [⟨.s4, [32 / 105], [[]]⟩, ⟨.s31, [-(31 / 840), 27 / 280], [[0], [1 / 3]]⟩,
     ⟨.s211, [4 / 105], [[a, b]]⟩] 4

/-- t3/_liu_vinokur.py:107-120 -/
noncomputable def liu_vinokur_11 : Scheme := schemeOfSym 3
  [⟨.s31, [(11 - 4 * √2) / 840, (243 - 108 * √2) / 1960, (62 + 44 * √2) / 735],
    [[0], [1 / 3], [(2 - √2) / 4]]⟩, ⟨.s22, [2 / 105], [[0]]⟩] 4

/-- t3/_liu_vinokur.py:123-140 -/
noncomputable def liu_vinokur_12 : Scheme :=
  let lmbda := 4 / 27 * (4 * √79 * cos ((arccos (67 * √79 / 24964) + 2 * π) / 3) + 71)
  let alpha1 := (√(9 * lmbda ^ 2 - 248 * lmbda + 1680) + 28 - 3 * lmbda) / (112 - 10 * lmbda)
  let alpha2 := (-√(9 * lmbda ^ 2 - 248 * lmbda + 1680) + 28 - 3 * lmbda) / (112 - 10 * lmbda)
  let w1 := ((21 - lmbda) * alpha2 - 7) / (420 * alpha1 ^ 2 * (alpha2 - alpha1))
  let w2 := ((21 - lmbda) * alpha1 - 7) / (420 * alpha2 ^ 2 * (alpha1 - alpha2))
  schemeOfSym 3
    [⟨.s31, [w1, w2], [[(1 - alpha1) / 4], [(1 - alpha2) / 4]]⟩,
     ⟨.s22, [lmbda ^ 2 / 840], [[(1 - 2 / √lmbda) / 4]]⟩] 5

/-- t3/_liu_vinokur.py:143-153 -/
noncomputable def liu_vinokur_13 : Scheme := schemeOfSym 3
  [⟨.s4, [-(16 / 21)], [[]]⟩,
   ⟨.s31, [(2249 - 391 * √13) / 10920, (2249 + 391 * √13) / 10920],
     [[(1 - (2 + √13) / 9) / 4], [(1 - (2 - √13) / 9) / 4]]⟩,
   ⟨.s22, [2 / 105], [[0]]⟩] 5

/-- t3/_liu_vinokur.py:156-166 -/
noncomputable def liu_vinokur_14 : Scheme := schemeOfSym 3
  [⟨.s4, [16 / 105], [[]]⟩, ⟨.s31, [1 / 280, 81 / 1400, 64 / 525], [[0], [1 / 3], [1 / 8]]⟩,
   ⟨.s22, [2 / 105], [[0]]⟩] 5

/-- t3/_keast/__init__.py:56-63 -/
noncomputable def keast_4 : Scheme := schemeOfSym 3
  [⟨.s4, [-(148 / 1875)], [[]]⟩, ⟨.s31, [343 / 7500], [[1 / 14]]⟩,
   ⟨.s22, [56 / 375], [[1 / 4 + √(5 / 14) / 4]]⟩] 4

/-- t3/_keast/__init__.py:78-85 -/
noncomputable def keast_6 : Scheme := schemeOfSym 3
  [⟨.s4, [6544 / 36015], [[]]⟩, ⟨.s31, [81 / 2240, 161051 / 2304960], [[1 / 3], [1 / 11]]⟩,
   ⟨.s22, [338 / 5145], [[1 / 4 - √91 / 52]]⟩] 5

end Quadpy.FixedT3
