import Verif.Model.Cn
import Verif.Model.Scheme
import Mathlib.Data.Fin.VecNotation

/-!
# Model of the pyramid and wedge schemes, p3 and w3

`integrate` is modelled for one scalar function and one pyramid or wedge.  `frac` and `sqrt` are exact
here; in the code they are sympy's and the points and weights become floats in `integrate`.
-/

namespace Quadpy.P3
open Real

/-- p3/_helpers.py:47-55 `_transform(xi, pyra)` for one point. -/
noncomputable def transform (xi : Fin 3 → ℝ) (pyra : Fin 5 → Fin 3 → ℝ) : Fin 3 → ℝ := fun i =>
  0.125 * (1.0 - xi 0) * (1.0 - xi 1) * (1 - xi 2) * pyra 0 i
  + 0.125 * (1.0 + xi 0) * (1.0 - xi 1) * (1 - xi 2) * pyra 1 i
  + 0.125 * (1.0 + xi 0) * (1.0 + xi 1) * (1 - xi 2) * pyra 2 i
  + 0.125 * (1.0 - xi 0) * (1.0 + xi 1) * (1 - xi 2) * pyra 3 i
  + 0.500 * (1.0 + xi 2) * pyra 4 i

/-- p3/_helpers.py:59-64 -/
noncomputable def J0 (pyra : Fin 5 → Fin 3 → ℝ) (xi : Fin 3 → ℝ) : Fin 3 → ℝ := fun i =>
  -(0.125 * (1.0 - xi 1) * (1 - xi 2) * pyra 0 i)
  + 0.125 * (1.0 - xi 1) * (1 - xi 2) * pyra 1 i
  + 0.125 * (1.0 + xi 1) * (1 - xi 2) * pyra 2 i
  - 0.125 * (1.0 + xi 1) * (1 - xi 2) * pyra 3 i

/-- p3/_helpers.py:65-70 -/
noncomputable def J1 (pyra : Fin 5 → Fin 3 → ℝ) (xi : Fin 3 → ℝ) : Fin 3 → ℝ := fun i =>
  -(0.125 * (1.0 - xi 0) * (1 - xi 2) * pyra 0 i)
  - 0.125 * (1.0 + xi 0) * (1 - xi 2) * pyra 1 i
  + 0.125 * (1.0 + xi 0) * (1 - xi 2) * pyra 2 i
  + 0.125 * (1.0 - xi 0) * (1 - xi 2) * pyra 3 i

/-- p3/_helpers.py:71-77 -/
noncomputable def J2 (pyra : Fin 5 → Fin 3 → ℝ) (xi : Fin 3 → ℝ) : Fin 3 → ℝ := fun i =>
  -(0.125 * (1.0 - xi 0) * (1.0 - xi 1) * pyra 0 i)
  - 0.125 * (1.0 + xi 0) * (1.0 - xi 1) * pyra 1 i
  - 0.125 * (1.0 + xi 0) * (1.0 + xi 1) * pyra 2 i
  - 0.125 * (1.0 - xi 0) * (1.0 + xi 1) * pyra 3 i
  + 0.500 * 1 * pyra 4 i

/-- The expression of p3/_helpers.py:78-85 and w3/_helpers.py:86-93. -/
def det3 (J0 J1 J2 : Fin 3 → ℝ) : ℝ :=
  J0 0 * J1 1 * J2 2
  + J1 0 * J2 1 * J0 2
  + J2 0 * J0 1 * J1 2
  - J0 2 * J1 1 * J2 0
  - J1 2 * J2 1 * J0 0
  - J2 2 * J0 1 * J1 0

/-- p3/_helpers.py:58-86 `_get_det_J(pyra, xi)` for one point. -/
noncomputable def getDetJ (pyra : Fin 5 → Fin 3 → ℝ) (xi : Fin 3 → ℝ) : ℝ :=
  det3 (J0 pyra xi) (J1 pyra xi) (J2 pyra xi)

/-- p3/_helpers.py:11-18 `P3Scheme.integrate(f, pyra)`. -/
noncomputable def integrate (S : Scheme) (f : (Fin 3 → ℝ) → ℝ) (pyra : Fin 5 → Fin 3 → ℝ) : ℝ :=
  dot 3 S.weights S.points fun xi => f (transform xi pyra) * |getDetJ pyra xi|

/-- p3/_helpers.py:89-90 -/
def s4 (a z : ℝ) : List (List ℝ) := [[a, a, z], [-a, a, z], [a, -a, z], [-a, -a, z]]

/-- p3/_helpers.py:93-94 -/
def s4_0 (a z : ℝ) : List (List ℝ) := [[a, 0, z], [-a, 0, z], [0, a, z], [0, -a, z]]

/-- p3/_felippa.py:20-24 -/
noncomputable def felippa_1 : Scheme := schemeOf 3 [(128 / 27, [[0, 0, -(1 / 2)]])] 1

/-- p3/_felippa.py:27-34 -/
noncomputable def felippa_2 : Scheme := schemeOf 3
  [(81 / 100, s4 (8 * √(2 / 15) / 5) (-(2 / 3))), (125 / 27, [[0, 0, 2 / 5]])] 2

/-- p3/_felippa.py:37-45 -/
noncomputable def felippa_3 : Scheme := schemeOf 3
  [(504 / 625, s4 √(12 / 35) (-(2 / 3))), (576 / 625, [[0, 0, 1 / 6]]), (64 / 15, [[0, 0, 1 / 2]])] 2

/-- p3/_felippa.py:48-56 -/
noncomputable def felippa_4 : Scheme :=
  let w1 := 5 * (68 + 5 * √10) / 432
  let w2 := 85 / 54 - w1
  let g1 := √(1 / 3)
  let g2 := (2 * √10 - 5) / 15
  schemeOf 3 [(w1, s4 g1 g2), (w2, s4 g1 (-(2 / 3) - g2))] 3

/-- p3/_felippa.py:59-67 -/
noncomputable def felippa_5 : Scheme :=
  let w1 := (11764 - 461 * √51) / 15300
  let w2 := 346 / 225 - w1
  let g1 := √(2 / 15 * (573 - 2 * √51)) / 15
  let g2 := √(2 / 15 * (573 + 2 * √51)) / 15
  let g3 := -(2 * √51 + 13) / 35
  let g4 := (2 * √51 - 13) / 35
  schemeOf 3 [(w1, s4 g1 g3), (w2, s4 g2 g4)] 2

/-- p3/_felippa.py:70-85 -/
noncomputable def felippa_6 : Scheme :=
  let w1 := 7 * (11472415 - 70057 * √2865) / 130739500
  let w2 := 84091 / 68450 - w1
  let g1 := 8 * √((573 + 5 * √2865) / (109825 + 969 * √2865))
  let g2 := √(2 * (8025 + √2865) / 35) / 37
  let g3 := -(87 + √2865) / 168
  let g4 := (-87 + √2865) / 168
  schemeOf 3 [(w1, s4 g1 g3), (w2, s4 g2 g4), (18 / 5, [[0, 0, 2 / 3]])] 2

/-- p3/_felippa.py:88-106 -/
noncomputable def felippa_7 : Scheme :=
  let w1 : ℝ := 170569 / 331200
  let w2 : ℝ := 276710106577408 / 1075923777052725
  let w3 : ℝ := 12827693806929 / 30577384040000
  let w4 : ℝ := 10663383340655070643544192 / 4310170528879365193704375
  let g1 := 7 * √(35 / 59) / 8
  let g2 := 224 * √(336633710 / 33088740423) / 37
  let g3 := √(37043 / 35) / 56
  let g4 : ℝ := -(127 / 153)
  let g5 : ℝ := 1490761 / 2842826
  schemeOf 3 [(w1, s4 g1 (-(1 / 7))), (w2, s4_0 g2 (-(9 / 28))), (w3, s4 g3 g4), (w4, [[0, 0, g5]])] 2

/-- p3/_felippa.py:109-127 -/
noncomputable def felippa_8 : Scheme :=
  let w1 := 5 * (68 + 5 * √10) / 432
  let w2 := 85 / 54 - w1
  let g1 := √(3 / 5)
  let g2 := 1 - 2 * (10 - √10) / 15
  let g3 := -(2 / 3) - g2
  schemeOf 3
    [(w1 * (25 / 81), s4 g1 g2), (w1 * (40 / 81), s4_0 g1 g2), (w1 * (64 / 81), [[0, 0, g2]]),
     (w2 * (25 / 81), s4 g1 g3), (w2 * (40 / 81), s4_0 g1 g3), (w2 * (64 / 81), [[0, 0, g3]])] 3

end Quadpy.P3

namespace Quadpy.W3
open Real

/-- w3/_helpers.py:52-61 `_transform(xi, wedge)` for one point. -/
noncomputable def transform (xi : Fin 3 → ℝ) (wedge : Fin 2 → Fin 3 → Fin 3 → ℝ) : Fin 3 → ℝ := fun i =>
  0.5 * (1.0 - xi 0 - xi 1) * (1.0 - xi 2) * wedge 0 0 i
  + 0.5 * xi 0 * (1.0 - xi 2) * wedge 0 1 i
  + 0.5 * xi 1 * (1.0 - xi 2) * wedge 0 2 i
  + 0.5 * (1.0 - xi 0 - xi 1) * (1.0 + xi 2) * wedge 1 0 i
  + 0.5 * xi 0 * (1.0 + xi 2) * wedge 1 1 i
  + 0.5 * xi 1 * (1.0 + xi 2) * wedge 1 2 i

/-- w3/_helpers.py:66-71 -/
noncomputable def J0 (xi : Fin 3 → ℝ) (wedge : Fin 2 → Fin 3 → Fin 3 → ℝ) : Fin 3 → ℝ := fun i =>
  -(0.5 * (1.0 - xi 2) * wedge 0 0 i)
  + 0.5 * (1.0 - xi 2) * wedge 0 1 i
  - 0.5 * (1.0 + xi 2) * wedge 1 0 i
  + 0.5 * (1.0 + xi 2) * wedge 1 1 i

/-- w3/_helpers.py:72-77 -/
noncomputable def J1 (xi : Fin 3 → ℝ) (wedge : Fin 2 → Fin 3 → Fin 3 → ℝ) : Fin 3 → ℝ := fun i =>
  -(0.5 * (1.0 - xi 2) * wedge 0 0 i)
  + 0.5 * (1.0 - xi 2) * wedge 0 2 i
  - 0.5 * (1.0 + xi 2) * wedge 1 0 i
  + 0.5 * (1.0 + xi 2) * wedge 1 2 i

/-- w3/_helpers.py:78-85 -/
noncomputable def J2 (xi : Fin 3 → ℝ) (wedge : Fin 2 → Fin 3 → Fin 3 → ℝ) : Fin 3 → ℝ := fun i =>
  -(0.5 * (1.0 - xi 0 - xi 1) * wedge 0 0 i)
  - 0.5 * xi 0 * wedge 0 1 i
  - 0.5 * xi 1 * wedge 0 2 i
  + 0.5 * (1.0 - xi 0 - xi 1) * wedge 1 0 i
  + 0.5 * xi 0 * wedge 1 1 i
  + 0.5 * xi 1 * wedge 1 2 i

/-- w3/_helpers.py:64-94 `_get_detJ(xi, wedge)` for one point. -/
noncomputable def getDetJ (xi : Fin 3 → ℝ) (wedge : Fin 2 → Fin 3 → Fin 3 → ℝ) : ℝ :=
  P3.det3 (J0 xi wedge) (J1 xi wedge) (J2 xi wedge)

/-- w3/_helpers.py:11-16 `W3Scheme.integrate(f, wedge)`. -/
noncomputable def integrate (S : Scheme) (f : (Fin 3 → ℝ) → ℝ)
    (wedge : Fin 2 → Fin 3 → Fin 3 → ℝ) : ℝ :=
  dot 3 S.weights S.points fun xi => f (transform xi wedge) * |getDetJ xi wedge|

/-- w3/_felippa.py:89-91 -/
noncomputable def s3 : List (List ℝ) := [[1 / 3, 1 / 3, 0]]

/-- w3/_felippa.py:104-106 -/
noncomputable def s21_z (a z : ℝ) : List (List ℝ) :=
  let b := 1 - 2 * a
  [[a, b, z], [b, a, z], [a, a, z], [a, b, -z], [b, a, -z], [a, a, -z]]

/-- w3/_felippa.py:23-26 -/
noncomputable def felippa_1 : Scheme := schemeOf 3 [(1, s3)] 1

/-- w3/_felippa.py:29-32 -/
noncomputable def felippa_2 : Scheme := schemeOf 3 [(1 / 6, s21_z (1 / 6) √(1 / 3))] 2

/-- w3/_felippa.py:35-38 -/
noncomputable def felippa_3 : Scheme := schemeOf 3 [(1 / 6, s21_z (1 / 2) √(1 / 3))] 2

end Quadpy.W3
