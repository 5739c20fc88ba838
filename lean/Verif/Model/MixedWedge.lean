import Verif.Model.WedgePyramid

/-!
# Model of the wedge and pyramid rules with decimal numbers

The decimal numbers are the ones of the source; in the code they are rounded to floats.
-/

namespace Quadpy.P3

/-- p3/_felippa.py:131-142 (nodes) -/
noncomputable def g3 : ℝ := -0.854011951853700535688324041975993416
noncomputable def g4 : ℝ := -0.305992467923296230556472913192103090
noncomputable def g5 : ℝ := 0.410004419776996766244796955168096505

/-- p3/_felippa.py:138-142 -/
noncomputable def w1 : ℝ :=
  4 / 15 * (4 + 5 * (g4 + g5) + 10 * g4 * g5) / ((g3 - g4) * (g3 - g5) * (1 - g3) ^ 2)

/-- p3/_felippa.py:143-147 -/
noncomputable def w2 : ℝ :=
  4 / 15 * (4 + 5 * (g3 + g5) + 10 * g3 * g5) / ((g3 - g4) * (g5 - g4) * (1 - g4) ^ 2)

/-- p3/_felippa.py:148-152 -/
noncomputable def w3 : ℝ :=
  4 / 15 * (4 + 5 * (g3 + g4) + 10 * g3 * g4) / ((g3 - g5) * (g4 - g5) * (1 - g5) ^ 2)

/-- p3/_felippa.py:130-165, with `wg9 = [64/81, 40/81, 25/81]`. -/
noncomputable def felippa_9 : Scheme :=
  let g1 := √(3 / 5)
  schemeOf 3 [(w1 * (25 / 81), s4 g1 g3), (w1 * (40 / 81), s4_0 g1 g3), (w1 * (64 / 81), [[0, 0, g3]]),
    (w2 * (25 / 81), s4 g1 g4), (w2 * (40 / 81), s4_0 g1 g4), (w2 * (64 / 81), [[0, 0, g4]]),
    (w3 * (25 / 81), s4 g1 g5), (w3 * (40 / 81), s4_0 g1 g5), (w3 * (64 / 81), [[0, 0, g5]])] 5

end Quadpy.P3

namespace Quadpy.W3

/-- w3/_felippa.py:94-96 -/
noncomputable def s3_z (z : ℝ) : List (List ℝ) := [[1 / 3, 1 / 3, z], [1 / 3, 1 / 3, -z]]

/-- w3/_felippa.py:99-101 -/
noncomputable def s21 (a : ℝ) : List (List ℝ) :=
  let b := 1 - 2 * a
  [[a, b, 0], [b, a, 0], [a, a, 0]]

/-- w3/_felippa.py:109-124 -/
noncomputable def s111_z (a b z : ℝ) : List (List ℝ) :=
  let c := 1 - a - b
  [[b, c, z], [a, b, z], [c, a, z], [c, b, z], [a, c, z], [b, a, z],
    [b, c, -z], [a, b, -z], [c, a, -z], [c, b, -z], [a, c, -z], [b, a, -z]]

/-- w3/_felippa.py:41-53 -/
noncomputable def felippa_4 : Scheme :=
  let a1 := (40 - 5 * √10 - √(950 - 220 * √10)) / 90
  let a2 := (40 - 5 * √10 + √(950 - 220 * √10)) / 90
  schemeOf 3 [(0.6205044157722541e-1, s21_z a2 √(3 / 5)), (0.3054215101536719e-1, s21_z a1 √(3 / 5)),
    (0.9928070652356065e-1, s21 a2), (0.4886744162458750e-1, s21 a1)] 4

/-- w3/_felippa.py:56-67 -/
noncomputable def felippa_5 : Scheme :=
  let a1 := (6 - √15) / 21
  let a2 := (6 + √15) / 21
  schemeOf 3 [(0.3498310570689643e-1, s21_z a1 √(3 / 5)), (0.3677615355236283e-1, s21_z a2 √(3 / 5)),
    (1 / 16, s3_z √(3 / 5)), (0.5597296913103428e-1, s21 a1), (0.5884184568378053e-1, s21 a2),
    (0.1, s3)] 5

/-- w3/_felippa.py:70-86 -/
noncomputable def felippa_6 : Scheme :=
  schemeOf 3 [(0.8843323515718317e-2, s21_z 0.6308901449150223e-1 (-0.8611363115940526)),
    (0.2031233592848984e-1, s21_z 0.2492867451709104 (-0.8611363115940526)),
    (0.1441007403935041e-1, s111_z 0.5314504984481695e-1 0.3103524510337844 0.8611363115940526),
    (0.1657912966938509e-1, s21_z 0.6308901449150223e-1 0.3399810435848563),
    (0.3808080193469984e-1, s21_z 0.2492867451709104 0.3399810435848563),
    (0.2701546376983638e-1, s111_z 0.5314504984481695e-1 0.3103524510337844 0.3399810435848563)] 6

end Quadpy.W3
