import Verif.Model.Cn
import Verif.Model.Symmetries

/-!
# Model of the closed-form rules on the disk, s2

`frac`, `sqrt`, `cos`, `sin` are exact here; in the code they are sympy's.  The results of
`mp.polyroots` and `mp.lu_solve` (s2/_albrecht.py:25-26) are parameters.
-/

namespace Quadpy.FixedS2
open Real

/-- s2/_classical.py:4-6 -/
noncomputable def midpoint : Scheme := schemeOfSym 2 [⟨.zero, [1], [[]]⟩] 1

/-- s2/_albrecht.py:29-32; the same rule as s2/_albrecht_collatz.py:21-24 -/
noncomputable def albrecht_1 : Scheme := schemeOfSym 2 [⟨.d4_aa, [1 / 4], [[1 / 2]]⟩] 3

/-- s2/_albrecht.py:35-37 -/
noncomputable def albrecht_2 : Scheme := schemeOfSym 2
  [⟨.zero, [1 / 4], [[]]⟩, ⟨.d 6 1, [1 / 8], [[√(2 / 3)]]⟩] 5

/-- s2/_albrecht.py:40-46 -/
noncomputable def albrecht_3 : Scheme :=
  let sqrt29 := √29
  let a1 := (551 + 41 * sqrt29) / 6264
  let a2 := (551 - 41 * sqrt29) / 6264
  let rho1 := √((27 - 3 * sqrt29) / 52)
  let rho2 := √((27 + 3 * sqrt29) / 52)
  schemeOfSym 2 [⟨.d 4 1, [2 / 27], [[√(3 / 4)]]⟩, ⟨.d 4 0, [a1, a2], [[rho1], [rho2]]⟩] 7

/-- s2/_albrecht.py:49-62 -/
noncomputable def albrecht_4 : Scheme :=
  let sqrt111 := √111
  let rho1 := √((96 - 4 * √111) / 155)
  let rho2 := √((96 + 4 * √111) / 155)
  let B0 := 251 / 2304
  let B1 := (110297 + 5713 * sqrt111) / 2045952
  let B2 := (110297 - 5713 * sqrt111) / 2045952
  let C := 125 / 3072
  schemeOfSym 2
    [⟨.zero, [B0], [[]]⟩, ⟨.d 6 0, [B1, B2], [[rho1], [rho2]]⟩, ⟨.d 6 1, [C], [[√(4 / 5)]]⟩] 9

/-- s2/_albrecht.py:65-90.  `sigma` is the value of `roots` on line 68, `B` that of `linear_solve` on
line 71. -/
noncomputable def albrecht_5 (sigma B : Fin 3 → ℝ) : Scheme :=
  let sqrt19 := √19
  let s1 := √((125 - 10 * sqrt19) / 366)
  let s2 := √((125 + 10 * sqrt19) / 366)
  let C1 := (7494892 + 1053263 * sqrt19) / 205200000
  let C2 := (7494892 - 1053263 * sqrt19) / 205200000
  let D := 81 / 3125
  let u := √(5 / 6) * cos (π / 8)
  let v := √(5 / 6) * sin (π / 8)
  schemeOfSym 2
    [⟨.d4_a0, [B 0, B 1, B 2], [[√(sigma 0)], [√(sigma 1)], [√(sigma 2)]]⟩,
     ⟨.d4_aa, [C1, C2], [[s1], [s2]]⟩, ⟨.d4_ab, [D], [[u, v]]⟩] 11

/-- s2/_albrecht.py:93-109.  `sigma` is the value of `roots` on line 96, `B` that of `linear_solve` on
line 99. -/
noncomputable def albrecht_6 (sigma B : Fin 3 → ℝ) : Scheme :=
  let B0 := 2615 / 43632
  let C := 16807 / 933120
  schemeOfSym 2
    [⟨.zero, [B0], [[]]⟩,
     ⟨.d 10 0, [B 0, B 1, B 2], [[√(sigma 0)], [√(sigma 1)], [√(sigma 2)]]⟩,
     ⟨.d 10 1, [C], [[√(6 / 7)]]⟩] 13

/-- s2/_albrecht.py:112-130.  `sigma` is the value of `roots` on line 119, `ws` that of `linear_solve`
on line 124. -/
noncomputable def albrecht_7 (sigma ws : Fin 4 → ℝ) : Scheme :=
  let sqrt21 := √21
  let wt1 := (4998 + 343 * sqrt21) / 253125
  let wt2 := (4998 - 343 * sqrt21) / 253125
  let tau1 := √((21 - sqrt21) / 28)
  let tau2 := √((21 + sqrt21) / 28)
  schemeOfSym 2
    [⟨.d 8 0, [ws 0, ws 1, ws 2, ws 3], [[√(sigma 0)], [√(sigma 1)], [√(sigma 2)], [√(sigma 3)]]⟩,
     ⟨.d 8 1, [wt1, wt2], [[tau1], [tau2]]⟩] 15

/-- s2/_albrecht.py:133-160.  `sigma` is the value of `roots` on line 143, `ws` that of `linear_solve`
on line 153. -/
noncomputable def albrecht_8 (sigma ws : Fin 4 → ℝ) : Scheme :=
  let m0 := 496439663 / 13349499975
  let sqrt7 := √7
  let wt1 := (125504 + 16054 * sqrt7) / 8751645
  let wt2 := (125504 - 16054 * sqrt7) / 8751645
  let tau1 := √((14 - sqrt7) / 18)
  let tau2 := √((14 + sqrt7) / 18)
  schemeOfSym 2
    [⟨.zero, [m0], [[]]⟩,
     ⟨.d 10 0, [ws 0, ws 1, ws 2, ws 3], [[√(sigma 0)], [√(sigma 1)], [√(sigma 2)], [√(sigma 3)]]⟩,
     ⟨.d 10 1, [wt1, wt2], [[tau1], [tau2]]⟩] 17

/-- s2/_hammer_stroud.py:30-36 -/
noncomputable def hammer_stroud_12_2 : Scheme := schemeOfSym 2
  [⟨.zero, [1 / 6], [[]]⟩, ⟨.d4_a0, [1 / 6], [[√(1 / 2)]]⟩,
   ⟨.sxy, [1 / 24], [[√(1 / 2), √(1 / 2)]]⟩] 5

/-- s2/_hammer_stroud.py:48-59 -/
noncomputable def hammer_stroud_18 : Scheme :=
  let r1 := √((3 - √3) / 6)
  let r2 := √((3 + √3) / 6)
  schemeOfSym 2 [⟨.d 8 0, [1 / 16, 1 / 16], [[r1], [r2]]⟩] 7

/-- s2/_mysovskih.py:37-52 -/
noncomputable def mysovskih_2 : Scheme :=
  let sqrt10 := √10
  let sqrt601 := √601
  let B1 := (857 * sqrt601 + 12707) / 20736 / sqrt601
  let B3 := (857 * sqrt601 - 12707) / 20736 / sqrt601
  let B2 := 125 / 3456
  let B4 := (340 + 25 * sqrt10) / 10368
  let B5 := (340 - 25 * sqrt10) / 10368
  let r1 := √((31 - sqrt601) / 60)
  let r3 := √((31 + sqrt601) / 60)
  let r2 := √(3 / 5)
  let r4 := √((10 - sqrt10) / 20)
  let r5 := √((10 + sqrt10) / 20)
  let c4 := √((10 - sqrt10) / 60)
  let s5 := √((10 + sqrt10) / 60)
  schemeOfSym 2
    [⟨.d4_a0, [B1, B2, B3], [[r1], [r2], [r3]]⟩, ⟨.d4_ab, [B4, B5], [[r4, c4], [r5, s5]]⟩] 11

/-- s2/_peirce_1956.py:23-33 -/
noncomputable def peirce_1956_1 : Scheme :=
  let sqrt29 := √29
  let r := √(3 / 4)
  let s := √((27 - 3 * sqrt29) / 104)
  let t := √((27 + 3 * sqrt29) / 104)
  let B1 := 2 / 27
  let B2 := (551 + 41 * sqrt29) / 6264
  let B3 := (551 - 41 * sqrt29) / 6264
  schemeOfSym 2 [⟨.d4_a0, [B1], [[r]]⟩, ⟨.d4_aa, [B2, B3], [[s], [t]]⟩] 7

/-- s2/_peirce_1956.py:36-57 -/
noncomputable def peirce_1956_2 : Scheme :=
  let sqrt15 := √15
  let cos_pi8 := cos (π / 8)
  let sin_pi8 := sin (π / 8)
  let r := √((5 + sqrt15) / 10)
  let u1 := √((5 - sqrt15) / 10) * cos_pi8
  let v1 := √((5 - sqrt15) / 10) * sin_pi8
  let u2 := √(1 / 2) * cos_pi8
  let v2 := √(1 / 2) * sin_pi8
  let u3 := √((5 + sqrt15 + √(185 * sqrt15 - 700)) / 20)
  let v3 := √((5 + sqrt15 - √(185 * sqrt15 - 700)) / 20)
  let B1 := (12060 - 1440 * sqrt15) / 254088
  let B2 := 5 / 144
  let B3 := 1 / 18
  let B4 := (5585 + 1440 * sqrt15) / 508176
  schemeOfSym 2
    [⟨.d4_a0, [B1], [[r]]⟩, ⟨.d4_ab, [B2, B3, B4], [[u1, v1], [u2, v2], [u3, v3]]⟩] 9

/-- s2/_peirce_1956.py:60-82 -/
noncomputable def peirce_1956_3 : Scheme :=
  let sqrt15 := √15
  let B1 := 5 / 144
  let B2 := (34 - 5 * sqrt15) / 396
  let B3 := (4805 - 620 * sqrt15) / 103824
  let C1 := (10 + 5 * sqrt15) / 792
  let C2 := (2405 + 620 * sqrt15) / 207648
  let D := B1
  let r1 := √((5 - sqrt15) / 10)
  let r2 := √(1 / 2)
  let r3 := √((5 + sqrt15) / 10)
  let u1 := √((5 + √(45 - 10 * sqrt15)) / 20)
  let v1 := √((5 - √(45 - 10 * sqrt15)) / 20)
  let u2 := √((5 + sqrt15 + 2 * √(40 * sqrt15 - 150)) / 20)
  let v2 := √((5 + sqrt15 - 2 * √(40 * sqrt15 - 150)) / 20)
  let t := √((5 - sqrt15) / 20)
  schemeOfSym 2
    [⟨.d4_a0, [B1, B2, B3], [[r1], [r2], [r3]]⟩, ⟨.d4_ab, [C1, C2], [[u1, v1], [u2, v2]]⟩,
     ⟨.d4_aa, [D], [[t]]⟩] 11

/-- s2/_stroud.py:39-60: the origin and two decagons, as plain points. -/
noncomputable def stroud_s2_9_3 : Scheme :=
  let r1 := √((6 - √6) / 10)
  let r2 := √((6 + √6) / 10)
  let x := (List.range 10).map fun k : ℕ => [cos (2 * (k + 1) * π / 10), sin (2 * (k + 1) * π / 10)]
  let B0 := 1 / 9
  let B1 := (16 + √6) / 360
  let B2 := (16 - √6) / 360
  schemeOfSym 2
    [⟨.plain, B0 :: (List.replicate 10 B1 ++ List.replicate 10 B2),
      [0, 0] :: (x.map (·.map (r1 * ·)) ++ x.map (·.map (r2 * ·)))⟩] 9

end Quadpy.FixedS2
