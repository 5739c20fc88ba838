import Verif.Model.Cn
import Verif.Model.Symmetries

/-!
# Model of the closed-form rules on the plane and on space with weights exp(-|x|) and exp(-|x|^2)

`frac` and `sqrt` are exact here; in the code they are sympy's.  A list comprehension over
`p_m in [+1, -1]` is written out.
-/

namespace Quadpy.FixedE2r
open Real

/-- e2r/_stroud.py:23-28 -/
noncomputable def stroud_4_1 : Scheme := schemeOfSym 2
  [⟨.zero, [7 / 10], [[]]⟩, ⟨.d 5 0, [3 / 50], [[2 * √5]]⟩] 4

/-- e2r/_stroud_secrest.py:18-28 (stroud_5_1) -/
noncomputable def stroud_secrest_5 : Scheme :=
  let nu := 2 * √5
  let xi := √5
  let eta := √15
  schemeOfSym 2
    [⟨.zero, [7 / 10], [[]]⟩, ⟨.c2_a0, [1 / 20], [[nu]]⟩, ⟨.sxy, [1 / 20], [[xi, eta]]⟩] 5

/-- e2r/_stroud_secrest.py:31-43 (stroud_7_1) -/
noncomputable def stroud_secrest_6 : Scheme :=
  let nu := √42
  let xi := √((6615 - 21 * √74255) / 454)
  let eta := √((6615 + 21 * √74255) / 454)
  let A := 5 / 588
  let B := (5272105 + 18733 * √74255) / 43661940
  let C := (5272105 - 18733 * √74255) / 43661940
  schemeOfSym 2 [⟨.d4_a0, [A], [[nu]]⟩, ⟨.d4_aa, [B, C], [[xi], [eta]]⟩] 7

end Quadpy.FixedE2r

namespace Quadpy.FixedE2r2
open Real

/-- e2r2/_stroud.py:24-29 -/
noncomputable def stroud_4_1 : Scheme := schemeOfSym 2
  [⟨.zero, [1 / 2], [[]]⟩, ⟨.d 5 0, [1 / 10], [[√2]]⟩] 4

/-- e2r2/_stroud.py:32-40 -/
noncomputable def stroud_5_2 : Scheme :=
  let r := √(3 / 2)
  schemeOfSym 2
    [⟨.zero, [4 / 9], [[]]⟩, ⟨.d4_a0, [1 / 9], [[r]]⟩, ⟨.d4_aa, [1 / 36], [[r]]⟩] 5

/-- e2r2/_stroud.py:43-54, where `key` is the first key of the dictionary: "d4_a0" in the code -/
noncomputable def stroud_7_2With (key : SymKey) (degree : ℕ) : Scheme :=
  let r := √((3 + √6) / 2)
  let s := √((3 - √6) / 2)
  let A := (5 - 2 * √6) / 48
  let B := (5 + 2 * √6) / 48
  let C := 1 / 48
  schemeOfSym 2 [⟨key, [A, B], [[r], [s]]⟩, ⟨.d4_ab, [C], [[r, s]]⟩] degree

/-- e2r2/_stroud.py:43-54 -/
noncomputable def stroud_7_2 : Scheme := stroud_7_2With .d4_a0 1

/-- e2r2/_stroud_secrest.py:18-26 (stroud_5_1) -/
noncomputable def stroud_secrest_5 : Scheme :=
  let nu := √2
  let xi := nu / 2
  let eta := √6 / 2
  let A := 1 / 2
  let B := 1 / 12
  schemeOfSym 2 [⟨.zero, [A], [[]]⟩, ⟨.c2_a0, [B], [[nu]]⟩, ⟨.sxy, [B], [[xi, eta]]⟩] 5

/-- e2r2/_stroud_secrest.py:29-37 (stroud_7_1) -/
noncomputable def stroud_secrest_6 : Scheme :=
  let nu := √3
  let xi := √((9 - 3 * √5) / 8)
  let eta := √((9 + 3 * √5) / 8)
  let A := 1 / 36
  let B := (5 + 2 * √5) / 45
  let C := (5 - 2 * √5) / 45
  schemeOfSym 2 [⟨.d4_a0, [A], [[nu]]⟩, ⟨.d4_aa, [B, C], [[xi], [eta]]⟩] 7

end Quadpy.FixedE2r2

namespace Quadpy.FixedE3r
open Real

/-- e3r/_stroud_secrest.py:18-27 -/
noncomputable def stroud_secrest_07 : Scheme :=
  let nu := √(15 - 3 * √5)
  let xi := √(15 + 3 * √5)
  let A := 3 / 5
  let B := 1 / 30
  schemeOfSym 3 [⟨.zero, [A], [[]]⟩, ⟨.symm_rs0_roll, [B], [[xi, nu]]⟩] 5

/-- e3r/_stroud_secrest.py:30-42 -/
noncomputable def stroud_secrest_08 : Scheme :=
  let nu := √30
  let eta := √10
  let A := 3 / 5
  let B := 2 / 75
  let C := 3 / 100
  schemeOfSym 3 [⟨.zero, [A], [[]]⟩, ⟨.symm_r00, [B], [[nu]]⟩, ⟨.symm_rrr, [C], [[eta]]⟩] 5

/-- e3r/_stroud_secrest.py:45-56 -/
noncomputable def stroud_secrest_09 : Scheme :=
  let eta := √10
  let xi := √(15 - 5 * √5)
  let nu := √(15 + 5 * √5)
  let A := 3 / 5
  let B := 1 / 50
  schemeOfSym 3
    [⟨.zero, [A], [[]]⟩, ⟨.symm_rrr, [B], [[eta]]⟩, ⟨.symm_rs0_roll, [B], [[xi, nu]]⟩] 5

/-- e3r/_stroud_secrest.py:59-77 -/
noncomputable def stroud_secrest_10 : Scheme :=
  let nu := √((720 - 24 * √130) / 11)
  let xi := √(288 + 24 * √130)
  let eta := √((-216 + 24 * √130) / 7)
  let A := (5175 - 13 * √130) / 8820
  let B := (3870 + 283 * √130) / 493920
  let C := (3204 - 281 * √130) / 197568
  let D := (4239 + 373 * √130) / 197568
  schemeOfSym 3
    [⟨.zero, [A], [[]]⟩, ⟨.symm_r00, [B], [[nu]]⟩, ⟨.symm_rr0, [C], [[xi]]⟩,
     ⟨.symm_rrr, [D], [[eta]]⟩] 7

/-- e3r/_stroud_secrest.py:80-102 -/
noncomputable def stroud_secrest_11 : Scheme :=
  let nu := √(-50 + 10 * √5 + 10 * √39 - 2 * √195)
  let xi := √(-50 - 10 * √5 + 10 * √39 + 2 * √195)
  let eta := √(36 + 4 * √39)
  let mu := √(54 + 18 * √5 + 6 * √39 + 2 * √195)
  let lmbda := √(54 - 18 * √5 + 6 * √39 - 2 * √195)
  let A := (1725 - 26 * √39) / 2940
  let B := (1065 + 171 * √39) / 54880
  let C := (297 - 47 * √39) / 32928
  schemeOfSym 3
    [⟨.zero, [A], [[]]⟩, ⟨.symm_rrr, [C], [[eta]]⟩,
     ⟨.symm_rs0_roll, [B, C], [[xi, nu], [lmbda, mu]]⟩] 7

end Quadpy.FixedE3r

namespace Quadpy.FixedE3r2
open Real

/-- e3r2/_stroud_secrest.py:18-31 -/
noncomputable def stroud_secrest_07 : Scheme :=
  let nu := √((5 - √5) / 4)
  let xi := √((5 + √5) / 4)
  let A := 2 / 5
  let B := 1 / 20
  schemeOfSym 3 [⟨.zero, [A], [[]]⟩, ⟨.symm_rs0_roll, [B], [[nu, xi]]⟩] 5

/-- e3r2/_stroud_secrest.py:34-41 -/
noncomputable def stroud_secrest_08a : Scheme :=
  let r := √(5 / 4)
  let s := √(5 / 2)
  schemeOfSym 3 [⟨.symm_r00, [4 / 25], [[r]]⟩, ⟨.symm_rrr, [1 / 200], [[s]]⟩] 5

/-- e3r2/_stroud_secrest.py:44-52 -/
noncomputable def stroud_secrest_08b : Scheme :=
  let r := √(5 / 2)
  let s := √(5 / 6)
  schemeOfSym 3
    [⟨.zero, [2 / 5], [[]]⟩, ⟨.symm_r00, [1 / 25], [[r]]⟩, ⟨.symm_rrr, [9 / 200], [[s]]⟩] 5

/-- e3r2/_stroud_secrest.py:55-63 -/
noncomputable def stroud_secrest_09 : Scheme :=
  let r := √((15 - 5 * √5) / 12)
  let s := √((15 + 5 * √5) / 12)
  let t := √(5 / 6)
  schemeOfSym 3
    [⟨.zero, [2 / 5], [[]]⟩, ⟨.symm_rs0_roll, [3 / 100], [[r, s]]⟩,
     ⟨.symm_rrr, [3 / 100], [[t]]⟩] 5

/-- e3r2/_stroud_secrest.py:66-86, with `plus_minus = 1` for 10a and `-1` for 10b (lines 89-94) -/
noncomputable def stroud_secrest_10 (plus_minus : ℝ) : Scheme :=
  let r := √((15 + plus_minus * √15) / 4)
  let s := √((6 - plus_minus * √15) / 2)
  let t := √((9 + plus_minus * 2 * √15) / 2)
  let A := (720 + plus_minus * 8 * √15) / 2205
  let B := (270 - plus_minus * 46 * √15) / 15435
  let C := (162 + plus_minus * 41 * √15) / 6174
  let D := (783 - plus_minus * 202 * √15) / 24696
  schemeOfSym 3
    [⟨.zero, [A], [[]]⟩, ⟨.symm_r00, [B], [[r]]⟩, ⟨.symm_rr0, [C], [[s]]⟩,
     ⟨.symm_rrr, [D], [[t]]⟩] 7

/-- e3r2/_stroud_secrest.py:97-119, with `p_m = 1` for 11a and `-1` for 11b (lines 122-127) -/
noncomputable def stroud_secrest_11 (p_m : ℝ) : Scheme :=
  let r := √((25 + p_m * 15 * √2 + 5 * √5 + p_m * 3 * √10) / 4)
  let s := √((25 + p_m * 15 * √2 - 5 * √5 - p_m * 3 * √10) / 4)
  let t := √((3 - p_m * √2) / 2)
  let u := √((9 - p_m * 3 * √2 - 3 * √5 + p_m * √10) / 4)
  let v := √((9 - p_m * 3 * √2 + 3 * √5 - p_m * √10) / 4)
  let A := (80 + p_m * 8 * √2) / 245
  let B := (395 - p_m * 279 * √2) / 13720
  let C := (45 + p_m * 29 * √2) / 2744
  schemeOfSym 3
    [⟨.zero, [A], [[]]⟩, ⟨.symm_rs0_roll, [B, C], [[r, s], [u, v]]⟩, ⟨.symm_rrr, [C], [[t]]⟩] 7

end Quadpy.FixedE3r2
