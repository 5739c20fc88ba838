import Verif.Model.Cn
import Verif.Model.Symmetries

/-!
# Model of the closed-form rules on the square, c2

`frac` and `sqrt` are exact here; in the code they are sympy's.
-/

namespace Quadpy.FixedC2
open Real

/-- c2/_albrecht_collatz.py:19-25 -/
noncomputable def albrecht_collatz_1 : Scheme := schemeOfSym 2
  [⟨.zero, [5 / 12], [[]]⟩, ⟨.d4_a0, [1 / 8], [[1]]⟩, ⟨.d4_aa, [1 / 48], [[1]]⟩] 3

/-- c2/_albrecht_collatz.py:28-37 -/
noncomputable def albrecht_collatz_2 : Scheme :=
  let r := √(3 / 5)
  let s := √(1 / 3)
  let t := √(14 / 15)
  schemeOfSym 2 [⟨.zero, [2 / 7], [[]]⟩, ⟨.c2, [5 / 63], [[0, t]]⟩, ⟨.sxy, [5 / 36], [[r, s]]⟩] 5

/-- c2/_albrecht_collatz.py:40-47 -/
noncomputable def albrecht_collatz_3 : Scheme :=
  let r := √(7 / 15)
  let s := √((7 + √24) / 15)
  let t := √((7 - √24) / 15)
  schemeOfSym 2
    [⟨.zero, [2 / 7], [[]]⟩,
     ⟨.c2, [25 / 168, 5 / 48, 5 / 48], [[r, r], [s, -t], [t, -s]]⟩] 5

/-- c2/_albrecht_collatz.py:50-56 -/
noncomputable def albrecht_collatz_4 : Scheme := schemeOfSym 2
  [⟨.zero, [2 / 45], [[]]⟩, ⟨.d4_a0, [2 / 45], [[1]]⟩, ⟨.d4_aa, [1 / 60, 8 / 45], [[1], [1 / 2]]⟩] 5

/-- c2/_burnside.py:17-22; the same rule as dunavant_02, c2/_dunavant/__init__.py:35-40 -/
noncomputable def burnside : Scheme := schemeOfSym 2
  [⟨.d4_a0, [10 / 49], [[√(7 / 15)]]⟩, ⟨.d4_aa, [9 / 196], [[√(7 / 9)]]⟩] 5

/-- c2/_cohen_gismalla.py:20-25 -/
noncomputable def cohen_gismalla_1 : Scheme :=
  let B := 5 / 28
  let u := √((1 / 3 + √(2 / 63)) / (5 / 7))
  let v := √((1 / 3 - √(2 / 63)) / (5 / 7))
  schemeOfSym 2 [⟨.zero, [2 / 7], [[]]⟩, ⟨.c2, [B, B], [[u, -v], [v, u]]⟩] 3

/-- c2/_dunavant/__init__.py:25-27 -/
noncomputable def dunavant_00 : Scheme := schemeOfSym 2 [⟨.zero, [1], [[]]⟩] 1

/-- c2/_hammer_stroud.py:18-20 -/
noncomputable def hammer_stroud_1_2 : Scheme := schemeOfSym 2 [⟨.d4_a0, [1 / 4], [[√(2 / 3)]]⟩] 3

/-- c2/_hammer_stroud.py:23-30; the same rule as stroud_c2_5_4, c2/_stroud.py:59-66 -/
noncomputable def hammer_stroud_2_2 : Scheme :=
  let alpha := √(3 / 5)
  schemeOfSym 2
    [⟨.zero, [16 / 81], [[]]⟩, ⟨.d4_a0, [10 / 81], [[alpha]]⟩, ⟨.d4_aa, [25 / (4 * 81)], [[alpha]]⟩] 5

/-- c2/_irwin.py:16-18 -/
noncomputable def irwin_1 : Scheme := schemeOfSym 2
  [⟨.d4_aa, [14 / 48], [[1]]⟩, ⟨.d4_ab, [-(1 / 48)], [[3, 1]]⟩] 3

/-- c2/_irwin.py:21-26 -/
noncomputable def irwin_2 : Scheme := schemeOfSym 2
  [⟨.d4_aa, [889 / 2880, 5 / 2880], [[1], [3]]⟩,
   ⟨.d4_ab, [-(98 / 2880), 11 / 2880], [[3, 1], [5, 1]]⟩] 5

/-- c2/_maxwell.py:18-28 -/
noncomputable def maxwell : Scheme :=
  let r := √(12 / 35)
  let s := √((93 + 3 * √186) / 155)
  let t := √((93 - 3 * √186) / 155)
  schemeOfSym 2
    [⟨.zero, [1 / 81], [[]]⟩, ⟨.d4_a0, [49 / 324], [[r]]⟩, ⟨.d4_ab, [31 / 648], [[s, t]]⟩] 7

/-- c2/_meister.py:17-28 -/
noncomputable def meister : Scheme :=
  let r : ℝ := 2 / 3
  let s : ℝ := 1 / 3
  schemeOfSym 2
    [⟨.zero, [1024 / 6720], [[]]⟩,
     ⟨.d4_aa, [576 / 6720, -(9 / 6720), 47 / 6720], [[r], [s], [1]]⟩,
     ⟨.d4_a0, [576 / 6720], [[r]]⟩, ⟨.d4_ab, [117 / 6720], [[1, s]]⟩] 7

/-- c2/_miller.py:18-25 -/
noncomputable def miller : Scheme := schemeOfSym 2
  [⟨.zero, [250 / 225], [[]]⟩, ⟨.d4_a0, [-(8 / 225)], [[1]]⟩, ⟨.d4_aa, [7 / 900], [[1]]⟩] 1

/-- c2/_phillips.py:20-32 -/
noncomputable def phillips : Scheme :=
  let c := 3 * √385
  let r := √((105 + c) / 140)
  let s := √((105 - c) / 140)
  let t := √(3 / 5)
  let B1 := (77 - c) / 891
  let B2 := (77 + c) / 891
  let B3 := 25 / 324
  schemeOfSym 2 [⟨.d4_a0, [B1, B2], [[r], [s]]⟩, ⟨.d4_aa, [B3], [[t]]⟩] 7

/-- c2/_stroud.py:40-43 -/
noncomputable def stroud_c2_1_1 : Scheme := schemeOfSym 2 [⟨.d4_aa, [1 / 4], [[1]]⟩] 1

/-- c2/_stroud.py:46-49; the same rule as dunavant_01, c2/_dunavant/__init__.py:30-32 -/
noncomputable def stroud_c2_3_1 : Scheme := schemeOfSym 2 [⟨.d4_aa, [1 / 4], [[√(1 / 3)]]⟩] 3

/-- c2/_stroud.py:69-82.  `r` is the value used in the data: the code computes
`r, s = sqrt((15 -+ 2 sqrt(30)) / 35)` on line 71 and then overwrites `r` on line 76. -/
noncomputable def stroudC274 (r : ℝ) (deg : ℕ) : Scheme :=
  let s := √((15 + 2 * √30) / 35)
  let B1 := (59 + 6 * √30) / 864
  let B2 := (59 - 6 * √30) / 864
  let B3 := 49 / 864
  schemeOfSym 2 [⟨.d4_aa, [B1, B2], [[r], [s]]⟩, ⟨.d4_ab, [B3], [[r, s]]⟩] deg

/-- c2/_stroud.py:69-82, with the overwritten `r`. -/
noncomputable def stroud_c2_7_4 : Scheme := stroudC274 √(3 / 5) 1

/-- c2/_tyler.py:17-23 -/
noncomputable def tyler_1 : Scheme := schemeOfSym 2
  [⟨.zero, [-(28 / 45)], [[]]⟩, ⟨.d4_aa, [1 / 36], [[1]]⟩,
   ⟨.d4_a0, [1 / 45, 16 / 45], [[1], [1 / 2]]⟩] 5

/-- c2/_tyler.py:26-32; franke_5 (c2/_franke.py:149-151) and dunavant_03
(c2/_dunavant/__init__.py:9) return it -/
noncomputable def tyler_2 : Scheme :=
  let r := √(6 / 7)
  let s := √((114 - 3 * √583) / 287)
  let t := √((114 + 3 * √583) / 287)
  let B1 := 49 / 810
  let B2 := (178981 + 2769 * √583) / 1888920
  let B3 := (178981 - 2769 * √583) / 1888920
  schemeOfSym 2 [⟨.d4_a0, [B1], [[r]]⟩, ⟨.d4_aa, [B2, B3], [[s], [t]]⟩] 7

/-- c2/_tyler.py:35-45 -/
noncomputable def tyler_3 : Scheme := schemeOfSym 2
  [⟨.zero, [449 / 315], [[]]⟩,
   ⟨.d4_a0, [37 / 1260, 3 / 28, -(69 / 140)], [[1], [2 / 3], [1 / 3]]⟩,
   ⟨.d4_aa, [7 / 540, 32 / 135], [[1], [1 / 2]]⟩] 7

/-- c2/_franke.py:154-166 -/
noncomputable def franke_6 : Scheme :=
  let a := √(3 / 2)
  let b := √(3 / 7 * (1 + √(10 / 31)))
  let c := √(3 / 7 * (1 - √(10 / 31)))
  schemeOfSym 2
    [⟨.zero, [392 / 405 / 4], [[]]⟩, ⟨.d4_aa, [16 / 2025 / 4], [[a]]⟩,
     ⟨.d4_ab, [1519 / 4050 / 4], [[b, c]]⟩] 7

end Quadpy.FixedC2
