import Verif.Model.Cn
import Verif.Model.Symmetries

/-!
# Model of the closed-form rules on the cube, c3

`frac` and `sqrt` are exact here; in the code they are sympy's.
-/

namespace Quadpy.FixedC3
open Real

/-- c3/_albrecht_collatz.py:18-24 -/
noncomputable def albrecht_collatz : Scheme := schemeOfSym 3
  [⟨.zero, [1 / 4], [[]]⟩, ⟨.symm_r00, [1 / 12], [[1]]⟩, ⟨.symm_rr0, [1 / 48], [[1]]⟩] 3

/-- c3/_classical.py:6-8 -/
noncomputable def midpoint : Scheme := schemeOfSym 3 [⟨.zero, [1], [[]]⟩] 1

/-- c3/_classical.py:11-13 -/
noncomputable def vertex : Scheme := schemeOfSym 3 [⟨.symm_rrr, [1 / 8], [[1]]⟩] 1

/-- c3/_classical.py:16-18 (the same rule as hammer_stroud_1_3, c3/_hammer_stroud.py:18-20, and tyler_1,
c3/_tyler.py:17-19) -/
noncomputable def face_midpoint : Scheme := schemeOfSym 3 [⟨.symm_r00, [1 / 6], [[1]]⟩] 3

/-- c3/_hammer_stroud.py:23-30 -/
noncomputable def hammer_stroud_2_3 : Scheme :=
  let alpha := √(3 / 5)
  schemeOfSym 3
    [⟨.zero, [56 / 27 / 8], [[]]⟩, ⟨.symm_r00, [-(20 / 81) / 8], [[alpha]]⟩,
     ⟨.symm_rr0, [50 / 81 / 8], [[alpha]]⟩] 5

/-- c3/_hammer_stroud.py:33-38 -/
noncomputable def hammer_stroud_4_3 : Scheme := schemeOfSym 3
  [⟨.symm_r00, [320 / 361 / 8], [[√(19 / 30)]]⟩, ⟨.symm_rrr, [121 / 361 / 8], [[√(19 / 33)]]⟩] 5

/-- c3/_hammer_stroud.py:41-64, with `i = 1` for 5_3a and `i = -1` for 5_3b (lines 67-72) -/
noncomputable def hammer_stroud_5_3 (i : ℝ) : Scheme :=
  let r2 := (33 - i * √165) / 28
  let s2 := (30 + i * √165) / 35
  let t2 := (195 - i * 4 * √165) / 337
  let B1 := 176 / r2 ^ 3 / 945
  let B2 := 8 / s2 ^ 3 / 135
  let B3 := 8 / t2 ^ 3 / 216
  let B0 := 8 - 6 * B1 - 12 * B2 - 8 * B3
  schemeOfSym 3
    [⟨.zero, [B0 / 8], [[]]⟩, ⟨.symm_r00, [B1 / 8], [[√r2]]⟩, ⟨.symm_rr0, [B2 / 8], [[√s2]]⟩,
     ⟨.symm_rrr, [B3 / 8], [[√t2]]⟩] 7

/-- c3/_mustard_lyness_blatt.py:18-20 -/
noncomputable def mustard_lyness_blatt_1 : Scheme := schemeOfSym 3
  [⟨.zero, [1 / 2], [[]]⟩, ⟨.symm_rr0, [1 / 24], [[1]]⟩] 3

/-- c3/_mustard_lyness_blatt.py:23-29 -/
noncomputable def mustard_lyness_blatt_2 : Scheme := schemeOfSym 3
  [⟨.zero, [2 / 9], [[]]⟩, ⟨.symm_r00, [1 / 9], [[1]]⟩, ⟨.symm_rrr, [1 / 72], [[1]]⟩] 3

/-- c3/_mustard_lyness_blatt.py:32-37 -/
noncomputable def mustard_lyness_blatt_3 : Scheme := schemeOfSym 3
  [⟨.symm_rr0, [1 / 6], [[1]]⟩, ⟨.symm_rrr, [-(1 / 8)], [[1]]⟩] 3

/-- c3/_mustard_lyness_blatt.py:40-46 -/
noncomputable def mustard_lyness_blatt_4 : Scheme := schemeOfSym 3
  [⟨.zero, [-(2 / 45)], [[]]⟩, ⟨.symm_r00, [2 / 45], [[1]]⟩,
   ⟨.symm_rrr, [4 / 45, 1 / 120], [[1 / 2], [1]]⟩] 5

/-- c3/_mustard_lyness_blatt.py:49-55 -/
noncomputable def mustard_lyness_blatt_5 : Scheme := schemeOfSym 3
  [⟨.zero, [-(19 / 15)], [[]]⟩, ⟨.symm_r00, [16 / 45, -(1 / 30)], [[1 / 2], [1]]⟩,
   ⟨.symm_rr0, [1 / 36], [[1]]⟩] 5

/-- c3/_mustard_lyness_blatt.py:58-65 -/
noncomputable def mustard_lyness_blatt_6 : Scheme := schemeOfSym 3
  [⟨.zero, [-(4 / 3)], [[]]⟩, ⟨.symm_r00, [16 / 45], [[1 / 2]]⟩, ⟨.symm_rr0, [1 / 90], [[1]]⟩,
   ⟨.symm_rrr, [1 / 120], [[1]]⟩] 5

/-- c3/_mustard_lyness_blatt.py:68-74 -/
noncomputable def mustard_lyness_blatt_7 : Scheme := schemeOfSym 3
  [⟨.zero, [2 / 45], [[]]⟩, ⟨.symm_rr0, [1 / 45], [[1]]⟩,
   ⟨.symm_rrr, [4 / 45, -1 / 360], [[1 / 2], [1]]⟩] 5

/-- c3/_sadowsky.py:20-26 -/
noncomputable def sadowsky : Scheme := schemeOfSym 3
  [⟨.symm_r00, [91 / 450], [[1]]⟩, ⟨.symm_rr0, [-20 / 225], [[1]]⟩,
   ⟨.symm_rrs, [8 / 225], [[√(5 / 8), 1]]⟩] 5

/-- c3/_stroud_1967.py:20-43.  The points are not symmetric under changes of sign. -/
noncomputable def stroud_1967 : Scheme :=
  let sqrt19 := √19
  let t := √(71440 + 6802 * sqrt19)
  let lmbd := √((1919 - 148 * sqrt19 + 4 * t) / 3285)
  let gmma := √((1919 - 148 * sqrt19 - 4 * t) / 3285)
  let xi := -√((1121 + 74 * sqrt19 - 2 * t) / 3285)
  let mu := √((1121 + 74 * sqrt19 + 2 * t) / 3285)
  let B := 133225 / (260072 - 1520 * sqrt19 + (133 - 37 * sqrt19) * t)
  let C := 133225 / (260072 - 1520 * sqrt19 - (133 - 37 * sqrt19) * t)
  schemeOfSym 3
    [⟨.zero, [32 / 19 / 8], [[]]⟩, ⟨.symm_rss_pm, [B / 8, C / 8], [[lmbd, xi], [gmma, mu]]⟩] 5

/-- c3/_tyler.py:22-28 -/
noncomputable def tyler_2 : Scheme := schemeOfSym 3
  [⟨.zero, [-(62 / 45)], [[]]⟩, ⟨.symm_r00, [16 / 45, 1 / 45], [[1 / 2], [1]]⟩,
   ⟨.symm_rrr, [1 / 72], [[1]]⟩] 5

/-- c3/_stroud.py:33-36 -/
noncomputable def stroud_c3_3_2 : Scheme := schemeOfSym 3 [⟨.symm_rrr, [1 / 8], [[√(1 / 3)]]⟩] 3

end Quadpy.FixedC3
