import Verif.Model.Cn
import Verif.Model.Symmetries
import Verif.Model.LowDim

/-!
# Model of further closed-form rules on squares, cubes, triangles and tetrahedra
-/

namespace Quadpy.FixedMore
open LowDim

/-- The intermediate values of c2/_cohen_gismalla.py:29-54. The code has `k = 2`: the denominator in
`g1 = alpha / B / 2`, `h1 = beta / C / 2`. -/
structure CG where
  X : ℝ
  Y : ℝ
  alpha : ℝ
  beta : ℝ
  B : ℝ
  C : ℝ
  A : ℝ
  g1 : ℝ
  g2 : ℝ
  h1 : ℝ
  h2 : ℝ

/-- c2/_cohen_gismalla.py:31-47 -/
noncomputable def cgOf (k : ℝ) : CG :=
  let X : ℝ := 0.3850907
  let Y := (24 / 35 - 28 / 45 * X) / (28 / 45 - 2 / 3 * X)
  let alpha := (2 / 3 * Y - 28 / 45) / (Y - X)
  let beta := (28 / 45 - 2 / 3 * X) / (Y - X)
  let B := alpha / X / 4
  let C := beta / Y / 4
  let A := 1 - 4 * B - 4 * C
  let g1 := alpha / B / k
  let g2 := X * (Y / 9 - 2 / 15) / (Y - X) / alpha
  let h1 := beta / C / k
  let h2 := Y * (2 / 15 - X / 9) / (Y - X) / beta
  ⟨X, Y, alpha, beta, B, C, A, g1, g2, h1, h2⟩

/-- c2/_cohen_gismalla.py:42-43 `u` -/
noncomputable def CG.u (d : CG) : ℝ := √(d.g1 + √(d.g1 ^ 2 - d.g2))
/-- c2/_cohen_gismalla.py:42-43 `v` -/
noncomputable def CG.v (d : CG) : ℝ := √(d.g1 - √(d.g1 ^ 2 - d.g2))
/-- c2/_cohen_gismalla.py:47 `r` -/
noncomputable def CG.r (d : CG) : ℝ := √(d.h1 - √(d.h1 ^ 2 - d.h2))
/-- c2/_cohen_gismalla.py:48 `s` -/
noncomputable def CG.s (d : CG) : ℝ := √(d.h1 + √(d.h1 ^ 2 - d.h2))

/-- c2/_cohen_gismalla.py:29-54 -/
noncomputable def cohen_gismalla_2 : Scheme :=
  let d := cgOf 2
  schemeOfSym 2 [⟨.zero, [d.A], [[]]⟩,
    ⟨.c2, [d.B, d.B, d.C, d.C], [[d.u, -d.v], [d.v, d.u], [d.r, -d.s], [d.r, d.s]]⟩] 1

/-- c2/_schmid/__init__.py:24-32 -/
noncomputable def schmid_2 : Scheme :=
  schemeOfSym 2 [⟨.plain, [1 / 4, 1 / 4, 1 / 2],
    [[-√(1 / 3), √(2 / 3)], [-√(1 / 3), -√(2 / 3)], [√(1 / 3), 0]]⟩] 2

/-- c2/_schmid/__init__.py:35-57 -/
noncomputable def schmid_4 : Scheme :=
  schemeOfSym 2 [⟨.plain, [2 / 9 - 2 * √5 / 45, 2 / 9 + 2 * √5 / 45, 5 / 36 + 5 * √29 / 18 / 29,
      5 / 36 + 5 * √29 / 18 / 29, 5 / 36 - 5 * √29 / 18 / 29, 5 / 36 - 5 * √29 / 18 / 29],
    [[0, (√3 + √15) / 6], [0, (√3 - √15) / 6], [√15 / 5, (√87 - 2 * √3) / 15],
      [-√15 / 5, (√87 - 2 * √3) / 15], [√15 / 5, (-√87 - 2 * √3) / 15],
      [-√15 / 5, (-√87 - 2 * √3) / 15]]⟩] 4

/-- c3/_sarma_stroud.py:18-24 -/
noncomputable def sarma_stroud : Option Scheme := hammer_wymore 1.0329785305

/-- t2/_dunavant/__init__.py:23-25 -/
noncomputable def dunavant_01 : Scheme := schemeOfSym 2 [⟨.centroid, [1], [[]]⟩] 1
/-- t2/_dunavant/__init__.py:28-30 -/
noncomputable def dunavant_02 : Scheme := schemeOfSym 2 [⟨.d3_aa, [1 / 3], [[1 / 6]]⟩] 2
/-- t2/_dunavant/__init__.py:33-35 -/
noncomputable def dunavant_03 : Scheme :=
  schemeOfSym 2 [⟨.centroid, [-(9 / 16)], [[]]⟩, ⟨.d3_aa, [25 / 48], [[1 / 5]]⟩] 3
/-- t2/_laursen_gellert/__init__.py:26-28 -/
noncomputable def laursen_gellert_02a : Scheme := schemeOfSym 2 [⟨.d3_aa, [1 / 3], [[1 / 6]]⟩] 2
/-- t2/_laursen_gellert/__init__.py:31-33 -/
noncomputable def laursen_gellert_02b : Scheme := schemeOfSym 2 [⟨.d3_aa, [1 / 3], [[1 / 2]]⟩] 2
/-- t2/_taylor_wingate_bos/__init__.py:23-25 -/
noncomputable def taylor_wingate_bos_1 : Scheme := schemeOfSym 2 [⟨.d3_aa, [1 / 3], [[1 / 6]]⟩] 2
/-- t2/_williams_shunn_jameson/__init__.py:21-23 -/
noncomputable def williams_shunn_jameson_1 : Scheme := schemeOfSym 2 [⟨.centroid, [1], [[]]⟩] 1
/-- t2/_williams_shunn_jameson/__init__.py:26-28 -/
noncomputable def williams_shunn_jameson_2 : Scheme := schemeOfSym 2 [⟨.d3_aa, [1 / 3], [[1 / 6]]⟩] 2

/-- t3/_witherden_vincent/__init__.py:24-27 -/
noncomputable def witherden_vincent_01 : Scheme := schemeOfSym 3 [⟨.s4, [1], [[]]⟩] 1
/-- t3/_witherden_vincent/__init__.py:30-33 -/
noncomputable def witherden_vincent_02 : Scheme :=
  schemeOfSym 3 [⟨.s31, [1 / 4], [[1 / 4 - √5 / 20]]⟩] 2
/-- t3/_yu/__init__.py:22-25 -/
noncomputable def yu_2 : Scheme := schemeOfSym 3 [⟨.s31, [1 / 4], [[1 / 4 - √5 * (1 / 20)]]⟩] 2
/-- t3/_yu/__init__.py:28-31 -/
noncomputable def yu_3 : Scheme := schemeOfSym 3 [⟨.s4, [-(4 / 5)], [[]]⟩, ⟨.s31, [9 / 20], [[1 / 6]]⟩] 3

end Quadpy.FixedMore
