/-
Model of quadpy/enr2/_stroud_1967_5.py and quadpy/sn/_stroud_1967_5.py: rules of Stroud with
tabulated decimal numbers.  A float literal is the real number it denotes, and so are the quotients
and the square root in the tables.  `none` models the AssertionError of a dimension without data (and
the one of `rd`, which does not happen for the dimensions in the tables).
-/
import Verif.Model.Cn

namespace Quadpy

/-- The numbers of one dimension; `gamma` is not used for `n = 2`. -/
structure Stroud67 where
  eta : ℝ
  lmbda : ℝ
  xi : ℝ
  mu : ℝ
  gamma : ℝ
  A : ℝ
  B : ℝ
  C : ℝ

namespace Enr2

/-- enr2/_stroud_1967_5.py:80-101 and 144-161.  The branch `n == 2` occurs in the first function only,
the table of the second has no entry for `n = 2`.  For `n == 7` the first function has no table and the
second one writes `0.0` for `eta`, which is `0` in the table. -/
noncomputable def stroud1967_5 (n : ℕ) (t : Stroud67) : Option Scheme := do
  let g1 ← rd n [(t.lmbda, 1), (t.xi, n - 1)]
  let g2 ← rd n [(-t.lmbda, 1), (-t.xi, n - 1)]
  let g3 ← if n = 2 then some [[t.mu, t.mu]] else rd n [(t.mu, 2), (t.gamma, n - 2)]
  let g4 ← if n = 2 then some [[-t.mu, -t.mu]] else rd n [(-t.mu, 2), (-t.gamma, n - 2)]
  return schemeOf n ([(t.B, g1), (t.B, g2), (t.C, g3), (t.C, g4)] ++
    if n = 7 then [(2 * t.A, [List.replicate n t.eta])]
    else [(t.A, [List.replicate n t.eta]), (t.A, [List.replicate n (-t.eta)])]) 5

/-- The tables of enr2/_stroud_1967_5.py:22-79. -/
noncomputable def stroud1967_5aTab : ℕ → Option Stroud67
  | 2 => some ⟨0.446103183094540, 0.136602540378444e1, -0.366025403784439, 0.198167882945871e1, 0,
      0.328774019778636, 1 / 12, 0.455931355469736e-2⟩
  | 3 => some ⟨0.476731294622796, 0.935429018879534, -0.731237647787132, 0.433155309477649,
      0.266922328697744e1, 121 / 500, 81 / 1000, 1 / 200⟩
  | 4 => some ⟨0.523945658287507, 0.119433782552719e1, -0.398112608509063, -0.318569372920112,
      0.185675837424096e1, 0.155502116982037, 0.777510584910183e-1, 0.558227484231506e-2⟩
  | 5 => some ⟨0.214972564378798e1, 0.464252986016289e1, -0.623201054093728, -0.447108700673434,
      0.812171426076331, 0.487749259189752e-3, 0.487749259189752e-3, 0.497073504444862e-1⟩
  | 6 => some ⟨1, √2, 0, -1, 1, 1 / 128, 1 / 16, 1 / 128⟩
  | _ => none

/-- enr2/_stroud_1967_5.py:21-101 `stroud_1967_5_a(n)`. -/
noncomputable def stroud1967_5a (n : ℕ) : Option Scheme := (stroud1967_5aTab n).bind (stroud1967_5 n)

/-- The tables of enr2/_stroud_1967_5.py:105-142. -/
noncomputable def stroud1967_5bTab : ℕ → Option Stroud67
  | 3 => some ⟨0.476731294622796, 0.128679320334269e1, -0.379873463323979, -0.192386729447751e1,
      0.312200683022281, 0.242, 0.81e-1, 0.5e-2⟩
  | 5 => some ⟨0.615369528365158, 0.132894698387445e1, -0.178394363877324, -0.745963266507289,
      0.135503972310817e1, 0.726415024414905e-1, 0.726415024414905e-1, 0.641509853510569e-2⟩
  | 6 => some ⟨1, 0.942809041582063, -0.471404520791032, -5 / 3, 1 / 3, 1 / 128, 1 / 16, 1 / 128⟩
  | 7 => some ⟨0, 0.959724318748357, -0.772326488820521, -0.141214270131942e1, 0.319908106249452, 1
      / 9, 1 / 72, 1 / 72⟩
  | _ => none

/-- enr2/_stroud_1967_5.py:104-161 `stroud_1967_5_b(n)`. -/
noncomputable def stroud1967_5b (n : ℕ) : Option Scheme := (stroud1967_5bTab n).bind (stroud1967_5 n)

end Enr2

namespace Sn

/-- sn/_stroud_1967_5.py:57-71 and 112-126.  For `n == 7` the code writes `0.0` for `eta`, which is `0.0`
in the tables. -/
noncomputable def stroud1967_5 (n : ℕ) (t : Stroud67) : Scheme :=
  schemeOf n ([(t.B, combine [([t.lmbda], 1), ([t.xi], n - 1)]),
    (t.B, combine [([-t.lmbda], 1), ([-t.xi], n - 1)]),
    (t.C, combine [([t.mu], 2), ([t.gamma], n - 2)]),
    (t.C, combine [([-t.mu], 2), ([-t.gamma], n - 2)])] ++
    if n = 7 then [(t.A, [List.replicate n t.eta])]
    else [(t.A, [List.replicate n t.eta]), (t.A, [List.replicate n (-t.eta)])]) 5

/-- The tables of sn/_stroud_1967_5.py:20-56. -/
noncomputable def stroud1967_5aTab : ℕ → Option Stroud67
  | 4 => some ⟨0.118301270189222e1, 0.889256950212571, -0.296418983404190, -0.531672220881311,
      0.912205316291852e-1, 0.498588678642297e-3, 0.210826276726545e-1, 0.691951501051233e-1⟩
  | 5 => some ⟨1.0 / 3.0, 0.586530598075514, -0.229965982852212, -0.689897948556636,
      0.126598632371090, 0.535714285714286e-1, 0.535714285714286e-1, 0.178571428571429e-1⟩
  | 6 => some ⟨0.395842806007865, 0.495664045946913, -0.247832022973456, -0.659738010013108,
      0.131947602002622, 0.159099570971686e-1, 0.409067810742171e-1, 0.159099570971686e-1⟩
  | 7 => some ⟨0.0, 0.409227824522100, -0.329321121353897, -0.602139671035296, 0.136409274840700,
      0.493827160493827e-1, 0.169753086419753e-1, 0.169753086419753e-1⟩
  | _ => none

/-- sn/_stroud_1967_5.py:19-71 `stroud_1967_5_a(n)`. -/
noncomputable def stroud1967_5a (n : ℕ) : Option Scheme := (stroud1967_5aTab n).map (stroud1967_5 n)

/-- The tables of sn/_stroud_1967_5.py:75-111. -/
noncomputable def stroud1967_5bTab : ℕ → Option Stroud67
  | 4 => some ⟨0.316987298107781, 0.660677533878188, -0.220225844626063, -0.715618729879241,
      0.122780763070861, 0.967236335435799e-1, 0.691951501051233e-1, 0.210826276726545e-1⟩
  | 5 => some ⟨1.0 / 3.0, 0.719863931408848, -0.966326495188785e-1, -0.289897948556636,
      0.526598632371090, 0.535714285714286e-1, 0.535714285714286e-1, 0.178571428571429e-1⟩
  | 6 => some ⟨0.395842806007865, 0.743496068920369, 0.0, -0.395842806007865, 0.395842806007865,
      0.159099570971686e-1, 0.409067810742171e-1, 0.159099570971686e-1⟩
  | 7 => some ⟨0.0, 0.856856082693894, 0.118307136817898, -0.452930251644698, 0.285618694231298,
      0.493827160493827e-1, 0.169753086419753e-1, 0.169753086419753e-1⟩
  | _ => none

/-- sn/_stroud_1967_5.py:74-126 `stroud_1967_5_b(n)`. -/
noncomputable def stroud1967_5b (n : ℕ) : Option Scheme := (stroud1967_5bTab n).map (stroud1967_5 n)

end Sn

end Quadpy
