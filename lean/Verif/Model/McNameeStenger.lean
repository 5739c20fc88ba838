/-
Model of cn/_mcnamee_stenger.py:21-252, the McNamee-Stenger rules of degree 3, 5, 7 and 9, and of
the cube's `integrator` (256-266).  The rules are generic in the domain: `I k` is the integral of the monomial with the exponents `k` followed by
zeros, i.e. `integrator(n, k, symbolic)` of the code.
-/
import Verif.Model.Cn

namespace Quadpy
namespace McNameeStenger
open Real

/-- cn/_mcnamee_stenger.py:21-41. -/
noncomputable def ms3 (n : ℕ) (I : List ℕ → ℝ) : Option Scheme := do
  let I0 := I []
  let I2 := I [2]
  let u2 := I2 / I0
  let A1 := I2 / (2 * u2)
  let A0 := (1 - n) * I0
  let u ← sqrtO u2
  let g ← fsd n [(u, 1)]
  return schemeOf n [(A0 / I0, z n), (A1 / I0, g)] 3

/-- cn/_mcnamee_stenger.py:44-69. -/
noncomputable def ms5 (n : ℕ) (I : List ℕ → ℝ) : Option Scheme := do
  guard (2 ≤ n)
  let I0 := I []
  let I2 := I [2]
  let I4 := I [4]
  let I22 := I [2, 2]
  let u ← sqrtO (I4 / I2)
  let A0 := I0 - n * (I2 / I4) ^ 2 * (I4 - (n - 1) / 2 * I22)
  let A1 := 1 / 2 * (I2 / I4) ^ 2 * (I4 - (n - 1) * I22)
  let A11 := 1 / 4 * (I2 / I4) ^ 2 * I22
  let g1 ← fsd n [(u, 1)]
  let g11 ← fsd n [(u, 2)]
  let pw := untangle [(A0, z n), (A1, g1), (A11, g11)]
  return ⟨n, pw.2.map (· / I0), pw.1, 5⟩

/-- The numbers `A0, A1, …` of `_mcnamee_stenger_7`. -/
structure W7 where
  A111 : ℝ
  A11 : ℝ
  A22 : ℝ
  A1 : ℝ
  A2 : ℝ
  A0 : ℝ

/-- cn/_mcnamee_stenger.py:93-126. -/
noncomputable def w7 (n : ℕ) (I : List ℕ → ℝ) (u2 v2 : ℝ) : W7 :=
  let I0 := I []
  let I2 := I [2]
  let I4 := I [4]
  let I22 := I [2, 2]
  let I24 := I [2, 4]
  let I222 := I [2, 2, 2]
  let u4 := u2 ^ 2
  let u6 := u2 ^ 3
  let v4 := v2 ^ 2
  let v6 := v2 ^ 3
  let A111 := I222 / (2 * u2) ^ 3
  let det := u4 * v6 - v4 * u6
  let vec0 := I22 - 2 ^ 3 * (n - 2) * u4 * A111
  let vec1 := I24 - 2 ^ 3 * (n - 2) * u6 * A111
  let A11 := 1 / 2 ^ 2 * (v6 / det * vec0 + -v4 / det * vec1)
  let A22 := 1 / 2 ^ 2 * (-u6 / det * vec0 + u4 / det * vec1)
  let det' := u2 * v4 - v2 * u4
  let vec0' := I2 - 2 ^ 3 * ((n - 1).choose 2) * u2 * A111
  let vec1' := I4 - 2 ^ 3 * ((n - 1).choose 2) * u4 * A111
  let A1 := -2 * (n - 1) * A11 + 1 / 2 * (v4 / det' * vec0' + -v2 / det' * vec1')
  let A2 := -2 * (n - 1) * A22 + 1 / 2 * (-u4 / det' * vec0' + u2 / det' * vec1')
  let A0 := I0 - 2 * n * (A1 + A2) - 2 ^ 2 * (n.choose 2) * (A11 + A22) -
    2 ^ 3 * (n.choose 3) * A111
  ⟨A111, A11, A22, A1, A2, A0⟩

/-- cn/_mcnamee_stenger.py:128-145, the rule for given `u²`, `v²`. -/
noncomputable def ms7Of (n : ℕ) (I : List ℕ → ℝ) (u2 v2 : ℝ) : Option Scheme := do
  let A := w7 n I u2 v2
  let u ← sqrtO u2
  let v ← sqrtO v2
  let g1 ← fsd n [(u, 1)]
  let g2 ← fsd n [(v, 1)]
  let g11 ← fsd n [(u, 2)]
  let g22 ← fsd n [(v, 2)]
  let g111 ← fsd n [(u, 3)]
  let pw := untangle [(A.A0, z n), (A.A1, g1), (A.A2, g2), (A.A11, g11), (A.A22, g22),
    (A.A111, g111)]
  return ⟨n, pw.2.map (· / I []), pw.1, 7⟩

/-- cn/_mcnamee_stenger.py:72-145; the lines 93-126 are `w7`. -/
noncomputable def ms7 (n : ℕ) (I : List ℕ → ℝ) (switchUV : Bool) : Option Scheme := do
  guard (3 ≤ n)
  let a := I [2] ^ 2 - I [] * I [4]
  let b := I [2] * I [4] - I [] * I [6]
  let c := I [4] ^ 2 - I [2] * I [6]
  let q ← sqrtO (b ^ 2 - 4 * a * c)
  let u2 := if switchUV then (b - q) / (2 * a) else (b + q) / (2 * a)
  let v2 := if switchUV then (b + q) / (2 * a) else (b - q) / (2 * a)
  ms7Of n I u2 v2

/-- The numbers `A0, A1, …` of `_mcnamee_stenger_9`. -/
structure W9 where
  A1111 : ℝ
  A111 : ℝ
  A222 : ℝ
  A12 : ℝ
  A11 : ℝ
  A22 : ℝ
  A1 : ℝ
  A2 : ℝ
  A0 : ℝ

/-- cn/_mcnamee_stenger.py:176-230. -/
noncomputable def w9 (n : ℕ) (I : List ℕ → ℝ) (u2 v2 : ℝ) : W9 :=
  let I0 := I []
  let I2 := I [2]
  let I4 := I [4]
  let I24 := I [2, 4]
  let I26 := I [2, 6]
  let I44 := I [4, 4]
  let I222 := I [2, 2, 2]
  let I224 := I [2, 2, 4]
  let I2222 := I [2, 2, 2, 2]
  let u4 := u2 ^ 2
  let u6 := u2 ^ 3
  let u8 := u2 ^ 4
  let v4 := v2 ^ 2
  let v6 := v2 ^ 3
  let v8 := v2 ^ 4
  let A1111 := I2222 / (2 * u2) ^ 4
  let det := u6 * v8 - v6 * u8
  let vec0 := I222 - 2 ^ 4 * (n - 3) * u6 * A1111
  let vec1 := I224 - 2 ^ 4 * (n - 3) * u8 * A1111
  let A111 := 1 / 2 ^ 3 * (v8 / det * vec0 + -v6 / det * vec1)
  let A222 := 1 / 2 ^ 3 * (-u8 / det * vec0 + u6 / det * vec1)
  let A12 := (I26 - I44) / (2 ^ 2 * u2 * v2 * (u2 - v2) ^ 2)
  let vec0' := I24 - 2 ^ 2 * (u4 * v2 + u2 * v4) * A12 - 2 ^ 4 * ((n - 2).choose 2) * u6 * A1111
  let vec1' := I26 - 2 ^ 2 * (u6 * v2 + u2 * v6) * A12 - 2 ^ 4 * ((n - 2).choose 2) * u8 * A1111
  let A11 := -2 * (n - 2) * A111 + 1 / 4 * (v8 / det * vec0' + -v6 / det * vec1')
  let A22 := -2 * (n - 2) * A222 + 1 / 4 * (-u8 / det * vec0' + u6 / det * vec1')
  let det' := u2 * v4 - v2 * u4
  let vec0'' := I2 - 2 ^ 4 * ((n - 1).choose 3) * u2 * A1111
  let vec1'' := I4 - 2 ^ 4 * ((n - 1).choose 3) * u4 * A1111
  let A1 := -2 * (n - 1) * (A11 + A12) - 2 ^ 2 * ((n - 1).choose 2) * A111 +
    1 / 2 * (v4 / det' * vec0'' + -v2 / det' * vec1'')
  let A2 := -2 * (n - 1) * (A22 + A12) - 2 ^ 2 * ((n - 1).choose 2) * A222 +
    1 / 2 * (-u4 / det' * vec0'' + u2 / det' * vec1'')
  let A0 := I0 - 2 * n * (A1 + A2) - 2 ^ 2 * (n.choose 2) * (A11 + 2 * A12 + A22) -
    2 ^ 3 * (n.choose 3) * (A111 + A222) - 2 ^ 4 * (n.choose 4) * A1111
  ⟨A1111, A111, A222, A12, A11, A22, A1, A2, A0⟩

/-- cn/_mcnamee_stenger.py:232-252, the rule for given `u²`, `v²`. -/
noncomputable def ms9Of (n : ℕ) (I : List ℕ → ℝ) (u2 v2 : ℝ) : Option Scheme := do
  let A := w9 n I u2 v2
  let u ← sqrtO u2
  let v ← sqrtO v2
  let g1 ← fsd n [(u, 1)]
  let g2 ← fsd n [(v, 1)]
  let g11 ← fsd n [(u, 2)]
  let g12 ← fsd n [(u, 1), (v, 1)]
  let g22 ← fsd n [(v, 2)]
  let g111 ← fsd n [(u, 3)]
  let g222 ← fsd n [(v, 3)]
  let g1111 ← fsd n [(u, 4)]
  let pw := untangle [(A.A0, z n), (A.A1, g1), (A.A2, g2), (A.A11, g11), (A.A12, g12),
    (A.A22, g22), (A.A111, g111), (A.A222, g222), (A.A1111, g1111)]
  return ⟨n, pw.2.map (· / I []), pw.1, 9⟩

/-- cn/_mcnamee_stenger.py:148-252; the lines 176-230 are `w9`. -/
noncomputable def ms9 (n : ℕ) (I : List ℕ → ℝ) (switchUV : Bool) : Option Scheme := do
  guard (4 ≤ n)
  let a := I [4] ^ 2 - I [2] * I [6]
  let b := I [4] * I [6] - I [2] * I [8]
  let c := I [6] ^ 2 - I [4] * I [8]
  let q ← sqrtO (b ^ 2 - 4 * a * c)
  let u2 := if switchUV then (b - q) / (2 * a) else (b + q) / (2 * a)
  let v2 := if switchUV then (b + q) / (2 * a) else (b - q) / (2 * a)
  ms9Of n I u2 v2

/-- cn/_mcnamee_stenger.py:256-266, `integrator` of the cube. -/
noncomputable def cubeIntegrator (n : ℕ) (k : List ℕ) : ℝ :=
  if k.any (· % 2 == 1) then 0 else 2 ^ n / ((k.map (· + 1)).prod : ℕ)

end McNameeStenger
end Quadpy
