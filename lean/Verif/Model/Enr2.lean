/-
Model of the schemes for `exp(-|x|^2)`, quadpy/enr2/*.py.  Not modelled: the tables of decimal
numbers in _stenger.py and _stroud_1967_5.py.
-/
import Verif.Model.Enr
import Mathlib.Analysis.SpecialFunctions.Gamma.Basic

namespace Quadpy
namespace Enr2
open Real

/-- enr2/_stroud_secrest.py:20-28. -/
noncomputable def stroudSecrest1 (n : ℕ) : Scheme :=
  schemeOf n [(1 / (n + 1), (secrestSimplex n).map (Un.smulRow (√(1 / 2))))] 2

/-- enr2/_stroud_secrest.py:31-36. -/
noncomputable def stroudSecrest2 (n : ℕ) : Option Scheme := do
  let nu := √((n : ℝ) / 2)
  let g ← fsd n [(nu, 1)]
  return schemeOf n [(1 / (2 * n), g)] 3

/-- enr2/_stroud_secrest.py:39-44. -/
noncomputable def stroudSecrest3 (n : ℕ) : Scheme :=
  let nu := √(1 / 2)
  schemeOf n [(1 / 2 ^ n, pm (List.replicate n nu))] 3

/-- enr2/_stroud_secrest.py:47-57. -/
noncomputable def stroudSecrest4 (n : ℕ) : Option Scheme := do
  let nu := √((n + 2) / 2)
  let xi := √((n + 2) / 4)
  let A : ℝ := 2 / (n + 2)
  let B : ℝ := (4 - n) / (2 * (n + 2) ^ 2)
  let C : ℝ := 1 / (n + 2) ^ 2
  let g1 ← fsd n [(nu, 1)]
  let g2 ← fsd n [(xi, 2)]
  return schemeOf n [(A, [List.replicate n 0]), (B, g1), (C, g2)] 5

/-- enr2/_phillips.py:20-33. -/
noncomputable def phillips (n : ℕ) : Option Scheme := do
  let lmbda := √(3 / 2)
  let w1 : ℝ := (n ^ 2 - 7 * n + 18) / 18
  let w2 : ℝ := (4 - n) / 18
  let w3 : ℝ := 1 / 36
  let g1 ← fsd n [(lmbda, 1)]
  let g2 ← fsd n [(lmbda, 2)]
  return schemeOf n [(w1, [List.replicate n 0]), (w2, g1), (w3, g2)] 5

/-- enr2/_stroud.py:32-45. -/
noncomputable def stroudEnr2_53 (n : ℕ) : Option Scheme := do
  guard (2 < n)
  let r := √((n + 2) / 4)
  let s := √((n + 2) / (2 * (n - 2)))
  let A : ℝ := 4 / (n + 2) ^ 2
  let B : ℝ := (n - 2) ^ 2 / (2 ^ n * (n + 2) ^ 2)
  let g ← fsd n [(r, 1)]
  return schemeOf n [(A, g), (B, pm (List.replicate n s))] 5

/-- enr2/_stroud.py:48-64. -/
noncomputable def stroudEnr2_54 (n : ℕ) : Scheme :=
  let B0 : ℝ := 2 / (n + 2)
  schemeOf n ((B0, [List.replicate n 0]) :: (List.range n).map fun k0 : ℕ =>
    let k := k0 + 1
    let rk := √((k + 2) / 2)
    let s := √(1 / 2)
    let alpha := (2 : ℝ) ^ ((k : ℤ) - n) / ((k + 1) * (k + 2))
    (alpha, pm (List.replicate (k - 1) 0 ++ [rk] ++ List.replicate (n - k) s))) 5

/-- enr2/_stroud.py:67-83. -/
noncomputable def stroud55 (n : ℕ) (variantA : Bool) : Option Scheme := do
  let p_m : ℝ := if variantA then 1 else -1
  let r ← sqrtO ((n + 2 + p_m * (n - 1) * √(2 * (n + 2))) / (2 * n))
  let s ← sqrtO ((n + 2 - p_m * √(2 * (n + 2))) / (2 * n))
  let A : ℝ := 2 / (n + 2)
  let B : ℝ := 1 / (2 ^ n * (n + 2))
  let g ← fsd n [(r, 1), (s, n - 1)]
  return schemeOf n [(A, [List.replicate n 0]), (B, g)] 5

/-- enr2/_stroud.py:94-110. -/
noncomputable def stroudEnr2_56 (n : ℕ) : Option Scheme := do
  guard (5 ≤ n)
  let sqrt2 := √2
  let sqrt2n1 := √(2 * (n + 1))
  let r ← sqrtO ((n - sqrt2 + (n - 1) * sqrt2n1) / (2 * n))
  let s ← sqrtO ((n - sqrt2 - sqrt2n1) / (2 * n))
  let t := √((1 + sqrt2) / 2)
  let A : ℝ := 1 / (2 ^ n * (n + 1))
  let g ← fsd n [(r, 1), (s, n - 1)]
  return schemeOf n [(A, g), (A, pm (List.replicate n t))] 5

/-- enr2/_stroud_1967_7.py:71-94.  `ndim.nsphere.volume(n)` (the area `2 pi^(n/2) / Gamma(n/2)` of the
unit sphere of `ℝ^n`) and `ndim.enr2.volume(n, "physicists")` (`pi^(n/2)`) come from the external
package ndim; they enter as these closed forms. -/
noncomputable def stroud1967_7_4 (n : ℕ) : Option Scheme := do
  guard (3 ≤ n)
  let sqrt2n2 := √(2 * (n + 2))
  let r1 ← sqrtO ((n + 2 - 1 * sqrt2n2) / 2)
  let r2 ← sqrtO ((n + 2 - -1 * sqrt2n2) / 2)
  let g ← gammaN2 n
  let A1 := (n + 2 + 1 * sqrt2n2) / 4 / (n + 2) * g
  let A2 := (n + 2 + -1 * sqrt2n2) / 4 / (n + 2) * g
  let S ← Un.stroud1967 n
  let nsphereVolume : ℝ := 2 * √π ^ n / Gamma (n / 2)
  let enr2Volume : ℝ := √π ^ n
  return ⟨n, (S.weights.map (A1 * ·) ++ S.weights.map (A2 * ·)).map (· * (nsphereVolume / enr2Volume)),
    S.points.map (Un.smulRow r1) ++ S.points.map (Un.smulRow r2), 7⟩

/-- enr2/_lu_darmofal.py:25-58. -/
noncomputable def luDarmofal1 (n : ℕ) : Option Scheme := do
  guard (2 ≤ n)
  let a := getNsimplexPoints n
  let b := Un.edgePoints n
  let c := √((n : ℝ) / 2 + 1)
  let p : ℝ := 2 / (n + 2)
  let A : ℝ := n ^ 2 * (7 - n) / (2 * (n + 1) ^ 2 * (n + 2) ^ 2)
  let B : ℝ := 2 * (n - 1) ^ 2 / ((n + 1) ^ 2 * (n + 2) ^ 2)
  return ⟨n, [p] ++ List.replicate a.length A ++ List.replicate a.length A ++
      List.replicate b.length B ++ List.replicate b.length B,
    [List.replicate n 0] ++ a.map (Un.smulRow c) ++ a.map (Un.smulRow (-c)) ++
      b.map (Un.smulRow c) ++ b.map (Un.smulRow (-c)), 5⟩

/-- enr2/_xiu.py:19-38. -/
noncomputable def xiu (n : ℕ) : Scheme :=
  let pts := (List.range (n + 1)).map fun k : ℕ =>
    ((List.range (n / 2)).flatMap fun r0 : ℕ =>
      [cos (2 * ((r0 : ℝ) + 1) * k * π / (n + 1)), sin (2 * ((r0 : ℝ) + 1) * k * π / (n + 1))]) ++
    (if n % 2 = 1 then [(-1) ^ k / √2] else [])
  ⟨n, List.replicate (n + 1) (1 / (n + 1)), pts, 2⟩

/-- enr2/_cools_haegemans.py:20-27 `_mu(j)`. -/
noncomputable def mu : ℕ → ℝ
  | 0 => 1
  | 1 => 0
  | j + 2 => (j + 2 - 1) / 2 * mu j

/-- enr2/_cools_haegemans.py:30-46. -/
noncomputable def coolsHaegemans1 (n : ℕ) (delta2 : ℝ) : Option Scheme :=
  open Classical in
  if 1 / 2 ≤ delta2 then
    let w0 := (2 * delta2 - 1) / (2 * delta2)
    let w := mu 2 ^ 1 * mu 0 ^ ((n : ℤ) - 1) / (2 ^ n * delta2 ^ 1)
    some (schemeOf n [(w0, z n), (w, pm (List.replicate n (√delta2)))] 3)
  else none

/-- cn/_cools_haegemans.py:132-148 `_gener(delta2, 1, mu)` with the moments `mu` of this file: the
loop runs once, with `coeffs = [1]` and the empty product.  `none` is the ZeroDivisionError of `a / b`. -/
noncomputable def gener1 (delta2 : ℝ) : Option ℝ :=
  open Classical in
  let a := mu 4 - mu 2 ^ 2 / mu 0 ^ 1 * 1
  let b := mu 2 - mu 2 ^ 2 / mu 0 ^ 1 * 1 / delta2
  if b = 0 then none else some (a / b)

open Classical in
/-- cn/_cools_haegemans.py:132-148 `_gener(delta2, 2, mu)`: the second step, with
`coeffs = np.poly([l1]) = [1, -l1]`. -/
noncomputable def gener2 (delta2 : ℝ) : Option (ℝ × ℝ) := do
  let l1 ← gener1 delta2
  let p := 1 - l1 / delta2
  let a := (1 * mu 6 + -l1 * mu 4) - mu 2 ^ 3 / mu 0 ^ 2 * p
  let b := (1 * mu 4 + -l1 * mu 2) - mu 2 ^ 3 / mu 0 ^ 2 * p / delta2
  if b = 0 then none else some (l1, a / b)

/-- enr2/_cools_haegemans.py:49-78. -/
noncomputable def coolsHaegemans2 (n : ℕ) (delta2 : ℝ) : Option Scheme :=
  open Classical in
  if 1 ≤ n ∧ 1 / 2 ≤ delta2 ∧ (2 < n → delta2 ≤ (n + 2) / (2 * n - 4)) then do
    let lmbda2 ← gener1 delta2
    let w0 := -(2 * delta2 - 1) * (2 * delta2 * n - 4 * delta2 - n - 2) / (8 * delta2 ^ 2)
    let w1 := (2 * delta2 - 1) ^ 2 / (16 * delta2 ^ 2)
    let w := mu 2 ^ 2 * mu 0 ^ ((n : ℤ) - 2) / (2 ^ n * delta2 ^ 2)
    let lmbda ← sqrtO lmbda2
    let g ← fsd n [(lmbda, 1)]
    return schemeOf n [(w0, z n), (w1, g), (w, pm (List.replicate n (√delta2)))] 5
  else none

open Classical in
/-- enr2/_cools_haegemans.py:81-129.  The divisions by zero for `delta2 = 0` and `delta2 = 3/4` are
the second guard. -/
noncomputable def coolsHaegemans3 (n : ℕ) (delta2 : ℝ) : Option Scheme := do
  guard (2 ≤ n)
  guard (delta2 ≠ 0 ∧ 4 * delta2 - 3 ≠ 0)
  let (l1, l2) ← gener2 delta2
  let delta4 := delta2 ^ 2
  let delta6 := delta2 ^ 3
  let w0 : ℝ := (delta6 * (16 * n ^ 2 - 72 * n + 128) + delta4 * (-28 * n ^ 2 + 48 * n - 32) +
    delta2 * (16 * n ^ 2 + 30 * n - 16) + (-3 * n ^ 2 - 18 * n - 24)) * (2 * delta2 - 1) /
    (64 * (4 * delta2 - 3) * delta6)
  let w1 : ℝ := -((12 * delta4 * n - 32 * delta4 - 12 * delta2 * n + 3 * n + 12) *
    (2 * delta2 - 1) / (192 * delta6))
  let w2 : ℝ := (2 * delta2 - 1) * (2 * delta2 - 3) ^ 3 / (384 * (4 * delta2 - 3) * delta6)
  let w11 : ℝ := (2 * delta2 - 1) ^ 3 / (128 * delta6)
  let w : ℝ := mu 2 ^ 3 * mu 0 ^ ((n : ℤ) - 3) / (2 ^ n * delta2 ^ 3)
  let delta ← sqrtO delta2
  let k1 ← sqrtO l1
  let k2 ← sqrtO l2
  let g1 ← fsd n [(k1, 1)]
  let g2 ← fsd n [(k2, 1)]
  let g11 ← fsd n [(k1, 2)]
  return schemeOf n [(w0, z n), (w1, g1), (w2, g2), (w11, g11),
    (w, pm (List.replicate n delta))] 7

/-- enr2/_stroud_1967_7.py:24-60. -/
noncomputable def stroud1967_7_2 (n : ℕ) (variantA : Bool) : Option Scheme := do
  guard (n ∈ if variantA then [2, 3, 4, 6, 7] else [3, 4])
  let p_m : ℝ := if variantA then 1 else -1
  let sqrt38n ← sqrtO (3 * (8 - n))
  let r2 : ℝ := (3 * (8 - n) - p_m * (n - 2) * sqrt38n) / 2 / (5 - n)
  let s2 : ℝ := (3 * n - p_m * 2 * sqrt38n) / 2 / (3 * n - 8)
  let t2 : ℝ := (6 + p_m * sqrt38n) / 2
  let B : ℝ := (8 - n) / r2 ^ 3 / 8
  let C : ℝ := 1 / s2 ^ 3 / 2 ^ (n + 3)
  let D : ℝ := 1 / t2 ^ 3 / 16
  let A := 1 - 2 * n * B - 2 ^ n * C - 2 * n * (n - 1) * D
  let r ← sqrtO r2
  let s ← sqrtO s2
  let t ← sqrtO t2
  let gB ← fsd n [(r, 1)]
  let gD ← fsd n [(t, 2)]
  return schemeOf n [(A, [List.replicate n 0]), (B, gB), (C, pm (List.replicate n s)), (D, gD)] 7

end Enr2
end Quadpy
