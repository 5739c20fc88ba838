/-
Model of the schemes for `exp(-|x|)`, quadpy/enr/*.py.
-/
import Verif.Model.Cn
import Verif.Model.Un

namespace Quadpy

/-- enr2/_stroud_secrest.py:55-65 `_nsimplex(n)`, row `i`. -/
noncomputable def secrestRow (n i : ℕ) : List ℝ :=
  if i < n then
    ((List.range i).map fun k : ℕ => -√((n + 1) / ((n + 1 - k) * (n - k)))) ++
      [√((n + 1) * (n - i) / (n + 1 - i))] ++ List.replicate (n - i - 1) 0
  else (List.range n).map fun k : ℕ => -√((n + 1) / ((n + 1 - k) * (n - k)))

/-- enr2/_stroud_secrest.py:55-65 `_nsimplex(n)`. -/
noncomputable def secrestSimplex (n : ℕ) : List (List ℝ) := (List.range (n + 1)).map (secrestRow n)

namespace Enr
open Real

/-- enr/_stroud_secrest.py:21-25. -/
noncomputable def stroudSecrest1 (n : ℕ) : Scheme :=
  schemeOf n [(1 / (n + 1), (secrestSimplex n).map (Un.smulRow (√(n + 1))))] 2

/-- enr/_stroud_secrest.py:28-33. -/
noncomputable def stroudSecrest2 (n : ℕ) : Option Scheme := do
  let nu := √(n * (n + 1))
  let g ← fsd n [(nu, 1)]
  return schemeOf n [(1 / (2 * n), g)] 3

/-- enr/_stroud_secrest.py:36-41. -/
noncomputable def stroudSecrest3 (n : ℕ) : Scheme :=
  let nu := √(n + 1)
  schemeOf n [(1 / 2 ^ n, pm (List.replicate n nu))] 3

/-- enr/_stroud_secrest.py:44-54. -/
noncomputable def stroudSecrest4 (n : ℕ) : Option Scheme := do
  let nu := √((n + 2) * (n + 3))
  let xi := √((n + 2) * (n + 3) / 2)
  let A : ℝ := 2 * (2 * n + 3) / ((n + 2) * (n + 3))
  let B : ℝ := (4 - n) * (n + 1) / (2 * (n + 2) ^ 2 * (n + 3))
  let C : ℝ := (n + 1) / ((n + 2) ^ 2 * (n + 3))
  let g1 ← fsd n [(nu, 1)]
  let g2 ← fsd n [(xi, 2)]
  return schemeOf n [(A, [List.replicate n 0]), (B, g1), (C, g2)] 5

/-- enr/_stroud.py:37-52. -/
noncomputable def stroudEnr53 (n : ℕ) : Scheme :=
  let s := √(n + 3)
  let rk := fun k : ℕ => √((k + 2) * (n + 3))
  let Bk := fun k : ℕ => (2 : ℝ) ^ ((k : ℤ) - n) * (n + 1) / ((k + 1) * (k + 2) * (n + 3))
  let data : List (ℝ × List (List ℝ)) := (List.range n).map fun k0 : ℕ =>
    let k := k0 + 1
    (Bk k, pm (List.replicate (k - 1) 0 ++ [rk k] ++ List.replicate (n - k) s))
  let B0 := 1 - (data.map fun item => item.1 * (item.2.length : ℝ)).sum
  schemeOf n (data ++ [(B0, [List.replicate n 0])]) 5

/-- enr/_stroud.py:55-64. -/
noncomputable def stroudEnr54 (n : ℕ) : Option Scheme := do
  let r ← sqrtO (((n + 2) * (n + 3) + (n - 1) * (n + 3) * √(2 * (n + 2))) / n)
  let s ← sqrtO (((n + 2) * (n + 3) - (n + 3) * √(2 * (n + 2))) / n)
  let A : ℝ := (4 * n + 6) / ((n + 2) * (n + 3))
  let B : ℝ := (n + 1) / ((n + 2) * (n + 3) * 2 ^ n)
  let g ← fsd n [(r, 1), (s, n - 1)]
  return schemeOf n [(A, [List.replicate n 0]), (B, g)] 5

end Enr
end Quadpy
