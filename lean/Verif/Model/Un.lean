/-
Model of the n-sphere schemes, quadpy/un/*.py (the Dobrodeev 1978 rule is in Model/Dobrodeev.lean, the Stroud
1969 rule in Model/Stroud1969.lean).

A `UnScheme` keeps the points as rows (un/_helpers.py; no transposition), which is the convention of
`Scheme.points`.
-/
import Verif.Model.Cn

namespace Quadpy
namespace Un
open Real

/-- un/_stroud.py:17-21. -/
noncomputable def stroudUn31 (n : ℕ) : Option Scheme := do
  let g ← fsd n [(1, 1)]
  return schemeOf n [(1 / (2 * n), g)] 3

/-- un/_stroud.py:24-28. -/
noncomputable def stroudUn32 (n : ℕ) : Scheme :=
  schemeOf n [(1 / 2 ^ n, pm (List.replicate n (√(1 / n))))] 3

/-- un/_stroud.py:31-40. -/
noncomputable def stroudUn51 (n : ℕ) : Option Scheme := do
  let B1 : ℝ := (4 - n) / (2 * n * (n + 2))
  let B2 : ℝ := 1 / (n * (n + 2))
  let g1 ← fsd n [(1, 1)]
  let g2 ← fsd n [(√(1 / 2), 2)]
  return schemeOf n [(B1, g1), (B2, g2)] 5

/-- un/_stroud.py:43-52. -/
noncomputable def stroudUn52 (n : ℕ) : Option Scheme := do
  let B1 : ℝ := 1 / (n * (n + 2))
  let B2 : ℝ := n / (2 ^ n * (n + 2))
  let g1 ← fsd n [(1, 1)]
  return schemeOf n [(B1, g1), (B2, pm (List.replicate n (√(1 / n))))] 5

/-- un/_stroud.py:55-64.  The lists `B` and `r` of the code are indexed from 0, with the value for
`k + 1` in place `k`. -/
noncomputable def stroudUn53 (n : ℕ) : Scheme :=
  let s := √(1 / (n + 2))
  let B := fun k : ℕ => (2 : ℝ) ^ ((k : ℤ) - n) * (n + 2) / (n * (k + 1) * (k + 2))
  let r := fun k : ℕ => √((k + 2) / (n + 2))
  schemeOf n ((List.range n).map fun k =>
    (B (k + 1), pm (List.replicate k 0 ++ [r (k + 1)] ++ List.replicate (n - k - 1) s))) 5

/-- un/_stroud.py:67-77. -/
noncomputable def stroudUn54 (n : ℕ) : Option Scheme := do
  let s := √(2 * (n + 2))
  let u ← sqrtO ((n + 2 + (n - 1) * s) / n / (n + 2))
  let v ← sqrtO ((n + 2 - s) / n / (n + 2))
  let g ← fsd n [(u, 1), (v, n - 1)]
  return schemeOf n [(1 / (2 ^ n * n), g)] 5

/-- un/_stroud.py:80-93. -/
noncomputable def stroudUn72 (n : ℕ) : Option Scheme := do
  let A : ℝ := -(n ^ 2) / (2 ^ (n + 3) * (n + 2))
  let B : ℝ := (n + 4) ^ 2 / (2 ^ (n + 3) * n * (n + 2))
  let r := √(1 / (n : ℝ))
  let s := √(5 / ((n : ℝ) + 4))
  let t := √(1 / ((n : ℝ) + 4))
  let g ← fsd n [(s, 1), (t, n - 1)]
  return schemeOf n [(A, pm (List.replicate n r)), (B, g)] 7

/-- un/_stroud_1967.py:18-37. -/
noncomputable def stroud1967 (n : ℕ) : Option Scheme := do
  let r : ℝ := 1
  let s := √(1 / (n : ℝ))
  let t := √(1 / 2)
  let B : ℝ := (8 - n) / (n * (n + 2) * (n + 4))
  let C : ℝ := n ^ 3 / (2 ^ n * n * (n + 2) * (n + 4))
  let D : ℝ := 4 / (n * (n + 2) * (n + 4))
  let gB ← fsd n [(r, 1)]
  let gD ← fsd n [(t, 2)]
  return schemeOf n [(B, gB), (C, pm (List.replicate n s)), (D, gD)] 7

/-- un/_mysovskikh.py:18-21. -/
noncomputable def mysovskikh1 (n : ℕ) : Scheme :=
  ⟨n, List.replicate (n + 1) (1 / (n + 1)), getNsimplexPoints n, 2⟩

/-- Sum of two rows. -/
def addRow (x y : List ℝ) : List ℝ := List.zipWith (· + ·) x y

/-- A row times a number. -/
def smulRow (c : ℝ) (x : List ℝ) : List ℝ := x.map (c * ·)

/-- un/_mysovskikh.py:29-35 (and enr2/_lu_darmofal.py:30-36): the points
`sqrt(n / (2 (n - 1))) (a_k + a_l)` for `l < k`. -/
noncomputable def edgePoints (n : ℕ) : List (List ℝ) :=
  (List.range (n + 1)).flatMap fun k => (List.range k).map fun l =>
    smulRow (√(n / (2 * (n - 1)))) (addRow (nsimplexRow n k) (nsimplexRow n l))

/-- un/_mysovskikh.py:24-46.  For `n = 1` the fraction in line 31 has the denominator zero (sympy
gives `zoo` and the conversion to float fails). -/
noncomputable def mysovskikh2 (n : ℕ) : Option Scheme :=
  if 2 ≤ n then
    let A : ℝ := (7 - n) * n / (2 * (n + 1) ^ 2 * (n + 2))
    let B : ℝ := 2 * (n - 1) ^ 2 / (n * (n + 1) ^ 2 * (n + 2))
    let a := getNsimplexPoints n
    let b := edgePoints n
    some ⟨n, List.replicate a.length A ++ List.replicate a.length A ++
      List.replicate b.length B ++ List.replicate b.length B,
      a ++ a.map (smulRow (-1)) ++ b ++ b.map (smulRow (-1)), 5⟩
  else none

end Un
end Quadpy
