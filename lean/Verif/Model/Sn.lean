/-
Model of the n-ball schemes, quadpy/sn/*.py.  Not modelled: the tables of decimal numbers in
_stenger.py and _stroud_1967_5.py.
-/
import Verif.Model.Cn
import Verif.Model.Un

namespace Quadpy
namespace Sn
open Real

/-- sn/_hammer_stroud.py:20-29. -/
noncomputable def hammerStroud11n (n : ℕ) (alpha : ℝ) : Option Scheme := do
  let r ← sqrtO ((n + alpha) / (n + alpha + 2))
  let g ← fsd n [(r, 1)]
  return schemeOf n [(1 / (2 * n), g)] 3

/-- sn/_hammer_stroud.py:32-47. -/
noncomputable def hammerStroud12n (n : ℕ) (alpha : ℝ) : Option Scheme := do
  let r ← sqrtO (3 * (n + alpha + 2) / ((n + 2) * (n + alpha + 4)))
  let B1 : ℝ := (4 - n) * (n + 2) * (n + alpha) * (n + alpha + 4) / (18 * n * (n + alpha + 2) ^ 2)
  let B2 : ℝ := (n + 2) * (n + alpha) * (n + alpha + 4) / (36 * n * (n + alpha + 2) ^ 2)
  let B0 := 1 - 2 * n * B1 - 2 * n * (n - 1) * B2
  let g1 ← fsd n [(r, 1)]
  let g2 ← fsd n [(r, 2)]
  return schemeOf n [(B0, z n), (B1, g1), (B2, g2)] 5

/-- sn/_stroud.py:37-46. -/
noncomputable def stroudSn32 (n : ℕ) : Scheme :=
  schemeOf n [(1 / 2 ^ n, pm (List.replicate n (√(1 / (n + 2)))))] 3

/-- sn/_stroud_1957.py:21-51: point `i` has the coordinate pairs
`sqrt(2 / (n + 2)) (cos(2 k i pi / (n + 1)), sin(...))`, `k = 1, ..., n // 2`, and for odd `n` the
last coordinate `(-1)^i / sqrt(n + 2)`. -/
noncomputable def stroud1957 (n : ℕ) : Scheme :=
  let pts := (List.range (n + 1)).map fun i : ℕ =>
    ((List.range (n / 2)).flatMap fun k0 : ℕ =>
      [√(2 / (n + 2)) * cos (2 * ((k0 : ℝ) + 1) * i * π / (n + 1)),
       √(2 / (n + 2)) * sin (2 * ((k0 : ℝ) + 1) * i * π / (n + 1))]) ++
    (if n % 2 = 1 then [if i % 2 = 1 then -(1 / √(n + 2)) else 1 / √(n + 2)] else [])
  schemeOf n [(1 / (n + 1), pts)] 2

/-- sn/_stroud_1966.py:22-39. -/
noncomputable def stroud1966a (n : ℕ) : Option Scheme := do
  let a := √(2 * (n + 4))
  let r2 : ℝ := (n + 4 - a) / (n + 4)
  let s2 : ℝ := (n * (n + 4) + 2 * a) / (n ^ 2 + 2 * n - 4) / (n + 4)
  let B1 : ℝ := 1 / r2 ^ 2 / (n + 2) / (n + 4)
  let B2 : ℝ := 1 / s2 ^ 2 / 2 ^ n / (n + 2) / (n + 4)
  let r ← sqrtO r2
  let s ← sqrtO s2
  let g1 ← fsd n [(r, 1)]
  return schemeOf n [(B1, g1), (B2, pm (List.replicate n s))] 5

/-- sn/_stroud_1966.py:42-70 (`alpha = 0`).  `B0` starts at 1 and is decreased by
`2^(n-k+1) B_k` in step `k`. -/
noncomputable def stroud1966b (n : ℕ) : Scheme :=
  let s := √((n + 2) / ((n + 2) * (n + 4)))
  let B := fun k : ℕ => (2 : ℝ) ^ ((k : ℤ) - n) * (n + 2) * n * (n + 4) /
    (n * (k + 1) * (k + 2) * (n + 2) ^ 2)
  let r := fun k : ℕ => √((k + 2) * (n + 2) / ((n + 2) * (n + 4)))
  let B0 := (List.range n).foldl (fun b k => b - 2 ^ (n - (k + 1) + 1) * B (k + 1)) 1
  schemeOf n (((List.range n).map fun k =>
    (B (k + 1), (pm ([r (k + 1)] ++ List.replicate (n - (k + 1)) s)).map
      (List.replicate (k + 1 - 1) 0 ++ ·))) ++ [(B0, z n)]) 5

/-- sn/_stroud_1966.py:73-88. -/
noncomputable def stroud1966c (n : ℕ) : Option Scheme := do
  let a := √(2 * (n + 2))
  let r ← sqrtO ((n + 2 + (n - 1) * a) / (n * (n + 4)))
  let s ← sqrtO ((n + 2 - a) / (n * (n + 4)))
  let B0 : ℝ := 4 / (n + 2) ^ 2
  let B1 : ℝ := (n + 4) / (2 ^ n * (n + 2) ^ 2)
  return schemeOf n [(B0, z n), (B1, combine [([r, -r], 1), ([s, -s], n - 1)])] 5

/-- sn/_stroud_1966.py:91-112. -/
noncomputable def stroud1966d (n : ℕ) : Option Scheme := do
  let a := 2 * √(n + 4)
  let b := √(2 * (n + 1) * (n + 2) * (n + 4))
  let r ← sqrtO ((n * (n + 4) + a + (n - 1) * b) / (n * (n + 2) * (n + 4)))
  let s ← sqrtO ((n * (n + 4) + a - b) / (n * (n + 2) * (n + 4)))
  let t ← sqrtO ((n + 4 - a) / ((n + 2) * (n + 4)))
  let B : ℝ := 1 / (2 ^ n * (n + 1))
  return schemeOf n [(B, combine [([r, -r], 1), ([s, -s], n - 1)]), (B, pm (List.replicate n t))] 5

/-- sn/_stroud_1967_7.py:22-54; `variantA` is `variant_a`, the assertions of lines 26 and 31 are the
`guard`. -/
noncomputable def stroud1967_7ab (n : ℕ) (variantA : Bool) : Option Scheme := do
  guard (3 ≤ n ∧ n ≤ if variantA then 7 else 6)
  let t : ℝ := if variantA then 1 else -1
  let alpha ← sqrtO (6 * (n + 6) * (8 - n))
  let r2 : ℝ := (3 * (n + 6) * (8 - n) - t * (n - 2) * alpha) / ((n + 6) * (34 - 5 * n))
  let s2 : ℝ := (3 * n * (n + 6) - t * 2 * alpha) / ((n + 6) * (3 * n ^ 2 + 6 * n - 16))
  let t2 : ℝ := (6 * (n + 6) + t * alpha) / (14 * (n + 6))
  let B : ℝ := (8 - n) / (n + 2) / (n + 4) / (n + 6) / r2 ^ 3
  let C : ℝ := 1 / ((n : ℝ) + 2) / (n + 4) / (n + 6) / s2 ^ 3 / 2 ^ n
  let D : ℝ := 1 / ((n : ℝ) + 2) / (n + 4) / (n + 6) / t2 ^ 3 / 2
  let A := 1 - 2 * n * B - 2 ^ n * C - 2 * n * (n - 1) * D
  let r ← sqrtO r2
  let s ← sqrtO s2
  let t' ← sqrtO t2
  let gB ← fsd n [(r, 1)]
  let gD ← fsd n [(t', 2)]
  return schemeOf n [(A, [List.replicate n 0]), (B, gB), (C, pm (List.replicate n s)), (D, gD)] 7

/-- sn/_stroud_1967_7.py:65-89. -/
noncomputable def stroud1967_7c (n : ℕ) : Option Scheme := do
  guard (3 ≤ n)
  let alpha := √(2 * (n + 2) * (n + 4))
  let r1 ← sqrtO (((n + 2) * (n + 4) + 1 * 2 * alpha) / (n + 4) / (n + 6))
  let r2 ← sqrtO (((n + 2) * (n + 4) + -1 * 2 * alpha) / (n + 4) / (n + 6))
  let A1 := (2 * (n + 2) ^ 2 + 1 * (n - 2) * alpha) / (4 * n * (n + 2) ^ 2)
  let A2 := (2 * (n + 2) ^ 2 + -1 * (n - 2) * alpha) / (4 * n * (n + 2) ^ 2)
  let S ← Un.stroud1967 n
  return ⟨n, (S.weights.map (A1 * ·) ++ S.weights.map (A2 * ·)).map (· * n),
    S.points.map (Un.smulRow r1) ++ S.points.map (Un.smulRow r2), 7⟩

/-- sn/_dobrodeev_1970.py:20-42. -/
noncomputable def dobrodeev1970 (n : ℕ) : Option Scheme := do
  let A : ℝ := 1 / 8
  let B : ℝ := (5 - n) / 4
  let C : ℝ := ((6 - n) * (1 - n ^ 2) + 36) / (4 * (n + 3))
  let D : ℝ := 81 / ((n + 3) * (n + 6) ^ 2)
  let E : ℝ := (45 * n ^ 2 + 324 * n + 216) / (n ^ 2 + 12 * n + 36) -
    n * (n ^ 2 - 12 * n + 65) / 6
  let r := √(3 / (n + 6))
  let g3 ← fsd n [(r, 3)]
  let g2 ← fsd n [(r, 2)]
  let g1 ← fsd n [(r, 1)]
  let g0 ← fsd n [(1, 1)]
  let pw := untangle [(A, g3), (B, g2), (C, g1), (D, g0), (E, z n)]
  return ⟨n, pw.2.map (· / (27 * (n + 2) * (n + 4) / (n + 6) ^ 2)), pw.1, 7⟩

end Sn
end Quadpy
