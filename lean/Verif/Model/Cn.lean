/-
Model of the n-cube schemes, quadpy/cn/*.py.

`frac`/`sqrt` of sympy are exact, so the numbers are real numbers.  A constructor that can fail an
assertion returns `Option Scheme`.  The transposition `np.ascontiguousarray(points.T)` is the
convention of `Scheme.points` (one row per point).
-/
import Verif.Model.Combinatorics
import Verif.Model.Scheme
import Verif.Model.Symmetries

namespace Quadpy

/-- The last lines of most constructors: `points, weights = untangle(data)`, then `CnScheme(...)`
(e.g. cn/_hammer_stroud.py:32-34). -/
def schemeOf (n : ℕ) (data : List (ℝ × List (List ℝ))) (degree : ℕ) : Scheme :=
  ⟨n, (untangle data).2, (untangle data).1, degree⟩

/-- The same with `points, weights = expand_symmetries(d, n)` (e.g. cn/_hammer_stroud.py:21-22). -/
noncomputable def schemeOfSym (n : ℕ) (d : List SymEntry) (degree : ℕ) : Scheme :=
  ⟨n, (expandSymmetries d n).2, (expandSymmetries d n).1, degree⟩

open Classical in
/-- A square root whose radicand can be negative.  `math.sqrt` raises; sympy returns an imaginary
number and the conversion of the points to float in helpers/_class.py:28-42 raises. -/
noncomputable def sqrtO (x : ℝ) : Option ℝ := if 0 ≤ x then some (Real.sqrt x) else none

theorem sqrtO_eq_some {x r : ℝ} (h : sqrtO x = some r) : 0 ≤ x ∧ r = Real.sqrt x := by
  unfold sqrtO at h
  split_ifs at h with h0
  exact ⟨h0, (Option.some.inj h).symm⟩

namespace Cn
open Real

/-- cn/_helpers.py:136-151 `_fs11(n, r, s)`. -/
def fs11 (n : ℕ) (r s : ℝ) : List (List ℝ) :=
  (List.range n).flatMap fun i =>
    iterProduct ((List.range n).map fun j => if j ≠ i then [s, -s] else [r, -r])

/-- cn/_helpers.py:154-158 `_s(n, a, b)`. -/
def s (n : ℕ) (a b : ℝ) : List (List ℝ) :=
  (List.range n).map fun i => (List.range n).map fun j => if j = i then a else b

open Classical in
/-- cn/_helpers.py:168-176 `_s11(n, a, b)`: the distinct permutations of length `n` of
`[a, b, 0, ..., 0]`.  The order in which a Python set is listed does not matter for a rule; here it
is some fixed order.  For `n = 1` the list `s` has two entries and the code takes the 1-permutations. -/
noncomputable def s11 (n : ℕ) (a b : ℝ) : List (List ℝ) :=
  (([a, b] ++ List.replicate (n - 2) 0).permutations.map (List.take n)).dedup

/-- cn/_helpers.py:161-165 `_s2(n, a)`. -/
noncomputable def s2 (n : ℕ) (a : ℝ) : List (List ℝ) := s11 n a a

/-- cn/_stroud.py:29-34. -/
def stroudCn11 (n : ℕ) : Scheme := ⟨n, [1], [List.replicate n 0], 1⟩

/-- cn/_stroud.py:37-42. -/
noncomputable def stroudCn12 (n : ℕ) : Scheme :=
  ⟨n, List.replicate (2 ^ n) (1 / 2 ^ n), pm (List.replicate n 1), 1⟩

/-- cn/_stroud.py:45-50. -/
noncomputable def stroudCn32 (n : ℕ) : Option Scheme := do
  let r := √((n : ℝ) / 3)
  let points ← fsd n [(r, 1)]
  return ⟨n, List.replicate (2 * n) (1 / (2 * n)), points, 3⟩

/-- cn/_stroud.py:53-58. -/
noncomputable def stroudCn34 (n : ℕ) : Scheme :=
  ⟨n, List.replicate (2 ^ n) (1 / 2 ^ n), pm (List.replicate n (√3 / 3)), 3⟩

/-- One row of `np.array(np.meshgrid(*lst)).T.reshape(-1, n)` (cn/_stroud.py:63): with numpy's
default "xy" indexing the axes run in the order `n-1, ..., 2, 0, 1`, the last one fastest. -/
def meshRow (t : List ℝ) : List ℝ :=
  match t.reverse with
  | c1 :: c0 :: rest => c0 :: c1 :: rest
  | l => l

/-- `np.array(np.meshgrid(*(n * [lst]))).T.reshape(-1, n)`. -/
def mesh (n : ℕ) (lst : List ℝ) : List (List ℝ) :=
  (iterProduct (List.replicate n lst)).map meshRow

/-- cn/_stroud.py:61-68. -/
noncomputable def stroudCn36 (n : ℕ) : Scheme :=
  ⟨n, (mesh n [1 / 3, 4 / 3, 1 / 3]).map fun row => row.prod / 2 ^ n, mesh n [-1, 0, 1], 3⟩

/-- cn/_stroud.py:71-79. -/
noncomputable def stroudCn59 (n : ℕ) : Scheme :=
  ⟨n, (mesh n [5 / 9, 8 / 9, 5 / 9]).map fun row => row.prod / 2 ^ n,
    mesh n [-√(3 / 5), 0, √(3 / 5)], 5⟩

/-- cn/_ewing.py:19-22. -/
noncomputable def ewing (n : ℕ) : Scheme :=
  schemeOfSym n [⟨.zero, [2 / 3], [[]]⟩, ⟨.a, [1 / (3 * 2 ^ n)], [[1]]⟩] 3

/-- cn/_tyler.py:17-20. -/
noncomputable def tyler (n : ℕ) : Scheme :=
  schemeOfSym n [⟨.zero, [(3 - n) / 3], [[]]⟩, ⟨.a0, [1 / 6], [[1]]⟩] 3

/-- cn/_thacher.py:20-25 (weights and points in the same order as cn/_stroud_1957.py:21-31). -/
noncomputable def thacher (n : ℕ) : Scheme :=
  let r := √3 / 6
  schemeOf n [(1, [List.replicate n (2 * r)]), (r, s n (-1) r), (-r, s n 1 r)] 2

/-- cn/_stroud_1957.py:21-31. -/
noncomputable def stroud1957_2 (n : ℕ) : Scheme :=
  let r := √3 / 6
  schemeOf n [(1, [List.replicate n (2 * r)]), (r, s n (-1) r), (-r, s n 1 r)] 2

/-- cn/_stroud_1957.py:34-54.  Row `i` (`i = 1, ..., 2n`): the pairs
`sqrt(2/3) (cos((2k-1) i pi / n), sin(...))` for `k = 1, ..., n // 2`, and for odd `n` a last
coordinate `(-1)^(i-1) / sqrt(3)`. -/
noncomputable def stroud1957_3 (n : ℕ) : Scheme :=
  let n2 := if n % 2 = 0 then n / 2 else (n - 1) / 2
  let pts := (List.range (2 * n)).map fun i0 : ℕ =>
    ((List.range n2).flatMap fun k0 : ℕ =>
      [√(2 / 3) * cos ((2 * ((k0 : ℝ) + 1) - 1) * ((i0 : ℝ) + 1) * π / n),
       √(2 / 3) * sin ((2 * ((k0 : ℝ) + 1) - 1) * ((i0 : ℝ) + 1) * π / n)]) ++
    (if n % 2 = 1 then [if i0 % 2 = 1 then -(1 / √3) else 1 / √3] else [])
  schemeOf n [(1 / (2 * n), pts)] 3

/-- cn/_hammer_stroud.py:19-22. -/
noncomputable def hammerStroud1n (n : ℕ) : Scheme :=
  schemeOfSym n [⟨.a0, [1 / (2 * n)], [[√((n : ℝ) / 3)]]⟩] 3

/-- cn/_hammer_stroud.py:25-34. -/
noncomputable def hammerStroud2n (n : ℕ) : Option Scheme := do
  let r := √(3 / 5)
  let g1 ← fsd n [(r, 1)]
  let g2 ← fsd n [(r, 2)]
  return schemeOf n
    [((25 * n ^ 2 - 115 * n + 162) / 162, z n), ((70 - 25 * n) / 162, g1), (25 / 324, g2)] 5

/-- cn/_mustard_lyness_blatt.py:19-27. -/
noncomputable def mustardLynessBlatt (n : ℕ) : Scheme :=
  schemeOfSym n [⟨.zero, [(8 - 5 * n) / 9], [[]]⟩, ⟨.a0, [5 / 18], [[√(2 / 5)]]⟩,
    ⟨.a, [1 / (9 * 2 ^ n)], [[1]]⟩] 5

/-- cn/_phillips.py:20-41: the parameters `p2, q, r` (`p1 = 1` always; for `n = 2` the code leaves
`r` undefined and does not use it, here 1). -/
noncomputable def phillipsPar (n : ℕ) : Option (ℝ × ℝ × ℝ) :=
  if n = 2 then some (14 / 3, 5 / 3, 1)
  else if n = 3 then some (14 / 5, 5 / 2, 1)
  else if n = 4 then some (112 / 11, 5, 2)
  else if 5 ≤ n then
    let En : ℝ := (25 * n ^ 2 - 165 * n + 302) / 972
    some (1 / (3 / 5 - 1 / (35 * En)), 5 / 3, 5 / 3)
  else none

/-- cn/_phillips.py:20-79. -/
noncomputable def phillips (n : ℕ) : Option Scheme := do
  let (p2, q, r) ← phillipsPar n
  let p1 : ℝ := 1
  let gamma : ℝ := (n - 1) * (19 - 5 * n) / 270
  let delta : ℝ := (n - 1) * (n - 2) / 108
  let a1 := (23 - 5 * n) / 180 - gamma * q / 2
  let a2 : ℝ := (35 * n ^ 2 - 231 * n + 466) / 3780
  let beta1 := (a1 - a2 * p2) / (p1 - p2)
  let beta2 := (a1 - a2 * p1) / (p2 - p1)
  let lambda1 := 1 / √p1
  let lambda2 := 1 / √p2
  let mu := 1 / √q
  let b1 := beta1 / lambda1 ^ 6
  let b2 := beta2 / lambda2 ^ 6
  let c := gamma / (2 * (n - 1) * mu ^ 6)
  let a := 1 - 2 * n * (b1 + b2) - 4 * (n.choose 2) * c
  let g1 ← fsd n [(lambda1, 1)]
  let g2 ← fsd n [(lambda2, 1)]
  let g3 ← fsd n [(mu, 2)]
  if 2 < n then
    let nu := 1 / √r
    let d := delta / (4 * ((n - 1).choose 2) * nu ^ 6)
    let g4 ← fsd n [(nu, 3)]
    return schemeOf n [(a - 8 * (n.choose 3) * d, z n), (b1, g1), (b2, g2), (c, g3), (d, g4)] 7
  else
    return schemeOf n [(a, z n), (b1, g1), (b2, g2), (c, g3)] 7

/-- cn/_stroud_1966.py:21-29. -/
noncomputable def stroud1966a (n : ℕ) : Scheme :=
  let r := √((5 * n + 4) / 30)
  let s := √((5 * n + 4) / (15 * n - 12))
  schemeOfSym n [⟨.a0, [40 / (5 * n + 4) ^ 2], [[r]]⟩,
    ⟨.a, [((5 * n - 4) / (5 * n + 4)) ^ 2 / 2 ^ n], [[s]]⟩] 5

/-- cn/_stroud_1966.py:36-41, the array of loop step `k`: `k - 1` zeros, then a sign vector whose
first entry is scaled by `r` and whose other entries are scaled by `s`. -/
noncomputable def stroud1966bArr (n k : ℕ) : List (List ℝ) :=
  let s := 1 / √3
  let r := √((5 * k + 4) / 15)
  (pm (List.replicate (n - k + 1) 1)).map fun row =>
    List.replicate (k - 1) 0 ++ (row.take 1).map (· * r) ++ (row.drop 1).map (· * s)

/-- cn/_stroud_1966.py:32-46. -/
noncomputable def stroud1966b (n : ℕ) : Scheme :=
  schemeOf n ((4 / (5 * n + 4), z n) :: (List.range n).map fun k0 : ℕ =>
    let k : ℕ := k0 + 1
    (5 * 2 ^ ((k : ℤ) - n + 1) / ((5 * k - 1) * (5 * k + 4)), stroud1966bArr n k)) 5

/-- cn/_stroud_1966.py:49-55. -/
noncomputable def stroud1966c (n : ℕ) : Scheme :=
  let r := √((5 * n + 4 + 2 * (n - 1) * √(5 * n + 4)) / (15 * n))
  let s := √((5 * n + 4 - 2 * √(5 * n + 4)) / (15 * n))
  schemeOf n [(4 / (5 * n + 4), z n), (5 / ((5 * n + 4) * 2 ^ n), fs11 n r s)] 5

/-- cn/_stroud_1966.py:58-68.  For `n = 1` the radicand of `s` is negative, but no point contains
`s`; for `n = 2` it is negative and the constructor fails. -/
noncomputable def stroud1966d (n : ℕ) : Option Scheme := do
  let r := √((5 * n - 2 * √5 + 2 * (n - 1) * √(5 * n + 5)) / (15 * n))
  let s ← (if n = 1 then some 0 else
    sqrtO ((5 * n - 2 * √5 - 2 * √(5 * n + 5)) / (15 * n)) : Option ℝ)
  let t := √((5 + 2 * √5) / 15)
  let w := 1 / (2 ^ n * ((n : ℝ) + 1))
  return schemeOf n [(w, fs11 n r s), (w, pm (List.replicate n t))] 5

/-- cn/_stroud_1968.py:21-37. -/
noncomputable def stroud1968 (n : ℕ) : Option Scheme := do
  let r := √(7 / 15)
  let s := √((7 + √24) / 15)
  let t := √((7 - √24) / 15)
  let gr ← fsd n [(r, 1)]
  let gs ← fsd n [(s, 1)]
  let gt ← fsd n [(t, 1)]
  return schemeOf n
    [((5 * n ^ 2 - 15 * n + 14) / 14, z n),
     (25 / 168, s2 n r), (25 / 168, s2 n (-r)), (-25 * (n - 2) / 168, gr),
     (5 / 48, s11 n s (-t)), (5 / 48, s11 n (-s) t),
     (-5 * (n - 2) / 48, gs), (-5 * (n - 2) / 48, gt)] 5

/-- cn/_cools_haegemans.py:26-37; `delta2` is a parameter. -/
noncomputable def coolsHaegemans1 (n : ℕ) (delta2 : ℝ) : Option Scheme :=
  open Classical in
  if 1 / 3 ≤ delta2 then
    let w0 := (3 * delta2 - 1) / (3 * delta2)
    let w := (1 / 3) / (2 ^ n * delta2)
    some (schemeOfSym n [⟨.zero, [w0], [[]]⟩, ⟨.a, [w], [[√delta2]]⟩] 3)
  else none

/-- cn/_cools_haegemans.py:20-23. -/
noncomputable def mu (j : ℕ) : ℝ := if j % 2 = 0 then 1 / (j + 1) else 0

/-- cn/_cools_haegemans.py:132-148 `_gener(delta2, 1, mu)`: the loop runs once, with
`coeffs = [1]` and the empty product. -/
noncomputable def gener1 (delta2 : ℝ) : ℝ :=
  let a := mu 4 - mu 2 ^ 2 / mu 0 ^ 1 * 1
  let b := mu 2 - mu 2 ^ 2 / mu 0 ^ 1 * 1 / delta2
  a / b

/-- cn/_cools_haegemans.py:40-58. -/
noncomputable def coolsHaegemans2 (n : ℕ) (delta2 : ℝ) : Option Scheme := do
  let lambda2 := gener1 delta2
  let w0 := -(15 * delta2 * n - 12 * delta2 - 5 * n - 4) * (3 * delta2 - 1) / (36 * delta2 ^ 2)
  let w1 := 5 * (3 * delta2 - 1) ^ 2 / (72 * delta2)
  let w := (1 / 3) ^ 2 / (2 ^ n * delta2 ^ 2)
  let lambda ← sqrtO lambda2
  let delta ← sqrtO delta2
  return schemeOfSym n [⟨.zero, [w0], [[]]⟩, ⟨.a0, [w1], [[lambda]]⟩, ⟨.a, [w], [[delta]]⟩] 5

/-- cn/_dobrodeev_1970.py:20-53.  For `n = 3, 4` the radicand of `c` is negative and the constructor
fails although the assertion passes. -/
noncomputable def dobrodeev1970 (n : ℕ) : Option Scheme :=
  if 3 ≤ n then do
    let A : ℝ := 1 / 8
    let B : ℝ := (19 - 5 * n) / 20
    let alpha : ℝ := 35 * n * (5 * n - 33)
    let C := (alpha + 2114) ^ 3 / (700 * (alpha + 1790) * (alpha + 2600))
    let D := 729 / 1750 * ((alpha + 2114) / (alpha + 2600))
    let E := (n * (n - 1) * (n - 47 / 10)) / 3 - 2 * n * (C + D) + 729 / 125
    let a := √(3 / 5)
    let b := a
    let c ← sqrtO (3 / 5 * ((alpha + 1790) / (alpha + 2114)))
    let d := 1
    let ga ← fsd n [(a, 3)]
    let gb ← fsd n [(b, 2)]
    let gc ← fsd n [(c, 1)]
    let gd ← fsd n [(d, 1)]
    let pw := untangle [(A, ga), (B, gb), (C, gc), (D, gd), (E, z n)]
    return ⟨n, pw.2.map (· * (125 / 729)), pw.1, 7⟩
  else none

end Cn
end Quadpy
