/-
Model of the scheme constructors of quadpy/tn.  Points are barycentric.
-/
import Verif.Model.Combinatorics
import Verif.Model.Scheme
import Verif.Model.Cn
import Verif.Model.Simplex
import Mathlib.Data.List.Sort

namespace Quadpy.Tn

/-- The columns of an array with `m` columns. -/
def columns (m : ℕ) (rows : List (List ℝ)) : List (List ℝ) :=
  (List.range m).map fun j => rows.map fun row => row.getD j 0

/-- `TnScheme(name, n, weights, points, ...)` called with the array that `untangle` returns, without
transposing it (tn/_hammer_stroud.py:27-28 and 37-38, tn/_lauffer.py:20-21).  `integrate` takes the
columns of that array as the points. -/
def schemeOfUntransposed (n : ℕ) (data : List (ℝ × List (List ℝ))) (degree : ℕ) : Scheme :=
  ⟨n, (untangle data).2, columns (n + 1) (untangle data).1, degree⟩

/-- The last lines of the constructors in tn/_walkington.py (e.g. lines 22-26): `untangle`, then
`weights /= np.sum(weights)`. -/
noncomputable def schemeOfNormalized (n : ℕ) (data : List (ℝ × List (List ℝ))) (degree : ℕ) : Scheme :=
  ⟨n, (untangle data).2.map (· / (untangle data).2.sum), (untangle data).1, degree⟩

/-- The point all of whose `n + 1` barycentric coordinates are `r`: `np.full((1, n + 1), r)` or
`[(n + 1) * [r]]` (e.g. tn/_stroud.py:37, tn/_hammer_stroud.py:52). -/
def full (n : ℕ) (r : ℝ) : List (List ℝ) := [List.replicate (n + 1) r]

/-- tn/_stroud.py:34-40 -/
noncomputable def stroudTn11 (n : ℕ) : Scheme := schemeOf n [(1, full n (1 / (n + 1)))] 1

/-! tn/_hammer_stroud.py -/

/-- tn/_hammer_stroud.py:21-28 -/
noncomputable def hammerStroud1a (n : ℕ) : Option Scheme := do
  let r : ℝ := (n + 2 - √(n + 2)) / (n + 1) / (n + 2)
  let s : ℝ := (n + 2 + n * √(n + 2)) / (n + 1) / (n + 2)
  let L ← rd (n + 1) [(r, n), (s, 1)]
  pure (schemeOfUntransposed n [(1 / (n + 1), L)] 2)

/-- tn/_hammer_stroud.py:31-38 -/
noncomputable def hammerStroud1b (n : ℕ) : Option Scheme := do
  let r : ℝ := (n + 2 + √(n + 2)) / (n + 1) / (n + 2)
  let s : ℝ := (n + 2 - n * √(n + 2)) / (n + 1) / (n + 2)
  let L ← rd (n + 1) [(r, n), (s, 1)]
  pure (schemeOfUntransposed n [(1 / (n + 1), L)] 2)

/-- tn/_hammer_stroud.py:41-55 -/
noncomputable def hammerStroud2 (n : ℕ) : Option Scheme := do
  let B : ℝ := -((n + 1) ^ 2 / (4 * (n + 2)))
  let C : ℝ := (n + 3) ^ 2 / (4 * (n + 1) * (n + 2))
  let r : ℝ := 1 / (n + 1)
  let s : ℝ := 1 / (n + 3)
  let t : ℝ := 3 / (n + 3)
  let L ← rd (n + 1) [(t, 1), (s, n)]
  pure (schemeOf n [(B, full n r), (C, L)] 3)

/-! tn/_lauffer.py -/

/-- tn/_lauffer.py:18-21 -/
noncomputable def lauffer1 (n : ℕ) : Option Scheme := do
  let L ← rd (n + 1) [(1, 1)]
  pure (schemeOfUntransposed n [(1 / (n + 1), L)] 1)

/-- tn/_lauffer.py:24-30 -/
noncomputable def lauffer2 (n : ℕ) : Option Scheme := do
  let B : ℝ := (2 - n) / ((n + 1) * (n + 2))
  let C : ℝ := 4 / ((n + 1) * (n + 2))
  let L1 ← rd (n + 1) [(1, 1)]
  let L2 ← rd (n + 1) [(1 / 2, 2)]
  pure (schemeOf n [(B, L1), (C, L2)] 2)

/-- tn/_lauffer.py:33-48 -/
noncomputable def lauffer3 (n : ℕ) : Option Scheme := do
  let B : ℝ := (n ^ 2 - 4 * n + 6) / ((n + 1) * (n + 2) * (n + 3))
  let C : ℝ := (27 - 9 * n) / (2 * (n + 1) * (n + 2) * (n + 3))
  let D : ℝ := 27 / ((n + 1) * (n + 2) * (n + 3))
  let r : ℝ := 1 / 3
  let s : ℝ := 2 / 3
  let L1 ← rd (n + 1) [(1, 1)]
  let L2 ← rd (n + 1) [(r, 1), (s, 1)]
  let L3 ← rd (n + 1) [(r, 3)]
  pure (schemeOf n [(B, L1), (C, L2), (D, L3)] 3)

/-- tn/_lauffer.py:51-75.  The assertion `n >= 3` is line 52. -/
noncomputable def lauffer4 (n : ℕ) : Option Scheme := do
  guard (3 ≤ n)
  let nprod : ℝ := (n + 1) * (n + 2) * (n + 3) * (n + 4)
  let B1 : ℝ := (-3 * n ^ 3 + 17 * n ^ 2 - 58 * n + 72) / (3 * nprod)
  let B2 : ℝ := 16 * (n ^ 2 - 5 * n + 12) / (3 * nprod)
  let B3 : ℝ := 4 * (n ^ 2 - 9 * n + 12) / nprod
  let B4 : ℝ := 64 * (4 - n) / (2 * nprod)
  let B5 : ℝ := 256 / nprod
  let r : ℝ := 1 / 4
  let s : ℝ := 3 / 4
  let t : ℝ := 1 / 2
  let L1 ← rd (n + 1) [(1, 1)]
  let L2 ← rd (n + 1) [(r, 1), (s, 1)]
  let L3 ← rd (n + 1) [(t, 2)]
  let L4 ← rd (n + 1) [(r, 2), (t, 1)]
  let L5 ← rd (n + 1) [(r, 4)]
  pure (schemeOf n [(B1, L1), (B2, L2), (B3, L3), (B4, L4), (B5, L5)] 4)

/-- tn/_lauffer.py:78-109.  The assertion `n >= 4` is line 79. -/
noncomputable def lauffer5 (n : ℕ) : Option Scheme := do
  guard (4 ≤ n)
  let nprod : ℝ := (n + 1) * (n + 2) * (n + 3) * (n + 4) * (n + 5)
  let B1 : ℝ := (12 * n ^ 4 - 82 * n ^ 3 + 477 * n ^ 2 - 1277 * n + 1440) / (12 * nprod)
  let B2 : ℝ := 5 ^ 2 * (-3 * n ^ 3 + 19 * n ^ 2 - 96 * n + 170) / (12 * nprod)
  let B3 : ℝ := 5 ^ 2 * (-n ^ 3 + 13 * n ^ 2 - 47 * n + 65) / (6 * nprod)
  let B4 : ℝ := 5 ^ 3 * (n ^ 2 - 6 * n + 20) / (3 * nprod)
  let B5 : ℝ := 5 ^ 3 * (n ^ 2 - 11 * n + 20) / (4 * nprod)
  let B6 : ℝ := 5 ^ 4 * (5 - n) / (2 * nprod)
  let B7 : ℝ := 5 ^ 5 / nprod
  let r : ℝ := 1 / 5
  let s : ℝ := 4 / 5
  let u : ℝ := 2 / 5
  let v : ℝ := 3 / 5
  let L1 ← rd (n + 1) [(1, 1)]
  let L2 ← rd (n + 1) [(r, 1), (s, 1)]
  let L3 ← rd (n + 1) [(u, 1), (v, 1)]
  let L4 ← rd (n + 1) [(r, 2), (v, 1)]
  let L5 ← rd (n + 1) [(r, 1), (u, 2)]
  let L6 ← rd (n + 1) [(r, 3), (u, 1)]
  let L7 ← rd (n + 1) [(r, 5)]
  pure (schemeOf n [(B1, L1), (B2, L2), (B3, L3), (B4, L4), (B5, L5), (B6, L6), (B7, L7)] 5)

/-! tn/_stroud_1961.py, tn/_stroud_1964.py, tn/_stroud_1966.py -/

/-- tn/_stroud_1961.py:20-35.  `frac(1, n)` fails for `n = 0`. -/
noncomputable def stroud1961 (n : ℕ) : Option Scheme := do
  guard (n ≠ 0)
  let r : ℝ := 1 / (n + 1)
  let s : ℝ := 1 / n
  let prod : ℝ := (n + 1) * (n + 2) * (n + 3)
  let A : ℝ := (3 - n) * (n + 1) ^ 3 / prod
  let B : ℝ := 3 / prod
  let C : ℝ := n ^ 3 / prod
  let L1 ← rd (n + 1) [(1, 1)]
  let L2 ← rd (n + 1) [(s, n)]
  pure (schemeOf n [(A, full n r), (B, L1), (C, L2)] 3)

/-- `roots` are the roots with multiplicity of the polynomial whose coefficients, leading one first,
are `cs`. -/
def IsRoots (cs roots : List ℝ) : Prop :=
  roots.length + 1 = cs.length ∧ ∀ x : ℝ, cs.foldl (fun acc c => acc * x + c) 0 = cs.headD 0 * (roots.map fun r => x - r).prod

/-- What `np.roots` and `mp.polyroots` are assumed to do: return the roots if all of them are real.
(Otherwise some are complex; then the conversion of the points to float fails.  That is `none`.) -/
def RootFinder (polyroots : List ℝ → Option (List ℝ)) : Prop :=
  (∀ cs l, polyroots cs = some l → IsRoots cs l) ∧
  ∀ cs, (∃ l, IsRoots cs l) → ∃ l, polyroots cs = some l

/-- The ordering step of `np.sort`: the same numbers in increasing order. -/
noncomputable def sort (l : List ℝ) : List ℝ := l.insertionSort (· ≤ ·)

/-- tn/_stroud_1964.py:40-51: `s` and `t` from `r`. -/
noncomputable def stroud1964ST (polyroots : List ℝ → Option (List ℝ)) (n : ℕ) (r : ℝ) :
    Option (List ℝ) :=
  (polyroots [1, -(1 - (n - 1) * r), n / (2 * (n + 2)) - (n - 1) * r + n * (n - 1) / 2 * r ^ 2]).map sort

/-- tn/_stroud_1964.py:32-38: `r = rts[0] if variant_a else rts[1]`. -/
noncomputable def stroud1964R (polyroots : List ℝ → Option (List ℝ)) (variantA : Bool) (n : ℕ) :
    Option ℝ :=
  (polyroots [n + 1, -3, 3 / (n + 2), -1 / ((n + 2) * (n + 3))]).bind fun rts =>
    (sort rts)[if variantA then 0 else 1]?

/-- tn/_stroud_1964.py:23-26 and 20-58 for `n = 2`. -/
noncomputable def stroud1964Two (polyroots : List ℝ → Option (List ℝ)) : Option Scheme :=
  (polyroots [1, -1, 1 / 4, -1 / 60]).bind fun
    | [r, s, t] => (rd 3 [(r, 1), (s, 1), (t, 1)]).map fun L => schemeOf 2 [(1 / (2 * (2 + 1)), L)] 3
    | _ => none

/-- tn/_stroud_1964.py:20-66.  `polyroots` is the root finder. -/
noncomputable def stroud1964 (polyroots : List ℝ → Option (List ℝ)) (variantA : Bool) (n : ℕ) :
    Option Scheme :=
  if n = 2 then stroud1964Two polyroots
  else if n < 2 then none
  else if 8 < n ∧ variantA then none
  else (stroud1964R polyroots variantA n).bind fun r => (stroud1964ST polyroots n r).bind fun
    | [s, t] => (rd (n + 1) [(r, n - 1), (s, 1), (t, 1)]).map fun L =>
        schemeOf n [(1 / (n * (n + 1)), L)] 3
    | _ => none

/-- tn/_stroud_1966.py:21-35 -/
noncomputable def stroud1966_1 (n : ℕ) : Option Scheme := do
  let q : ℝ := √(4 * n + 13)
  let r : ℝ := (2 * n + 5 - q) / 2 / (n + 1) / (n + 3)
  let s : ℝ := 1 - n * r
  let B : ℝ := (1 - q) / 2 / (n + 1) / (n + 2) / (n + 3)
  let C : ℝ := (2 * n ^ 2 + 10 * n + 11 + q) / 2 / (n + 1) / (n + 2) / (n + 3)
  let L1 ← rd (n + 1) [(1, 1)]
  let L2 ← rd (n + 1) [(r, n), (s, 1)]
  pure (schemeOf n [(B, L1), (C, L2)] 3)

open Classical in
/-- tn/_stroud_1966.py:38-56, with the smallest real root `r` (lines 41-44) as an argument.  A
division by zero gives infinite or undefined weights; it is modelled as a failure. -/
noncomputable def stroud1966_2 (n : ℕ) (r : ℝ) : Option Scheme := do
  let s : ℝ := 1 - n * r
  let t : ℝ := 1 / 2
  guard (1 - 2 * n * r ^ 2 - 2 * (1 - n * r) ^ 2 ≠ 0 ∧ n ≠ 0)
  let B : ℝ := (n - 2) / (1 - 2 * n * r ^ 2 - 2 * (1 - n * r) ^ 2) / (n + 1) / (n + 2)
  let C : ℝ := 2 * (1 / (n + 1) - B) / n
  let L1 ← rd (n + 1) [(r, n), (s, 1)]
  let L2 ← rd (n + 1) [(t, 2)]
  pure (schemeOf n [(B, L1), (C, L2)] 3)

/-- The polynomial of tn/_stroud_1966.py:41-43. -/
def stroud1966_2_poly (n : ℕ) (x : ℝ) : ℝ :=
  2 * (n - 2) * (n + 1) * (n + 3) * x ^ 3 + -(5 * n ^ 2 + 5 * n - 18) * x ^ 2 + 4 * n * x + -1

/-- tn/_stroud_1966.py:59-79 -/
noncomputable def stroud1966_3 (n : ℕ) : Option Scheme := do
  guard (2 < n)
  let r : ℝ := 1 / 2
  let s : ℝ := 1 / n
  let prod : ℝ := (n + 1) * (n + 2) * (n + 3)
  let B : ℝ := (6 - n) / prod
  let C : ℝ := 8 * (n - 3) / ((n - 2) * prod)
  let D : ℝ := n ^ 3 / ((n - 2) * prod)
  let L1 ← rd (n + 1) [(1, 1)]
  let L2 ← rd (n + 1) [(r, 2)]
  let L3 ← rd (n + 1) [(s, n)]
  pure (schemeOf n [(B, L1), (C, L2), (D, L3)] 3)

/-- tn/_stroud_1966.py:82-100 -/
noncomputable def stroud1966_4 (n : ℕ) : Option Scheme := do
  guard (3 ≤ n)
  let r : ℝ := 1 / (n + 1)
  let s : ℝ := 1 / 3
  let A : ℝ := (n + 1) ^ 2 * (n - 3) / ((n - 2) * (n + 2) * (n + 3))
  let B : ℝ := (9 - n) / (2 * (n + 1) * (n + 2) * (n + 3))
  let C : ℝ := 27 / ((n - 2) * (n + 1) * (n + 2) * (n + 3))
  let L1 ← rd (n + 1) [(1, 1)]
  let L2 ← rd (n + 1) [(s, 3)]
  pure (schemeOf n [(A, full n r), (B, L1), (C, L2)] 3)

/-- tn/_stroud_1966.py:103-120.  `frac(1, n)` and the weights fail for `n = 0` and `n = 1`. -/
noncomputable def stroud1966_5 (n : ℕ) : Option Scheme := do
  guard (n ≠ 0 ∧ n ≠ 1)
  let r : ℝ := 1 / n
  let s : ℝ := 1 / 3
  let prod : ℝ := (n + 1) * (n + 2) * (n + 3)
  let A : ℝ := (-n ^ 2 + 11 * n - 12) / (2 * (n - 1) * prod)
  let B : ℝ := n ^ 3 / ((n - 1) * prod)
  let C : ℝ := 27 / ((n - 1) * prod)
  let L1 ← rd (n + 1) [(1, 1)]
  let L2 ← rd (n + 1) [(r, n)]
  let L3 ← rd (n + 1) [(s, 3)]
  pure (schemeOf n [(A, L1), (B, L2), (C, L3)] 3)

/-- tn/_stroud_1966.py:123-145 -/
noncomputable def stroud1966_6 (n : ℕ) : Option Scheme := do
  guard (3 ≤ n ∧ n ≠ 5)
  let r : ℝ := 1 / (n + 1)
  let s : ℝ := 1 / 3
  let t : ℝ := 1 / (n - 2)
  let prod : ℝ := (n + 1) * (n + 2) * (n + 3)
  let A : ℝ := (3 - n) * (n - 12) * (n + 1) ^ 2 / (3 * (n - 2) * (n + 2) * (n + 3))
  let B : ℝ := 54 * (3 * n - 11) / ((n - 5) * (n - 2) * (n - 1) * prod)
  let C : ℝ := 2 * (n - 2) ^ 2 * (n - 9) / ((n - 5) * (n - 1) * prod)
  let L1 ← rd (n + 1) [(s, 3)]
  let L2 ← rd (n + 1) [(t, n - 2)]
  pure (schemeOf n [(A, full n r), (B, L1), (C, L2)] 3)

/-- tn/_stroud_1966.py:148-169 -/
noncomputable def stroud1966_7 (n : ℕ) : Option Scheme := do
  guard (3 ≤ n ∧ n ≠ 5)
  let s : ℝ := 1 / 3
  let t : ℝ := 1 / (n - 2)
  let prod : ℝ := (n + 1) * (n + 2) * (n + 3)
  let A : ℝ := (12 - n) / (2 * prod)
  let B : ℝ := 27 * (n - 7) / ((n - 5) * (n - 1) * prod)
  let C : ℝ := 6 * (n - 2) ^ 2 / ((n - 5) * (n - 1) * prod)
  let L1 ← rd (n + 1) [(1, 1)]
  let L2 ← rd (n + 1) [(s, 3)]
  let L3 ← rd (n + 1) [(t, n - 2)]
  pure (schemeOf n [(A, L1), (B, L2), (C, L3)] 3)

/-! tn/_stroud_1969.py -/

/-- tn/_stroud_1969.py:24-46, the groups of points.  `pm` is `+1` or `-1`. -/
noncomputable def stroud1969Points (n : ℕ) : Option (List (List (List ℝ))) := do
  let r (pm : ℝ) : ℝ := (n + 4 - pm * √15) / (n ^ 2 + 8 * n + 1)
  let s (pm : ℝ) : ℝ := (4 * n + 1 + pm * n * √15) / (n ^ 2 + 8 * n + 1)
  let u (pm : ℝ) : ℝ := (n + 7 + pm * 2 * √15) / (n ^ 2 + 14 * n - 11)
  let v (pm : ℝ) : ℝ := (4 * n - 2 - pm * (n - 1) * √15) / (n ^ 2 + 14 * n - 11)
  let L1 ← rd (n + 1) [(r 1, n), (s 1, 1)]
  let L2 ← rd (n + 1) [(r (-1), n), (s (-1), 1)]
  let L3 ← rd (n + 1) [(u 1, n - 1), (v 1, 2)]
  if 3 < n then
    let L4 ← rd (n + 1) [(u (-1), n - 1), (v (-1), 2)]
    pure [full n (1 / (n + 1)), L1, L2, L3, L4]
  else
    pure [full n (1 / (n + 1)), L1, L2, L3]

/-- tn/_stroud_1969.py:42-46, `k_range`. -/
def stroud1969Ks (n : ℕ) : List ℕ := if 3 < n then [0, 2, 3, 4, 5] else [0, 2, 3, 4]

/-- tn/_stroud_1969.py:48-60, the linear system that `np.linalg.solve` is called with: row `k` of the
matrix holds `sum(p[:, 0] ** k)` for the groups `p`, and the right-hand side is the moment of `x^k`
over the unit simplex divided by that of 1. -/
def stroud1969System (n : ℕ) (pts : List (List (List ℝ))) (w : List ℝ) : Prop :=
  w.length = pts.length ∧ ∀ k ∈ stroud1969Ks n,
    (List.zipWith (fun wi p => wi * (p.map fun row : List ℝ => row.headD 0 ^ k).sum) w pts).sum =
      monomialOverSimplex (k :: List.replicate (n - 1) 0) / monomialOverSimplex (List.replicate n 0)

/-- tn/_stroud_1969.py:19-66, where `w` is the solution that `np.linalg.solve` returns. -/
noncomputable def stroud1969 (n : ℕ) (w : List ℝ) : Option Scheme := do
  guard (3 ≤ n)
  let pts ← stroud1969Points n
  pure (schemeOf n (List.zip w pts) 5)

/-! tn/_walkington.py -/

/-- tn/_walkington.py:100-101 `_c(d, frac)` -/
noncomputable def walkC (d : ℕ) : List (List ℝ) := full d (1 / (d + 1))

/-- tn/_walkington.py:104-108 `_xi1(d, a)` -/
def xi1 (d : ℕ) (a : ℝ) : List (List ℝ) :=
  (List.range (d + 1)).map fun i => (List.range (d + 1)).map fun j => if i = j then 1 - d * a else a

/-- tn/_walkington.py:111-128 `_xi11(d, a, frac)` -/
noncomputable def xi11 (d : ℕ) (a : ℝ) : Option (List (List ℝ)) :=
  let b : ℝ := (1 - (d - 1) * a) / 2
  if d = 2 then some [[b, b, a], [b, a, b], [a, b, b]]
  else if d = 3 then
    some [[b, b, a, a], [b, a, b, a], [b, a, a, b], [a, b, a, b], [a, a, b, b], [a, b, b, a]]
  else none

/-- tn/_walkington.py:131-159 `_xi21(d, a, frac)` -/
noncomputable def xi21 (d : ℕ) (a : ℝ) : Option (List (List ℝ)) :=
  let b : ℝ := (1 - (d - 2) * a) / 3
  let c : ℝ := 1 - (d - 1) * a - b
  if d = 2 then some [[b, c, a], [c, b, a], [c, a, b], [b, a, c], [a, b, c], [a, c, b]]
  else if d = 3 then
    some [[b, c, a, a], [b, a, c, a], [b, a, a, c], [a, b, a, c], [a, a, b, c], [a, b, c, a],
      [c, b, a, a], [c, a, b, a], [c, a, a, b], [a, c, a, b], [a, a, c, b], [a, c, b, a]]
  else none

/-- tn/_walkington.py:162-166 `_xi111(d, a, frac)` -/
noncomputable def xi111 (d : ℕ) (a : ℝ) : Option (List (List ℝ)) :=
  let b : ℝ := (1 - (d - 2) * a) / 3
  if d = 3 then some [[b, b, b, a], [b, b, a, b], [b, a, b, b], [a, b, b, b]] else none

/-- tn/_walkington.py:19-26 -/
noncomputable def walkington1 (d : ℕ) : Scheme :=
  schemeOfNormalized d [(1 / (d.factorial : ℝ), walkC d)] 1

/-- tn/_walkington.py:29-42 -/
noncomputable def walkington2 (d : ℕ) : Scheme :=
  schemeOfNormalized d [(1 / ((d + 1).factorial : ℝ), xi1 d (1 / √(d + 1)))] 1

/-- tn/_walkington.py:45-55 -/
noncomputable def walkington3 (d : ℕ) : Scheme :=
  schemeOfNormalized d
    [(-((d + 1) ^ 3) / (4 * ((d + 2).factorial : ℝ)), walkC d),
     ((d + 3) ^ 3 / (4 * ((d + 3).factorial : ℝ)), xi1 d (1 / (d + 3)))] 3

/-- tn/_walkington.py:58-74 -/
noncomputable def walkington5 (d : ℕ) : Option Scheme := do
  let w0 : ℝ := (d + 1) ^ 5 / (32 * ((d + 3).factorial : ℝ))
  let w1 : ℝ := -((d + 3) ^ 5) / (16 * ((d + 4).factorial : ℝ))
  let w2 : ℝ := (d + 5) ^ 5 / (16 * ((d + 5).factorial : ℝ))
  let L ← xi11 d (1 / (d + 5))
  pure (schemeOfNormalized d
    [(w0, walkC d), (w1, xi1 d (1 / (d + 3))), (w2, xi1 d (1 / (d + 5))), (w2, L)] 5)

/-- tn/_walkington.py:77-97 -/
noncomputable def walkington7 (d : ℕ) : Option Scheme := do
  let w0 : ℝ := -(1 / 384) * ((d + 1) ^ 7 / ((d + 4).factorial : ℝ))
  let w1 : ℝ := 1 / 128 * ((d + 3) ^ 7 / ((d + 5).factorial : ℝ))
  let w2 : ℝ := -(1 / 64) * ((d + 5) ^ 7 / ((d + 6).factorial : ℝ))
  let w3 : ℝ := 1 / 64 * ((d + 7) ^ 7 / ((d + 7).factorial : ℝ))
  let L11 ← xi11 d (1 / (d + 5))
  let L21 ← xi21 d (1 / (d + 7))
  let L111 ← xi111 d (1 / (d + 7))
  pure (schemeOfNormalized d
    [(w0, walkC d), (w1, xi1 d (1 / (d + 3))), (w2, xi1 d (1 / (d + 5))), (w2, L11),
     (w3, xi1 d (1 / (d + 7))), (w3, L21), (w3, L111)] 7)

end Quadpy.Tn
