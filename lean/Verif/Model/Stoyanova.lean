/-
Model of sn/_stoyanova.py.
-/
import Verif.Model.Sn

namespace Quadpy
namespace Sn

/-- A division that raises ZeroDivisionError (`none`) if the denominator is zero. -/
noncomputable def divO (a b : ℝ) : Option ℝ := open Classical in if b = 0 then none else some (a / b)

/-- sn/_stoyanova.py:24-36, the value of `delta` if the caller gives none.  For `n < 5` the dictionary
has no such key, but then the assertion of line 22 has failed before. -/
noncomputable def stoyanovaDelta (n : ℕ) (variantVPlus : Bool) : ℝ :=
  match variantVPlus, n with
  | true, 5 => 0.98945
  | true, 6 => 1.005
  | true, 7 => 1.017
  | true, 8 => 1.026
  | true, 9 => 1.04
  | true, _ => 1
  | false, 5 => 0.98928
  | false, 6 => 0.818
  | false, 7 => 0.81
  | false, 8 => 0.8
  | false, 9 => 0.8
  | false, _ => 4 / 5

/-- sn/_stoyanova.py:47-55, the face midpoints projected onto the sphere. -/
noncomputable def facePoints (n : ℕ) : List (List ℝ) :=
  (List.range (n + 1)).flatMap fun i1 => (List.range i1).flatMap fun i2 => (List.range i2).map fun i3 =>
    Un.smulRow (√(n / (3 * (n - 2))))
      (Un.addRow (Un.addRow (nsimplexRow n i1) (nsimplexRow n i2)) (nsimplexRow n i3))

/-- sn/_stoyanova.py:56-68, the quarter points of the edges. -/
noncomputable def quarterPoints (n : ℕ) : List (List ℝ) :=
  ((List.range (n + 1)).flatMap fun k => (List.range k).map fun l =>
    Un.smulRow (√(n / (10 * n - 6)))
      (Un.addRow (nsimplexRow n k) (Un.smulRow 3 (nsimplexRow n l)))) ++
  ((List.range (n + 1)).flatMap fun k => (List.range k).map fun l =>
    Un.smulRow (√(n / (10 * n - 6)))
      (Un.addRow (Un.smulRow 3 (nsimplexRow n k)) (nsimplexRow n l)))

/-- `np.concatenate([pts, -pts])` (lines 70-75). -/
def withNeg (L : List (List ℝ)) : List (List ℝ) := L ++ L.map (Un.smulRow (-1))

/-- The sixth-order weights `a1`, `b1`, `c1`, `e1` (sn/_stoyanova.py:87-132). -/
structure StWeights where
  a1 : ℝ
  b1 : ℝ
  c1 : ℝ
  e1 : ℝ

/-- sn/_stoyanova.py:87-132. -/
noncomputable def stoyanovaWeights (n : ℝ) : Option StWeights := do
  let s1 := (n - 2) ^ 5 + 243
  let s2 := (n - 1) ^ 5 + 32
  let s3 := (3 * n - 1) ^ 6 + (n - 3) ^ 6 + 4096 * (n - 1)
  let s4 := n ^ 5 + 1
  let s5 := n ^ 2 + 4 * n - 8
  let s6 := (n + 1) * (n + 2) * (n + 4)
  let s7 := n * (n - 1)
  let s8 := n * (n - 2)
  let s9 := (n - 1) * (n - 2)
  let s10 := (n + 1) * (n + 6) * s6
  let s11 := (5 * n - 3) ^ 3
  let s12 := (n - 1) * (n - 3)
  let s17 := 3 * (n - 2)
  let q1 := 9 * (n + 1) * (10 * n ^ 5 * (n + 1) ^ 2 * s17 - n ^ 3 * s2 * s5 +
      4 * (n - 1) * s4 * s5 * s7 - 2 * s4 * s6 * s8) -
    n ^ 2 * s3 * s8 + 8 * s4 * s8 * s11 + 108 * n * s2 * s7 ^ 2 - 432 * (n - 1) ^ 3 * s4 * s7
  let q2 := n * s1 * s7 - 3 * s4 * s9 * s17 + 12 * (n - 1) * s4 * s12 - 3 * n ^ 2 * (n - 3) * s2
  let b1 ← divO (2 * (n - 1) * (3 * (n + 1) * s5 * s7 * q2 - s12 * q1 - 36 * (n - 1) ^ 2 * s7 * q2))
    (s10 * s17 * q2)
  let c1 ← divO (s9 * q1) (2 * s10 * q2)
  let e1 ← divO (4 * n * s11) (9 * s10)
  let f ← divO n (n + 6)
  return ⟨f - b1 - c1 - e1, b1, c1, e1⟩

/-- sn/_stoyanova.py:133-152: `(u, v, w)`, the squares of the inverse radii. -/
noncomputable def stoyanovaUVW (n delta : ℝ) (variantVPlus : Bool) (W : StWeights) :
    Option (ℝ × ℝ × ℝ) := do
  let ⟨a1, b1, c1, e1⟩ := W
  let s12 := (n - 1) * (n - 3)
  let s13 := n ^ 2 - 7 * n + 19
  let s14 := n ^ 2 - n + 1
  let s15 := 2 * (n - 3) * (n + 1) ^ 2
  let s16 := n ^ 3 - 9 * n ^ 2 + 33 * n - 38
  let s17 := 3 * (n - 2)
  let y1 := n / (n + 2) - (← divO e1 (delta ^ 4))
  let y2 := n / (n + 4) - (← divO e1 (delta ^ 2))
  let y3 := 3 * n ^ 2 / ((n + 2) * (n + 4)) -
    (← divO (e1 * (41 * n ^ 3 - 101 * n ^ 2 + 155 * n - 87)) (2 * (5 * n - 3) ^ 2 * delta ^ 2))
  let w0 ← divO (s17 * (y3 * (s15 - s14 * s17) + s13 * s14 * y2)) (s13 * s15 * c1)
  let u0 ← divO (n * (s17 * y3 - s13 * y2)) (s15 * a1)
  let p1 ← divO (n * (n - 4) * b1) (4 * s12 * a1)
  let p2 ← divO (s16 * s17 * b1) (4 * s12 * s13 * c1)
  let d1 := a1 * p1 ^ 2 + c1 * p2 ^ 2 + b1
  let d2 := a1 * p1 * u0 + c1 * p2 * w0
  let d3 := a1 * u0 ^ 2 + c1 * w0 ^ 2 - y1
  let d0 := d2 ^ 2 - d1 * d3
  let root ← sqrtO d0
  let v ← divO (if variantVPlus then d2 + root else d2 - root) d1
  return (u0 - p1 * v, v, w0 - p2 * v)

/-- sn/_stoyanova.py:19-182 with a given `delta`. -/
noncomputable def stoyanovaWith (n : ℕ) (delta : ℝ) (variantVPlus : Bool) : Option Scheme := do
  guard (5 ≤ n)
  let ptsA := withNeg (getNsimplexPoints n)
  let ptsB := withNeg (Un.edgePoints n)
  let ptsC := if 5 < n then withNeg (facePoints n) else facePoints n
  let ptsE := withNeg (quarterPoints n)
  let n1 := 2 * (n + 1)
  let n2 := n * (n + 1)
  let n3 := if n = 5 then (n + 1) * n * (n - 1) / 6 else (n + 1) * n * (n - 1) / 3
  let n4 := 2 * n * (n + 1)
  guard (ptsA.length = n1 ∧ ptsB.length = n2 ∧ ptsC.length = n3 ∧ ptsE.length = n4)
  let W ← stoyanovaWeights n
  let (u, v, w) ← stoyanovaUVW n delta variantVPlus W
  let lmbda2 ← divO 1 u
  let beta2 ← divO 1 v
  let gamma2 ← divO 1 w
  let a := W.a1 / n1 / lmbda2 ^ 3
  let b := W.b1 / n2 / beta2 ^ 3
  let c := W.c1 / n3 / gamma2 ^ 3
  let e := W.e1 / n4 / (delta ^ 2) ^ 3
  let d := 1 - n1 * a - n2 * b - n3 * c - n4 * e
  let lmbda ← sqrtO lmbda2
  let beta ← sqrtO beta2
  let gamma ← sqrtO gamma2
  return schemeOf n [(a, ptsA.map (Un.smulRow lmbda)), (b, ptsB.map (Un.smulRow beta)),
    (c, ptsC.map (Un.smulRow gamma)), (e, ptsE.map (Un.smulRow delta)), (d, z n)] 7

/-- sn/_stoyanova.py:19-182 `stoyanova(n, delta=None, variant_v_plus=True)`. -/
noncomputable def stoyanova (n : ℕ) (delta : Option ℝ) (variantVPlus : Bool) : Option Scheme :=
  stoyanovaWith n (delta.getD (stoyanovaDelta n variantVPlus)) variantVPlus

end Sn
end Quadpy
