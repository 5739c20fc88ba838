/-
Model of the parametrised rules of c2, c3, s2 and s3.
-/
import Verif.Model.Cn
import Verif.Model.Symmetries

namespace Quadpy.LowDim

open Classical in
/-- c2/_franke.py:24-38 `franke_1(lmbda)`.  The guard (line 25) admits the end points `-9/5` and `9/4`,
at which a weight is a fraction with denominator zero and the scheme object cannot be built. -/
noncomputable def franke_1 (lmbda : ℝ) : Option Scheme :=
  if -(9 / 5) ≤ lmbda ∧ lmbda ≤ 9 / 4 then
    if 9 + 5 * lmbda = 0 ∨ 9 - 4 * lmbda = 0 then none
    else do
      let a ← sqrtO ((9 + 5 * lmbda) / 15)
      let b ← sqrtO ((9 - 4 * lmbda) / 15)
      let c ← sqrtO (3 / 5)
      some (schemeOfSym 2
        [⟨.zero, [4 * (4 + 5 * lmbda) / (9 * (9 + 5 * lmbda))], [[]]⟩,
         ⟨.sxy, [25 / (36 * (9 - 4 * lmbda))], [[b, c]]⟩,
         ⟨.c2_a0, [40 / (36 * (9 + 5 * lmbda))], [[a]]⟩,
         ⟨.c2_0a, [10 * (1 - lmbda) / (9 * (9 - 4 * lmbda))], [[c]]⟩] 5)
  else none

open Classical in
/-- c2/_waldron.py:18-38 `waldron(r, alpha)`.  The guard admits `r^2 = 1/3`, where `R` is a division by
zero (infinite points). -/
noncomputable def waldron (r alpha : ℝ) : Option Scheme :=
  if 1 / 3 ≤ r ^ 2 then
    if 3 * r ^ 2 - 1 = 0 then none
    else
      let R := r / Real.sqrt (3 * r ^ 2 - 1)
      let beta := alpha + Real.pi / 2
      some (schemeOfSym 2
        [⟨.plain, [1 / 6 / r ^ 2, 1 / 6 / r ^ 2, 1 / 6 / R ^ 2, 1 / 6 / R ^ 2],
          [[r * Real.cos alpha, r * Real.sin alpha], [-(r * Real.cos alpha), -(r * Real.sin alpha)],
           [R * Real.cos beta, R * Real.sin beta], [-(R * Real.cos beta), -(R * Real.sin beta)]]⟩] 3)
  else none

/-- The quantities of c3/_hammer_wymore.py:22-55, lines in order. -/
structure HW where
  (u1 u2 a1 a2 p0 p1 p2 p3 c0 c1 b u3 u4 a3 a4 : ℝ)

/-- c3/_hammer_wymore.py:27-55; `b` is the value of the square root in line 47. -/
noncomputable def hwOf (lmbda b : ℝ) : HW :=
  let I0 : ℝ := 8
  let I2 : ℝ := 8 / 3
  let I4 : ℝ := 8 / 5
  let I22 : ℝ := 8 / 9
  let I6 : ℝ := 8 / 7
  let I42 : ℝ := 8 / 15
  let I222 : ℝ := 8 / 27
  let u1 := (I6 - 2 * I42 + I222 + lmbda * (I42 - I222)) / (I4 - I22)
  let u2 := u1 / lmbda
  let a1 := (I6 - 2 * I42 + I222) / 2 / u1 ^ 3
  let a2 := (I42 - I222) / 4 / u2 ^ 3
  let p0 := I0 - 6 * a1 - 12 * a2
  let p1 := I2 - 2 * a1 * u1 - 8 * a2 * u2
  let p2 := I22 - 4 * a2 * u2 ^ 2
  let p3 := I222
  let c0 := (p3 * p1 - p2 ^ 2) / (p0 * p2 - p1 ^ 2)
  let c1 := (p3 * p0 - p1 * p2) / (p1 ^ 2 - p2 * p0)
  let u3 := (-c1 - b) / 2
  let u4 := (-c1 + b) / 2
  let a3 := (p0 * u4 - p1) / 8 / (u4 - u3)
  let a4 := (p0 * u3 - p1) / 8 / (u3 - u4)
  ⟨u1, u2, a1, a2, p0, p1, p2, p3, c0, c1, b, u3, u4, a3, a4⟩

open Classical in
/-- c3/_hammer_wymore.py:20-65 `hammer_wymore(lmbda)`; `none` where the code divides by zero or takes
the root of a negative number. -/
noncomputable def hammer_wymore (lmbda : ℝ) : Option Scheme := do
  let h := hwOf lmbda 0
  if lmbda = 0 ∨ h.u1 = 0 ∨ h.p0 * h.p2 - h.p1 ^ 2 = 0 then none
  else
    let b ← sqrtO (h.c1 ^ 2 - 4 * h.c0)
    if b = 0 then none
    else
      let h := hwOf lmbda b
      let x1 ← sqrtO h.u1
      let x2 ← sqrtO h.u2
      let x3 ← sqrtO h.u3
      let x4 ← sqrtO h.u4
      some (schemeOfSym 3
        [⟨.symm_r00, [h.a1 / 8], [[x1]]⟩, ⟨.symm_rr0, [h.a2 / 8], [[x2]]⟩,
         ⟨.symm_rrr, [h.a3 / 8, h.a4 / 8], [[x3], [x4]]⟩] 7)

/-- s2/_radon.py:22-36 `radon(alpha)` (`alpha = -4` and `alpha = -6` are divisions by zero in the
code; the theorems assume `alpha > -2`, where the weight function is integrable). -/
noncomputable def radon (alpha : ℝ) : Option Scheme := do
  let r ← sqrtO ((alpha + 4) / (alpha + 6))
  let s ← sqrtO ((alpha + 4) / (4 * (alpha + 6)))
  let t ← sqrtO (3 * (alpha + 4) / (4 * (alpha + 6)))
  let A := 4 / (alpha + 4) ^ 2
  let B := (alpha + 2) * (alpha + 6) / (6 * (alpha + 4) ^ 2)
  some (schemeOfSym 2 [⟨.zero, [A], [[]]⟩, ⟨.c2_a0, [B], [[r]]⟩, ⟨.sxy, [B], [[s, t]]⟩] 5)

/-- s2/_mysovskih.py:24-34 `mysovskih_1(alpha)`. -/
noncomputable def mysovskih_1 (alpha : ℝ) : Option Scheme := do
  let b ← sqrtO ((alpha + 4) / (alpha + 6))
  let B0 := 4 / (alpha + 4) ^ 2
  let B1 := (alpha + 2) * (alpha + 6) / (5 * (alpha + 4) ^ 2)
  some (schemeOfSym 2 [⟨.zero, [B0], [[]]⟩, ⟨.d 5 0, [B1], [[b]]⟩] 4)

/-- s3/_ditkin.py:20-27 `ditkin_1(alpha)`. -/
noncomputable def ditkin_1 (alpha : ℝ) : Option Scheme := do
  let B0 := 4 / (alpha + 5) ^ 2
  let B1 := (alpha + 3) * (alpha + 7) / (12 * (alpha + 5) ^ 2)
  let r ← sqrtO ((alpha + 5) * (5 + Real.sqrt 5) / 10 / (alpha + 7))
  let s ← sqrtO ((alpha + 5) * (5 - Real.sqrt 5) / 10 / (alpha + 7))
  some (schemeOfSym 3 [⟨.zero, [B0], [[]]⟩, ⟨.symm_rs0_roll, [B1], [[r, s]]⟩] 5)

end Quadpy.LowDim
