/-
Model of helpers/misc.py compute_dobrodeev and of the dobrodeev_1978 constructors of cn, sn and un.
-/
import Verif.Model.Cn
import Verif.Model.CnTransform
import Verif.Spec.Exact

namespace Quadpy

/-- The number `M` of helpers/misc.py:105 (and un/_dobrodeev_1978.py:83, 100): integer division; the chained
divisions of line 83 are the same number. -/
def dobM (n j k : ℕ) : ℕ :=
  n.factorial / (j.factorial * k.factorial * (n - j - k).factorial) * 2 ^ (j + k)

/-- The number `L` of helpers/misc.py:104. -/
def dobL (n i : ℕ) : ℕ := n.choose i * 2 ^ i

/-- helpers/misc.py:107. -/
noncomputable def dobF (n : ℕ) (I0 I2 I22 I4 : ℝ) : ℝ :=
  I22 / I0 - I2 ^ 2 / I0 ^ 2 + (I4 / I0 - I22 / I0) / n

/-- helpers/misc.py:108-112. -/
noncomputable def dobR (n : ℕ) (I0 I2 I22 I4 : ℝ) (i j k : ℕ) : ℝ :=
  -((j : ℝ) + k - i) / i * I2 ^ 2 / I0 ^ 2 + ((j : ℝ) + k - 1) / n * I4 / I0 - ((n : ℝ) - 1) / n * I22 / I0

/-- helpers/misc.py:113-120. -/
noncomputable def dobH (n : ℕ) (I0 I2 I22 I4 : ℝ) (i j k : ℕ) : ℝ :=
  1 / i * (((j : ℝ) + k - i) * I2 ^ 2 / I0 ^ 2 +
    ((j : ℝ) + k) / n * (((i : ℝ) - 1) * I4 / I0 - ((n : ℝ) - 1) * I22 / I0))

/-- helpers/misc.py:89-127 `compute_dobrodeev(n, I0, I2, I22, I4, pm_type, i, j, k)`; `t` is 1 for
the type "I" and -1 otherwise.  A negative radicand (nan, or a complex number in the symbolic case)
is `none`. -/
noncomputable def computeDobrodeev (n : ℕ) (I0 I2 I22 I4 : ℝ) (typeI : Bool) (i j k : ℕ) :
    Option (ℝ × ℝ × ℝ × ℝ) := do
  guard (j + k ≤ n)
  let t : ℝ := if typeI then 1 else -1
  let L : ℝ := dobL n i
  let M : ℝ := dobM n j k
  let N := L + M
  let F := dobF n I0 I2 I22 I4
  let R := dobR n I0 I2 I22 I4 i j k
  let H := dobH n I0 I2 I22 I4 i j k
  let rLM ← sqrtO (L / M * F)
  let Q := L / M * R + H - t * 2 * I2 / I0 * ((j : ℝ) + k - i) / i * rLM
  let G := 1 / N
  let rML ← sqrtO (M / L * F)
  let rkj ← sqrtO (k / j * Q)
  let rjk ← sqrtO (j / k * Q)
  let a ← sqrtO (n / i * (I2 / I0 + t * rML))
  let b ← sqrtO (n / ((j : ℝ) + k) * (I2 / I0 - t * rLM + t * rkj))
  let c ← sqrtO (n / ((j : ℝ) + k) * (I2 / I0 - t * rLM - t * rjk))
  return (G, a, b, c)

/-- cn/_dobrodeev_1978.py:53-57 and sn/_dobrodeev_1978.py:51-55: the scheme from the numbers. -/
noncomputable def dobScheme (n i j k : ℕ) (g : ℝ × ℝ × ℝ × ℝ) : Option Scheme := do
  let g1 ← fsd n [(g.2.1, i)]
  let g2 ← fsd n [(g.2.2.1, j), (g.2.2.2, k)]
  return schemeOf n [(g.1, g1), (g.1, g2)] 5

/-- The exponents `[k0, k1, 0, ..., 0]`. -/
def expo2 {n : ℕ} (k0 k1 : ℕ) : Fin n → ℕ :=
  fun a => if (a : ℕ) = 0 then k0 else if (a : ℕ) = 1 then k1 else 0

namespace Cn

/-- cn/_dobrodeev_1978.py:21-41. -/
def dobConfig : ℕ → Option (Bool × ℕ × ℕ × ℕ)
  | 2 => some (false, 1, 1, 1)
  | 3 => some (true, 3, 1, 1)
  | 4 => some (true, 4, 1, 1)
  | 5 => some (true, 5, 1, 1)
  | 6 => some (true, 5, 1, 1)
  | 7 => some (true, 6, 1, 2)
  | 8 => some (true, 7, 1, 2)
  | 9 => some (true, 6, 1, 2)
  | 10 => some (true, 6, 1, 9)
  | 11 => some (true, 6, 1, 10)
  | 12 => some (true, 7, 1, 11)
  | 13 => some (true, 8, 2, 2)
  | 14 => some (true, 8, 1, 13)
  | 15 => some (true, 9, 1, 14)
  | 16 => some (true, 10, 2, 3)
  | 17 => some (true, 10, 2, 3)
  | 18 => some (true, 15, 3, 3)
  | 19 => some (false, 9, 1, 18)
  | 20 => some (true, 9, 1, 18)
  | _ => none

/-- `integrate_monomial_over_ncube([[-1, 1]] * n, exps)` (cn/_dobrodeev_1978.py:43-47). -/
noncomputable def unitMonomial (n : ℕ) (exps : List ℕ) : ℝ :=
  monomialOverNcube (List.replicate n (-1, 1)) exps

/-- cn/_dobrodeev_1978.py:18-57. -/
noncomputable def dobrodeev1978 (n : ℕ) : Option Scheme := do
  let (ty, i, j, k) ← dobConfig n
  let I0 := unitMonomial n (List.replicate n 0)
  let I2 := unitMonomial n (2 :: List.replicate (n - 1) 0)
  let I22 := unitMonomial n (2 :: 2 :: List.replicate (n - 2) 0)
  let I4 := unitMonomial n (4 :: List.replicate (n - 1) 0)
  let g ← computeDobrodeev n I0 I2 I22 I4 ty i j k
  dobScheme n i j k g

end Cn

namespace Sn

/-- sn/_dobrodeev_1978.py:22-42. -/
def dobConfig : ℕ → Option (Bool × ℕ × ℕ × ℕ)
  | 2 => some (false, 1, 1, 1)
  | 3 => some (false, 1, 1, 1)
  | 4 => some (false, 4, 1, 1)
  | 5 => some (true, 3, 1, 1)
  | 6 => some (true, 3, 1, 1)
  | 7 => some (true, 7, 1, 1)
  | 8 => some (true, 8, 1, 1)
  | 9 => some (true, 9, 1, 1)
  | 10 => some (true, 9, 1, 2)
  | 11 => some (true, 5, 1, 2)
  | 12 => some (true, 12, 1, 2)
  | 13 => some (true, 13, 1, 2)
  | 14 => some (true, 14, 1, 2)
  | 15 => some (true, 15, 1, 2)
  | 16 => some (false, 15, 1, 4)
  | 17 => some (true, 17, 1, 3)
  | 18 => some (true, 18, 1, 3)
  | 19 => some (true, 19, 1, 3)
  | 20 => some (true, 20, 1, 3)
  | _ => none

/-- sn/_dobrodeev_1978.py:19-55.  `ndim.nball.integrate_monomial` (external) is the integral. -/
noncomputable def dobrodeev1978 (n : ℕ) : Option Scheme := do
  let (ty, i, j, k) ← dobConfig n
  let I := fun e : Fin n → ℕ => Spec.ball n fun x => ∏ a, x a ^ e a
  let g ← computeDobrodeev n (I (expo2 0 0)) (I (expo2 2 0)) (I (expo2 2 2)) (I (expo2 4 0)) ty i j k
  dobScheme n i j k g

end Sn

namespace Un

/-- un/_dobrodeev_1978.py:29-49; the entries `None` are `none`. -/
def dobConfig : ℕ → Option (Option Bool × Option ℕ × Option (ℕ × ℕ))
  | 2 => some (some true, none, some (1, 1))
  | 3 => some (some true, none, some (1, 1))
  | 4 => some (none, some 2, none)
  | 5 => some (some true, some 5, some (1, 1))
  | 6 => some (some true, some 5, some (1, 1))
  | 7 => some (none, some 3, none)
  | 8 => some (some true, some 8, some (1, 1))
  | 9 => some (some true, some 9, some (1, 1))
  | 10 => some (some true, some 10, some (1, 1))
  | 11 => some (some true, some 11, some (1, 1))
  | 12 => some (some true, some 5, some (1, 1))
  | 13 => some (some true, some 13, some (1, 2))
  | 14 => some (some true, some 14, some (1, 2))
  | 15 => some (some true, some 15, some (1, 2))
  | 16 => some (some true, some 16, some (1, 2))
  | 17 => some (some true, some 17, some (1, 2))
  | 18 => some (some true, some 18, some (1, 3))
  | 19 => some (some true, some 19, some (1, 3))
  | 20 => some (some true, some 20, some (1, 3))
  | _ => none

/-- un/_dobrodeev_1978.py:82-89 `_generate_jk`. -/
noncomputable def generateJk (n : ℕ) (typeI : Bool) (j k : ℕ) : Option (ℝ × ℝ × ℝ) := do
  let t : ℝ := if typeI then 1 else -1
  let r ← sqrtO (3 * ((j : ℝ) + k) / (n + 2) - 1)
  let b ← sqrtO (1 / ((j : ℝ) + k) * (1 + t * (k / j * r)))
  let c ← sqrtO (1 / ((j : ℝ) + k) * (1 - t * (j / k * r)))
  return (1 / dobM n j k, b, c)

/-- un/_dobrodeev_1978.py:92-117 `_compute_dobrodeev`. -/
noncomputable def computeDobrodeev (n : ℕ) (I0 I2 I22 I4 : ℝ) (typeI : Bool) (i j k : ℕ) :
    Option (ℝ × ℝ × ℝ × ℝ) := do
  guard (i ≤ n ∧ j + k ≤ n)
  let t : ℝ := if typeI then 1 else -1
  let L : ℝ := ((n.factorial / (i.factorial * (n - i).factorial) * 2 ^ i : ℕ) : ℝ)
  let M : ℝ := dobM n j k
  let N := L + M
  let Q := L / M * dobR n I0 I2 I22 I4 i j k + dobH n I0 I2 I22 I4 i j k
  let rkj ← sqrtO (k / j * Q)
  let rjk ← sqrtO (j / k * Q)
  let a ← sqrtO (n / i * I2 / I0)
  let b ← sqrtO (n / ((j : ℝ) + k) * (I2 / I0 + t * rkj))
  let c ← sqrtO (n / ((j : ℝ) + k) * (I2 / I0 - t * rjk))
  return (1 / N, a, b, c)

/-- un/_dobrodeev_1978.py:22-79.  `ndim.nsphere.integrate_monomial` (external) is the integral. -/
noncomputable def dobrodeev1978 (n : ℕ) : Option Scheme := do
  match ← dobConfig n with
  | (some ty, none, some (j, k)) =>
    let (G, b, c) ← generateJk n ty j k
    let g ← fsd n [(b, j), (c, k)]
    return schemeOf n [(G, g)] 5
  | (_, some i, none) =>
    let L : ℕ := n.factorial / i.factorial / (n - i).factorial * 2 ^ i
    let g ← fsd n [(√(3 / ((n : ℝ) + 2)), i)]
    return schemeOf n [(1 / L, g)] 5
  | (some ty, some i, some (j, k)) =>
    let I := fun e : Fin n → ℕ => Spec.sphere n fun x => ∏ a, x a ^ e a
    let g ← computeDobrodeev n (I (expo2 0 0)) (I (expo2 2 0)) (I (expo2 2 2)) (I (expo2 4 0)) ty i j k
    dobScheme n i j k g
  | _ => none

end Un
end Quadpy
