import Verif.Model.Combinatorics
import Verif.Model.Scheme
import Mathlib.Algebra.MvPolynomial.CommRing
import Mathlib.Data.Real.Basic

/-!
# Model of tn/_silvester.py

`sympy.poly` (external) is modelled by `MvPolynomial`.
-/

namespace Quadpy.Tn

/-- tn/_silvester.py:31-38: decrease the first nonzero entry. -/
def decFirstPos : List ℕ → List ℕ
  | [] => []
  | 0 :: l => 0 :: decFirstPos l
  | (k + 1) :: l => k :: l

/-- tn/_silvester.py:36: the first nonzero entry. -/
def firstNonzero : List ℕ → ℕ
  | [] => 0
  | 0 :: l => firstNonzero l
  | (k + 1) :: _ => k + 1

theorem decFirstPos_sum : ∀ l : List ℕ, l.sum ≠ 0 → (decFirstPos l).sum + 1 = l.sum
  | [], h => by simp at h
  | 0 :: l, h => by
    simp only [decFirstPos, List.sum_cons, zero_add] at h ⊢
    exact decFirstPos_sum l h
  | (k + 1) :: l, _ => by simp only [decFirstPos, List.sum_cons]; omega

/-- tn/_silvester.py:20-40 `integrate_bary(k)`: recursion over the exponents. -/
noncomputable def integrateBary (k : List ℕ) : ℝ :=
  if h : k.sum = 0 then 1
  else integrateBary (decFirstPos k) * ((firstNonzero k : ℝ) / ((k.sum : ℝ) + ((k.length : ℝ) - 1)))
termination_by k.sum
decreasing_by have := decFirstPos_sum k h; omega

open MvPolynomial in
/-- tn/_silvester.py:53-57: the polynomial that is integrated for the index `idx`. -/
noncomputable def silvesterPoly (N : ℕ) (pt : ℕ → ℝ) (idx : List ℕ) : MvPolynomial (Fin N) ℝ :=
  ∏ i : Fin N, ((List.range (idx.getD i 0)).map fun k =>
    C (1 / (pt (idx.getD i 0) - pt k)) * (X i - C (pt k))).prod

/-- tn/_silvester.py:58-65: the sum over the terms of the polynomial.  (The code may attach the exponents
to the wrong variables, if some variable is missing in the polynomial; `integrate_bary` does not depend
on their order.) -/
noncomputable def silvesterWeight (N : ℕ) (pt : ℕ → ℝ) (idx : List ℕ) : ℝ :=
  ∑ e ∈ (silvesterPoly N pt idx).support,
    (silvesterPoly N pt idx).coeff e * integrateBary (List.ofFn fun i : Fin N => e i)

/-- The argument `variant`. -/
inductive SilvesterVariant
  | closed
  | opened

/-- tn/_silvester.py:77-78 and 84-85: `points1d(k)` -/
noncomputable def silvesterPoint (dim : ℕ) (v : SilvesterVariant) (n k : ℕ) : ℝ :=
  match v with
  | .closed => (k : ℝ) / n
  | .opened => (k + 1 : ℝ) / (n + 1 + dim)

/-- tn/_silvester.py:70-92 `silvester(dim, variant, n)`.  `none` for `n = 0`: the product in line 53 is
then the integer 1, and `zip(coeffs, exp)` in line 65 fails with a `TypeError`. -/
noncomputable def silvester (dim : ℕ) (v : SilvesterVariant) (n : ℕ) : Option Scheme :=
  if n = 0 then none
  else
    let idxs := ((getAllExponents (dim + 1) n).getLast?).getD []
    let pt := silvesterPoint dim v n
    some ⟨dim, idxs.map fun idx => silvesterWeight (dim + 1) pt idx, idxs.map fun idx => idx.map pt, n⟩

end Quadpy.Tn
