import Verif.Model.OneDim

/-!
# Model of Gauss-Kronrod rules: c1/_gauss_kronrod.py

Arrays of floats are functions `ℕ → ℝ` (only the indices inside the arrays are used); the numpy
statement `s[idx] = cumsum(expr)` evaluates `expr` with the old `s`. A division by zero gives `nan` in
the code, which makes the eigensolver fail; in the model it gives some number. The theorems are about
the case in which `scheme_from_rc` has a result.
-/

namespace Quadpy
namespace OneDim

/-- The local variables of `_r_kronrod`. -/
structure KState where
  /-- mixed moments -/
  s : ℕ → ℝ
  /-- mixed moments of the step before -/
  t : ℕ → ℝ
  /-- diagonal -/
  a : ℕ → ℝ
  /-- squares of the off-diagonal -/
  b : ℕ → ℝ

/-- c1/_gauss_kronrod.py:57 `int(math.ceil(3 * n / 2.0)) + 1` (also lines 40, 58, 65) -/
def kronrodLength (n : ℕ) : ℕ := (3 * n + 1) / 2 + 1

/-- c1/_gauss_kronrod.py:41 `degree = 2 * length + 1` -/
def kronrodDegree (n : ℕ) : ℕ := 2 * kronrodLength n + 1

/-- c1/_gauss_kronrod.py:60-69: the copied coefficients, and `t[1] = b[n + 1]`. -/
noncomputable def kronrodInit (n : ℕ) (a0 b0 : ℕ → ℝ) : KState :=
  let b := fun i => if i < kronrodLength n then b0 i else 0
  { a := fun i => if i < 3 * n / 2 + 1 then a0 i else 0
    b := b
    s := fun _ => 0
    t := fun i => if i = 1 then b (n + 1) else 0 }

/-- c1/_gauss_kronrod.py:70-77, the body of the first loop; `k` runs downwards from `k0` to 0. -/
noncomputable def kronrodStep1 (n : ℕ) (st : KState) (m : ℕ) : KState :=
  let k0 := (m + 1) / 2
  let s := fun i => if 1 ≤ i ∧ i ≤ k0 + 1 then
      ∑ k ∈ Finset.Icc (i - 1) k0, ((st.a (k + n + 1) - st.a (m - k)) * st.t (k + 1) +
        st.b (k + n + 1) * st.s k - st.b (m - k) * st.s (k + 1))
    else st.s i
  { st with s := st.t, t := s }

/-- c1/_gauss_kronrod.py:79-80 `s[1 : j + 1] = s[:j]` -/
noncomputable def kronrodShift (n : ℕ) (st : KState) : KState :=
  { st with s := fun i => if 1 ≤ i ∧ i ≤ n / 2 + 1 then st.s (i - 1) else st.s i }

/-- c1/_gauss_kronrod.py:81-98, the body of the second loop. -/
noncomputable def kronrodStep2 (n : ℕ) (st : KState) (m : ℕ) : KState :=
  let k0 := m + 1 - n
  let k1 := (m - 1) / 2
  let s := fun i => if 1 ≤ i ∧ i ≤ k1 - k0 + 1 then
      ∑ k ∈ Finset.Icc k0 (k0 + (i - 1)), (-(st.a (k + n + 1) - st.a (m - k)) * st.t (k - k0 + 1) -
        st.b (k + n + 1) * st.s (k - k0 + 1) + st.b (m - k) * st.s (k - k0 + 2))
    else st.s i
  let j := k1 - k0
  let k := (m + 1) / 2
  let a := if m % 2 = 0 then
      Function.update st.a (k + n + 1)
        (st.a k + (s (j + 1) - st.b (k + n + 1) * s (j + 2)) / st.t (j + 2))
    else st.a
  let b := if m % 2 = 0 then st.b else Function.update st.b (k + n + 1) (s (j + 1) / s (j + 2))
  { s := st.t, t := s, a := a, b := b }

/-- c1/_gauss_kronrod.py:56-101 `_r_kronrod(n, a0, b0)` -/
noncomputable def rKronrod (n : ℕ) (a0 b0 : ℕ → ℝ) : (ℕ → ℝ) × (ℕ → ℝ) :=
  let st := (List.range (n - 1)).foldl (kronrodStep1 n) (kronrodInit n a0 b0)
  let st := (List.range' (n - 1) (n - 1)).foldl (kronrodStep2 n) (kronrodShift n st)
  (Function.update st.a (2 * n) (st.a (n - 1) - st.b (2 * n) * st.s 1 / st.t 1), st.b)

/-- The divisor in line 95 (even `m`) or 97 (odd `m`) of c1/_gauss_kronrod.py. -/
noncomputable def kronrodDivisor (n : ℕ) (st : KState) (m : ℕ) : ℝ :=
  let j := (m - 1) / 2 - (m + 1 - n)
  if m % 2 = 0 then st.t (j + 2) else (kronrodStep2 n st m).t (j + 2)

/-- No division by zero happens in c1/_gauss_kronrod.py:81-100: otherwise the code gets `inf` or `nan`
among the coefficients, which scipy's eigensolver rejects. -/
def KronrodRegular (n : ℕ) (a0 b0 : ℕ → ℝ) : Prop :=
  let st0 := kronrodShift n ((List.range (n - 1)).foldl (kronrodStep1 n) (kronrodInit n a0 b0))
  (∀ j < n - 1, kronrodDivisor n ((List.range' (n - 1) j).foldl (kronrodStep2 n) st0) (n - 1 + j) ≠ 0) ∧
    ((List.range' (n - 1) (n - 1)).foldl (kronrodStep2 n) st0).t 1 ≠ 0

/-- c1/_gauss_kronrod.py:23-53 `gauss_kronrod(n, a, b)`; the sorting in lines 50-52 does nothing since the
eigenvalues come in ascending order. -/
def GaussKronrod (n : ℕ) (a b : ℝ) (points weights : List ℝ) : Prop :=
  let rc := rKronrod n (jacobiAlpha a b) (Function.update (jacobiBeta a b) 0 (jacobiInt a b))
  SchemeFromRc (2 * n + 1) rc.1 rc.2 (jacobiInt a b) points weights

end OneDim
end Quadpy
