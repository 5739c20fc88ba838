import Mathlib.Analysis.SpecialFunctions.Trigonometric.Basic
import Mathlib.Analysis.SpecialFunctions.Complex.Log
import Mathlib.Data.List.OfFn

/-!
# Model of the Chebyshev-Gauss, Clenshaw-Curtis and Fejér rules

c1/_chebyshev_gauss.py, c1/_clenshaw_curtis.py, c1/_fejer.py. A rule is its points and weights.
Arrays are functions `ℕ → ℝ` or `ℕ → ℂ` with a length given beside them. `np.fft` (external) is
modelled by the defining sums.
-/

namespace Quadpy
namespace OneDim

open Real

/-- c1/_chebyshev_gauss.py:10, 34 -/
def chebyshevDegree (n : ℕ) : ℕ := if n % 2 = 1 then n else n + 1

/-- c1/_chebyshev_gauss.py:12-14 `points`, `weights` of `chebyshev_gauss_1(n)`; the other modes are the
same expressions. Index `i` stands for `np.arange(1, n + 1)[i] = i + 1`. -/
noncomputable def chebyshevGauss1 (n : ℕ) : List ℝ × List ℝ :=
  (List.ofFn fun i : Fin n => cos ((2 * ((i : ℕ) + 1 : ℝ) - 1) / (2 * n) * π),
   List.ofFn fun _ : Fin n => π / n)

/-- c1/_chebyshev_gauss.py:37-39 `points`, `weights` of `chebyshev_gauss_2(n)`. -/
noncomputable def chebyshevGauss2 (n : ℕ) : List ℝ × List ℝ :=
  (List.ofFn fun i : Fin n => cos (π * ((i : ℕ) + 1 : ℝ) / (n + 1)),
   List.ofFn fun i : Fin n => π / (n + 1) * sin (π * ((i : ℕ) + 1 : ℝ) / (n + 1)) ^ 2)

/-- `np.fft.ifft` of an array of length `n`: entry `k` is `1/n * sum_j a[j] exp(2 pi i j k / n)`. -/
noncomputable def ifft (n : ℕ) (a : ℕ → ℂ) (k : ℕ) : ℂ :=
  (∑ j ∈ Finset.range n, a j * Complex.exp (2 * π * Complex.I * (j * k / n))) / n

/-- c1/_clenshaw_curtis.py:29-30, c1/_fejer.py:25-26, 51-52: the length of `N = np.arange(1, n, 2)`, whose
entries are `N[i] = 2 i + 1`. -/
def oddCount (n : ℕ) : ℕ := n / 2

/-- c1/_clenshaw_curtis.py:32, c1/_fejer.py:54: `v0`, an array of length `n + 1`. -/
noncomputable def ccV0 (n : ℕ) (i : ℕ) : ℝ :=
  if i < oddCount n then 2 / (2 * i + 1) / ((2 * i + 1) - 2)
  else if i = oddCount n then 1 / (2 * (oddCount n - 1 : ℕ) + 1)
  else 0

/-- c1/_clenshaw_curtis.py:33, c1/_fejer.py:55: `v2 = -v0[:-1] - v0[:0:-1]`, an array of length `n`. -/
noncomputable def ccV2 (n : ℕ) (i : ℕ) : ℝ := -ccV0 n i - ccV0 n (n - i)

/-- c1/_clenshaw_curtis.py:34-37: `g`, an array of length `n`. -/
noncomputable def ccG (n : ℕ) (i : ℕ) : ℝ :=
  (-1 + (if i = oddCount n then (n : ℝ) else 0) + (if i = n - oddCount n then (n : ℝ) else 0)) /
    ((n : ℝ) ^ 2 - 1 + (n % 2 : ℕ))

/-- c1/_clenshaw_curtis.py:39-41, c1/_fejer.py:57-59: `np.fft.ihfft(a).real`, an array of length
`n // 2 + 1`; for real `a`, `ihfft` is the first part of `ifft`. -/
noncomputable def ihfftReal (n : ℕ) (a : ℕ → ℝ) : List ℝ :=
  List.ofFn fun k : Fin (n / 2 + 1) => (ifft n (fun j => (a j : ℂ)) k).re

/-- c1/_clenshaw_curtis.py:43-46, c1/_fejer.py:61-64: the weights are mirrored. -/
def mirror (n : ℕ) (w : List ℝ) : List ℝ :=
  if n % 2 = 1 then w ++ w.reverse else w ++ w.dropLast.reverse

/-- c1/_clenshaw_curtis.py:19-48 `clenshaw_curtis(n)` -/
noncomputable def clenshawCurtis (n : ℕ) : List ℝ × List ℝ :=
  (List.ofFn fun i : Fin n => -cos (π * (i : ℕ) / (n - 1 : ℕ)),
   if n = 2 then [1, 1]
   else mirror (n - 1) (ihfftReal (n - 1) fun i => ccV2 (n - 1) i + ccG (n - 1) i))

/-- c1/_fejer.py:25-35: `v0`, an array of length `n + 1`. -/
noncomputable def fejerV0 (n : ℕ) (i : ℕ) : ℂ :=
  if i < n - oddCount n then 2 * Complex.exp (Complex.I * π * i / n) / (1 - 4 * i ^ 2) else 0

/-- c1/_fejer.py:36: `v1 = v0[:-1] + np.conjugate(v0[:0:-1])`, an array of length `n`. -/
noncomputable def fejerV1 (n : ℕ) (i : ℕ) : ℂ := fejerV0 n i + starRingEnd ℂ (fejerV0 n (n - i))

/-- c1/_fejer.py:19-42 `fejer_1(n)` -/
noncomputable def fejer1 (n : ℕ) : List ℝ × List ℝ :=
  (List.ofFn fun i : Fin n => -cos (π * ((i : ℕ) + 0.5 : ℝ) / n),
   List.ofFn fun k : Fin n => (ifft n (fejerV1 n) k).re)

/-- c1/_fejer.py:45-68 `fejer_2(n)` -/
noncomputable def fejer2 (n : ℕ) : List ℝ × List ℝ :=
  (List.ofFn fun i : Fin n => -cos (π * ((i : ℕ) + 1 : ℝ) / (n + 1)),
   (mirror (n + 1) (ihfftReal (n + 1) (ccV2 (n + 1)))).tail.dropLast)

/-- c1/_clenshaw_curtis.py:20, c1/_fejer.py:20, 46: `degree = n` -/
def fejerDegree (n : ℕ) : ℕ := n

end OneDim
end Quadpy
