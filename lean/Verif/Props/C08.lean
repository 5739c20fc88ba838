import Verif.Model.CnTransform
import Mathlib.MeasureTheory.Integral.Pi
import Mathlib.Analysis.SpecialFunctions.Integrals.Basic

/-!
# C08: closed-form monomial integral over a box
-/

namespace Quadpy
namespace Cn
open MeasureTheory Finset

/-- `integrate_monomial_over_ncube(limits, k)` is the Lebesgue integral of `x^k` over the box, for
every dimension, all exponents and all limits in order. -/
theorem C08_box_monomial {n : ℕ} (a b : Fin n → ℝ) (hab : a ≤ b) (k : Fin n → ℕ) :
    monomialOverNcube (List.ofFn fun i => (a i, b i)) (List.ofFn k) =
      ∫ x in Set.Icc a b, ∏ i, x i ^ k i := by
  have h : (volume : Measure (Fin n → ℝ)).restrict (Set.Icc a b) =
      Measure.pi fun i : Fin n => (volume : Measure ℝ).restrict (Set.Icc (a i) (b i)) := by
    rw [← Set.pi_univ_Icc, volume_pi, Measure.restrict_pi_pi]
  rw [h, integral_fintype_prod_eq_prod (fun i t => t ^ k i)]
  have : ∀ i : Fin n, ∫ t in Set.Icc (a i) (b i), t ^ k i =
      (b i ^ (k i + 1) - a i ^ (k i + 1)) / (k i + 1) := by
    intro i
    rw [integral_Icc_eq_integral_Ioc, ← intervalIntegral.integral_of_le (hab i), integral_pow]
  rw [prod_congr rfl fun i _ => this i, monomialOverNcube, ← List.prod_ofFn]
  congr 1
  apply List.ext_getElem
  · simp
  · intro i h1 h2
    simp

/-- For limits in any order it is the product of the oriented integrals. -/
theorem C08_oriented {n : ℕ} (a b : Fin n → ℝ) (k : Fin n → ℕ) :
    monomialOverNcube (List.ofFn fun i => (a i, b i)) (List.ofFn k) =
      ∏ i, ∫ t in (a i)..(b i), t ^ k i := by
  rw [monomialOverNcube, prod_congr rfl fun i _ => integral_pow (k i), ← List.prod_ofFn]
  congr 1
  apply List.ext_getElem
  · simp
  · intro i h1 h2
    simp

/-- For example `∫ x y^2 = 9/2` over `[0, 1] × [0, 3]`. -/
example : monomialOverNcube [(0, 1), (0, 3)] [1, 2] = 9 / 2 := by
  norm_num [monomialOverNcube]

end Cn
end Quadpy
