import Verif.Spec.Exact
import Mathlib.MeasureTheory.Function.Jacobian
import Mathlib.MeasureTheory.Measure.Lebesgue.EqHaar
import Mathlib.Algebra.MvPolynomial.Monad
import Mathlib.LinearAlgebra.Matrix.ToLin
import Mathlib.Topology.Algebra.Module.FiniteDimension

/-!
# Exactness under affine maps
-/

namespace Quadpy
open MeasureTheory Finset

/-- Substituting polynomials of degree at most one does not raise the total degree. -/
theorem totalDegree_bind_le {n m : ℕ} (f : Fin n → MvPolynomial (Fin m) ℝ)
    (hf : ∀ i, (f i).totalDegree ≤ 1) (p : MvPolynomial (Fin n) ℝ) :
    (MvPolynomial.bind₁ f p).totalDegree ≤ p.totalDegree := by
  conv_lhs => rw [p.as_sum]
  rw [map_sum]
  refine MvPolynomial.totalDegree_finsetSum_le fun a ha => ?_
  rw [MvPolynomial.bind₁_monomial]
  refine (MvPolynomial.totalDegree_mul _ _).trans ?_
  rw [MvPolynomial.totalDegree_C, zero_add]
  refine (MvPolynomial.totalDegree_finsetProd _ _).trans ?_
  refine le_trans (sum_le_sum fun i _ => ?_) (MvPolynomial.le_totalDegree ha)
  refine (MvPolynomial.totalDegree_pow _ _).trans ?_
  calc a i * (f i).totalDegree ≤ a i * 1 := Nat.mul_le_mul_left _ (hf i)
    _ = a i := mul_one _

/-- The affine map `x ↦ A x + b`. -/
def affineMap {n m : ℕ} (A : Matrix (Fin m) (Fin n) ℝ) (b : Fin m → ℝ) (x : Fin n → ℝ) : Fin m → ℝ :=
  fun i => ∑ j, A i j * x j + b i

/-- `p (A x + b)` as a polynomial in `x`. -/
noncomputable def polyAffine {n m : ℕ} (A : Matrix (Fin m) (Fin n) ℝ) (b : Fin m → ℝ)
    (p : MvPolynomial (Fin m) ℝ) : MvPolynomial (Fin n) ℝ :=
  MvPolynomial.bind₁ (fun i => ∑ j, MvPolynomial.C (A i j) * MvPolynomial.X j +
    MvPolynomial.C (b i)) p

theorem eval_polyAffine {n m : ℕ} (A : Matrix (Fin m) (Fin n) ℝ) (b : Fin m → ℝ)
    (p : MvPolynomial (Fin m) ℝ) (x : Fin n → ℝ) :
    MvPolynomial.eval x (polyAffine A b p) = MvPolynomial.eval (affineMap A b x) p := by
  rw [polyAffine, MvPolynomial.eval, MvPolynomial.eval₂Hom_bind₁]
  congr 1
  congr 1
  funext i
  simp [affineMap]

theorem totalDegree_polyAffine {n m : ℕ} (A : Matrix (Fin m) (Fin n) ℝ) (b : Fin m → ℝ)
    (p : MvPolynomial (Fin m) ℝ) : (polyAffine A b p).totalDegree ≤ p.totalDegree := by
  refine totalDegree_bind_le _ (fun i => ?_) p
  refine (MvPolynomial.totalDegree_add _ _).trans (max_le ?_ (by simp))
  refine MvPolynomial.totalDegree_finsetSum_le fun j _ => ?_
  refine (MvPolynomial.totalDegree_mul _ _).trans ?_
  simp

/-- Change of variables for an affine map, degenerate or not. -/
theorem integral_affine {n : ℕ} (A : Matrix (Fin n) (Fin n) ℝ) (b : Fin n → ℝ)
    {S : Set (Fin n → ℝ)} (hS : MeasurableSet S) (f : (Fin n → ℝ) → ℝ) :
    ∫ y in affineMap A b '' S, f y = |A.det| * ∫ x in S, f (affineMap A b x) := by
  let L : (Fin n → ℝ) →L[ℝ] (Fin n → ℝ) := LinearMap.toContinuousLinearMap (Matrix.toLin' A)
  have hdet : L.det = A.det := by
    rw [ContinuousLinearMap.det, show (L : (Fin n → ℝ) →ₗ[ℝ] (Fin n → ℝ)) = Matrix.toLin' A from
      rfl, LinearMap.det_toLin']
  have hL : ∀ x, affineMap A b x = L x + b := by
    intro x
    funext i
    simp [L, affineMap, Matrix.mulVec, dotProduct]
  have hd : ∀ x ∈ S, HasFDerivWithinAt (affineMap A b) L S x := by
    intro x _
    have : affineMap A b = fun x => L x + b := funext hL
    rw [this]
    exact (L.hasFDerivAt.add_const b).hasFDerivWithinAt
  rcases eq_or_ne A.det 0 with h0 | h0
  · have := addHaar_image_eq_zero_of_det_fderivWithin_eq_zero volume hd
      (fun x _ => by rw [hdet, h0])
    rw [setIntegral_measure_zero _ this, h0]
    simp
  · have hinj : Set.InjOn (affineMap A b) S := by
      intro x _ y _ hxy
      rw [hL, hL, add_left_inj] at hxy
      have hu : IsUnit A := (Matrix.isUnit_iff_isUnit_det A).2 (isUnit_iff_ne_zero.2 h0)
      exact Matrix.mulVec_injective_of_isUnit hu hxy
    rw [integral_image_eq_integral_abs_det_fderiv_smul volume hS hd hinj]
    simp only [hdet, smul_eq_mul]
    rw [integral_const_mul]

/-- A rule exact on `S` is exact on the image of `S`. -/
theorem exact_affine {n d : ℕ} (A : Matrix (Fin n) (Fin n) ℝ) (b : Fin n → ℝ)
    {S : Set (Fin n → ℝ)} (hS : MeasurableSet S) {Q : Spec.Functional n}
    (hQ : Spec.ExactUpTo d Q fun f => ∫ x in S, f x) :
    Spec.ExactUpTo d (fun f => |A.det| * Q fun x => f (affineMap A b x))
      fun f => ∫ y in affineMap A b '' S, f y := by
  intro p hp
  have := hQ (polyAffine A b p) ((totalDegree_polyAffine A b p).trans hp)
  simp only [eval_polyAffine] at this
  simp only
  rw [this, integral_affine A b hS]

end Quadpy
