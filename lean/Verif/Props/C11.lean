import Verif.Props.C12
import Verif.Lemmas.Affine
import Verif.Lemmas.SimplexMoments
import Verif.Spec.Schemes
import Mathlib.Analysis.Convex.Combination

/-!
# C11: TnScheme.integrate transfers exactness to every simplex
-/

namespace Quadpy
namespace Tn
open MeasureTheory

/-- The map from the unit simplex to the simplex with vertices `v`. -/
def simplexMatrix {n : ℕ} (v : Fin (n + 1) → Fin n → ℝ) : Matrix (Fin n) (Fin n) ℝ :=
  Matrix.of fun k i => v i.succ k - v 0 k

theorem affineMap_simplex {n : ℕ} (v : Fin (n + 1) → Fin n → ℝ) (x : Fin n → ℝ) :
    affineMap (simplexMatrix v) (v 0) x = transform (Fin.cons (1 - ∑ i, x i) x) v := by
  funext k
  simp only [affineMap, simplexMatrix, Matrix.of_apply, transform, Fin.sum_univ_succ,
    Fin.cons_zero, Fin.cons_succ, sub_mul, Finset.sum_sub_distrib, one_mul]
  rw [← Finset.mul_sum, mul_comm (v 0 k)]
  rw [Finset.sum_congr rfl fun i _ => mul_comm (v (Fin.succ i) k) (x i)]
  ring

theorem unitSimplex_convex (n : ℕ) : Convex ℝ (Spec.unitSimplex n) := by
  intro x hx y hy a b ha hb hab
  refine ⟨fun i => ?_, ?_⟩
  · simp only [Pi.add_apply, Pi.smul_apply, smul_eq_mul]
    exact add_nonneg (mul_nonneg ha (hx.1 i)) (mul_nonneg hb (hy.1 i))
  · simp only [Pi.add_apply, Pi.smul_apply, smul_eq_mul, Finset.sum_add_distrib, ← Finset.mul_sum]
    nlinarith [hx.2, hy.2]

theorem image_unitSimplex {n : ℕ} (v : Fin (n + 1) → Fin n → ℝ) :
    affineMap (simplexMatrix v) (v 0) '' Spec.unitSimplex n = convexHull ℝ (Set.range v) := by
  apply Set.Subset.antisymm
  · rintro _ ⟨x, hx, rfl⟩
    rw [affineMap_simplex]
    have : transform (Fin.cons (1 - ∑ i, x i) x) v =
        ∑ i, (Fin.cons (1 - ∑ i, x i) x : Fin (n + 1) → ℝ) i • v i := by
      funext k
      simp [transform, Finset.sum_apply]
    rw [this]
    refine (convex_convexHull ℝ _).sum_mem (fun i _ => ?_) ?_
      (fun i _ => subset_convexHull ℝ _ ⟨i, rfl⟩)
    · refine Fin.cases ?_ (fun j => ?_) i
      · rw [Fin.cons_zero]; linarith [hx.2]
      · rw [Fin.cons_succ]; exact hx.1 j
    · rw [Fin.sum_univ_succ, Fin.cons_zero]
      simp
  · refine convexHull_min ?_ ?_
    · rintro _ ⟨i, rfl⟩
      refine Fin.cases ?_ (fun j => ?_) i
      · refine ⟨0, ⟨fun i => le_rfl, by simp⟩, ?_⟩
        funext k
        simp [affineMap]
      · refine ⟨Pi.single j 1, ⟨fun i => ?_, ?_⟩, ?_⟩
        · rw [Pi.single_apply]; split_ifs <;> norm_num
        · simp
        · funext k
          simp [affineMap, simplexMatrix, Pi.single_apply]
    · have : affineMap (simplexMatrix v) (v 0) = fun x => Matrix.toLin' (simplexMatrix v) x + v 0 := by
        funext x k
        simp [affineMap, Matrix.mulVec, dotProduct]
      rw [this]
      have h := ((unitSimplex_convex n).linear_image (Matrix.toLin' (simplexMatrix v))).translate
        (v 0)
      rw [Set.image_image] at h
      simpa only [add_comm] using h

theorem measurableSet_unitSimplex (n : ℕ) : MeasurableSet (Spec.unitSimplex n) :=
  (isClosed_simplexS n 1).measurableSet

theorem abs_det_simplex {n : ℕ} (v : Fin (n + 1) → Fin n → ℝ) :
    |(simplexMatrix v).det| = n.factorial * getVol v := by
  rw [C12_det, ← Matrix.det_transpose]
  have : (n.factorial : ℝ) ≠ 0 := by positivity
  field_simp
  rfl

/-- `get_vol` is the Lebesgue measure of the simplex. -/
theorem C11_volume {n : ℕ} (v : Fin (n + 1) → Fin n → ℝ) :
    getVol v = (volume (convexHull ℝ (Set.range v))).toReal := by
  have h := integral_affine (simplexMatrix v) (v 0) (measurableSet_unitSimplex n) fun _ => 1
  rw [image_unitSimplex, abs_det_simplex] at h
  have h1 : ∫ _ in Spec.unitSimplex n, (1 : ℝ) = 1 / n.factorial := by
    have := simplex_mono (n := n) (fun _ => 0)
    simpa [mono, Spec.simplex] using this
  rw [h1] at h
  simp only [integral_const, smul_eq_mul, mul_one, measureReal_restrict_apply_univ] at h
  rw [← measureReal_def, h]
  have : (n.factorial : ℝ) ≠ 0 := by positivity
  field_simp

theorem dot_congr_mem {m : ℕ} {w : List ℝ} {pts : List (List ℝ)} {f g : (Fin m → ℝ) → ℝ}
    (h : ∀ x ∈ pts, f (toVec m x) = g (toVec m x)) : dot m w pts f = dot m w pts g := by
  unfold dot
  induction w generalizing pts with
  | nil => simp
  | cons a w ih =>
    cases pts with
    | nil => simp
    | cons p pts =>
      simp only [List.zipWith_cons_cons, List.sum_cons]
      rw [h p (by simp), ih fun x hx => h x (by simp [hx])]

theorem sum_toVec {n : ℕ} {x : List ℝ} (h : x.length = n) : ∑ i, toVec n x i = x.sum := by
  subst h
  rw [← Fin.sum_univ_getElem]
  exact Finset.sum_congr rfl fun i _ => by simp [toVec]

/-- A scheme that is exact on the unit simplex is exact on every simplex, degenerate or not. -/
theorem C11_exact {n : ℕ} {S : Scheme} (hS : S.ExactOnSimplex n) (v : Fin (n + 1) → Fin n → ℝ)
    (p : MvPolynomial (Fin n) ℝ) (hp : p.totalDegree ≤ S.degree) :
    integrate S.weights S.points (fun x => MvPolynomial.eval x p) v =
      ∫ x in convexHull ℝ (Set.range v), MvPolynomial.eval x p := by
  have h := exact_affine (simplexMatrix v) (v 0) (measurableSet_unitSimplex n) hS.2 p hp
  simp only [abs_det_simplex, image_unitSimplex] at h
  rw [← h, integrate]
  have : (n.factorial : ℝ) ≠ 0 := by positivity
  field_simp
  congr 1
  refine dot_congr_mem fun x hx => ?_
  obtain ⟨h1, h2⟩ := hS.1.2.2 x hx
  rw [affineMap_simplex]
  rw [← sum_toVec h1, Fin.sum_univ_succ] at h2
  congr 3
  funext i
  refine Fin.cases ?_ (fun j => ?_) i
  · rw [Fin.cons_zero]; linarith
  · rw [Fin.cons_succ]

/-- The value does not depend on the order of the vertices. -/
theorem C11_perm {n : ℕ} {S : Scheme} (hS : S.ExactOnSimplex n) (v : Fin (n + 1) → Fin n → ℝ)
    (σ : Equiv.Perm (Fin (n + 1)))
    (p : MvPolynomial (Fin n) ℝ) (hp : p.totalDegree ≤ S.degree) :
    integrate S.weights S.points (fun x => MvPolynomial.eval x p) (v ∘ σ) =
      integrate S.weights S.points (fun x => MvPolynomial.eval x p) v := by
  rw [C11_exact hS _ p hp, C11_exact hS v p hp, σ.surjective.range_comp]

end Tn
end Quadpy
