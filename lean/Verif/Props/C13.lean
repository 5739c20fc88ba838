import Verif.Model.CnTransform
import Verif.Lemmas.Affine
import Verif.Props.C21
import Verif.Spec.Schemes
import Mathlib.Analysis.Calculus.FDeriv.Mul
import Mathlib.Analysis.Calculus.FDeriv.Pi
import Mathlib.Algebra.BigOperators.Ring.Finset

/-!
# C13: CnScheme.integrate transfers exactness to boxes and parallelotopes
-/

namespace Quadpy
namespace Cn
open MeasureTheory Finset

theorem nOuter_eq {d : ℕ} (a : Fin (d + 1) → Fin 2 → ℝ) (b : Fin (d + 1) → Fin 2) :
    nOuter a b = ∏ k, a k (b k) := by
  induction d with
  | zero => simp [nOuter]
  | succ d ih => rw [nOuter, ih, Fin.prod_univ_castSucc (fun k => a k (b k))]; rfl

/-- Sum over all corners of a product. -/
theorem sum_corners {d : ℕ} (g : Fin d → Fin 2 → ℝ) :
    ∑ b : Fin d → Fin 2, ∏ k, g k (b k) = ∏ k, (g k 0 + g k 1) := by
  rw [← Fintype.piFinset_univ, ← prod_univ_sum]
  exact prod_congr rfl fun k _ => by rw [Fin.sum_univ_two]

theorem sum_corners_mul {d : ℕ} (g : Fin d → Fin 2 → ℝ) (j : Fin d) :
    ∑ b : Fin d → Fin 2, (∏ k, g k (b k)) * (if b j = 1 then 1 else 0) =
      g j 1 * ∏ k ∈ univ.erase j, (g k 0 + g k 1) := by
  have e : ∀ b : Fin d → Fin 2, (∏ k, g k (b k)) * (if b j = 1 then 1 else 0) =
      ∏ k, (if k = j then (if b k = 1 then g k 1 else 0) else g k (b k)) := fun b => by
    rw [← mul_prod_erase univ _ (mem_univ j), ← mul_prod_erase univ _ (mem_univ j), if_pos rfl]
    have : ∏ k ∈ univ.erase j, (if k = j then (if b k = 1 then g k 1 else 0) else g k (b k)) =
        ∏ k ∈ univ.erase j, g k (b k) := prod_congr rfl fun k hk => by
      rw [if_neg (ne_of_mem_erase hk)]
    rw [this]
    split_ifs with h
    · rw [h]; ring
    · ring
  rw [sum_congr rfl fun b _ => e b,
    sum_corners fun k b => if k = j then (if b = 1 then g k 1 else 0) else g k b,
    ← mul_prod_erase univ _ (mem_univ j)]
  congr 1
  · simp
  · exact prod_congr rfl fun k hk => by
      have := ne_of_mem_erase hk
      simp [this]

/-- The vertices of the reference cube. -/
def vertex {d : ℕ} (b : Fin d → Fin 2) : Fin d → ℝ := fun k => if b k = 0 then -1 else 1

/-- `transform` maps the vertices of the reference cube to the given corners. -/
theorem C13_vertices {d m : ℕ} (cube : (Fin (d + 1) → Fin 2) → Fin m → ℝ) (b : Fin (d + 1) → Fin 2) :
    transform (vertex b) cube = cube b := by
  funext i
  unfold transform
  have e : ∀ b', nOuter (oneMpXi (vertex b)) b' = if b' = b then 1 else 0 := fun b' => by
    rw [nOuter_eq]
    have h : ∀ k, oneMpXi (vertex b) k (b' k) = if b' k = b k then 1 else 0 := fun k => by
      unfold oneMpXi vertex
      generalize b k = x
      generalize b' k = y
      fin_cases x <;> fin_cases y <;> norm_num
    rw [prod_congr rfl fun k _ => h k]
    by_cases hb : b' = b
    · simp [hb]
    · rw [if_neg hb]
      obtain ⟨k, hk⟩ := Function.ne_iff.1 hb
      exact prod_eq_zero (mem_univ k) (if_neg hk)
  simp [e]

/-- `get_detJ` is the determinant of the derivative of `transform`, for every cube and every point.
-/
theorem C13_detJ {d : ℕ} (cube : (Fin (d + 1) → Fin 2) → Fin (d + 1) → ℝ) (x : Fin (d + 1) → ℝ) :
    ∃ L : (Fin (d + 1) → ℝ) →L[ℝ] (Fin (d + 1) → ℝ),
      HasFDerivAt (fun xi => transform xi cube) L x ∧ L.det = getDetJ x cube := by
  refine ⟨LinearMap.toContinuousLinearMap (Matrix.toLin' (jacobi x cube).transpose), ?_, ?_⟩
  · rw [hasFDerivAt_pi']
    intro i
    have hc : ∀ (k : Fin (d + 1)) (β : Fin 2),
        HasFDerivAt (fun xi : Fin (d + 1) → ℝ => oneMpXi xi k β)
          ((![-0.5, 0.5] : Fin 2 → ℝ) β • ContinuousLinearMap.proj (R := ℝ) (φ := fun _ => ℝ) k) x :=
      fun k β => by
      have hp : HasFDerivAt (fun xi : Fin (d + 1) → ℝ => xi k)
        (ContinuousLinearMap.proj (R := ℝ) (φ := fun _ => ℝ) k) x :=
        (ContinuousLinearMap.proj (R := ℝ) (φ := fun _ => ℝ) k).hasFDerivAt
      fin_cases β
      · have := (hp.const_sub (1.0 : ℝ)).const_mul 0.5
        refine this.congr_fderiv ?_
        ext v; simp
      · have := (hp.const_add (1.0 : ℝ)).const_mul 0.5
        refine this.congr_fderiv ?_
        ext v; simp
    have hb : ∀ b : Fin (d + 1) → Fin 2, HasFDerivAt
        (fun xi : Fin (d + 1) → ℝ => nOuter (oneMpXi xi) b * cube b i)
        (cube b i • ∑ k, (∏ j ∈ univ.erase k, oneMpXi x j (b j)) •
          ((![-0.5, 0.5] : Fin 2 → ℝ) (b k) •
            ContinuousLinearMap.proj (R := ℝ) (φ := fun _ => ℝ) k)) x := fun b => by
      simp only [nOuter_eq]
      exact (HasFDerivAt.finsetProd fun k _ => hc k (b k)).mul_const _
    have := HasFDerivAt.fun_sum fun b (_ : b ∈ univ) => hb b
    refine this.congr_fderiv ?_
    ext v
    simp only [ContinuousLinearMap.coe_comp, Function.comp, ContinuousLinearMap.proj_apply,
      LinearMap.coe_toContinuousLinearMap', Matrix.toLin'_apply, Matrix.mulVec, dotProduct,
      Matrix.transpose_apply, jacobi, Matrix.of_apply, _root_.sum_apply,
      smul_apply, smul_eq_mul, nOuter_eq]
    simp only [mul_sum, sum_mul]
    rw [sum_comm]
    refine sum_congr rfl fun k _ => sum_congr rfl fun b _ => ?_
    rw [← mul_prod_erase univ _ (mem_univ k), Function.update_self]
    have : ∏ j ∈ univ.erase k, Function.update (oneMpXi x) k ![-0.5, 0.5] j (b j) =
        ∏ j ∈ univ.erase k, oneMpXi x j (b j) := prod_congr rfl fun j hj => by
      rw [Function.update_of_ne (ne_of_mem_erase hj)]
    rw [this]
    ring
  · rw [ContinuousLinearMap.det]
    change LinearMap.det (Matrix.toLin' (jacobi x cube).transpose) = _
    rw [LinearMap.det_toLin', Matrix.det_transpose]
    rfl

/-- The corners of the parallelotope with the corner `c` and the edges `E k`. -/
def parCorners {d : ℕ} (c : Fin d → ℝ) (E : Fin d → Fin d → ℝ) (b : Fin d → Fin 2) : Fin d → ℝ :=
  fun i => c i + ∑ k, if b k = 1 then E k i else 0

/-- The parallelotope with the corner `c` and the edges `E k`. -/
def parallelotope {d : ℕ} (c : Fin d → ℝ) (E : Fin d → Fin d → ℝ) : Set (Fin d → ℝ) :=
  {y | ∃ t : Fin d → ℝ, (∀ k, 0 ≤ t k ∧ t k ≤ 1) ∧ ∀ i, y i = c i + ∑ k, t k * E k i}

theorem oneMp_sum {d : ℕ} (xi : Fin d → ℝ) (k : Fin d) : oneMpXi xi k 0 + oneMpXi xi k 1 = 1 := by
  simp only [oneMpXi, Matrix.cons_val_zero, Matrix.cons_val_one]; norm_num; ring

theorem transform_par {d : ℕ} (c : Fin (d + 1) → ℝ) (E : Fin (d + 1) → Fin (d + 1) → ℝ)
    (xi : Fin (d + 1) → ℝ) (i : Fin (d + 1)) :
    transform xi (parCorners c E) i = c i + ∑ k, (1 + xi k) / 2 * E k i := by
  unfold transform parCorners
  simp only [nOuter_eq, mul_add, sum_add_distrib]
  rw [← sum_mul, sum_corners]
  simp only [oneMp_sum, prod_const_one, one_mul]
  congr 1
  simp only [mul_sum]
  rw [sum_comm]
  refine sum_congr rfl fun k _ => ?_
  have e : ∀ b : Fin (d + 1) → Fin 2, (∏ j, oneMpXi xi j (b j)) * (if b k = 1 then E k i else 0) =
      (∏ j, oneMpXi xi j (b j)) * (if b k = 1 then 1 else 0) * E k i := fun b => by
    split_ifs <;> ring
  rw [sum_congr rfl fun b _ => e b, ← sum_mul, sum_corners_mul]
  simp only [oneMp_sum, prod_const_one, mul_one]
  congr 1
  simp only [oneMpXi, Matrix.cons_val_one]; norm_num; ring

theorem jacobi_par {d : ℕ} (c : Fin (d + 1) → ℝ) (E : Fin (d + 1) → Fin (d + 1) → ℝ)
    (xi : Fin (d + 1) → ℝ) (k i : Fin (d + 1)) :
    jacobi xi (parCorners c E) k i = E k i / 2 := by
  unfold jacobi parCorners
  simp only [nOuter_eq, Matrix.of_apply, mul_add, sum_add_distrib]
  have z : ∀ s : Finset (Fin (d + 1)), k ∈ s →
      ∏ j ∈ s, (Function.update (oneMpXi xi) k ![-0.5, 0.5] j 0 +
        Function.update (oneMpXi xi) k ![-0.5, 0.5] j 1) = 0 := fun s hs =>
    prod_eq_zero hs (by rw [Function.update_self]; norm_num)
  rw [← sum_mul, sum_corners, z _ (mem_univ k), zero_mul, zero_add]
  simp only [mul_sum]
  rw [sum_comm]
  have e : ∀ j, ∑ b : Fin (d + 1) → Fin 2,
      (∏ l, Function.update (oneMpXi xi) k ![-0.5, 0.5] l (b l)) * (if b j = 1 then E j i else 0) =
      if j = k then E k i / 2 else 0 := fun j => by
    have e : ∀ b : Fin (d + 1) → Fin 2,
        (∏ l, Function.update (oneMpXi xi) k ![-0.5, 0.5] l (b l)) * (if b j = 1 then E j i else 0) =
        (∏ l, Function.update (oneMpXi xi) k ![-0.5, 0.5] l (b l)) *
          (if b j = 1 then 1 else 0) * E j i := fun b => by
      split_ifs <;> ring
    rw [sum_congr rfl fun b _ => e b, ← sum_mul, sum_corners_mul]
    split_ifs with h
    · subst h
      have : ∏ l ∈ univ.erase j, (Function.update (oneMpXi xi) j ![-0.5, 0.5] l 0 +
          Function.update (oneMpXi xi) j ![-0.5, 0.5] l 1) = 1 := prod_eq_one fun l hl => by
        rw [Function.update_of_ne (ne_of_mem_erase hl), oneMp_sum]
      rw [this, Function.update_self]
      simp only [Matrix.cons_val_one]; norm_num; ring
    · rw [z _ (mem_erase.2 ⟨Ne.symm h, mem_univ k⟩)]; ring
  rw [sum_congr rfl fun j _ => e j]
  simp

/-- The matrix of the affine map from the reference cube. -/
noncomputable def parMatrix {d : ℕ} (E : Fin d → Fin d → ℝ) : Matrix (Fin d) (Fin d) ℝ :=
  Matrix.of fun i k => E k i / 2

/-- The image of the midpoint of the reference cube. -/
noncomputable def parMid {d : ℕ} (c : Fin d → ℝ) (E : Fin d → Fin d → ℝ) : Fin d → ℝ :=
  fun i => c i + ∑ k, E k i / 2

theorem transform_affine {d : ℕ} (c : Fin (d + 1) → ℝ) (E : Fin (d + 1) → Fin (d + 1) → ℝ)
    (xi : Fin (d + 1) → ℝ) :
    transform xi (parCorners c E) = affineMap (parMatrix E) (parMid c E) xi := by
  funext i
  rw [transform_par, affineMap, parMid, add_left_comm, ← sum_add_distrib]
  congr 1
  exact sum_congr rfl fun k _ => by simp only [parMatrix, Matrix.of_apply]; ring

theorem getDetJ_par {d : ℕ} (c : Fin (d + 1) → ℝ) (E : Fin (d + 1) → Fin (d + 1) → ℝ)
    (xi : Fin (d + 1) → ℝ) : getDetJ xi (parCorners c E) = (parMatrix E).det := by
  rw [getDetJ, ← Matrix.det_transpose]
  congr 1
  ext i k
  rw [Matrix.transpose_apply, jacobi_par]; rfl

theorem image_par {d : ℕ} (c : Fin (d + 1) → ℝ) (E : Fin (d + 1) → Fin (d + 1) → ℝ) :
    affineMap (parMatrix E) (parMid c E) '' Set.Icc (fun _ => -1) (fun _ => 1) =
      parallelotope c E := by
  ext y
  constructor
  · rintro ⟨x, hx, rfl⟩
    refine ⟨fun k => (1 + x k) / 2, fun k => ⟨?_, ?_⟩, fun i => ?_⟩
    · have := hx.1 k; dsimp only at this; linarith
    · have := hx.2 k; dsimp only at this; linarith
    · rw [← transform_affine, transform_par]
  · rintro ⟨t, ht, hy⟩
    refine ⟨fun k => 2 * t k - 1, ⟨fun k => ?_, fun k => ?_⟩, ?_⟩
    · have := (ht k).1; dsimp only; linarith
    · have := (ht k).2; dsimp only; linarith
    · funext i
      rw [← transform_affine, transform_par, hy]
      congr 1
      exact sum_congr rfl fun k _ => by ring

theorem dot_mul_const {n : ℕ} (w : List ℝ) (pts : List (List ℝ)) (f : (Fin n → ℝ) → ℝ) (c : ℝ) :
    dot n w pts (fun x => f x * c) = c * dot n w pts f := by
  unfold dot
  induction w generalizing pts with
  | nil => simp
  | cons a w ih =>
    cases pts with
    | nil => simp
    | cons x pts =>
      simp only [List.zipWith_cons_cons, List.sum_cons, ih]; ring

/-- A scheme exact on the cube `[-1, 1]^n` is exact on every parallelotope, degenerate or not. -/
theorem C13_parallelotope {d : ℕ} {S : Scheme} (hS : S.ExactOnCube (d + 1)) (c : Fin (d + 1) → ℝ)
    (E : Fin (d + 1) → Fin (d + 1) → ℝ) (p : MvPolynomial (Fin (d + 1)) ℝ)
    (hp : p.totalDegree ≤ S.degree) :
    integrate S.weights S.points (fun x => MvPolynomial.eval x p) (parCorners c E) =
      ∫ x in parallelotope c E, MvPolynomial.eval x p := by
  have h := exact_affine (parMatrix E) (parMid c E) measurableSet_Icc hS.2 p hp
  rw [image_par] at h
  beta_reduce at h
  rw [← h, integrate, integrateV]
  simp only [transform_affine, getDetJ_par, List.length_nil, add_zero, Nat.add_sub_cancel]
  rw [mul_left_comm]
  congr 1
  exact dot_mul_const _ _ _ _

theorem box_parCorners {d : ℕ} (xyz : Fin d → Fin 2 → ℝ) :
    ncubePoints xyz = parCorners (fun i => xyz i 0) fun k i => if k = i then xyz i 1 - xyz i 0 else 0 := by
  funext b i
  unfold ncubePoints parCorners
  rw [sum_eq_single i]
  · generalize b i = x
    fin_cases x <;> simp
  · intro k _ hk; simp [hk]
  · simp

theorem box_parallelotope {d : ℕ} (a b : Fin d → ℝ) (hab : a ≤ b) :
    parallelotope a (fun k i => if k = i then b i - a i else 0) = Set.Icc a b := by
  have e : ∀ (t : Fin d → ℝ) (i : Fin d), ∑ k, t k * (if k = i then b i - a i else 0) =
      t i * (b i - a i) := fun t i => by
    rw [sum_eq_single i]
    · simp
    · intro k _ hk; simp [hk]
    · simp
  ext y
  simp only [parallelotope, Set.mem_ofPred_eq, e, Set.mem_Icc]
  constructor
  · rintro ⟨t, ht, hy⟩
    refine ⟨fun i => ?_, fun i => ?_⟩
    · rw [hy]; nlinarith [ht i, hab i]
    · rw [hy]; nlinarith [ht i, hab i]
  · rintro ⟨h1, h2⟩
    refine ⟨fun i => (y i - a i) / (b i - a i), fun i => ⟨?_, ?_⟩, fun i => ?_⟩
    · exact div_nonneg (by linarith [h1 i]) (by linarith [hab i])
    · exact div_le_one_of_le₀ (by linarith [h2 i]) (by linarith [hab i])
    · rcases (hab i).eq_or_lt with h | h
      · have := h1 i; have := h2 i
        rw [h, sub_self, mul_zero]; linarith
      · have : b i - a i ≠ 0 := by linarith
        field_simp; ring

/-- A scheme exact on the cube `[-1, 1]^n` integrates every polynomial up to its degree exactly over
every box given by `ncube_points`. -/
theorem C13_box {d : ℕ} {S : Scheme} (hS : S.ExactOnCube (d + 1)) (a b : Fin (d + 1) → ℝ)
    (hab : a ≤ b) (p : MvPolynomial (Fin (d + 1)) ℝ) (hp : p.totalDegree ≤ S.degree) :
    integrate S.weights S.points (fun x => MvPolynomial.eval x p)
      (ncubePoints fun i => ![a i, b i]) = ∫ x in Set.Icc a b, MvPolynomial.eval x p := by
  rw [box_parCorners, C13_parallelotope hS _ _ p hp]
  simp only [Matrix.cons_val_zero, Matrix.cons_val_one]
  rw [box_parallelotope a b hab]

/-- The product of midpoint and corner rule `ewing` integrates quadratics exactly over every box. -/
example (a b : Fin 4 → ℝ) (hab : a ≤ b) : integrate (ewing 4).weights (ewing 4).points
    (fun x => MvPolynomial.eval x (MvPolynomial.X 0 * MvPolynomial.X 3))
      (ncubePoints fun i => ![a i, b i]) =
    ∫ x in Set.Icc a b, MvPolynomial.eval x (MvPolynomial.X 0 * MvPolynomial.X 3) :=
  C13_box (d := 3) (C21_ewing 4) a b hab _ ((MvPolynomial.totalDegree_mul _ _).trans (by
    simp [ewing, schemeOfSym]))

end Cn
end Quadpy
