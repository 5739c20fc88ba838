import Verif.Model.Simplex
import Mathlib.LinearAlgebra.AffineSpace.Independent
import Mathlib.LinearAlgebra.Matrix.NonsingularInverse
import Mathlib.LinearAlgebra.Matrix.Rank
import Mathlib.Tactic.FieldSimp
import Mathlib.Tactic.FinCases

/-!
# C12: get_vol is the simplex volume

That it is also the Lebesgue measure of the convex hull is `C11_volume`.
-/

namespace Quadpy
namespace Tn

open Matrix

/-- The matrix whose rows are the edges `v_i - v_0`. -/
def edgeMatrix {n m : ℕ} (v : Fin (n + 1) → Fin m → ℝ) : Matrix (Fin n) (Fin m) ℝ :=
  Matrix.of fun i k => v i.succ k - v 0 k

/-- The same as `cmMatrix` after the rows and columns have been combined with the border. -/
def cmAux {n m : ℕ} (v : Fin (n + 1) → Fin m → ℝ) (c d : Fin (n + 1) → ℝ) :
    Matrix (Fin (n + 2)) (Fin (n + 2)) ℝ :=
  Matrix.of (Fin.cons (Fin.cons 0 fun _ => 1) fun i => Fin.cons 1 fun j =>
    c i + d j - 2 * ∑ k, (v i k - v 0 k) * (v j k - v 0 k))

theorem cmAux_row {n m : ℕ} (v : Fin (n + 1) → Fin m → ℝ) (c d : Fin (n + 1) → ℝ) :
    (cmAux v c d).det = (cmAux v 0 d).det := by
  refine det_eq_of_forall_row_eq_smul_add_const (Fin.cons 0 c) 0 rfl ?_
  intro i j
  refine Fin.cases ?_ (fun i => ?_) i <;> refine Fin.cases ?_ (fun j => ?_) j <;>
    simp [cmAux] <;> ring

theorem cmAux_col {n m : ℕ} (v : Fin (n + 1) → Fin m → ℝ) (d : Fin (n + 1) → ℝ) :
    (cmAux v 0 d).det = (cmAux v 0 0).det := by
  rw [← det_transpose, ← det_transpose (cmAux v 0 0)]
  refine det_eq_of_forall_row_eq_smul_add_const (Fin.cons 0 d) 0 rfl ?_
  intro i j
  refine Fin.cases ?_ (fun i => ?_) i <;> refine Fin.cases ?_ (fun j => ?_) j <;>
    simp [cmAux] <;> ring

theorem cmMatrix_eq {n m : ℕ} (v : Fin (n + 1) → Fin m → ℝ) :
    cmMatrix v = cmAux v (fun i => ∑ k, (v i k - v 0 k) ^ 2) (fun i => ∑ k, (v i k - v 0 k) ^ 2) := by
  ext i j
  refine Fin.cases ?_ (fun i => ?_) i <;> refine Fin.cases ?_ (fun j => ?_) j
  · simp [cmMatrix, cmAux]
  · simp [cmMatrix, cmAux]
  · simp [cmMatrix, cmAux]
  · simp only [cmMatrix, cmAux, of_apply, Fin.cons_succ]
    rw [Finset.mul_sum, ← Finset.sum_add_distrib, ← Finset.sum_sub_distrib]
    exact Finset.sum_congr rfl fun k _ => by ring

/-- The Cayley-Menger determinant. -/
theorem cm_det {n m : ℕ} (v : Fin (n + 1) → Fin m → ℝ) :
    (cmMatrix v).det = (-1) ^ (n + 1) * 2 ^ n * (edgeMatrix v * (edgeMatrix v)ᵀ).det := by
  rw [cmMatrix_eq, cmAux_row, cmAux_col, det_succ_row _ (1 : Fin (n + 2)), Fin.sum_univ_succ]
  have h1 : ∀ j : Fin (n + 1), cmAux v 0 0 1 j.succ = 0 := by
    intro j
    rw [show (1 : Fin (n + 2)) = Fin.succ 0 from rfl]
    simp only [cmAux, of_apply, Fin.cons_succ]
    simp
  have h2 : cmAux v 0 0 1 0 = 1 := by
    rw [show (1 : Fin (n + 2)) = Fin.succ 0 from rfl]
    simp [cmAux]
  rw [Finset.sum_eq_zero fun j _ => by rw [h1 j]; ring, add_zero, h2, det_succ_column_zero,
    Fin.sum_univ_succ]
  have h3 : ∀ i : Fin n, ((cmAux v 0 0).submatrix (1 : Fin (n + 2)).succAbove
      (Fin.succAbove 0)) i.succ 0 = 0 := by
    intro i
    simp only [submatrix_apply, Fin.succAbove_zero]
    rw [show (1 : Fin (n + 2)).succAbove i.succ = i.succ.succ by
      rw [show (1 : Fin (n + 2)) = Fin.succ 0 from rfl, Fin.succ_succAbove_succ, Fin.succAbove_zero]]
    simp only [cmAux, of_apply, Fin.cons_succ]
    simp
  have h4 : ((cmAux v 0 0).submatrix (1 : Fin (n + 2)).succAbove (Fin.succAbove 0)) 0 0 = 1 := by
    simp only [submatrix_apply, Fin.succAbove_zero]
    rw [show (1 : Fin (n + 2)).succAbove 0 = 0 from rfl]
    simp [cmAux]
  rw [Finset.sum_eq_zero fun j _ => by rw [h3 j]; ring, add_zero, h4]
  have h5 : (((cmAux v 0 0).submatrix (1 : Fin (n + 2)).succAbove (Fin.succAbove 0)).submatrix
      (Fin.succAbove 0) Fin.succ) = (-2 : ℝ) • (edgeMatrix v * (edgeMatrix v)ᵀ) := by
    ext i j
    simp only [submatrix_apply, Fin.succAbove_zero, Matrix.smul_apply, Matrix.mul_apply, transpose_apply,
      edgeMatrix, of_apply, smul_eq_mul]
    rw [show (1 : Fin (n + 2)).succAbove i.succ = i.succ.succ by
      rw [show (1 : Fin (n + 2)) = Fin.succ 0 from rfl, Fin.succ_succAbove_succ, Fin.succAbove_zero]]
    simp only [cmAux, of_apply, Fin.cons_succ]
    simp
  rw [h5, det_smul, Fintype.card_fin]
  simp only [Fin.val_zero, Fin.val_one, Fin.coe_ofNat_eq_mod]
  rw [show (-2 : ℝ) = -1 * 2 by norm_num, mul_pow]
  simp
  ring

/-- In `ℝ^m` the volume is the root of the Gram determinant of the edges over `n!`. -/
theorem C12_gram {n m : ℕ} (v : Fin (n + 1) → Fin m → ℝ) :
    getVol v = Real.sqrt (edgeMatrix v * (edgeMatrix v)ᵀ).det / n.factorial := by
  rw [getVol, cm_det]
  have h : (-1 : ℝ) ^ (n + 1) / 2 ^ n / (n.factorial : ℝ) ^ 2 *
      ((-1) ^ (n + 1) * 2 ^ n * (edgeMatrix v * (edgeMatrix v)ᵀ).det) =
      (edgeMatrix v * (edgeMatrix v)ᵀ).det / (n.factorial : ℝ) ^ 2 := by
    have h1 : ((-1 : ℝ) ^ (n + 1)) * (-1) ^ (n + 1) = 1 := by
      rw [← pow_add, Even.neg_one_pow ⟨n + 1, rfl⟩]
    have : (n.factorial : ℝ) ≠ 0 := by positivity
    field_simp
    linear_combination (edgeMatrix v * (edgeMatrix v)ᵀ).det * h1
  rw [h, Real.sqrt_div' _ (by positivity), Real.sqrt_sq (by positivity)]

/-- For `n + 1` points of `ℝ^n`, `get_vol` is `|det(v_i - v_0)| / n!`. -/
theorem C12_det {n : ℕ} (v : Fin (n + 1) → Fin n → ℝ) :
    getVol v = |(Matrix.of fun i k : Fin n => v i.succ k - v 0 k).det| / n.factorial := by
  rw [C12_gram, det_mul, det_transpose, Real.sqrt_mul_self_eq_abs]
  rfl

theorem C12_nonneg {n m : ℕ} (v : Fin (n + 1) → Fin m → ℝ) : 0 ≤ getVol v := Real.sqrt_nonneg _

theorem C12_translation {n m : ℕ} (v : Fin (n + 1) → Fin m → ℝ) (c : Fin m → ℝ) :
    getVol (fun i k => v i k + c k) = getVol v := by
  simp only [getVol, cmMatrix, add_sub_add_right_eq_sub]

/-- The order of the vertices does not matter. -/
theorem C12_perm {n m : ℕ} (v : Fin (n + 1) → Fin m → ℝ) (σ : Equiv.Perm (Fin (n + 1))) :
    getVol (fun i => v (σ i)) = getVol v := by
  have : cmMatrix (fun i => v (σ i)) =
      (cmMatrix v).submatrix (Fin.cons 0 fun i => (σ i).succ) (Fin.cons 0 fun i => (σ i).succ) := by
    ext i j
    refine Fin.cases ?_ (fun i => ?_) i <;> refine Fin.cases ?_ (fun j => ?_) j <;> simp [cmMatrix]
  let e : Equiv.Perm (Fin (n + 2)) :=
    ⟨Fin.cons 0 fun i => (σ i).succ, Fin.cons 0 fun i => (σ.symm i).succ,
      fun i => by refine Fin.cases ?_ (fun i => ?_) i <;> simp,
      fun i => by refine Fin.cases ?_ (fun i => ?_) i <;> simp⟩
  rw [getVol, getVol, this, show (Fin.cons 0 fun i => (σ i).succ : Fin (n + 2) → Fin (n + 2)) = e
    from rfl, det_submatrix_equiv_self]

/-- The volume is zero exactly for degenerate simplices. -/
theorem C12_zero_iff {n : ℕ} (v : Fin (n + 1) → Fin n → ℝ) :
    getVol v = 0 ↔ ¬ AffineIndependent ℝ v := by
  have hf : (n.factorial : ℝ) ≠ 0 := by positivity
  rw [C12_det, div_eq_zero_iff, or_iff_left hf, abs_eq_zero, iff_not_comm, iff_comm, ← ne_eq,
    affineIndependent_iff_linearIndependent_vsub ℝ v 0]
  rw [← isUnit_iff_ne_zero, ← isUnit_iff_isUnit_det, ← linearIndependent_rows_iff_isUnit]
  let e : Fin n ≃ {x : Fin (n + 1) // x ≠ 0} :=
    ⟨fun i => ⟨i.succ, Fin.succ_ne_zero i⟩, fun x => x.1.pred x.2, fun i => by simp,
      fun x => by simp⟩
  rw [← linearIndependent_equiv e]
  rfl

/-- A triangle with nonzero area. -/
example : getVol (n := 2) ![![0, 0], ![2, 0], ![1, 3]] = 3 := by
  rw [C12_det, det_fin_two]
  norm_num [Nat.factorial, Fin.succ]

end Tn
end Quadpy
