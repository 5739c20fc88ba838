import Verif.Model.Coefficients
import Mathlib.Data.Matrix.Block
import Mathlib.LinearAlgebra.Matrix.NonsingularInverse

/-! Existence of the tridiagonal form that `sytrd` computes. -/

namespace Quadpy
namespace OneDim

open Matrix

/-- A reflection that turns `c` into a multiple of the last unit vector. -/
theorem exists_reflection {m : ℕ} (c : Fin (m + 1) → ℝ) :
    ∃ (H : Matrix (Fin (m + 1)) (Fin (m + 1)) ℝ) (s : ℝ), Hᵀ * H = 1 ∧
      Hᵀ *ᵥ c = s • Pi.single (Fin.last m) 1 := by
  set e : Fin (m + 1) → ℝ := Pi.single (Fin.last m) 1 with he
  set s := √(c ⬝ᵥ c) with hs
  have hcc : 0 ≤ c ⬝ᵥ c := Finset.sum_nonneg fun i _ => mul_self_nonneg _
  have hss : s * s = c ⬝ᵥ c := Real.mul_self_sqrt hcc
  set u := c - s • e with hu
  by_cases h0 : u ⬝ᵥ u = 0
  · refine ⟨1, s, by simp, ?_⟩
    have : u = 0 := by
      ext i
      have := (Finset.sum_eq_zero_iff_of_nonneg fun i _ => mul_self_nonneg (u i)).1 h0 i (Finset.mem_univ i)
      simpa using this
    rw [transpose_one, one_mulVec]
    exact sub_eq_zero.1 this
  · set t := 2 / (u ⬝ᵥ u) with ht
    have htu : t * (u ⬝ᵥ u) = 2 := by rw [ht]; field_simp
    have hsymm : (1 - t • vecMulVec u u)ᵀ = 1 - t • vecMulVec u u := by
      ext i j
      simp [vecMulVec_apply, Matrix.one_apply, eq_comm, mul_comm]
    have hmul : ∀ v, (1 - t • vecMulVec u u) *ᵥ v = v - (t * (u ⬝ᵥ v)) • u := by
      intro v
      ext i
      rw [Matrix.sub_mulVec, one_mulVec, Matrix.smul_mulVec]
      simp only [Pi.sub_apply, Pi.smul_apply, smul_eq_mul, mulVec, dotProduct, vecMulVec_apply]
      congr 1
      rw [Finset.mul_sum, Finset.mul_sum, Finset.sum_mul]
      exact Finset.sum_congr rfl fun k _ => by ring
    refine ⟨1 - t • vecMulVec u u, s, ?_, ?_⟩
    · rw [hsymm]
      have : ∀ v, ((1 - t • vecMulVec u u) * (1 - t • vecMulVec u u)) *ᵥ v = v := by
        intro v
        rw [← mulVec_mulVec, hmul, hmul]
        have : u ⬝ᵥ (v - (t * (u ⬝ᵥ v)) • u) = -(u ⬝ᵥ v) := by
          rw [dotProduct_sub, dotProduct_smul, smul_eq_mul]
          linear_combination -(u ⬝ᵥ v) * htu
        rw [this]
        ext i
        simp only [Pi.sub_apply, Pi.smul_apply, smul_eq_mul]; ring
      ext i j
      have h := congrFun (this (Pi.single j 1)) i
      rw [mulVec_single_one] at h
      rw [← col_apply (A := (1 - t • vecMulVec u u) * (1 - t • vecMulVec u u)), h, Matrix.one_apply,
        Pi.single_apply]
    · rw [hsymm, hmul]
      have hee : e ⬝ᵥ e = 1 := by rw [he]; simp
      have hce : c ⬝ᵥ e = e ⬝ᵥ c := dotProduct_comm _ _
      have huu : u ⬝ᵥ u = 2 * (s * s) - 2 * s * (e ⬝ᵥ c) := by
        rw [hu, sub_dotProduct, dotProduct_sub, dotProduct_sub, smul_dotProduct, smul_dotProduct,
          dotProduct_smul, dotProduct_smul, hee, hce, hss]
        simp only [smul_eq_mul]
        linear_combination hss
      have huc : u ⬝ᵥ c = s * s - s * (e ⬝ᵥ c) := by
        rw [hu, sub_dotProduct, smul_dotProduct, hss, smul_eq_mul]
      have h1 : t * (u ⬝ᵥ c) = 1 := by
        have : 2 * (u ⬝ᵥ c) = u ⬝ᵥ u := by rw [huu, huc]; ring
        linear_combination htu / 2 + t / 2 * this
      rw [h1, one_smul, hu]
      ext i
      simp

/-- The matrix with blocks `R` and 1. -/
def blk {m : ℕ} (R : Matrix (Fin m) (Fin m) ℝ) : Matrix (Fin (m + 1)) (Fin (m + 1)) ℝ :=
  Matrix.of fun i j => Fin.lastCases (motive := fun _ => ℝ)
    (if j = Fin.last m then 1 else 0)
    (fun i' => Fin.lastCases (motive := fun _ => ℝ) 0 (fun j' => R i' j') j) i

@[simp] theorem blk_cc {m : ℕ} (R : Matrix (Fin m) (Fin m) ℝ) (i j : Fin m) :
    blk R i.castSucc j.castSucc = R i j := by simp [blk]

@[simp] theorem blk_cl {m : ℕ} (R : Matrix (Fin m) (Fin m) ℝ) (i : Fin m) :
    blk R i.castSucc (Fin.last m) = 0 := by simp [blk]

@[simp] theorem blk_lc {m : ℕ} (R : Matrix (Fin m) (Fin m) ℝ) (j : Fin m) :
    blk R (Fin.last m) j.castSucc = 0 := by simp [blk, (Fin.castSucc_lt_last j).ne]

@[simp] theorem blk_ll {m : ℕ} (R : Matrix (Fin m) (Fin m) ℝ) :
    blk R (Fin.last m) (Fin.last m) = 1 := by simp [blk]

theorem blk_orth {m : ℕ} {R : Matrix (Fin m) (Fin m) ℝ} (h : Rᵀ * R = 1) : (blk R)ᵀ * blk R = 1 := by
  ext i j
  rw [Matrix.mul_apply, Fin.sum_univ_castSucc]
  simp only [transpose_apply]
  cases i using Fin.lastCases with
  | last => cases j using Fin.lastCases with
    | last => simp
    | cast j => simp [Matrix.one_apply, (Fin.castSucc_lt_last j).ne']
  | cast i => cases j using Fin.lastCases with
    | last => simp [Matrix.one_apply, (Fin.castSucc_lt_last i).ne]
    | cast j =>
      have := congrFun (congrFun h i) j
      rw [Matrix.mul_apply] at this
      simp only [transpose_apply] at this
      simp [this, Matrix.one_apply]

/-- The blocks of `Qᵀ A Q`. -/
theorem blk_conj_cc {m : ℕ} (R : Matrix (Fin m) (Fin m) ℝ) (A : Matrix (Fin (m + 1)) (Fin (m + 1)) ℝ)
    (i j : Fin m) : ((blk R)ᵀ * A * blk R) i.castSucc j.castSucc =
      (Rᵀ * A.submatrix Fin.castSucc Fin.castSucc * R) i j := by
  rw [Matrix.mul_apply, Fin.sum_univ_castSucc, Matrix.mul_apply]
  simp only [blk_cc, blk_lc, mul_zero, add_zero, Matrix.mul_apply, Fin.sum_univ_castSucc, transpose_apply,
    zero_mul, submatrix_apply]

theorem blk_conj_cl {m : ℕ} (R : Matrix (Fin m) (Fin m) ℝ) (A : Matrix (Fin (m + 1)) (Fin (m + 1)) ℝ)
    (i : Fin m) : ((blk R)ᵀ * A * blk R) i.castSucc (Fin.last m) =
      (Rᵀ *ᵥ fun k => A k.castSucc (Fin.last m)) i := by
  rw [Matrix.mul_apply, Fin.sum_univ_castSucc]
  simp [Matrix.mul_apply, Fin.sum_univ_castSucc, mulVec, dotProduct]

theorem blk_conj_ll {m : ℕ} (R : Matrix (Fin m) (Fin m) ℝ) (A : Matrix (Fin (m + 1)) (Fin (m + 1)) ℝ) :
    ((blk R)ᵀ * A * blk R) (Fin.last m) (Fin.last m) = A (Fin.last m) (Fin.last m) := by
  rw [Matrix.mul_apply, Fin.sum_univ_castSucc]
  simp [Matrix.mul_apply, Fin.sum_univ_castSucc]

theorem conj_symm {m : ℕ} {A : Matrix (Fin m) (Fin m) ℝ} (hA : Aᵀ = A) (R : Matrix (Fin m) (Fin m) ℝ) :
    (Rᵀ * A * R)ᵀ = Rᵀ * A * R := by
  rw [transpose_mul, transpose_mul, transpose_transpose, hA, Matrix.mul_assoc]

/-- Every symmetric matrix has the tridiagonal form that `sytrd` is to compute. -/
theorem isSytrd_exists {m : ℕ} (A : Matrix (Fin (m + 1)) (Fin (m + 1)) ℝ) (hA : Aᵀ = A) :
    ∃ d e, IsSytrd A d e := by
  induction m with
  | zero =>
    refine ⟨fun _ => A 0 0, fun _ => 0, 1, by simp, fun i => ?_, ?_⟩
    · obtain rfl : i = Fin.last 0 := Fin.fin_one_eq_zero i
      simp
    · ext i j
      fin_cases i; fin_cases j
      simp [tridiag]
  | succ m ih =>
    obtain ⟨H, s, hH, hc⟩ := exists_reflection fun k : Fin (m + 1) => A k.castSucc (Fin.last (m + 1))
    have hB : (A.submatrix Fin.castSucc Fin.castSucc)ᵀ = A.submatrix Fin.castSucc Fin.castSucc := by
      rw [transpose_submatrix, hA]
    obtain ⟨d, e, Q, hQ, hl, hT⟩ := ih _ (conj_symm hB H)
    have hHQ : (H * Q)ᵀ * (H * Q) = 1 := by
      rw [transpose_mul, Matrix.mul_assoc, ← Matrix.mul_assoc Hᵀ, hH, one_mul, hQ]
    refine ⟨fun k => if k = m + 1 then A (Fin.last _) (Fin.last _) else d k,
      fun k => if k = m then s else e k, blk (H * Q), blk_orth hHQ, fun i => ?_, ?_⟩
    · cases i using Fin.lastCases with
      | last => simp
      | cast i => simp [(Fin.castSucc_lt_last i).ne]
    · have hcl : ∀ i : Fin (m + 1), ((blk (H * Q))ᵀ * A * blk (H * Q)) i.castSucc (Fin.last _) =
          if i.val = m then s else 0 := by
        intro i
        rw [blk_conj_cl, transpose_mul, ← mulVec_mulVec, hc, mulVec_smul, mulVec_single_one]
        simp only [Pi.smul_apply, col_apply, transpose_apply, smul_eq_mul]
        have hrow : ∀ k, Q (Fin.last m) k = if k = Fin.last m then 1 else 0 := by
          intro k
          have h := congrFun (congrFun hQ k) (Fin.last m)
          rw [Matrix.mul_apply, Matrix.one_apply] at h
          rw [← h, Finset.sum_eq_single (Fin.last m)]
          · rw [transpose_apply, hl, if_pos rfl, mul_one]
          · intro i _ hi
            rw [hl, if_neg hi, mul_zero]
          · simp
        rw [hrow]; simp [Fin.ext_iff]
      have hsym := conj_symm hA (blk (H * Q))
      ext i j
      cases i using Fin.lastCases with
      | last => cases j using Fin.lastCases with
        | last =>
          rw [blk_conj_ll]; simp [tridiag]
        | cast j =>
          rw [← hsym, transpose_apply, hcl]
          have hj := j.2
          simp only [tridiag, of_apply, Fin.val_castSucc, Fin.val_last, Nat.add_sub_cancel, if_true]
          split_ifs <;> first | rfl | (exfalso; omega)
      | cast i =>
        have hi := i.2
        cases j using Fin.lastCases with
        | last =>
          rw [hcl]
          simp only [tridiag, of_apply, Fin.val_castSucc, Fin.val_last, Nat.add_sub_cancel, if_true]
          split_ifs <;> first | rfl | (exfalso; omega)
        | cast j =>
          have hj := j.2
          have := congrFun (congrFun hT i) j
          rw [blk_conj_cc, transpose_mul]
          rw [show Qᵀ * Hᵀ * A.submatrix Fin.castSucc Fin.castSucc * (H * Q) =
            Qᵀ * (Hᵀ * A.submatrix Fin.castSucc Fin.castSucc * H) * Q by simp only [Matrix.mul_assoc], this]
          simp only [tridiag, of_apply, Fin.val_castSucc]
          rw [if_neg (show i.val ≠ m + 1 by omega)]
          split_ifs <;> first | rfl | (exfalso; omega)

end OneDim
end Quadpy
