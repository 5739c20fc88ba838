import Verif.Model.Coefficients
import Verif.Lemmas.GaussRoots

/-! `coefficients_from_gauss`: from the output of `sytrd` to an eigendecomposition and back. -/

namespace Quadpy
namespace OneDim

open Matrix Polynomial Spec

section Core

variable {n : ℕ}

/-- The sign that turns `b` into `|b|`. -/
noncomputable def sg (b : ℝ) : ℝ := if b < 0 then -1 else 1

theorem sg_sq (b : ℝ) : sg b * sg b = 1 := by unfold sg; split_ifs <;> norm_num

theorem sg_mul (b : ℝ) : sg b * b = |b| := by
  unfold sg
  split_ifs with h
  · rw [abs_of_neg h]; ring
  · rw [abs_of_nonneg (not_lt.1 h)]; ring

theorem sg_eq (b : ℝ) : sg b * |b| = b := by rw [← sg_mul, ← mul_assoc, sg_sq, one_mul]

/-- Products of signs. -/
noncomputable def sgp (b : ℕ → ℝ) (i : ℕ) : ℝ := ∏ k ∈ Finset.range i, sg (b (k + 1))

theorem sgp_sq (b : ℕ → ℝ) (i : ℕ) : sgp b i * sgp b i = 1 := by
  unfold sgp
  rw [← Finset.prod_mul_distrib]
  exact Finset.prod_eq_one fun k _ => sg_sq _

theorem sgp_succ (b : ℕ → ℝ) (i : ℕ) : sgp b (i + 1) = sgp b i * sg (b (i + 1)) := by
  rw [sgp, Finset.prod_range_succ, sgp]

/-- Reversing the rows and columns of a tridiagonal matrix and making the entries beside the diagonal
nonnegative. -/
theorem tridiag_rev (d e : ℕ → ℝ) (i k : Fin n) :
    let b : ℕ → ℝ := fun k => e (n - 1 - k)
    tridiag n (fun k => d (n - 1 - k)) (fun k => |b k|) i k * sgp b k =
      sgp b i * tridiag n d (fun k => e (k - 1)) k.rev i.rev := by
  intro b
  have hi := i.2
  have hk := k.2
  simp only [tridiag, of_apply, Fin.val_rev]
  by_cases h1 : i.val = k.val
  · rw [if_pos h1, if_pos (by omega)]
    have : n - (k.val + 1) = n - 1 - i.val := by omega
    rw [this, h1]; ring
  by_cases h2 : i.val + 1 = k.val
  · rw [if_neg h1, if_pos h2, if_neg (by omega), if_pos (by omega), ← h2, sgp_succ,
      show n - (i.val + 1) - 1 = n - 1 - (i.val + 1) by omega]
    have := sg_mul (b (i.val + 1))
    have h3 := sg_sq (b (i.val + 1))
    change |b (i.val + 1)| * _ = sgp b i * b (i.val + 1)
    rw [← sg_mul]; linear_combination sgp b i * b (i.val + 1) * h3
  by_cases h3 : k.val + 1 = i.val
  · rw [if_neg h1, if_neg h2, if_pos h3, if_neg (by omega), if_neg (by omega), if_pos (by omega), ← h3,
      sgp_succ, show n - (k.val + 1) - 1 = n - 1 - (k.val + 1) by omega]
    change |b (k.val + 1)| * _ = sgp b k * _ * b (k.val + 1)
    rw [← sg_mul]; ring
  · rw [if_neg h1, if_neg h2, if_neg h3, if_neg (by omega), if_neg (by omega), if_neg (by omega)]
    ring

/-- The last row of `Q`. -/
theorem sytrd_row {m : ℕ} {Q : Matrix (Fin (m + 1)) (Fin (m + 1)) ℝ} (hQ : Qᵀ * Q = 1)
    (hl : ∀ i, Q i (Fin.last m) = if i = Fin.last m then 1 else 0) (k : Fin (m + 1)) :
    Q (Fin.last m) k = if k = Fin.last m then 1 else 0 := by
  have h := congrFun (congrFun hQ k) (Fin.last m)
  rw [Matrix.mul_apply, Matrix.one_apply] at h
  rw [← h, Finset.sum_eq_single (Fin.last m)]
  · rw [transpose_apply, hl, if_pos rfl, mul_one]
  · intro i _ hi
    rw [hl, if_neg hi, mul_zero]
  · simp

end Core

theorem gaussMatrix_castSucc (P W : List ℝ) (i j : Fin P.length) :
    gaussMatrix P W i.castSucc j.castSucc = if i = j then P.getD i 0 else 0 := by
  have hi := i.2
  have hj := j.2
  simp only [gaussMatrix, of_apply, Fin.val_castSucc, Fin.castSucc_inj]
  rw [if_neg (by omega), if_neg (by omega), if_neg (by omega)]

theorem gaussMatrix_last (P W : List ℝ) (i : Fin P.length) :
    gaussMatrix P W i.castSucc (Fin.last _) = √(W.getD i 0) := by
  have hi := i.2
  simp only [gaussMatrix, of_apply, Fin.val_castSucc, Fin.val_last]
  rw [if_neg (by omega), if_neg (by omega), if_pos trivial]

theorem gaussMatrix_last' (P W : List ℝ) (i : Fin P.length) :
    gaussMatrix P W (Fin.last _) i.castSucc = √(W.getD i 0) := by
  have hi := i.2
  simp only [gaussMatrix, of_apply, Fin.val_castSucc, Fin.val_last]
  rw [if_neg (by omega), if_pos trivial]

theorem gaussMatrix_corner (P W : List ℝ) :
    gaussMatrix P W (Fin.last _) (Fin.last _) = 1 := by
  simp [gaussMatrix]

/-- From the output of `sytrd` to an eigendecomposition. -/
theorem sytrd_eigh {P W : List ℝ} {d e : ℕ → ℝ} (h : IsSytrd (gaussMatrix P W) d e)
    (hP : P.Pairwise (· ≤ ·)) [NeZero P.length] :
    ∃ V : Matrix (Fin P.length) (Fin P.length) ℝ,
      IsEigh (tridiag P.length (fun k => d (P.length - 1 - k)) fun k => |e (P.length - 1 - k)|)
        (fun i => P.getD i 0) V ∧
      ∀ i : Fin P.length, √(W.getD i 0) = e (P.length - 1) * V 0 i := by
  obtain ⟨Q, hQ, hl, hT⟩ := h
  have hrow := sytrd_row hQ hl
  have hQ' : Q * Qᵀ = 1 := mul_eq_one_comm.1 hQ
  have hAQ : gaussMatrix P W * Q = Q * tridiag (P.length + 1) d fun k => e (k - 1) := by
    rw [← hT, Matrix.mul_assoc, ← Matrix.mul_assoc, hQ', one_mul]
  have npos : 0 < P.length := Nat.pos_of_ne_zero (NeZero.ne P.length)
  set b : ℕ → ℝ := fun k => e (P.length - 1 - k) with hb
  -- the two block equations
  have E1 : ∀ i j : Fin P.length, ∑ k : Fin P.length, Q i.castSucc k.castSucc *
      tridiag P.length d (fun k => e (k - 1)) k j = P.getD i 0 * Q i.castSucc j.castSucc := by
    intro i j
    have h := congrFun (congrFun hAQ i.castSucc) j.castSucc
    rw [Matrix.mul_apply, Matrix.mul_apply, Fin.sum_univ_castSucc, Fin.sum_univ_castSucc, hrow,
      if_neg (Fin.castSucc_lt_last j).ne, hl, if_neg (Fin.castSucc_lt_last i).ne, mul_zero, zero_mul,
      add_zero, add_zero] at h
    rw [Finset.sum_eq_single i] at h
    · rw [gaussMatrix_castSucc, if_pos rfl] at h
      rw [h]
      refine Finset.sum_congr rfl fun k _ => ?_
      simp [tridiag]
    · intro k _ hk
      rw [gaussMatrix_castSucc, if_neg hk.symm, zero_mul]
    · simp
  have E2 : ∀ i : Fin P.length, √(W.getD i 0) = e (P.length - 1) * Q i.castSucc (Fin.rev (0 : Fin P.length)).castSucc := by
    intro i
    have h := congrFun (congrFun hAQ i.castSucc) (Fin.last P.length)
    rw [Matrix.mul_apply, Matrix.mul_apply, Fin.sum_univ_castSucc, Fin.sum_univ_castSucc, hl,
      if_pos rfl, gaussMatrix_last, mul_one, hl i.castSucc, if_neg (Fin.castSucc_lt_last i).ne, zero_mul,
      add_zero] at h
    rw [Finset.sum_eq_zero fun k _ => by rw [hl, if_neg (Fin.castSucc_lt_last k).ne, mul_zero], zero_add]
      at h
    rw [h, Finset.sum_eq_single (Fin.rev (0 : Fin P.length))]
    · have t : tridiag (P.length + 1) d (fun k => e (k - 1)) (Fin.rev (0 : Fin P.length)).castSucc
          (Fin.last P.length) = e (P.length - 1) := by
        have hv : (Fin.rev (0 : Fin P.length)).castSucc.val + 1 = (Fin.last P.length).val := by
          rw [Fin.val_castSucc, Fin.val_rev, Fin.val_last, Fin.val_zero]; omega
        rw [tridiag, of_apply, if_neg (by omega), if_pos hv, Fin.val_last]
      rw [t]; ring
    · intro k _ hk
      have t : tridiag (P.length + 1) d (fun k => e (k - 1)) k.castSucc (Fin.last P.length) = 0 := ?_
      · rw [t, mul_zero]
      have hk' : k.val ≠ P.length - 1 := fun h => hk (Fin.ext (by rw [Fin.val_rev, Fin.val_zero]; omega))
      have := k.2
      simp only [tridiag, of_apply, Fin.val_castSucc, Fin.val_last]
      rw [if_neg (by omega), if_neg (by omega), if_neg (by omega)]
    · simp
  refine ⟨Matrix.of fun i j => sgp b i * Q j.castSucc i.rev.castSucc, ⟨?_, ?_, ?_⟩, fun i => ?_⟩
  · rw [mul_eq_one_comm]
    ext i j
    rw [Matrix.mul_apply]
    have h := congrFun (congrFun hQ i.rev.castSucc) j.rev.castSucc
    rw [Matrix.mul_apply, Fin.sum_univ_castSucc, transpose_apply, hrow,
      if_neg (Fin.castSucc_lt_last _).ne, zero_mul, add_zero, Matrix.one_apply] at h
    have h2 : (if i.rev.castSucc = j.rev.castSucc then (1 : ℝ) else 0) = if i = j then 1 else 0 := by
      simp [Fin.rev_inj]
    rw [h2] at h
    calc ∑ k : Fin P.length, sgp b i * Q k.castSucc i.rev.castSucc * (sgp b j * Q k.castSucc j.rev.castSucc)
        = sgp b i * sgp b j * ∑ k : Fin P.length, Qᵀ i.rev.castSucc k.castSucc * Q k.castSucc j.rev.castSucc := by
          rw [Finset.mul_sum]
          exact Finset.sum_congr rfl fun k _ => by rw [transpose_apply]; ring
      _ = (1 : Matrix (Fin P.length) (Fin P.length) ℝ) i j := by
          rw [h, Matrix.one_apply]
          split_ifs with hij
          · rw [hij, sgp_sq, one_mul]
          · rw [mul_zero]
  · ext i j
    rw [Matrix.mul_apply, Matrix.mul_diagonal, of_apply]
    have h := E1 j i.rev
    rw [← Equiv.sum_comp Fin.revPerm] at h
    simp only [Fin.revPerm_apply] at h
    calc ∑ k, tridiag P.length (fun k => d (P.length - 1 - k)) (fun k => |b k|) i k *
          (sgp b k * Q j.castSucc k.rev.castSucc)
        = sgp b i * ∑ k : Fin P.length, Q j.castSucc k.rev.castSucc *
            tridiag P.length d (fun k => e (k - 1)) k.rev i.rev := by
          rw [Finset.mul_sum]
          refine Finset.sum_congr rfl fun k _ => ?_
          rw [← mul_assoc, tridiag_rev]; ring
      _ = _ := by rw [h]; ring
  · intro i j hij
    rcases hij.eq_or_lt with rfl | hlt
    · exact le_rfl
    · have := List.pairwise_iff_getElem.1 hP i j i.2 j.2 hlt
      beta_reduce
      rw [List.getD_eq_getElem?_getD, List.getD_eq_getElem?_getD, List.getElem?_eq_getElem i.2,
        List.getElem?_eq_getElem j.2]
      exact this
  · rw [E2 i, of_apply]
    simp [sgp]

end OneDim
end Quadpy
