/-
`np.linalg.solve` returns the solution of a system that has only one.
-/
import Mathlib.LinearAlgebra.Matrix.ToLinearEquiv
import Verif.Model.Stroud1969

namespace Quadpy
open Finset

theorem zipWith_sum_getD {π : Type*} (w : List ℝ) (pts : List π) (h : w.length = pts.length)
    (f : π → ℝ) :
    (List.zipWith (fun wi p => wi * f p) w pts).sum =
      ∑ j : Fin pts.length, w.getD j 0 * (pts.map f).getD j 0 := by
  induction pts generalizing w with
  | nil => simp
  | cons p pts ih =>
    obtain ⟨x, w, rfl⟩ : ∃ x w', w = x :: w' := by
      cases w with
      | nil => simp at h
      | cons x w => exact ⟨x, w, rfl⟩
    have h' : w.length = pts.length := by simpa using h
    rw [List.zipWith_cons_cons, List.sum_cons, ih w h']
    change _ = ∑ j : Fin (pts.length + 1), _
    rw [Fin.sum_univ_succ]
    simp

/-- If the homogeneous system has only the zero solution, `np.linalg.solve` succeeds and its result
solves the system. -/
theorem linalgSolve_some {κ π : Type*} (ks : List κ) (pts : List π) (f : κ → π → ℝ) (g : κ → ℝ)
    (hl : pts.length = ks.length)
    (huniq : ∀ w : List ℝ, w.length = pts.length →
      (∀ k ∈ ks, (List.zipWith (fun wi p => wi * f k p) w pts).sum = 0) → ∀ x ∈ w, x = 0) :
    ∃ w, linalgSolve (ks.map fun k => pts.map (f k)) (ks.map g) = some w ∧ w.length = pts.length ∧
      ∀ k ∈ ks, (List.zipWith (fun wi p => wi * f k p) w pts).sum = g k := by
  set m := (ks.map g).length with hm
  have hmk : m = ks.length := by simp [hm]
  set M : Matrix (Fin m) (Fin m) ℝ :=
    Matrix.of fun i j => ((ks.map fun k => pts.map (f k)).getD i []).getD j 0 with hM
  have hrow : ∀ (w : Fin m → ℝ) (i : Fin m), (M.mulVec w) i =
      (List.zipWith (fun wi p => wi * f (ks[(i : ℕ)]'(by omega)) p) (List.ofFn w) pts).sum := by
    intro w i
    have hi : (i : ℕ) < ks.length := by omega
    rw [zipWith_sum_getD _ _ (by simp; omega)]
    have e : pts.length = m := by omega
    rw [Matrix.mulVec, dotProduct, ← (finCongr e).sum_comp]
    refine sum_congr rfl fun j _ => ?_
    have hj : (j : ℕ) < m := by have := j.isLt; omega
    rw [hM, Matrix.of_apply]
    simp [List.getD_eq_getElem?_getD, List.getElem?_map, hi, hj, mul_comm]
    exact Or.inl rfl
  have hdet : M.det ≠ 0 := by
    intro h0
    obtain ⟨v, hv, hv0⟩ := Matrix.exists_mulVec_eq_zero_iff.2 h0
    apply hv
    have := huniq (List.ofFn v) (by simp; omega) (by
      intro k hk
      obtain ⟨i, hi, rfl⟩ := List.mem_iff_getElem.1 hk
      have := hrow v ⟨i, by omega⟩
      rw [hv0] at this
      exact this.symm)
    funext i
    exact this (v i) (List.mem_ofFn.2 ⟨i, rfl⟩)
  refine ⟨List.ofFn (M⁻¹.mulVec fun i => (ks.map g).getD i 0), ?_, by simp; omega, ?_⟩
  · unfold linalgSolve
    rw [if_pos]
    refine ⟨by simp, ?_, hdet⟩
    intro row hr
    obtain ⟨k, _, rfl⟩ := List.mem_map.1 hr
    simp [hl]
  · intro k hk
    obtain ⟨i, hi, rfl⟩ := List.mem_iff_getElem.1 hk
    have := hrow (M⁻¹.mulVec fun i => (ks.map g).getD i 0) ⟨i, by omega⟩
    rw [Matrix.mulVec_mulVec, Matrix.mul_nonsing_inv _ (isUnit_iff_ne_zero.2 hdet),
      Matrix.one_mulVec] at this
    rw [← this]
    simp [List.getD_eq_getElem?_getD, hi]

end Quadpy
