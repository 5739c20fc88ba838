import Verif.Lemmas.GaussEnd
import Verif.Model.Kronrod
import Mathlib.LinearAlgebra.Lagrange

/-!
# Gauss rules: uniqueness, and what happens when the signs of the diagonal are changed
-/

namespace Quadpy
namespace OneDim

open Matrix Polynomial Spec

theorem reverse_ofFn {n : ℕ} (f : Fin n → ℝ) : (List.ofFn f).reverse = List.ofFn fun i => f i.rev := by
  refine List.ext_getElem (by simp) fun i h1 h2 => ?_
  rw [List.getElem_reverse, List.getElem_ofFn, List.getElem_ofFn]
  congr 1
  ext
  simp [Fin.rev]
  omega

section
variable {n : ℕ} [NeZero n] {α β : ℕ → ℝ} {int1 : ℝ} {P W P' W' : List ℝ}

/-- The points and weights do not depend on which eigenvectors scipy returns. -/
theorem schemeFromRc_unique (hβ : ∀ k, 0 < k → k < n → 0 < β k) (h : SchemeFromRc n α β int1 P W)
    (h' : SchemeFromRc n α β int1 P' W') : P' = P ∧ W' = W := by
  have e : P' = P := by
    refine List.Pairwise.eq_of_mem_iff (schemeFromRc_sorted hβ h') (schemeFromRc_sorted hβ h) fun ξ => ?_
    rw [schemeFromRc_roots hβ h, schemeFromRc_roots hβ h']
  refine ⟨e, ?_⟩
  have hv := schemeFromRc_vdot h
  have hv' := schemeFromRc_vdot h'
  have hs := schemeFromRc_sorted hβ h
  obtain ⟨-, x, V, hV, rfl, rfl⟩ := h
  obtain ⟨-, x', V', hV', rfl, rfl⟩ := h'
  have ex : x' = x := List.ofFn_injective e
  subst ex
  have hinj : Function.Injective x' := by
    rw [List.pairwise_ofFn] at hs
    exact StrictMono.injective fun i j hij => hs hij
  congr 1
  funext i
  have h1 := (hv' (Lagrange.basis Finset.univ x' i)).trans (hv _).symm
  rw [vdot_ofFn, vdot_ofFn] at h1
  have key : ∀ w : Fin n → ℝ, ∑ j, (Lagrange.basis Finset.univ x' i).eval (x' j) * w j = w i := by
    intro w
    rw [Finset.sum_eq_single i]
    · rw [Lagrange.eval_basis_self hinj.injOn (Finset.mem_univ i), one_mul]
    · intro j _ hj
      rw [Lagrange.eval_basis_of_ne hj.symm (Finset.mem_univ j), zero_mul]
    · simp
  rwa [key, key] at h1

/-- With the signs of the diagonal changed, the rule is reflected at 0. -/
theorem schemeFromRc_neg (h : SchemeFromRc n α β int1 P W) :
    SchemeFromRc n (fun k => -α k) β int1 (P.map Neg.neg).reverse W.reverse := by
  obtain ⟨h0, x, V, hV, rfl, rfl⟩ := h
  refine ⟨h0, fun i => -x i.rev, Matrix.of fun i j => (-1) ^ i.val * V i j.rev, ⟨?_, ?_, ?_⟩, ?_, ?_⟩
  · ext i j
    have := congrFun (congrFun hV.orth i.rev) j.rev
    rw [Matrix.mul_apply] at this ⊢
    simp only [transpose_apply, of_apply] at this ⊢
    rw [one_apply] at this ⊢
    simp only [Fin.rev_inj] at this
    rw [← this]
    refine Finset.sum_congr rfl fun k _ => ?_
    have e : ((-1 : ℝ) ^ k.val) * (-1) ^ k.val = 1 := by rw [← mul_pow]; simp
    linear_combination (V k i.rev * V k j.rev) * e
  · ext i j
    have := congrFun (congrFun hV.eig i) j.rev
    rw [mul_diagonal] at this ⊢
    rw [Matrix.mul_apply] at this ⊢
    simp only [of_apply]
    rw [show (-1 : ℝ) ^ i.val * V i j.rev * -x j.rev = -((-1) ^ i.val * (V i j.rev * x j.rev)) by ring, ← this,
      Finset.mul_sum, ← Finset.sum_neg_distrib]
    refine Finset.sum_congr rfl fun k _ => ?_
    simp only [tridiag, of_apply]
    split_ifs with h1 h2 h3
    · rw [h1]; ring
    · rw [← h2, pow_succ]; ring
    · rw [← h3, pow_succ]; ring
    · ring
  · intro i j hij
    exact neg_le_neg (hV.sorted (Fin.rev_le_rev.2 hij))
  · rw [List.map_ofFn, reverse_ofFn]; rfl
  · rw [reverse_ofFn]
    congr 1
    funext i
    simp [Function.comp]

/-- With a zero diagonal, the rule is symmetric. -/
theorem schemeFromRc_symm (hβ : ∀ k, 0 < k → k < n → 0 < β k) (hα : ∀ k < n, α k = 0)
    (h : SchemeFromRc n α β int1 P W) : (P.map Neg.neg).reverse = P ∧ W.reverse = W := by
  have h' := schemeFromRc_neg h
  refine schemeFromRc_unique hβ h ?_
  obtain ⟨h0, x, V, hV, r⟩ := h'
  refine ⟨h0, x, V, ?_, r⟩
  have : tridiag n (fun k => -α k) (fun k => √(β k)) = tridiag n α fun k => √(β k) := by
    ext i j
    simp only [tridiag, of_apply]
    rw [hα i i.2, neg_zero]
  rwa [this] at hV

end

/-- Two rules with points in ascending order and positive weights which agree on all polynomials are the
same. -/
theorem rule_unique {n m : ℕ} {x w : Fin n → ℝ} {x' w' : Fin m → ℝ} (hx : StrictMono x)
    (hx' : StrictMono x') (hw : ∀ i, 0 < w i) (hw' : ∀ i, 0 < w' i)
    (h : ∀ f : ℝ[X], ∑ i, f.eval (x i) * w i = ∑ i, f.eval (x' i) * w' i) :
    List.ofFn x' = List.ofFn x ∧ List.ofFn w' = List.ofFn w := by
  classical
  have sub : ∀ {n m : ℕ} {x w : Fin n → ℝ} {x' w' : Fin m → ℝ}, StrictMono x → (∀ i, 0 < w i) →
      (∀ f : ℝ[X], ∑ i, f.eval (x i) * w i = ∑ i, f.eval (x' i) * w' i) → ∀ i, ∃ j, x' j = x i := by
    intro n m x w x' w' hx hw h i
    by_contra hne
    push Not at hne
    have h1 := h ((∏ j ∈ Finset.univ.erase i, (X - C (x j))) ^ 2 * (∏ j, (X - C (x' j))) ^ 2)
    rw [Finset.sum_eq_single i, Finset.sum_eq_zero] at h1
    · have : 0 < eval (x i) ((∏ j ∈ Finset.univ.erase i, (X - C (x j))) ^ 2 * (∏ j, (X - C (x' j))) ^ 2) := by
        simp only [eval_mul, eval_pow, eval_prod, eval_sub, eval_X, eval_C]
        refine mul_pos (pow_two_pos_of_ne_zero ?_) (pow_two_pos_of_ne_zero ?_)
        · exact Finset.prod_ne_zero_iff.2 fun j hj =>
            sub_ne_zero.2 fun e => (Finset.mem_erase.1 hj).1 (hx.injective e.symm)
        · exact Finset.prod_ne_zero_iff.2 fun j _ => sub_ne_zero.2 fun e => hne j e.symm
      exact (mul_pos this (hw i)).ne' h1
    · intro j _
      have : eval (x' j) (∏ j, (X - C (x' j))) = 0 := by
        rw [eval_prod]; exact Finset.prod_eq_zero (Finset.mem_univ j) (by simp)
      simp [this]
    · intro j _ hj
      have : eval (x j) (∏ j ∈ Finset.univ.erase i, (X - C (x j))) = 0 := by
        rw [eval_prod]; exact Finset.prod_eq_zero (i := j) (by simp [hj]) (by simp)
      simp [this]
    · simp
  have e : List.ofFn x' = List.ofFn x := by
    refine List.Pairwise.eq_of_mem_iff (r := (· < ·)) ?_ ?_ fun ξ => ?_
    · rw [List.pairwise_ofFn]; exact fun i j hij => hx' hij
    · rw [List.pairwise_ofFn]; exact fun i j hij => hx hij
    · rw [List.mem_ofFn', List.mem_ofFn']
      constructor
      · rintro ⟨i, rfl⟩
        obtain ⟨j, hj⟩ := sub hx' hw' (fun f => (h f).symm) i
        exact ⟨j, hj⟩
      · rintro ⟨i, rfl⟩
        obtain ⟨j, hj⟩ := sub hx hw h i
        exact ⟨j, hj⟩
  refine ⟨e, ?_⟩
  obtain rfl : m = n := by simpa using congrArg List.length e
  obtain rfl : x' = x := List.ofFn_injective e
  congr 1
  funext i
  have h1 := h (Lagrange.basis Finset.univ x' i)
  have key : ∀ w : Fin m → ℝ, ∑ j, (Lagrange.basis Finset.univ x' i).eval (x' j) * w j = w i := by
    intro w
    rw [Finset.sum_eq_single i]
    · rw [Lagrange.eval_basis_self hx.injective.injOn (Finset.mem_univ i), one_mul]
    · intro j _ hj
      rw [Lagrange.eval_basis_of_ne hj.symm (Finset.mem_univ j), zero_mul]
    · simp
  rw [key, key] at h1
  exact h1.symm

/-- The same for lists, when the rules come from the same matrix. -/
theorem schemeFromRc_unique' {n : ℕ} [NeZero n] {α β : ℕ → ℝ} {int1 : ℝ} {P W P' W' : List ℝ}
    (hP : P.Pairwise (· < ·)) (hP' : P'.Pairwise (· < ·)) (hW : ∀ w ∈ W, 0 < w) (hW' : ∀ w ∈ W', 0 < w)
    (h : SchemeFromRc n α β int1 P W) (h' : SchemeFromRc n α β int1 P' W') : P' = P ∧ W' = W := by
  have hv := schemeFromRc_vdot h
  have hv' := schemeFromRc_vdot h'
  obtain ⟨-, x, V, hV, rfl, rfl⟩ := h
  obtain ⟨-, x', V', hV', rfl, rfl⟩ := h'
  rw [List.pairwise_ofFn] at hP hP'
  refine rule_unique (fun i j hij => hP hij) (fun i j hij => hP' hij)
    (fun i => hW _ ((List.mem_ofFn' _ _).2 ⟨i, rfl⟩)) (fun i => hW' _ ((List.mem_ofFn' _ _).2 ⟨i, rfl⟩))
    fun f => ?_
  have := (hv f).trans (hv' f).symm
  rwa [vdot_ofFn, vdot_ofFn] at this

theorem solveBanded_unique {n : ℕ} {α β : ℕ → ℝ} {xl : ℝ} {f g g' : Fin n → ℝ}
    (h : SolveBanded α β xl f g) (h' : SolveBanded α β xl f g') : g' = g := by
  have := Matrix.eq_zero_of_mulVec_eq_zero h.1 (v := g' - g) (by rw [mulVec_sub, h.2, h'.2, sub_self])
  exact sub_eq_zero.1 this

theorem solveBanded_neg {n : ℕ} {α β : ℕ → ℝ} {xl : ℝ} {g : Fin n → ℝ}
    (h : SolveBanded α β xl (lastUnit n) g) : SolveBanded (fun k => -α k) β (-xl) (lastUnit n)
      fun i => -((-1) ^ (n - 1) * (-1) ^ i.val * g i) := by
  have e : tridiag n (fun k => -α k - -xl) (fun k => √(β k)) = diagonal (fun i : Fin n => (-1 : ℝ) ^ i.val) *
      tridiag n (fun k => α k - xl) (fun k => √(β k)) * diagonal (fun i : Fin n => -(-1 : ℝ) ^ i.val) := by
    ext i j
    have e1 : ∀ k : ℕ, ((-1 : ℝ)) ^ k * (-1) ^ k = 1 := fun k => by rw [← mul_pow]; simp
    rw [mul_diagonal, diagonal_mul]
    simp only [tridiag, of_apply]
    split_ifs with h1 h2 h3
    · rw [h1]; linear_combination (α j - xl) * e1 j.val
    · rw [← h2, pow_succ]; linear_combination (-√(β (i + 1))) * e1 i.val
    · rw [← h3, pow_succ]; linear_combination (-√(β (j + 1))) * e1 j.val
    · ring
  have hd : ∀ c : ℝ, c ≠ 0 → (diagonal fun i : Fin n => c * (-1 : ℝ) ^ i.val).det ≠ 0 := fun c hc => by
    rw [det_diagonal]
    exact Finset.prod_ne_zero_iff.2 fun i _ => mul_ne_zero hc (pow_ne_zero _ (by norm_num))
  refine ⟨?_, ?_⟩
  · rw [e, det_mul, det_mul]
    refine mul_ne_zero (mul_ne_zero ?_ h.1) ?_
    · simpa using hd 1 one_ne_zero
    · simpa using hd (-1) (by norm_num)
  · have e2 : (diagonal fun i : Fin n => -(-1 : ℝ) ^ i.val) *ᵥ
        (fun i => -((-1) ^ (n - 1) * (-1) ^ i.val * g i)) = (-1 : ℝ) ^ (n - 1) • g := by
      funext i
      rw [mulVec_diagonal, Pi.smul_apply, smul_eq_mul]
      have : ((-1 : ℝ)) ^ i.val * (-1) ^ i.val = 1 := by rw [← mul_pow]; simp
      linear_combination ((-1 : ℝ) ^ (n - 1) * g i) * this
    rw [e, ← mulVec_mulVec, ← mulVec_mulVec, e2, mulVec_smul, h.2]
    funext i
    rw [mulVec_diagonal, Pi.smul_apply, smul_eq_mul, lastUnit]
    split_ifs with hi
    · rw [hi, mul_one, ← mul_pow]; simp
    · simp

theorem lastEntry_neg {n : ℕ} [NeZero n] (g : Fin n → ℝ) :
    lastEntry (fun i : Fin n => -((-1) ^ (n - 1) * (-1) ^ i.val * g i)) = -lastEntry g := by
  simp only [lastEntry]
  rw [← mul_pow]
  simp

/-- `_lobatto` on an interval symmetric to 0: with the signs of the diagonal changed, the rule is reflected. -/
theorem lobatto_neg {n : ℕ} [NeZero n] {α β : ℕ → ℝ} {int1 r : ℝ} {P W : List ℝ}
    (h : Lobatto n α β int1 (-r) r P W) :
    Lobatto n (fun k => -α k) β int1 (-r) r (P.map Neg.neg).reverse W.reverse := by
  obtain ⟨g1, g2, a', b', h1, h2, hne, e1, e2, hS⟩ := h
  refine ⟨fun i => -((-1) ^ (n - 1) * (-1) ^ i.val * g2 i), fun i => -((-1) ^ (n - 1) * (-1) ^ i.val * g1 i),
    -a', b', ?_, ?_, ?_, ?_, ?_, ?_⟩
  · exact solveBanded_neg h2
  · have := solveBanded_neg h1
    rwa [neg_neg] at this
  · rw [lastEntry_neg, lastEntry_neg]
    exact fun e => hne (by linarith)
  · rw [lastEntry_neg]; linarith
  · rw [lastEntry_neg]; linarith
  · have := schemeFromRc_neg hS
    have e : (fun k => -Function.update α n a' k) = Function.update (fun k => -α k) n (-a') := by
      funext k
      by_cases hk : k = n
      · subst hk; simp
      · simp [hk]
    rwa [e] at this

theorem lobatto_unique {n : ℕ} [NeZero n] {α β : ℕ → ℝ} {int1 r s : ℝ} {P W P' W' : List ℝ}
    (hP : P.Pairwise (· < ·)) (hP' : P'.Pairwise (· < ·)) (hW : ∀ w ∈ W, 0 < w) (hW' : ∀ w ∈ W', 0 < w)
    (h : Lobatto n α β int1 r s P W) (h' : Lobatto n α β int1 r s P' W') : P' = P ∧ W' = W := by
  obtain ⟨g1, g2, a', b', h1, h2, hne, e1, e2, hS⟩ := h
  obtain ⟨g1', g2', a'', b'', h1', h2', hne', e1', e2', hS'⟩ := h'
  rw [solveBanded_unique h1 h1'] at e1'
  rw [solveBanded_unique h2 h2'] at e2'
  obtain rfl : b'' = b' := by
    refine mul_left_cancel₀ (sub_ne_zero.2 hne) ?_
    linarith
  obtain rfl : a'' = a' := by linarith
  exact schemeFromRc_unique' hP hP' hW hW' hS hS'

end OneDim
end Quadpy
