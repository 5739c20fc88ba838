import Verif.Lemmas.GaussRC
import Mathlib.Data.Fin.Tuple.Sort
import Mathlib.Algebra.Polynomial.Roots

/-!
# Gauss rules: existence, points and weights
-/

namespace Quadpy
namespace OneDim

open Matrix Polynomial Spec

/-! ### Existence of the eigenvectors -/

theorem isEigh_exists {n : ℕ} {A : Matrix (Fin n) (Fin n) ℝ} (hA : Aᵀ = A) :
    ∃ x V, IsEigh A x V := by
  have hH : A.IsHermitian := by rw [IsHermitian, conjTranspose_eq_transpose_of_trivial, hA]
  let U : Matrix (Fin n) (Fin n) ℝ := hH.eigenvectorUnitary
  have hU : Uᵀ * U = 1 := by
    have := Unitary.coe_star_mul_self hH.eigenvectorUnitary
    rwa [star_eq_conjTranspose, conjTranspose_eq_transpose_of_trivial] at this
  have hE : A * U = U * diagonal hH.eigenvalues := by
    ext i j
    have := congrFun (hH.mulVec_eigenvectorBasis j) i
    rw [mul_diagonal]
    simpa [Matrix.mul_apply, mulVec, dotProduct, U, mul_comm] using this
  let σ := Tuple.sort hH.eigenvalues
  refine ⟨hH.eigenvalues ∘ σ, U.submatrix id σ, ⟨?_, ?_, Tuple.monotone_sort _⟩⟩
  · have := congrArg (fun M => M.submatrix σ σ) hU
    simp only [submatrix_one_equiv] at this
    rw [← this, transpose_submatrix, submatrix_mul_equiv _ _ σ (Equiv.refl _) σ |>.symm]
    rfl
  · have := congrArg (fun M => M.submatrix id σ) hE
    ext i j
    have h := congrFun (congrFun this i) j
    simp only [submatrix_apply, id_eq, mul_diagonal] at h
    rw [mul_diagonal]
    simpa [Matrix.mul_apply] using h

theorem schemeFromRc_exists (n : ℕ) [NeZero n] (α β : ℕ → ℝ) (int1 : ℝ)
    (hβ : ∀ k, 0 < k → k < n → 0 ≤ β k) : ∃ P W, SchemeFromRc n α β int1 P W := by
  obtain ⟨x, V, h⟩ := isEigh_exists (tridiag_symm n α fun k => √(β k))
  exact ⟨_, _, hβ, x, V, h, rfl, rfl⟩

/-! ### The eigenvectors -/

section Eig

variable {n : ℕ} [NeZero n] {α b : ℕ → ℝ} {x : Fin n → ℝ} {V : Matrix (Fin n) (Fin n) ℝ}

theorem evec_zero_eq : evec n 0 = Pi.single (0 : Fin n) 1 := by
  ext i
  by_cases hi : i = 0
  · subst hi; simp [evec]
  · have : i.val ≠ 0 := fun h => hi (Fin.ext (by simpa using h))
    simp [evec, this, hi]

omit [NeZero n] in
theorem transpose_mulVec_evec (k : ℕ) (hk : k < n) (i : Fin n) : (Vᵀ *ᵥ evec n k) i = V ⟨k, hk⟩ i := by
  rw [mulVec_evec _ hk, transpose_apply]

/-- An eigenvector is determined by its first entry. -/
theorem eig_entry (h : IsEigh (tridiag n α b) x V) (k : ℕ) (hk : k < n) (i : Fin n) :
    (∏ j ∈ Finset.range k, b (j + 1)) * V ⟨k, hk⟩ i =
      (recPoly α (fun i => b i ^ 2) k).eval (x i) * V 0 i := by
  have h1 := congrArg (fun v => (Vᵀ *ᵥ v) i) (aeval_recPoly (n := n) α b k hk.le)
  simp only [mulVec_smul, Pi.smul_apply, smul_eq_mul] at h1
  rw [transpose_mulVec_evec k hk, aeval_eigh h, Matrix.mulVec_mulVec, ← Matrix.mul_assoc,
    ← Matrix.mul_assoc, h.orth, one_mul, ← Matrix.mulVec_mulVec, mulVec_diagonal,
    mulVec_evec _ (Nat.pos_of_ne_zero (NeZero.ne n)), transpose_apply] at h1
  rw [← h1]; rfl

theorem eig_root (h : IsEigh (tridiag n α b) x V) (i : Fin n) :
    (recPoly α (fun i => b i ^ 2) n).eval (x i) * V 0 i = 0 := by
  have h0 : evec n n = 0 := by
    ext i; have := i.2; simp [evec]; omega
  have h1 := congrArg (fun v => (Vᵀ *ᵥ v) i) (aeval_recPoly (n := n) α b n le_rfl)
  simp only [mulVec_smul, Pi.smul_apply, smul_eq_mul, h0, mulVec_zero, Pi.zero_apply, mul_zero] at h1
  rw [aeval_eigh h, Matrix.mulVec_mulVec, ← Matrix.mul_assoc,
    ← Matrix.mul_assoc, h.orth, one_mul, ← Matrix.mulVec_mulVec, mulVec_diagonal,
    mulVec_evec _ (Nat.pos_of_ne_zero (NeZero.ne n)), transpose_apply] at h1
  exact h1

variable (hb : ∀ k, 0 < k → k < n → b k ≠ 0)
include hb

omit [NeZero n] in
theorem prod_ne (k : ℕ) (hk : k < n) : ∏ j ∈ Finset.range k, b (j + 1) ≠ 0 :=
  Finset.prod_ne_zero_iff.2 fun j hj => hb _ (by omega) (by simp at hj; omega)

theorem eig_first_ne (h : IsEigh (tridiag n α b) x V) (i : Fin n) : V 0 i ≠ 0 := by
  intro h0
  have hz : ∀ k : Fin n, V k i = 0 := by
    intro k
    have := eig_entry h k k.2 i
    rw [h0, mul_zero] at this
    exact (mul_eq_zero.1 this).resolve_left (prod_ne hb k k.2)
  have := congrFun (congrFun h.orth i) i
  simp [Matrix.mul_apply, hz] at this

theorem eig_injective (h : IsEigh (tridiag n α b) x V) : Function.Injective x := by
  intro i j hij
  by_contra hne
  have key : ∀ k : Fin n, V k i * V 0 j = V k j * V 0 i := by
    intro k
    have h1 := eig_entry h k k.2 i
    have h2 := eig_entry h k k.2 j
    rw [hij] at h1
    have hp := prod_ne hb k k.2
    refine mul_left_cancel₀ hp ?_
    simp only [Fin.eta] at h1 h2
    linear_combination V 0 j * h1 - V 0 i * h2
  have h1 := congrFun (congrFun h.orth i) j
  have h2 := congrFun (congrFun h.orth j) j
  rw [Matrix.mul_apply] at h1 h2
  simp only [transpose_apply, Matrix.one_apply, hne, if_true, if_false] at h1 h2
  have : V 0 j * ∑ k, V k i * V k j = V 0 i * ∑ k, V k j * V k j := by
    rw [Finset.mul_sum, Finset.mul_sum]
    exact Finset.sum_congr rfl fun k _ => by linear_combination V k j * key k
  rw [h1, h2, mul_zero, mul_one] at this
  exact eig_first_ne hb h i this.symm

theorem eig_isRoot (h : IsEigh (tridiag n α b) x V) (i : Fin n) :
    (recPoly α (fun i => b i ^ 2) n).eval (x i) = 0 :=
  (mul_eq_zero.1 (eig_root h i)).resolve_right (eig_first_ne hb h i)

/-- The eigenvalues are all the roots. -/
theorem root_mem (h : IsEigh (tridiag n α b) x V) (ξ : ℝ)
    (hξ : (recPoly α (fun i => b i ^ 2) n).eval ξ = 0) : ∃ i, x i = ξ := by
  classical
  by_contra hno
  push Not at hno
  set p := recPoly α (fun i => b i ^ 2) n with hp
  have hmon : p.Monic := recPoly_monic _ _ _
  have hsub : insert ξ (Finset.univ.image x) ⊆ p.roots.toFinset := by
    intro y hy
    rw [Multiset.mem_toFinset, mem_roots hmon.ne_zero]
    rcases Finset.mem_insert.1 hy with rfl | hy
    · exact hξ
    · obtain ⟨i, -, rfl⟩ := Finset.mem_image.1 hy
      exact eig_isRoot hb h i
  have h1 := Finset.card_le_card hsub
  rw [Finset.card_insert_of_notMem (by
    intro hm; obtain ⟨i, -, hi⟩ := Finset.mem_image.1 hm; exact hno i hi),
    Finset.card_image_of_injective _ (eig_injective hb h), Finset.card_univ, Fintype.card_fin] at h1
  have h2 := (Multiset.toFinset_card_le p.roots).trans (card_roots' p)
  have h3 : p.natDegree = n := recPoly_natDegree _ _ _
  omega

end Eig

/-! ### Points and weights of the rule -/

section Scheme

variable {n : ℕ} [NeZero n] {α β : ℕ → ℝ} {int1 : ℝ} {P W : List ℝ}

omit [NeZero n] in
theorem sqrt_ne (hβ : ∀ k, 0 < k → k < n → 0 < β k) : ∀ k, 0 < k → k < n → √(β k) ≠ 0 :=
  fun k h1 h2 => (Real.sqrt_pos.2 (hβ k h1 h2)).ne'

theorem schemeFromRc_sorted (hβ : ∀ k, 0 < k → k < n → 0 < β k)
    (h : SchemeFromRc n α β int1 P W) : P.Pairwise (· < ·) := by
  obtain ⟨-, x, V, hV, rfl, -⟩ := h
  have := hV.sorted.strictMono_of_injective (eig_injective (sqrt_ne hβ) hV)
  rw [List.pairwise_ofFn]
  exact fun i j hij => this hij

theorem schemeFromRc_pos (hβ : ∀ k, 0 < k → k < n → 0 < β k) (hi : 0 < int1)
    (h : SchemeFromRc n α β int1 P W) : ∀ w ∈ W, 0 < w := by
  obtain ⟨-, x, V, hV, -, rfl⟩ := h
  intro w hw
  obtain ⟨i, rfl⟩ := (List.mem_ofFn' _ _).1 hw
  have := eig_first_ne (sqrt_ne hβ) hV i
  positivity

theorem schemeFromRc_roots (hβ : ∀ k, 0 < k → k < n → 0 < β k)
    (h : SchemeFromRc n α β int1 P W) (ξ : ℝ) : ξ ∈ P ↔ (recPoly α β n).eval ξ = 0 := by
  have e := recPoly_sqrt (α := α) h.1 n le_rfl
  obtain ⟨-, x, V, hV, rfl, -⟩ := h
  rw [← e, List.mem_ofFn']
  constructor
  · rintro ⟨i, rfl⟩; exact eig_isRoot (sqrt_ne hβ) hV i
  · exact fun h => root_mem (sqrt_ne hβ) hV ξ h

theorem schemeFromRc_sum (h : SchemeFromRc n α β int1 P W) : W.sum = int1 := by
  obtain ⟨-, x, V, hV, -, rfl⟩ := h
  rw [List.sum_ofFn, ← Finset.mul_sum]
  have hV' : V * Vᵀ = 1 := mul_eq_one_comm.1 hV.orth
  have := congrFun (congrFun hV' 0) 0
  rw [Matrix.mul_apply] at this
  simp only [transpose_apply, one_apply_eq] at this
  rw [show ∑ i, V 0 i ^ 2 = 1 by rw [← this]; exact Finset.sum_congr rfl fun i _ => pow_two _, mul_one]

/-- If the weight does not change sign where the test polynomials look, the points stay there. -/
theorem schemeFromRc_inside (L : ℝ[X] →ₗ[ℝ] ℝ) (hβ : ∀ k, 0 < k → k < n → 0 < β k)
    (h : SchemeFromRc n α β (L 1) P W) (h1 : 0 < L 1) (he : ExactL P W (2 * n - 1) L) (s c : ℝ)
    (hL : ∀ f : ℝ[X], f ≠ 0 → f.natDegree < n → 0 < L ((C s * X + C c) * (f * f))) :
    ∀ y ∈ P, 0 < s * y + c := by
  classical
  intro y hy
  have hpos := schemeFromRc_pos hβ h1 h
  obtain ⟨-, x, V, hV, rfl, rfl⟩ := h
  obtain ⟨i, rfl⟩ := (List.mem_ofFn' _ _).1 hy
  have hinj := eig_injective (sqrt_ne hβ) hV
  set f : ℝ[X] := ∏ j ∈ Finset.univ.erase i, (X - C (x j)) with hf
  have hn : 0 < n := Nat.pos_of_ne_zero (NeZero.ne n)
  have hmon : f.Monic := monic_prod_of_monic _ _ fun j _ => monic_X_sub_C _
  have hdeg : f.natDegree = n - 1 := by
    rw [hf, natDegree_prod_of_monic _ _ fun j _ => monic_X_sub_C _]
    simp
  have hq := he.2 ((C s * X + C c) * (f * f)) (by
    refine natDegree_mul_le.trans ?_
    have := natDegree_mul_le (p := f) (q := f)
    have : (C s * X + C c).natDegree ≤ 1 := natDegree_linear_le
    omega)
  have hLpos := hL f hmon.ne_zero (by omega)
  rw [← hq, vdot_ofFn, Finset.sum_eq_single i] at hLpos
  · simp only [eval_mul, eval_add, eval_C, eval_X] at hLpos
    have hw := hpos (L 1 * V 0 i ^ 2) ((List.mem_ofFn' _ _).2 ⟨i, rfl⟩)
    have h2 : 0 ≤ eval (x i) f * eval (x i) f := mul_self_nonneg _
    by_contra hle
    push Not at hle
    have : (s * x i + c) * (eval (x i) f * eval (x i) f) ≤ 0 := mul_nonpos_of_nonpos_of_nonneg hle h2
    nlinarith
  · intro j _ hj
    have : eval (x j) f = 0 := by
      rw [hf, eval_prod]
      exact Finset.prod_eq_zero (Finset.mem_erase.2 ⟨hj, Finset.mem_univ j⟩) (by simp)
    simp [this]
  · simp

end Scheme

/-! ### Existence of the recurrence coefficients -/

section Stieltjes

variable (L : ℝ[X] →ₗ[ℝ] ℝ)

/-- The Stieltjes procedure. -/
noncomputable def stPair : ℕ → ℝ[X] × ℝ[X]
  | 0 => (1, X - C (L (X * (1 * 1)) / L (1 * 1)))
  | k + 1 =>
    ((stPair k).2,
      (X - C (L (X * ((stPair k).2 * (stPair k).2)) / L ((stPair k).2 * (stPair k).2))) * (stPair k).2 -
      C (L ((stPair k).2 * (stPair k).2) / L ((stPair k).1 * (stPair k).1)) * (stPair k).1)

noncomputable def stAlpha (k : ℕ) : ℝ :=
  L (X * ((stPair L k).1 * (stPair L k).1)) / L ((stPair L k).1 * (stPair L k).1)

noncomputable def stBeta (k : ℕ) : ℝ :=
  L ((stPair L k).1 * (stPair L k).1) / L ((stPair L (k - 1)).1 * (stPair L (k - 1)).1)

theorem stPair_eq (k : ℕ) : (stPair L k).1 = recPoly (stAlpha L) (stBeta L) k ∧
    (stPair L k).2 = recPoly (stAlpha L) (stBeta L) (k + 1) := by
  induction k with
  | zero => exact ⟨rfl, rfl⟩
  | succ k ih =>
    refine ⟨ih.2, ?_⟩
    rw [recPoly, ← ih.1, ← ih.2]
    rfl

theorem stieltjes_beta_pos (hL : ∀ f : ℝ[X], f ≠ 0 → 0 < L (f * f)) (k : ℕ) : 0 < stBeta L k := by
  have h : ∀ k, 0 < L ((stPair L k).1 * (stPair L k).1) := fun k => hL _ (by
    rw [(stPair_eq L k).1]; exact (recPoly_monic _ _ k).ne_zero)
  exact div_pos (h _) (h _)

theorem stieltjes (hL : ∀ f : ℝ[X], f ≠ 0 → 0 < L (f * f)) (n : ℕ) :
    IsRecurrence L (stAlpha L) (stBeta L) n := by
  suffices H : ∀ k, ∀ j < k, L (recPoly (stAlpha L) (stBeta L) j * recPoly (stAlpha L) (stBeta L) k) = 0 from
    fun j k hjk _ => H k j hjk
  set p := recPoly (stAlpha L) (stBeta L) with hp
  have hne : ∀ k, L (p k * p k) ≠ 0 := fun k => (hL _ (recPoly_monic _ _ k).ne_zero).ne'
  have hα : ∀ k, stAlpha L k * L (p k * p k) = L (X * (p k * p k)) := by
    intro k
    rw [stAlpha, (stPair_eq L k).1]
    exact div_mul_cancel₀ _ (hne k)
  have hβ : ∀ k, stBeta L (k + 1) * L (p k * p k) = L (p (k + 1) * p (k + 1)) := by
    intro k
    rw [stBeta, Nat.add_sub_cancel, (stPair_eq L k).1, (stPair_eq L (k + 1)).1]
    exact div_mul_cancel₀ _ (hne k)
  have hrec : ∀ k, p (k + 2) = (X - C (stAlpha L (k + 1))) * p (k + 1) - C (stBeta L (k + 1)) * p k :=
    fun k => rfl
  have hsplit : ∀ k (g : ℝ[X]), L (g * p (k + 2)) = L (X * (g * p (k + 1))) -
      stAlpha L (k + 1) * L (g * p (k + 1)) - stBeta L (k + 1) * L (g * p k) := by
    intro k g
    have : g * p (k + 2) = X * (g * p (k + 1)) - stAlpha L (k + 1) • (g * p (k + 1)) -
        stBeta L (k + 1) • (g * p k) := by
      rw [hrec, smul_eq_C_mul, smul_eq_C_mul]; ring
    rw [this, map_sub, map_sub, map_smul, map_smul, smul_eq_mul, smul_eq_mul]
  have hsplit1 : ∀ g : ℝ[X], L (g * p 1) = L (X * (g * p 0)) - stAlpha L 0 * L (g * p 0) := by
    intro g
    have : g * p 1 = X * (g * p 0) - stAlpha L 0 • (g * p 0) := by
      rw [smul_eq_C_mul, hp]; simp only [recPoly]; ring
    rw [this, map_sub, map_smul, smul_eq_mul]
  intro k
  induction k using Nat.strong_induction_on with
  | _ k ih =>
    match k with
    | 0 => intro j hj; omega
    | 1 =>
      intro j hj
      obtain rfl : j = 0 := by omega
      rw [hsplit1, hα]; ring
    | k + 2 =>
      intro j hj
      rw [hsplit]
      rcases lt_trichotomy j k with h | rfl | h
      · rw [ih (k + 1) (by omega) j (by omega), ih k (by omega) j h]
        have hX : L (X * (p j * p (k + 1))) = 0 := by
          match j with
          | 0 =>
            have h1 := hsplit1 (p (k + 1))
            have h2 := ih (k + 1) (by omega) 1 (by omega)
            have h3 := ih (k + 1) (by omega) 0 (by omega)
            rw [mul_comm (p (k + 1)), mul_comm (p (k + 1)), h2, h3] at h1
            linarith
          | j + 1 =>
            have h1 := hsplit j (p (k + 1))
            have h2 := ih (k + 1) (by omega) (j + 2) (by omega)
            have h3 := ih (k + 1) (by omega) (j + 1) (by omega)
            have h4 := ih (k + 1) (by omega) j (by omega)
            rw [mul_comm (p (k + 1)), mul_comm (p (k + 1)), mul_comm (p (k + 1)), h2, h3, h4] at h1
            linarith
        rw [hX]; ring
      · rw [ih (j + 1) (by omega) j (by omega), hβ]
        have hX : L (X * (p j * p (j + 1))) = L (p (j + 1) * p (j + 1)) := by
          match j with
          | 0 =>
            have h1 := hsplit1 (p 1)
            have h3 := ih 1 (by omega) 0 (by omega)
            rw [mul_comm (p 1) (p 0), h3] at h1
            linarith
          | j + 1 =>
            have h1 := hsplit j (p (j + 2))
            have h3 := ih (j + 2) (by omega) (j + 1) (by omega)
            have h4 := ih (j + 2) (by omega) j (by omega)
            rw [mul_comm (p (j + 2)) (p (j + 1)), mul_comm (p (j + 2)) (p j), h3, h4] at h1
            linarith
        rw [hX]; ring
      · obtain rfl : j = k + 1 := by omega
        have h1 : L (p (k + 1) * p k) = 0 := by
          rw [mul_comm]; exact ih (k + 1) (by omega) k (by omega)
        rw [h1, hα]; ring

end Stieltjes

end OneDim
end Quadpy
