import Verif.Props.C19

/-!
# Rules with prescribed points: Lobatto and Radau
-/

namespace Quadpy
namespace OneDim

open Matrix Polynomial Spec

theorem evec_dot_fun {n : ℕ} (u : ℕ → ℝ) (k : ℕ) :
    evec n k ⬝ᵥ (fun i : Fin n => u i) = if k < n then u k else 0 := by
  split_ifs with hk
  · rw [dotProduct, Finset.sum_eq_single ⟨k, hk⟩]
    · simp [evec]
    · intro i _ hi
      have : i.val ≠ k := fun h => hi (Fin.ext h)
      simp [evec, this]
    · simp
  · refine Finset.sum_eq_zero fun i _ => ?_
    have : i.val ≠ k := by omega
    simp [evec, this]

theorem tridiag_mulVec {n : ℕ} (a b u : ℕ → ℝ) (i : Fin n) :
    (tridiag n a b *ᵥ fun j : Fin n => u j) i = a i * u i +
      b (i + 1) * (if i.val + 1 < n then u (i + 1) else 0) +
      (if i.val = 0 then 0 else b i * u (i - 1)) := by
  have h1 : (tridiag n a b *ᵥ fun j : Fin n => u j) i =
      (tridiag n a b *ᵥ evec n i) ⬝ᵥ (fun j : Fin n => u j) := by
    have e : ∀ v : Fin n → ℝ, v i = evec n i ⬝ᵥ v := by
      intro v
      rw [dotProduct, Finset.sum_eq_single i]
      · simp [evec]
      · intro j _ hj
        have : j.val ≠ i.val := fun h => hj (Fin.ext h)
        simp [evec, this]
      · simp
    rw [e (_ *ᵥ _), dotProduct_mulVec, ← mulVec_transpose, tridiag_symm]
  rw [h1, tridiag_evec a b i.2, add_dotProduct, add_dotProduct, smul_dotProduct, smul_dotProduct,
    evec_dot_fun, evec_dot_fun, if_pos i.2, smul_eq_mul, smul_eq_mul]
  congr 1
  split_ifs with h3
  · simp
  · rw [smul_dotProduct, evec_dot_fun, if_pos (by omega), smul_eq_mul]

/-- The last entry of the solution of the tridiagonal system. -/
theorem solveBanded_last {n : ℕ} [NeZero n] {α β : ℕ → ℝ} {ξ c : ℝ} {g : Fin n → ℝ}
    (hβ : ∀ k, 0 < k → k < n → 0 < β k)
    (h : SolveBanded α β ξ (fun i => c * lastUnit n i) g) :
    (recPoly α β n).eval ξ * lastEntry g = -(c * (recPoly α β (n - 1)).eval ξ) := by
  obtain ⟨-, h⟩ := h
  have hn : 0 < n := Nat.pos_of_ne_zero (NeZero.ne n)
  set b : ℕ → ℝ := fun k => √(β k) with hb
  set d : ℕ → ℝ := fun k => ∏ j ∈ Finset.range k, b (j + 1) with hd
  have hbp : ∀ k, 0 < k → k < n → 0 < b k := fun k h1 h2 => Real.sqrt_pos.2 (hβ k h1 h2)
  have hdp : ∀ k < n, 0 < d k := fun k hk => Finset.prod_pos fun j hj =>
    hbp _ (by omega) (by simp at hj; omega)
  have hds : ∀ k, d (k + 1) = d k * b (k + 1) := fun k => Finset.prod_range_succ _ _
  set p : ℕ → ℝ := fun k => (recPoly α β k).eval ξ with hp
  set u : ℕ → ℝ := fun k => p k / d k with hu
  have hb2 : ∀ k, 0 < k → k < n → b k ^ 2 = β k := fun k h1 h2 => Real.sq_sqrt (hβ k h1 h2).le
  have hrec1 : p 1 = (ξ - α 0) * p 0 := by simp [hp, recPoly]
  have hrec : ∀ k, p (k + 2) = (ξ - α (k + 1)) * p (k + 1) - β (k + 1) * p k := by
    intro k; simp [hp, recPoly]
  -- the vector `u` is an approximate eigenvector
  have hJu : ∀ i : Fin n, (tridiag n (fun k => α k - ξ) b *ᵥ fun j : Fin n => u j) i =
      -(p n / d (n - 1)) * lastUnit n i := by
    intro i
    have hi := i.2
    rw [tridiag_mulVec]
    obtain ⟨k, hk⟩ : ∃ k, k = i.val := ⟨_, rfl⟩
    simp only [lastUnit, ← hk]
    rw [← hk] at hi
    have hdk := (hdp k (by omega)).ne'
    have hlow : (if k = 0 then 0 else b k * u (k - 1)) + (α k - ξ) * u k = -(p (k + 1) / d k) := by
      rcases Nat.eq_zero_or_pos k with rfl | hk0
      · simp only [if_true, hu, hrec1]; ring
      · obtain ⟨j, rfl⟩ : ∃ j, k = j + 1 := ⟨k - 1, by omega⟩
        rw [if_neg (by omega)]
        simp only [hu, Nat.add_sub_cancel]
        have h1 := (hdp j (by omega)).ne'
        have h2 := (hbp (j + 1) (by omega) (by omega)).ne'
        rw [hrec, ← hb2 (j + 1) (by omega) (by omega), hds]
        field_simp
        ring
    by_cases hlast : k + 1 < n
    · rw [if_pos hlast, if_neg (by omega : ¬ k = n - 1), mul_zero]
      have h2 := (hbp (k + 1) (by omega) hlast).ne'
      have : b (k + 1) * u (k + 1) = p (k + 1) / d k := by
        simp only [hu, hds]; field_simp
      linarith
    · rw [if_neg hlast, if_pos (by omega : k = n - 1), mul_zero, add_zero, mul_one]
      have e : k + 1 = n := by omega
      rw [← e, Nat.add_sub_cancel]
      linarith
  -- pair it with the solution
  have key : (fun j : Fin n => u j) ⬝ᵥ (tridiag n (fun k => α k - ξ) b *ᵥ g) =
      (tridiag n (fun k => α k - ξ) b *ᵥ fun j : Fin n => u j) ⬝ᵥ g := by
    rw [dotProduct_mulVec, ← mulVec_transpose, tridiag_symm]
  have hsel : ∀ v : Fin n → ℝ, ∑ i, lastUnit n i * v i = lastEntry v := by
    intro v
    rw [Finset.sum_eq_single ⟨n - 1, by omega⟩]
    · simp [lastUnit, lastEntry]
    · intro j _ hj
      have : j.val ≠ n - 1 := fun h => hj (Fin.ext h)
      simp [lastUnit, this]
    · simp
  rw [h, funext hJu] at key
  have e1 : (fun j : Fin n => u j) ⬝ᵥ (fun i => c * lastUnit n i) = c * u (n - 1) := by
    have := hsel (fun j : Fin n => u j)
    rw [dotProduct, show u (n - 1) = lastEntry (fun j : Fin n => u j) from rfl, ← this, Finset.mul_sum]
    exact Finset.sum_congr rfl fun i _ => by ring
  have e2 : (fun i => -(p n / d (n - 1)) * lastUnit n i) ⬝ᵥ g = -(p n / d (n - 1)) * lastEntry g := by
    rw [dotProduct, ← hsel g, Finset.mul_sum]
    exact Finset.sum_congr rfl fun i _ => by ring
  rw [e1, e2] at key
  have h1 := (hdp (n - 1) (by omega)).ne'
  simp only [hu] at key
  field_simp at key
  change p n * _ = _
  linarith

/-- The polynomial of the recurrence is the product of its roots. -/
theorem recPoly_eq_prod {n : ℕ} [NeZero n] {α β : ℕ → ℝ} (hβ : ∀ k, 0 < k → k < n → 0 < β k)
    {x : Fin n → ℝ} {V : Matrix (Fin n) (Fin n) ℝ}
    (h : IsEigh (tridiag n α fun k => √(β k)) x V) : recPoly α β n = ∏ i, (X - C (x i)) := by
  have e := recPoly_sqrt (α := α) (fun k h1 h2 => (hβ k h1 h2).le) n le_rfl
  have hroot : ∀ i, (recPoly α β n).eval (x i) = 0 := fun i => by
    rw [← e]; exact eig_isRoot (sqrt_ne hβ) h i
  have hinj := eig_injective (sqrt_ne hβ) h
  have hdvd : ∏ i, (X - C (x i)) ∣ recPoly α β n :=
    Finset.prod_dvd_of_coprime
      (fun i _ j _ hij => by
        exact isCoprime_X_sub_C_of_isUnit_sub (sub_ne_zero.2 fun h => hij (hinj h)).isUnit)
      fun i _ => dvd_iff_isRoot.2 (hroot i)
  have hm : (∏ i, (X - C (x i))).Monic := monic_prod_of_monic _ _ fun i _ => monic_X_sub_C _
  refine (eq_of_monic_of_dvd_of_natDegree_le hm (recPoly_monic α β n) hdvd ?_)
  rw [recPoly_natDegree, natDegree_prod_of_monic _ _ fun i _ => monic_X_sub_C _]
  simp

theorem solveBanded_exists {n : ℕ} [NeZero n] {α β : ℕ → ℝ} {ξ : ℝ}
    (hβ : ∀ k, 0 < k → k < n → 0 < β k) (hξ : (recPoly α β n).eval ξ ≠ 0) (f : Fin n → ℝ) :
    ∃ g, SolveBanded α β ξ f g := by
  set A := tridiag n α fun k => √(β k) with hA
  obtain ⟨x, V, h⟩ := isEigh_exists (tridiag_symm n α fun k => √(β k))
  have hdet : (tridiag n (fun k => α k - ξ) fun k => √(β k)).det ≠ 0 := by
    have e1 : (tridiag n (fun k => α k - ξ) fun k => √(β k)) = aeval A (X - C ξ) := by
      rw [map_sub, aeval_X, aeval_C, Algebra.algebraMap_eq_smul_one]
      ext i j
      simp only [hA, tridiag, of_apply, Matrix.sub_apply, Matrix.smul_apply, Matrix.one_apply, smul_eq_mul, Fin.ext_iff]
      split_ifs <;> simp
    have hV : V.det ≠ 0 := by
      intro h0
      have := congrArg det h.orth
      rw [det_mul, det_transpose, h0, mul_zero, det_one] at this
      exact zero_ne_one this
    rw [e1, aeval_eigh h, det_mul, det_mul, det_diagonal, det_transpose]
    refine mul_ne_zero (mul_ne_zero hV ?_) hV
    rw [recPoly_eq_prod hβ h, eval_prod] at hξ
    rw [Finset.prod_ne_zero_iff] at hξ ⊢
    intro i hi
    have := hξ i hi
    simp only [eval_sub, eval_X, eval_C] at this ⊢
    exact fun h0 => this (by linarith)
  refine ⟨(tridiag n (fun k => α k - ξ) fun k => √(β k))⁻¹ *ᵥ f, hdet, ?_⟩
  rw [Matrix.mulVec_mulVec, Matrix.mul_nonsing_inv _ (isUnit_iff_ne_zero.2 hdet), one_mulVec]

/-- As `schemeFromRc_exact`, if the next `β` is right too: one degree more. -/
theorem schemeFromRc_exact_even {n m : ℕ} [NeZero n] {α β : ℕ → ℝ} {P W : List ℝ}
    (L : ℝ[X] →ₗ[ℝ] ℝ) (hm : 0 < m) (hmn : m < n) (hL : IsRecurrence L α β m)
    (hnorm : L (recPoly α β m * recPoly α β m) = (∏ i ∈ Finset.range m, β (i + 1)) * L 1)
    (h : SchemeFromRc n α β (L 1) P W) : ExactL P W (2 * m) L := by
  have h0 := schemeFromRc_exact L hm hmn.le hL h
  refine ⟨h0.1, fun p hp => ?_⟩
  have hsq := recPoly_sqrt h.1 (α := α)
  have hmon : (recPoly α β m * recPoly α β m).Monic := (recPoly_monic α β m).mul (recPoly_monic α β m)
  have hdeg : (recPoly α β m * recPoly α β m).natDegree = 2 * m := by
    rw [(recPoly_monic α β m).natDegree_mul (recPoly_monic α β m), recPoly_natDegree]; omega
  -- split off the leading term
  set r := p - p.coeff (2 * m) • (recPoly α β m * recPoly α β m) with hr
  have hrdeg : r.natDegree ≤ 2 * m - 1 := by
    rw [natDegree_le_iff_coeff_eq_zero]
    intro k hk
    rw [hr, coeff_sub, coeff_smul, smul_eq_mul]
    rcases Nat.lt_or_ge (2 * m) k with hlt | hge
    · rw [coeff_eq_zero_of_natDegree_lt (p := p) (n := k) (by omega),
        coeff_eq_zero_of_natDegree_lt (p := recPoly α β m * recPoly α β m) (n := k) (by omega)]; ring
    · obtain rfl : k = 2 * m := by omega
      have := hmon.coeff_natDegree
      rw [hdeg] at this
      rw [this]; ring
  have e : p = r + p.coeff (2 * m) • (recPoly α β m * recPoly α β m) := by rw [hr]; ring
  have h1 := h0.2 r hrdeg
  rw [schemeFromRc_vdot h] at h1 ⊢
  rw [e, map_add, map_add, map_smul, map_smul, mul_add, h1, hnorm, ← hsq m hmn.le,
    corner_recPoly _ _ hmn.le hmn.le, if_pos ⟨rfl, hmn⟩,
    Finset.prod_congr rfl fun i hi => Real.sq_sqrt (h.1 (i + 1) (by omega) (by simp at hi; omega))]
  simp only [smul_eq_mul]
  ring

end OneDim
end Quadpy
