import Verif.Lemmas.CosSum

/-!
C17: Chebyshev-Gauss rules have the degree they claim.
-/

namespace Quadpy

open OneDim Spec Polynomial Polynomial.Chebyshev Real

theorem OneDim.chebyshevDegree_le {n : ℕ} (hn : 0 < n) : chebyshevDegree n ≤ 2 * n - 1 := by
  unfold chebyshevDegree; split_ifs <;> omega

/-- C17: `chebyshev_gauss_1(n)` integrates every polynomial of degree at most `2n - 1` exactly against
`1/√(1-x²)`. -/
theorem C17_chebyshev_gauss_1_full {n : ℕ} (hn : 0 < n) :
    ExactL (chebyshevGauss1 n).1 (chebyshevGauss1 n).2 (2 * n - 1)
      (fun p => ∫ x in (-1 : ℝ)..1, p.eval x / √(1 - x ^ 2)) := by
  refine ⟨by simp [chebyshevGauss1], fun p hp => ?_⟩
  have h := integral_eq_sumZeroes (n := n) (P := p) hn.ne'
    ((degree_le_natDegree).trans_lt (by exact_mod_cast (by omega : p.natDegree < 2 * n)))
  rw [integral_measureT] at h
  simp only [sqrt_inv, ← div_eq_mul_inv] at h
  change _ = ∫ x in (-1 : ℝ)..1, p.eval x / √(1 - x ^ 2)
  rw [h, chebyshevGauss1, vdot_ofFn, sumZeroes, Finset.mul_sum, Finset.sum_range]
  refine Finset.sum_congr rfl fun i _ => ?_
  rw [mul_comm, show (2 * ((i : ℕ) + 1 : ℝ) - 1) = 2 * (i : ℕ) + 1 by ring]

/-- C17: `chebyshev_gauss_1(n)` has the degree it claims. -/
theorem C17_chebyshev_gauss_1 {n : ℕ} (hn : 0 < n) :
    ExactL (chebyshevGauss1 n).1 (chebyshevGauss1 n).2 (chebyshevDegree n)
      (fun p => ∫ x in (-1 : ℝ)..1, p.eval x / √(1 - x ^ 2)) := by
  have h := C17_chebyshev_gauss_1_full hn
  exact ⟨h.1, fun p hp => h.2 p (hp.trans (chebyshevDegree_le hn))⟩

/-- The rule with equidistant angles, including the endpoints, for the weight `1/√(1-x²)`. -/
theorem OneDim.integral_eq_sum_extrema {N : ℕ} (hN : 0 < N) (p : ℝ[X]) (hp : p.natDegree ≤ 2 * N - 1) :
    ∫ x, p.eval x ∂measureT =
      ∑ k ∈ Finset.range (2 * N), p.eval (cos (π * k / N)) * (π / (2 * N)) := by
  have hN' : (N : ℝ) ≠ 0 := by positivity
  have : NeZero (2 * N) := ⟨by omega⟩
  have hi : ∀ q : ℝ[X], MeasureTheory.Integrable (fun x => q.eval x) measureT := fun q =>
    integrable_measureT q.continuousOn
  let L : ℝ[X] →ₗ[ℝ] ℝ :=
    { toFun := fun q => ∫ x, q.eval x ∂measureT
      map_add' := fun q r => by
        simp only [eval_add]; exact MeasureTheory.integral_add (hi q) (hi r)
      map_smul' := fun c q => by
        simp only [eval_smul, smul_eq_mul, RingHom.id_apply]
        exact MeasureTheory.integral_const_mul _ _ }
  have h := exactL_of_T (d := 2 * N - 1) (fun i : Fin (2 * N) => cos (π * (i : ℕ) / N))
    (fun _ => π / (2 * N)) L fun l hl => ?_
  · have := h.2 p hp
    rw [vdot_ofFn] at this
    rw [Finset.sum_range]
    exact this.symm
  · change _ = ∫ x, (T ℝ (l : ℤ)).eval x ∂measureT
    rw [← Finset.sum_mul]
    simp only [T_real_cos]
    have e := cos_sum (2 * N) l
    rw [Finset.sum_range] at e
    have e2 : ∑ i : Fin (2 * N), cos (((l : ℤ) : ℝ) * (π * (i : ℕ) / N)) =
        ∑ i : Fin (2 * N), cos (2 * π * (((l : ℤ) : ℝ) * (i : ℕ) / ((2 * N : ℕ) : ℝ))) :=
      Finset.sum_congr rfl fun i _ => by
        congr 1; push_cast; field_simp
    rw [e2, e]
    rcases Nat.eq_zero_or_pos l with rfl | hl0
    · rw [if_pos (by simp), Nat.cast_zero, integral_eval_T_real_measureT_zero]
      push_cast; field_simp
    · rw [integral_eval_T_real_measureT_of_ne_zero (by omega), if_neg, zero_mul]
      intro hd
      have := Int.le_of_dvd (by omega) hd
      omega

/-- C17: `chebyshev_gauss_2(n)` integrates every polynomial of degree at most `2n - 1` exactly against
`√(1-x²)`. -/
theorem C17_chebyshev_gauss_2_full {n : ℕ} (hn : 0 < n) :
    ExactL (chebyshevGauss2 n).1 (chebyshevGauss2 n).2 (2 * n - 1)
      (fun p => ∫ x in (-1 : ℝ)..1, p.eval x * √(1 - x ^ 2)) := by
  refine ⟨by simp [chebyshevGauss2], fun p hp => ?_⟩
  have hdeg : ((1 - X ^ 2) * p : ℝ[X]).natDegree ≤ 2 * (n + 1) - 1 := by
    refine natDegree_mul_le.trans ?_
    have : (1 - X ^ 2 : ℝ[X]).natDegree ≤ 2 := by compute_degree
    omega
  have h := integral_eq_sum_extrema (N := n + 1) (by omega) _ hdeg
  rw [integral_measureT] at h
  have e1 : ∫ x in (-1 : ℝ)..1, p.eval x * √(1 - x ^ 2) =
      ∫ x in (-1 : ℝ)..1, ((1 - X ^ 2) * p : ℝ[X]).eval x * √(1 - x ^ 2)⁻¹ := by
    refine intervalIntegral.integral_congr fun x hx => ?_
    rw [Set.uIcc_of_le (by norm_num)] at hx
    have h0 : 0 ≤ 1 - x ^ 2 := by nlinarith [hx.1, hx.2]
    simp only [eval_mul, eval_sub, eval_one, eval_pow, eval_X, sqrt_inv]
    rcases h0.eq_or_lt with h0 | h0
    · rw [← h0]; simp
    · have hs := sqrt_pos.2 h0
      have := sq_sqrt h0.le
      field_simp
      rw [this]
  change _ = ∫ x in (-1 : ℝ)..1, p.eval x * √(1 - x ^ 2)
  rw [e1, h, chebyshevGauss2, vdot_ofFn]
  -- the full circle covers every point twice, and the endpoints do not count
  have hc : (2 * (n + 1) : ℕ) = (n + 1) + (n + 1) := by omega
  set F : ℕ → ℝ := fun k => ((1 - X ^ 2) * p : ℝ[X]).eval (cos (π * k / (n + 1 : ℕ))) with hF
  have hN' : ((n : ℝ) + 1) ≠ 0 := by positivity
  have F0 : F 0 = 0 := by simp [hF]
  have FN : F (n + 1) = 0 := by
    have : π * ((n + 1 : ℕ) : ℝ) / ((n + 1 : ℕ) : ℝ) = π := by push_cast; field_simp
    simp only [hF, this]; simp
  have Fr : ∀ k ≤ n, F (n + 1 + (n + 1 - k)) = F k := by
    intro k hk
    simp only [hF]
    have : π * ((n + 1 + (n + 1 - k) : ℕ) : ℝ) / ((n + 1 : ℕ) : ℝ) = 2 * π - π * k / ((n + 1 : ℕ) : ℝ) := by
      rw [Nat.cast_add, Nat.cast_sub (by omega)]; push_cast; field_simp; ring
    rw [this, cos_two_pi_sub]
  have hsum : ∑ k ∈ Finset.range (2 * (n + 1)), F k = 2 * ∑ i : Fin n, F (i + 1) := by
    rw [hc, Finset.sum_range_add, Finset.sum_range_succ', Finset.sum_range_succ', F0]
    have hr : ∑ k ∈ Finset.range n, F (n + 1 + (k + 1)) = ∑ k ∈ Finset.range n, F (k + 1) := by
      rw [← Finset.sum_range_reflect]
      refine Finset.sum_congr rfl fun k hk => ?_
      have := Finset.mem_range.1 hk
      rw [show n + 1 + (n - 1 - k + 1) = n + 1 + (n + 1 - (k + 1)) by omega]
      exact Fr (k + 1) (by omega)
    rw [hr, add_zero (n + 1), FN, Finset.sum_range]; ring
  rw [← Finset.sum_mul, hsum]
  rw [Finset.mul_sum, Finset.sum_mul]
  refine Finset.sum_congr rfl fun i _ => ?_
  simp only [hF, eval_mul, eval_sub, eval_one, eval_pow, eval_X]
  push_cast
  rw [sin_sq]
  field_simp

/-- C17: `chebyshev_gauss_2(n)` has the degree it claims. -/
theorem C17_chebyshev_gauss_2 {n : ℕ} (hn : 0 < n) :
    ExactL (chebyshevGauss2 n).1 (chebyshevGauss2 n).2 (chebyshevDegree n)
      (fun p => ∫ x in (-1 : ℝ)..1, p.eval x * √(1 - x ^ 2)) := by
  have h := C17_chebyshev_gauss_2_full hn
  exact ⟨h.1, fun p hp => h.2 p (hp.trans (chebyshevDegree_le hn))⟩

/-! A concrete case: two points of the second kind give
the integral of `x²√(1-x²)`. -/

example : (∫ x in (-1 : ℝ)..1, x ^ 2 * √(1 - x ^ 2)) = π / 8 ∧ chebyshevDegree 2 = 3 := by
  refine ⟨?_, rfl⟩
  have h := (C17_chebyshev_gauss_2 (n := 2) (by norm_num)).2 (X ^ 2) (by simp [chebyshevDegree])
  simp only [eval_pow, eval_X] at h
  rw [← h, chebyshevGauss2, vdot_ofFn, Fin.sum_univ_two]
  have h1 : π * ((0 : ℕ) + 1 : ℝ) / ((2 : ℕ) + 1) = π / 3 := by push_cast; ring
  have h2 : π * ((1 : ℕ) + 1 : ℝ) / ((2 : ℕ) + 1) = π - π / 3 := by push_cast; ring
  simp only [Fin.val_zero, Fin.val_one, h1, h2, cos_pi_sub, sin_pi_sub, cos_pi_div_three, sin_pi_div_three]
  have : √3 ^ 2 = 3 := sq_sqrt (by norm_num)
  push_cast
  linear_combination (π / 24) * this

end Quadpy
