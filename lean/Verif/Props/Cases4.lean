import Verif.Props.C54
import Verif.Props.C56
import Verif.Props.C57Sphere
import Verif.Props.Cases3
import Verif.Lemmas.Moments9

/-!
# Concrete cases for C54, C56 and C57
-/

namespace Quadpy
open Finset

namespace C1
open NdArray

/-- The intervals `[0, 2]` and `[1, 3]`, shape `(2, 2)`. -/
noncomputable def caseIv : NdArray :=
  ⟨[2, 2], fun i => if i = [0, 0] then 0 else if i = [0, 1] then 1 else if i = [1, 0] then 2 else 3⟩

/-- C54: `x²` over two intervals with the rule of Simpson. -/
example : ∃ Q, integrateA [-1, 0, 1] [1 / 3, 4 / 3, 1 / 3] 0 [] (fun u _ => u [] ^ 2) caseIv none none =
    some Q ∧ Q.shape = [2] ∧ Q.get [0] = 8 / 3 ∧ Q.get [1] = 26 / 3 := by
  obtain ⟨Q, h, hs, hv⟩ := C54_scalar [-1, 0, 1] [1 / 3, 4 / 3, 1 / 3] [2] (fun x => x ^ 2) caseIv rfl rfl
  refine ⟨Q, h, hs, ?_, ?_⟩
  · rw [hv [0] (by simp [mem_indices, Valid])]
    simp [integrate1, integrate, caseIv, Adaptive.len, Adaptive.affine, Adaptive.vdot]
    norm_num
  · rw [hv [1] (by simp [mem_indices, Valid])]
    simp [integrate1, integrate, caseIv, Adaptive.len, Adaptive.affine, Adaptive.vdot]
    norm_num

end C1

/-- A monomial under a rule with a degree up to `eps`. -/
theorem approx_moment {n : ℕ} {J : Spec.Functional n} {eps : ℝ} {E : (Fin n → ℕ) → ℝ} (hJ : EvenMom J E)
    (h0 : 0 < J (fun _ => 1)) {S : Scheme} (hS : S.ApproxRel n J eps) (p : Fin n → ℕ)
    (hp : ∑ i, 2 * p i ≤ S.degree) :
    |dot n S.weights S.points (fun x => ∏ i, x i ^ (2 * p i)) - E p| ≤ eps := by
  have h := hS.2 (MvPolynomial.monomial (Finsupp.equivFunOnFinite.symm fun i => 2 * p i) 1) (by
    rw [MvPolynomial.totalDegree_monomial _ one_ne_zero, Finsupp.sum_fintype _ _ (fun _ => rfl)]
    simpa using hp)
  have e : (fun x : Fin n → ℝ => MvPolynomial.eval x
      (MvPolynomial.monomial (Finsupp.equivFunOnFinite.symm fun i => 2 * p i) (1 : ℝ))) =
      mono fun i => 2 * p i := by
    funext x
    rw [MvPolynomial.eval_monomial, Finsupp.prod_fintype _ _ (fun _ => pow_zero _)]
    simp [mono]
  rw [e, hJ.even p, ← mul_sub, abs_mul, abs_of_pos h0, MvPolynomial.support_monomial, if_neg one_ne_zero,
    sum_singleton, MvPolynomial.coeff_monomial, if_pos rfl, abs_one, mul_one] at h
  exact le_of_mul_le_mul_left h h0

/-- C57: the mean of `x² y² z⁴` over the sphere, up to `1e-40`. -/
example : |dot 3 ProductRules.mclaren_10.weights ProductRules.mclaren_10.points (fun x => x 0 ^ 2 * x 1 ^ 2 * x 2 ^ 4) -
    1 / 315| ≤ 1e-40 := by
  have h := approx_moment (sphere_even (n := 3) (by norm_num))
    ((sphere_ne (n := 3) (by norm_num)).symm.lt_of_le (by
      rw [one_eq_mono, sphere_mono' (by norm_num)]
      have := (radial_symMom (n := 3) (by norm_num) (fun _ => 1) rfl).zero
      simp only [radMom, one_mul] at this
      rw [this, mul_one]
      exact (sphereArea_pos (by norm_num)).le)) C57_u3_mclaren_10 ![1, 1, 2] (by
      have : ProductRules.mclaren_10.degree = 14 := rfl
      rw [this]; simp [Fin.sum_univ_succ])
  have e : (fun x : Fin 3 → ℝ => ∏ i, x i ^ (2 * (![1, 1, 2] : Fin 3 → ℕ) i)) =
      fun x => x 0 ^ 2 * x 1 ^ 2 * x 2 ^ 4 := by
    funext x; simp [Fin.prod_univ_succ, mul_assoc]
  rw [e] at h
  norm_num [oddFac, stepFac, Nat.factorial, Fin.prod_univ_succ, Fin.sum_univ_succ] at h ⊢
  exact h

/-- A monomial under a rule for the simplex with a degree up to `eps`. -/
theorem approx_moment_simplex {n : ℕ} {eps : ℝ} {S : Scheme} (hS : S.ApproxOnSimplex n eps) (α : Fin n → ℕ)
    (hp : ∑ i, α i ≤ S.degree) :
    |dot (n + 1) S.weights S.points (fun x => ∏ i, x (Fin.succ i) ^ α i) -
      n.factorial * Spec.simplex n (mono α)| ≤ eps := by
  have h := hS.2 (MvPolynomial.monomial (Finsupp.equivFunOnFinite.symm α) 1) (by
    rw [MvPolynomial.totalDegree_monomial _ one_ne_zero, Finsupp.sum_fintype _ _ (fun _ => rfl)]
    simpa using hp)
  have e : (fun x : Fin n → ℝ => MvPolynomial.eval x
      (MvPolynomial.monomial (Finsupp.equivFunOnFinite.symm α) (1 : ℝ))) = mono α := by
    funext x
    rw [MvPolynomial.eval_monomial, Finsupp.prod_fintype _ _ (fun _ => pow_zero _)]
    simp [mono]
  have hf : (0 : ℝ) < n.factorial := by exact_mod_cast n.factorial_pos
  simp only [e] at h
  rw [MvPolynomial.support_monomial, if_neg one_ne_zero,
    sum_singleton, MvPolynomial.coeff_monomial, if_pos rfl, abs_one, mul_one] at h
  have e2 : ∀ x : Fin (n + 1) → ℝ, MvPolynomial.eval (fun i => x (Fin.succ i))
      (MvPolynomial.monomial (Finsupp.equivFunOnFinite.symm α) (1 : ℝ)) = ∏ i, x (Fin.succ i) ^ α i := by
    intro x
    rw [MvPolynomial.eval_monomial, Finsupp.prod_fintype _ _ (fun _ => pow_zero _)]
    simp
  simp only [e2] at h
  refine le_of_mul_le_mul_left ?_ (one_div_pos.2 hf)
  refine le_trans (le_of_eq ?_) h
  rw [← abs_of_pos (one_div_pos.2 hf), ← abs_mul, abs_of_pos (one_div_pos.2 hf), mul_sub]
  congr 2
  field_simp

/-- C56: the mean of `x y³` over the unit triangle is `1 / 60`, up to `1e-17`. -/
example : |dot 3 DecimalT2.lyness_jespersen_05.weights DecimalT2.lyness_jespersen_05.points
    (fun x => x 1 * x 2 ^ 3) - 1 / 60| ≤ 1e-17 := by
  have h := approx_moment_simplex DecimalT2.C56_t2_lyness_jespersen_05 ![1, 3] (by
    have : DecimalT2.lyness_jespersen_05.degree = 4 := rfl
    rw [this]; simp [Fin.sum_univ_succ])
  have e : (fun x : Fin 3 → ℝ => ∏ i : Fin 2, x (Fin.succ i) ^ (![1, 3] : Fin 2 → ℕ) i) =
      fun x => x 1 * x 2 ^ 3 := by
    funext x; simp [Fin.prod_univ_succ]
  rw [e, simplex_mono] at h
  norm_num [Nat.factorial, Fin.prod_univ_succ, Fin.sum_univ_succ] at h ⊢
  exact h

end Quadpy
