/-
C31: the conical product rule on the triangle has degree 2 (n - 1), given the Gauss-Legendre rule.
-/
import Verif.Lemmas.ProductRule
import Verif.Lemmas.SimplexGroups

namespace Quadpy
open Finset Adaptive

/-- The beta integral on [-1, 1]. -/
theorem beta_ref (a b : ℕ) : ∫ x in (-1 : ℝ)..1, ((1 - x) / 2) ^ a * ((1 + x) / 2) ^ b =
    2 * a.factorial * b.factorial / (a + b + 1).factorial := by
  induction a generalizing b with
  | zero =>
    have := intervalIntegral.integral_comp_mul_add (a := -1) (b := 1) (fun x : ℝ => x ^ b)
      (by norm_num : (1 / 2 : ℝ) ≠ 0) (1 / 2)
    rw [show (∫ x in (-1 : ℝ)..1, ((1 - x) / 2) ^ 0 * ((1 + x) / 2) ^ b) =
      ∫ x in (-1 : ℝ)..1, (1 / 2 * x + 1 / 2) ^ b from
        intervalIntegral.integral_congr fun x _ => by ring, this, integral_pow]
    have hf : (b.factorial : ℝ) ≠ 0 := by positivity
    simp [Nat.factorial_succ]
    field_simp
    norm_num
  | succ a ih =>
    have hd : ∀ x ∈ Set.uIcc (-1 : ℝ) 1, HasDerivAt
        (fun x : ℝ => ((1 - x) / 2) ^ (a + 1) * ((1 + x) / 2) ^ (b + 1))
        ((b + 1) / 2 * (((1 - x) / 2) ^ (a + 1) * ((1 + x) / 2) ^ b) -
          (a + 1) / 2 * (((1 - x) / 2) ^ a * ((1 + x) / 2) ^ (b + 1))) x := by
      intro x _
      have h1 : HasDerivAt (fun x : ℝ => (1 - x) / 2) (-1 / 2) x := by
        simpa using ((hasDerivAt_id x).const_sub 1).div_const 2
      have h2 : HasDerivAt (fun x : ℝ => (1 + x) / 2) (1 / 2) x := by
        simpa using ((hasDerivAt_id x).const_add 1).div_const 2
      refine ((h1.pow (a + 1)).mul (h2.pow (b + 1))).congr_deriv ?_
      simp only [Nat.add_sub_cancel, Pi.pow_apply]
      push_cast
      ring
    have h := intervalIntegral.integral_eq_sub_of_hasDerivAt hd
      (Continuous.intervalIntegrable (by fun_prop) _ _)
    rw [intervalIntegral.integral_sub (Continuous.intervalIntegrable (by fun_prop) _ _)
      (Continuous.intervalIntegrable (by fun_prop) _ _), intervalIntegral.integral_const_mul,
      intervalIntegral.integral_const_mul, ih] at h
    norm_num at h
    have hb : (b : ℝ) + 1 ≠ 0 := by positivity
    have e : (∫ x in (-1 : ℝ)..1, ((1 - x) / 2) ^ (a + 1) * ((1 + x) / 2) ^ b) =
        (a + 1) / (b + 1) * (2 * a.factorial * (b + 1).factorial / (a + (b + 1) + 1).factorial) := by
      rw [div_mul_eq_mul_div, eq_div_iff hb]; linarith
    rw [e, show a + (b + 1) + 1 = a + 1 + b + 1 by ring, Nat.factorial_succ b, Nat.factorial_succ a]
    push_cast
    field_simp

theorem zipWith_zip_sum (p w : List ℝ) (F : ℝ × ℝ → ℝ → ℝ) :
    (List.zipWith F (List.zip p w) p).sum = (List.zipWith (fun a x => F (x, a) x) w p).sum := by
  suffices h : List.zipWith F (List.zip p w) p = List.zipWith (fun a x => F (x, a) x) w p by rw [h]
  induction p generalizing w with
  | nil => simp
  | cons x p ih =>
    cases w with
    | nil => simp
    | cons a w => simp [ih]

theorem exactC1_beta {p w : List ℝ} {d : ℕ} (h : Spec.ExactC1 p w d) {a b : ℕ} (hk : a + b ≤ d) :
    vdot (p.map fun x => ((1 - x) / 2) ^ a * ((1 + x) / 2) ^ b) w =
      2 * a.factorial * b.factorial / (a + b + 1).factorial := by
  have := h.2 ((Polynomial.C (1 / 2) * (1 - Polynomial.X)) ^ a *
    (Polynomial.C (1 / 2) * (1 + Polynomial.X)) ^ b) (by
      have h1 : (Polynomial.C (1 / 2 : ℝ) * (1 - Polynomial.X)).natDegree ≤ 1 := by compute_degree
      have h2 : (Polynomial.C (1 / 2 : ℝ) * (1 + Polynomial.X)).natDegree ≤ 1 := by compute_degree
      calc _ ≤ _ + _ := Polynomial.natDegree_mul_le
        _ ≤ a * 1 + b * 1 := Nat.add_le_add
          (Polynomial.natDegree_pow_le.trans (Nat.mul_le_mul_left a h1))
          (Polynomial.natDegree_pow_le.trans (Nat.mul_le_mul_left b h2))
        _ ≤ d := by omega)
  simp only [Polynomial.eval_pow, Polynomial.eval_mul, Polynomial.eval_C, Polynomial.eval_add,
    Polynomial.eval_sub, Polynomial.eval_one, Polynomial.eval_X] at this
  rw [← beta_ref]
  convert this using 3 <;> (try ring_nf)

/-- C31: `t2.lether(n)`. -/
theorem C31_lether {n : ℕ} (hn : 1 ≤ n) {p w : List ℝ} (h : Spec.ExactC1 p w (2 * n - 1)) :
    (T2.lether n p w).degree = 2 * (n - 1) ∧ (T2.lether n p w).ExactOnSimplex 2 := by
  rw [T2.lether, plainScheme_eq]
  refine ⟨rfl, exactOnSimplex_of_moments _ rfl ?_ ?_ fun β hβ => ?_⟩
  · simp [List.length_flatMap, h.1]
  · simp only [List.mem_flatMap, List.mem_map]
    rintro x ⟨a, -, b, -, rfl⟩
    refine ⟨rfl, ?_⟩
    simp
  · change _ ≤ 2 * (n - 1) at hβ
    rw [Fin.sum_univ_three] at hβ
    change dot 3 _ _ _ = _
    rw [dot_flatMap _ _ _ _ _ (by simp [h.1]), zipWith_zip_sum]
    set R := vdot (p.map fun x => ((1 - x) / 2) ^ β 1 * ((1 + x) / 2) ^ β 2) w with hR
    have e : ∀ wi pi : ℝ, dot 3 (w.map fun wj => (1 + pi) * wi * wj / 4)
        (p.map fun pj => [(1 - pi) / 2, (1 + pi) * (1 - pj) / 4,
          1 - (1 - pi) / 2 - (1 + pi) * (1 - pj) / 4]) (mono β) =
        1 / 2 * R * (wi * (((1 - pi) / 2) ^ β 0 * ((1 + pi) / 2) ^ (β 1 + β 2 + 1))) := by
      intro wi pi
      rw [dot_map_map, hR, ← zipWith_sum_eq, mul_right_comm, ← zipWith_sum_mul_left]
      congr 1; congr 1
      funext a b
      simp only [mono, Fin.prod_univ_three, toVec]
      have e1 : 1 - (1 - pi) / 2 - (1 + pi) * (1 - b) / 4 = (1 + pi) / 2 * ((1 + b) / 2) := by ring
      have e2 : (1 + pi) * (1 - b) / 4 = (1 + pi) / 2 * ((1 - b) / 2) := by ring
      rw [e1, e2]
      simp
      rw [mul_pow, mul_pow]
      ring
    simp only [e]
    rw [zipWith_sum_mul_left, zipWith_sum_eq fun x => ((1 - x) / 2) ^ β 0 * ((1 + x) / 2) ^ (β 1 + β 2 + 1),
      exactC1_beta h (by omega), hR, exactC1_beta h (by omega), baryMom, Fin.prod_univ_three,
      Fin.sum_univ_three]
    rw [show 2 + 1 - 1 + (β 0 + β 1 + β 2) = β 0 + (β 1 + β 2 + 1) + 1 by omega]
    have : ((β 1 + β 2 + 1).factorial : ℝ) ≠ 0 := by positivity
    field_simp
    norm_num

/-- The two point Gauss rule gives a rule of degree 2 on the triangle. -/
example : (T2.lether 2 [-√(1 / 3), √(1 / 3)] [1, 1]).ExactOnSimplex 2 := by
  have h3 : √(1 / 3 : ℝ) ^ 2 = 1 / 3 := Real.sq_sqrt (by norm_num)
  generalize √(1 / 3 : ℝ) = s at h3 ⊢
  have h : Spec.ExactC1 [-s, s] [1, 1] (2 * 2 - 1) := exactC1_of_pow (by simp)
    fun k hk => by
      have hk' : k ≤ 3 := hk
      rw [integral_pow_ref]
      interval_cases k <;> simp only [List.map_cons, List.map_nil, vdot, List.zipWith_cons_cons,
        List.zipWith_nil_right, List.sum_cons, List.sum_nil] <;>
        norm_num [Nat.even_iff] <;> (first | linarith | ring)
  exact (C31_lether (by norm_num) h).2

end Quadpy
