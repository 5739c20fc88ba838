import Verif.Lemmas.GaussRC
import Verif.Model.Chebyshev
import Mathlib.Analysis.SpecialFunctions.Trigonometric.Chebyshev.ChebyshevGauss
import Mathlib.Analysis.SpecialFunctions.Integrals.Basic

/-!
# Sums of cosines, and exactness in the basis of the Chebyshev polynomials
-/

namespace Quadpy
namespace OneDim

open Real Polynomial Spec Polynomial.Chebyshev

/-- Sum of the powers of a root of unity. -/
theorem exp_sum (N : ℕ) [NeZero N] (l : ℤ) :
    ∑ k ∈ Finset.range N, Complex.exp (2 * π * Complex.I * (l * k / N)) =
      if (N : ℤ) ∣ l then (N : ℂ) else 0 := by
  have hN : (N : ℂ) ≠ 0 := Nat.cast_ne_zero.2 (NeZero.ne N)
  set z := Complex.exp (2 * π * Complex.I * (l / N)) with hz
  have e : ∀ k : ℕ, Complex.exp (2 * π * Complex.I * (l * k / N)) = z ^ k := fun k => by
    rw [hz, ← Complex.exp_nat_mul]; congr 1; ring
  simp_rw [e]
  have hzN : z ^ N = 1 := by
    rw [hz, ← Complex.exp_nat_mul, show (N : ℂ) * (2 * π * Complex.I * (l / N)) = l * (2 * π * Complex.I) by
      field_simp]
    exact Complex.exp_int_mul_two_pi_mul_I l
  split_ifs with h
  · obtain ⟨q, rfl⟩ := h
    have : z = 1 := by
      rw [hz, show 2 * π * Complex.I * (((N : ℤ) * q : ℤ) / N : ℂ) = q * (2 * π * Complex.I) by
        push_cast; field_simp]
      exact Complex.exp_int_mul_two_pi_mul_I q
    simp [this]
  · have h1 : z ≠ 1 := by
      intro h1
      obtain ⟨q, hq⟩ := Complex.exp_eq_one_iff.1 h1
      apply h
      refine ⟨q, ?_⟩
      have h2 : (2 * π * Complex.I : ℂ) ≠ 0 := Complex.two_pi_I_ne_zero
      have h3 : (l / N : ℂ) = q := by
        apply mul_left_cancel₀ h2; rw [hq]; ring
      rw [div_eq_iff hN] at h3
      have : (l : ℂ) = ((q * N : ℤ) : ℂ) := by push_cast; exact h3
      rw [mul_comm]; exact_mod_cast this
    rw [geom_sum_eq h1, hzN]; simp

theorem cos_sum (N : ℕ) [NeZero N] (l : ℤ) :
    ∑ k ∈ Finset.range N, cos (2 * π * (l * k / N)) = if (N : ℤ) ∣ l then (N : ℝ) else 0 := by
  have h := congrArg Complex.re (exp_sum N l)
  rw [Complex.re_sum] at h
  have e : ∀ k : ℕ, (Complex.exp (2 * π * Complex.I * (l * k / N))).re = cos (2 * π * (l * k / N)) := by
    intro k
    rw [show 2 * π * Complex.I * (l * k / N : ℂ) = ((2 * π * (l * k / N) : ℝ) : ℂ) * Complex.I by
      push_cast; ring]
    exact Complex.exp_ofReal_mul_I_re _
  simp_rw [e] at h
  rw [h]
  split_ifs <;> simp

theorem sin_sum (N : ℕ) [NeZero N] (l : ℤ) :
    ∑ k ∈ Finset.range N, sin (2 * π * (l * k / N)) = 0 := by
  have h := congrArg Complex.im (exp_sum N l)
  rw [Complex.im_sum] at h
  have e : ∀ k : ℕ, (Complex.exp (2 * π * Complex.I * (l * k / N))).im = sin (2 * π * (l * k / N)) := by
    intro k
    rw [show 2 * π * Complex.I * (l * k / N : ℂ) = ((2 * π * (l * k / N) : ℝ) : ℂ) * Complex.I by
      push_cast; ring]
    exact Complex.exp_ofReal_mul_I_im _
  simp_rw [e] at h
  rw [h]
  split_ifs <;> simp

/-- Two linear functionals that agree on the Chebyshev polynomials. -/
theorem linear_ext_T (D : ℝ[X] →ₗ[ℝ] ℝ) (d : ℕ) (h : ∀ l ≤ d, D (T ℝ (l : ℤ)) = 0) (p : ℝ[X])
    (hp : p.natDegree ≤ d) : D p = 0 := by
  have hmem : p ∈ degreeLT ℝ (d + 1) := by
    rw [mem_degreeLT]
    exact (degree_le_natDegree).trans_lt (by exact_mod_cast Nat.lt_succ_of_le hp)
  rw [← Sequence.span_degreeLT (chebyshevTsequence ℝ) (by simp),
    show Set.Iio (d + 1) = Finset.range (d + 1) by simp,
    Submodule.mem_span_image_finset_iff_exists_fun'] at hmem
  obtain ⟨c, rfl⟩ := hmem
  rw [map_sum]
  refine Finset.sum_eq_zero fun i hi => ?_
  rw [map_smul]
  have := h i (by simp at hi; omega)
  simp only [chebyshevTsequence]
  rw [this, smul_zero]

/-- Exactness on the Chebyshev polynomials is exactness. -/
theorem exactL_of_T {n d : ℕ} (x w : Fin n → ℝ) (L : ℝ[X] →ₗ[ℝ] ℝ)
    (h : ∀ l ≤ d, ∑ i, (T ℝ (l : ℤ)).eval (x i) * w i = L (T ℝ (l : ℤ))) :
    ExactL (List.ofFn x) (List.ofFn w) d L := by
  refine ⟨by simp, fun p hp => ?_⟩
  rw [vdot_ofFn]
  let R : ℝ[X] →ₗ[ℝ] ℝ :=
    { toFun := fun p => ∑ i, p.eval (x i) * w i
      map_add' := fun p q => by
        rw [← Finset.sum_add_distrib]; exact Finset.sum_congr rfl fun i _ => by rw [eval_add]; ring
      map_smul' := fun c p => by
        rw [RingHom.id_apply, smul_eq_mul, Finset.mul_sum]
        exact Finset.sum_congr rfl fun i _ => by rw [eval_smul, smul_eq_mul]; ring }
  have := linear_ext_T (R - L) d (fun l hl => sub_eq_zero.2 (h l hl)) p hp
  exact sub_eq_zero.1 this

/-- The integral over `[-1, 1]` as a linear functional. -/
noncomputable def intC1 : ℝ[X] →ₗ[ℝ] ℝ where
  toFun p := ∫ x in (-1 : ℝ)..1, p.eval x
  map_add' p q := by
    simp only [eval_add]
    exact intervalIntegral.integral_add (p.continuous.intervalIntegrable _ _)
      (q.continuous.intervalIntegrable _ _)
  map_smul' c p := by
    simp only [eval_smul, smul_eq_mul, RingHom.id_apply]
    exact intervalIntegral.integral_const_mul _ _

/-- `∫ T_l = 2 / (1 - l²)` for even `l`, and 0 for odd `l`. -/
theorem intC1_T (l : ℕ) : intC1 (T ℝ (l : ℤ)) = if Even l then 2 / (1 - (l : ℝ) ^ 2) else 0 := by
  change ∫ x in (-1 : ℝ)..1, (T ℝ (l : ℤ)).eval x = _
  have h1 : ∫ x in (-1 : ℝ)..1, (T ℝ (l : ℤ)).eval x = ∫ θ in (0 : ℝ)..π, cos (l * θ) * sin θ := by
    have := intervalIntegral.integral_comp_mul_deriv (a := π) (b := 0) (f := cos) (f' := fun θ => -sin θ)
      (g := fun x => (T ℝ (l : ℤ)).eval x) (fun θ _ => hasDerivAt_cos θ) (by fun_prop)
      (by fun_prop)
    rw [cos_pi, cos_zero] at this
    rw [← this, intervalIntegral.integral_symm, ← intervalIntegral.integral_neg]
    refine intervalIntegral.integral_congr fun θ _ => ?_
    simp only [Function.comp_apply, T_real_cos]
    push_cast; ring
  rw [h1]
  have hprod : ∀ θ : ℝ, cos (l * θ) * sin θ = (sin ((l + 1) * θ) - sin ((l - 1) * θ)) / 2 := by
    intro θ
    rw [show (l + 1 : ℝ) * θ = l * θ + θ by ring, show (l - 1 : ℝ) * θ = l * θ - θ by ring, sin_add, sin_sub]
    ring
  have hs : ∀ c : ℝ, c ≠ 0 → ∫ θ in (0 : ℝ)..π, sin (c * θ) = (1 - cos (c * π)) / c := by
    intro c hc
    rw [intervalIntegral.integral_comp_mul_left _ hc, integral_sin]
    simp; ring
  have hcosl : cos ((l : ℝ) * π) = (-1) ^ l := cos_nat_mul_pi l
  simp_rw [hprod]
  rw [intervalIntegral.integral_div, intervalIntegral.integral_sub
    ((by fun_prop : Continuous fun θ : ℝ => sin ((l + 1) * θ)).intervalIntegrable _ _)
    ((by fun_prop : Continuous fun θ : ℝ => sin ((l - 1) * θ)).intervalIntegrable _ _),
    hs _ (by positivity)]
  have c1 : cos ((l + 1 : ℝ) * π) = -(-1) ^ l := by
    rw [show (l + 1 : ℝ) * π = l * π + π by ring, cos_add_pi, hcosl]
  have c2 : cos ((l - 1 : ℝ) * π) = -(-1) ^ l := by
    rw [show (l - 1 : ℝ) * π = l * π - π by ring, cos_sub_pi, hcosl]
  have hp : (l : ℝ) + 1 ≠ 0 := by positivity
  by_cases hl1 : l = 1
  · subst hl1; norm_num
  have hm : (l : ℝ) - 1 ≠ 0 := sub_ne_zero.2 (by exact_mod_cast hl1)
  rw [hs _ hm, c1, c2]
  have hq : 1 - (l : ℝ) ^ 2 ≠ 0 := by
    rw [show 1 - (l : ℝ) ^ 2 = -((l - 1) * (l + 1)) by ring]
    exact neg_ne_zero.2 (mul_ne_zero hm hp)
  split_ifs with he
  · rw [he.neg_one_pow]; field_simp; ring
  · rw [(Nat.not_even_iff_odd.1 he).neg_one_pow]; simp

end OneDim
end Quadpy
