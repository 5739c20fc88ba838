import Verif.Lemmas.WeightInt
import Mathlib.MeasureTheory.Measure.LevyConvergence
import Mathlib.Analysis.Calculus.MeanValue
import Mathlib.MeasureTheory.Integral.Bochner.ContinuousLinearMap

/-!
# Convergence of measures on the line whose moments agree eventually
-/

namespace Quadpy
namespace WeakConv

open MeasureTheory Filter Topology Complex

/-- The remainder of the Taylor series of `exp` along a ray on which it is bounded by one. -/
theorem exp_remainder {c : ℂ} (hc : ‖c‖ = 1) (hb : ∀ y : ℝ, 0 ≤ y → ‖exp (c * y)‖ ≤ 1) (L : ℕ) :
    ∀ y : ℝ, 0 ≤ y → ‖exp (c * y) - ∑ l ∈ Finset.range L, (c * y) ^ l / (l.factorial : ℂ)‖ ≤
      y ^ L / L.factorial := by
  induction L with
  | zero => intro y hy; simpa using hb y hy
  | succ L ih =>
    intro y hy
    have hderiv : ∀ x : ℝ, HasDerivAt (fun y : ℝ => exp (c * y) -
        ∑ l ∈ Finset.range (L + 1), (c * y) ^ l / (l.factorial : ℂ))
        (c * (exp (c * x) - ∑ l ∈ Finset.range L, (c * x) ^ l / (l.factorial : ℂ))) x := fun x => by
      have h0 : HasDerivAt (fun y : ℝ => c * (y : ℂ)) c x := by
        simpa using (Complex.ofRealCLM.hasDerivAt (x := x)).const_mul c
      have h1 := h0.cexp
      have h2 : HasDerivAt (fun y : ℝ => ∑ l ∈ Finset.range (L + 1), (c * y) ^ l / (l.factorial : ℂ))
          (∑ l ∈ Finset.range (L + 1), (l : ℂ) * (c * x) ^ (l - 1) * c / (l.factorial : ℂ)) x :=
        HasDerivAt.fun_sum fun l _ => (h0.pow l).div_const _
      refine (h1.sub h2).congr_deriv ?_
      rw [Finset.sum_range_succ']
      simp only [Nat.cast_zero, zero_mul, zero_div, add_zero, mul_sub]
      congr 1
      · ring
      · rw [Finset.mul_sum]
        refine Finset.sum_congr rfl fun l _ => ?_
        have h3 : (l.factorial : ℂ) ≠ 0 := by exact_mod_cast l.factorial_ne_zero
        have h4 : ((l : ℂ) + 1) ≠ 0 := by exact_mod_cast l.succ_ne_zero
        rw [Nat.factorial_succ]
        push_cast
        field_simp
    have hB : ∀ x : ℝ, HasDerivAt (fun y : ℝ => y ^ (L + 1) / ((L + 1).factorial : ℝ)) (x ^ L / L.factorial) x :=
      fun x => by
        refine ((hasDerivAt_pow (L + 1) x).div_const _).congr_deriv ?_
        have h3 : (L.factorial : ℝ) ≠ 0 := by exact_mod_cast L.factorial_ne_zero
        have h4 : ((L : ℝ) + 1) ≠ 0 := by exact_mod_cast L.succ_ne_zero
        rw [Nat.factorial_succ]
        push_cast
        field_simp
    refine image_norm_le_of_norm_deriv_right_le_deriv_boundary (a := 0) (b := y)
      (fun x _ => (hderiv x).continuousAt.continuousWithinAt) (fun x _ => (hderiv x).hasDerivWithinAt) ?_ hB
      (fun x hx => ?_) ⟨hy, le_rfl⟩
    · rw [Finset.sum_range_succ']
      simp
    · rw [norm_mul, hc, one_mul]
      exact ih x hx.1

theorem exp_remainder_I (L : ℕ) (x : ℝ) :
    ‖exp (x * I) - ∑ l ∈ Finset.range L, (x * I) ^ l / (l.factorial : ℂ)‖ ≤ |x| ^ L / L.factorial := by
  rcases le_total 0 x with hx | hx
  · have := exp_remainder (c := I) (by simp) (fun y _ => by rw [mul_comm, norm_exp_ofReal_mul_I]) L x hx
    rw [abs_of_nonneg hx]
    simpa only [mul_comm] using this
  · have := exp_remainder (c := -I) (by simp) (fun y _ => by
      rw [show -I * (y : ℂ) = ((-y : ℝ) : ℂ) * I by push_cast; ring, norm_exp_ofReal_mul_I]) L (-x)
      (by linarith)
    rw [abs_of_nonpos hx]
    have e : -I * ((-x : ℝ) : ℂ) = x * I := by push_cast; ring
    simpa only [e] using this

section

variable {μ : Measure ℝ}

theorem integrable_cpow (hμ : ∀ j : ℕ, Integrable (fun x : ℝ => x ^ j) μ) (s : ℝ) (j : ℕ) :
    Integrable (fun x : ℝ => (x : ℂ) ^ j * exp ((s * x : ℝ) * I)) μ := by
  refine (hμ j).norm.mono' (by fun_prop) (ae_of_all _ fun x => ?_)
  rw [norm_mul, norm_exp_ofReal_mul_I, mul_one, norm_pow, norm_real, norm_pow]

/-- Expansion of the transform about another point, with the remainder bounded by a moment. -/
theorem transform_expand (hμ : ∀ j : ℕ, Integrable (fun x : ℝ => x ^ j) μ) (s h : ℝ) (j L : ℕ)
    (he : Even (j + L)) :
    ‖(∫ x : ℝ, (x : ℂ) ^ j * exp (((s + h) * x : ℝ) * I) ∂μ) - ∑ l ∈ Finset.range L,
      (h * I) ^ l / (l.factorial : ℂ) * ∫ x : ℝ, (x : ℂ) ^ (j + l) * exp ((s * x : ℝ) * I) ∂μ‖ ≤
      |h| ^ L / L.factorial * ∫ x, x ^ (j + L) ∂μ := by
  have hi := integrable_cpow hμ
  have e1 : ∑ l ∈ Finset.range L, (h * I) ^ l / (l.factorial : ℂ) *
      ∫ x : ℝ, (x : ℂ) ^ (j + l) * exp ((s * x : ℝ) * I) ∂μ =
      ∫ x : ℝ, ∑ l ∈ Finset.range L, (h * I) ^ l / (l.factorial : ℂ) *
        ((x : ℂ) ^ (j + l) * exp ((s * x : ℝ) * I)) ∂μ := by
    rw [integral_finsetSum _ fun l _ => (hi s (j + l)).const_mul _]
    exact Finset.sum_congr rfl fun l _ => (integral_const_mul _ _).symm
  rw [e1, ← integral_sub (hi _ _) (integrable_finsetSum _ fun l _ => (hi s (j + l)).const_mul _),
    ← integral_const_mul]
  refine norm_integral_le_of_norm_le ((hμ _).const_mul _) (ae_of_all _ fun x => ?_)
  have e2 : (x : ℂ) ^ j * exp (((s + h) * x : ℝ) * I) - ∑ l ∈ Finset.range L, (h * I) ^ l / (l.factorial : ℂ) *
      ((x : ℂ) ^ (j + l) * exp ((s * x : ℝ) * I)) = (x : ℂ) ^ j * exp ((s * x : ℝ) * I) *
      (exp ((h * x : ℝ) * I) - ∑ l ∈ Finset.range L, ((h * x : ℝ) * I) ^ l / (l.factorial : ℂ)) := by
    rw [mul_sub, Finset.mul_sum]
    congr 1
    · rw [mul_assoc, ← exp_add]
      congr 2
      push_cast
      ring
    · refine Finset.sum_congr rfl fun l _ => ?_
      push_cast
      ring
  rw [e2, norm_mul, norm_mul, norm_exp_ofReal_mul_I, mul_one, norm_pow, norm_real, Real.norm_eq_abs]
  refine (mul_le_mul_of_nonneg_left (exp_remainder_I L (h * x)) (by positivity)).trans (le_of_eq ?_)
  rw [← he.pow_abs x, abs_mul, mul_pow, pow_add]
  ring

/-- Moments and exponential moments. -/
theorem integrable_pow_of_exp {ρ : ℝ} (hρ : 0 < ρ) (hμ : Integrable (fun x : ℝ => Real.exp (ρ * |x|)) μ) (j : ℕ)
    {r : ℝ} (hr : r < ρ) : Integrable (fun x : ℝ => |x| ^ j * Real.exp (r * |x|)) μ := by
  have hδ : 0 < ρ - r := sub_pos.2 hr
  refine (hμ.const_mul (j.factorial / (ρ - r) ^ j)).mono' (by fun_prop) (ae_of_all _ fun x => ?_)
  rw [Real.norm_eq_abs, abs_of_nonneg (by positivity)]
  have h1 := Real.pow_div_factorial_le_exp ((ρ - r) * |x|) (by positivity) j
  have h2 : Real.exp (ρ * |x|) = Real.exp ((ρ - r) * |x|) * Real.exp (r * |x|) := by
    rw [← Real.exp_add]; congr 1; ring
  rw [h2, ← mul_assoc]
  refine mul_le_mul_of_nonneg_right ?_ (Real.exp_pos _).le
  rw [mul_pow] at h1
  have h3 : (0 : ℝ) < j.factorial := by positivity
  have h4 : 0 < (ρ - r) ^ j := by positivity
  calc |x| ^ j = j.factorial / (ρ - r) ^ j * ((ρ - r) ^ j * |x| ^ j / j.factorial) := by field_simp
    _ ≤ _ := mul_le_mul_of_nonneg_left h1 (by positivity)

theorem remainder_tendsto {ρ : ℝ} (hρ : 0 < ρ) (hμ : Integrable (fun x : ℝ => Real.exp (ρ * |x|)) μ) (j : ℕ)
    {h : ℝ} (hh : |h| < ρ) :
    Tendsto (fun L : ℕ => |h| ^ L / L.factorial * ∫ x, |x| ^ (j + L) ∂μ) atTop (𝓝 0) := by
  have : Tendsto (fun L : ℕ => ∫ x, |x| ^ j * ((|h| * |x|) ^ L / L.factorial) ∂μ) atTop (𝓝 (∫ _, (0 : ℝ) ∂μ)) := by
    refine tendsto_integral_of_dominated_convergence (fun x => |x| ^ j * Real.exp (|h| * |x|))
      (fun L => by fun_prop) (integrable_pow_of_exp hρ hμ j hh) (fun L => ae_of_all _ fun x => ?_)
      (ae_of_all _ fun x => ?_)
    · rw [Real.norm_eq_abs, abs_of_nonneg (by positivity)]
      exact mul_le_mul_of_nonneg_left (Real.pow_div_factorial_le_exp _ (by positivity) _) (by positivity)
    · simpa using (FloorSemiring.tendsto_pow_div_factorial_atTop (|h| * |x|)).const_mul (|x| ^ j)
  rw [integral_zero] at this
  refine this.congr fun L => ?_
  rw [← integral_const_mul]
  refine integral_congr_ae (ae_of_all _ fun x => ?_)
  simp only [mul_pow, pow_add]
  ring

end

variable {μ : Measure ℝ} {ν : ℕ → Measure ℝ}

/-- The transforms converge when the moments agree eventually and the limit has an exponential moment. -/
theorem transform_tendsto {ρ : ℝ} (hρ : 0 < ρ) (hμ : Integrable (fun x : ℝ => Real.exp (ρ * |x|)) μ)
    (hν : ∀ k (j : ℕ), Integrable (fun x : ℝ => x ^ j) (ν k))
    (hm : ∀ j : ℕ, ∀ᶠ k in atTop, ∫ x, x ^ j ∂(ν k) = ∫ x, x ^ j ∂μ) (s : ℝ) (j : ℕ) :
    Tendsto (fun k => ∫ x : ℝ, (x : ℂ) ^ j * exp ((s * x : ℝ) * I) ∂(ν k)) atTop
      (𝓝 (∫ x : ℝ, (x : ℂ) ^ j * exp ((s * x : ℝ) * I) ∂μ)) := by
  have hμj : ∀ j : ℕ, Integrable (fun x : ℝ => x ^ j) μ := fun j => by
    refine (integrable_pow_of_exp hρ hμ j (r := 0) hρ).mono' (by fun_prop) (ae_of_all _ fun x => ?_)
    simp
  have step : ∀ s h : ℝ, |h| < ρ → (∀ j, Tendsto (fun k => ∫ x : ℝ, (x : ℂ) ^ j * exp ((s * x : ℝ) * I) ∂(ν k))
      atTop (𝓝 (∫ x : ℝ, (x : ℂ) ^ j * exp ((s * x : ℝ) * I) ∂μ))) → ∀ j,
      Tendsto (fun k => ∫ x : ℝ, (x : ℂ) ^ j * exp (((s + h) * x : ℝ) * I) ∂(ν k)) atTop
        (𝓝 (∫ x : ℝ, (x : ℂ) ^ j * exp (((s + h) * x : ℝ) * I) ∂μ)) := by
    intro s h hh hs j
    rw [Metric.tendsto_nhds]
    intro ε hε
    have h1 := (remainder_tendsto hρ hμ j hh).comp
      (tendsto_atTop_mono (fun l => (by omega : l ≤ 2 * l + j)) tendsto_id)
    obtain ⟨l, hl⟩ := ((h1.eventually (gt_mem_nhds (by positivity : (0 : ℝ) < ε / 3)))).exists
    set L := 2 * l + j with hL
    have he : Even (j + L) := ⟨l + j, by omega⟩
    have hl : |h| ^ L / L.factorial * ∫ x, x ^ (j + L) ∂μ < ε / 3 := by
      simpa only [Function.comp_apply, ← hL, he.pow_abs] using hl
    have h2 : Tendsto (fun k => ∑ l ∈ Finset.range L, (h * I) ^ l / (l.factorial : ℂ) *
        ∫ x : ℝ, (x : ℂ) ^ (j + l) * exp ((s * x : ℝ) * I) ∂(ν k)) atTop
        (𝓝 (∑ l ∈ Finset.range L, (h * I) ^ l / (l.factorial : ℂ) *
        ∫ x : ℝ, (x : ℂ) ^ (j + l) * exp ((s * x : ℝ) * I) ∂μ)) :=
      tendsto_finsetSum _ fun l _ => (hs (j + l)).const_mul _
    filter_upwards [hm (j + L), (Metric.tendsto_nhds.1 h2) (ε / 3) (by positivity)] with k hk hk2
    have h3 := transform_expand (hν k) s h j L he
    rw [hk] at h3
    have h4 := transform_expand hμj s h j L he
    rw [← dist_eq_norm] at h3 h4
    rw [dist_comm] at h4
    calc _ ≤ _ := dist_triangle4 _ _ _ _
      _ < ε / 3 + ε / 3 + ε / 3 := add_lt_add (add_lt_add (h3.trans_lt hl) hk2) (h4.trans_lt hl)
      _ = ε := by ring
  have h0 : ∀ j, Tendsto (fun k => ∫ x : ℝ, (x : ℂ) ^ j * exp (((0 : ℝ) * x : ℝ) * I) ∂(ν k)) atTop
      (𝓝 (∫ x : ℝ, (x : ℂ) ^ j * exp (((0 : ℝ) * x : ℝ) * I) ∂μ)) := by
    intro j
    refine tendsto_const_nhds.congr' ?_
    filter_upwards [hm j] with k hk
    simp only [zero_mul, ofReal_zero, exp_zero, mul_one, ← ofReal_pow]
    rw [integral_complex_ofReal, integral_complex_ofReal, hk]
  have hall : ∀ m : ℕ, ∀ s : ℝ, |s| ≤ m * (ρ / 2) → ∀ j,
      Tendsto (fun k => ∫ x : ℝ, (x : ℂ) ^ j * exp ((s * x : ℝ) * I) ∂(ν k)) atTop
      (𝓝 (∫ x : ℝ, (x : ℂ) ^ j * exp ((s * x : ℝ) * I) ∂μ)) := by
    intro m
    induction m with
    | zero =>
      intro s hs
      have : s = 0 := by
        rw [Nat.cast_zero, zero_mul] at hs
        exact abs_eq_zero.1 (le_antisymm hs (abs_nonneg _))
      rw [this]
      exact h0
    | succ m ih =>
      intro s hs
      have hm1 : (0 : ℝ) < m + 1 := by positivity
      push_cast at hs
      have e : s = s * (m / (m + 1)) + s / (m + 1) := by field_simp
      rw [e]
      refine step _ _ ?_ (ih _ ?_)
      · rw [abs_div, abs_of_pos hm1, div_lt_iff₀ hm1]
        nlinarith
      · rw [abs_mul, abs_of_nonneg (by positivity : (0 : ℝ) ≤ m / (m + 1))]
        calc |s| * (m / (m + 1)) ≤ ((m + 1) * (ρ / 2)) * (m / (m + 1)) :=
              mul_le_mul_of_nonneg_right hs (by positivity)
          _ = m * (ρ / 2) := by field_simp
  obtain ⟨m, hm'⟩ := exists_nat_ge (|s| / (ρ / 2))
  refine hall m s ?_ j
  rwa [div_le_iff₀ (by positivity)] at hm'

/-- Weak convergence. -/
theorem bounded_tendsto [IsProbabilityMeasure μ] [∀ k, IsProbabilityMeasure (ν k)] {ρ : ℝ} (hρ : 0 < ρ)
    (hμ : Integrable (fun x : ℝ => Real.exp (ρ * |x|)) μ)
    (hν : ∀ k (j : ℕ), Integrable (fun x : ℝ => x ^ j) (ν k))
    (hm : ∀ j : ℕ, ∀ᶠ k in atTop, ∫ x, x ^ j ∂(ν k) = ∫ x, x ^ j ∂μ) {f : ℝ → ℝ} (hf : Continuous f) {C : ℝ}
    (hC : ∀ x, |f x| ≤ C) : Tendsto (fun k => ∫ x, f x ∂(ν k)) atTop (𝓝 (∫ x, f x ∂μ)) := by
  have h := ProbabilityMeasure.tendsto_of_tendsto_charFun
    (μ := fun k => (⟨ν k, inferInstance⟩ : ProbabilityMeasure ℝ)) (μ₀ := ⟨μ, inferInstance⟩) fun t => by
      have := transform_tendsto hρ hμ hν hm t 0
      simp only [ProbabilityMeasure.coe_mk, charFun_apply_real]
      simpa using this
  exact (ProbabilityMeasure.tendsto_iff_forall_integral_tendsto.1 h) (BoundedContinuousFunction.ofNormedAddCommGroup f hf C hC)

end WeakConv
end Quadpy
