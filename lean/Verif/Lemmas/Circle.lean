/-
The circle: the surface integral in angular form, and the uniform rule for trigonometric polynomials.
-/
import Verif.Lemmas.RadialExact
import Mathlib.Analysis.SpecialFunctions.PolarCoord
import Mathlib.Analysis.SpecialFunctions.Integrals.Basic
import Mathlib.Algebra.Field.GeomSum

namespace Quadpy
open MeasureTheory Finset Complex

/-- `∫ cos^a sin^b` over a full turn. -/
noncomputable def circ (a b : ℕ) : ℝ := ∫ θ in Set.Ioo (-Real.pi) Real.pi, Real.cos θ ^ a * Real.sin θ ^ b

theorem polar_two (a b : ℕ) (φ : ℝ → ℝ) :
    ∫ x : Fin 2 → ℝ, (x 0 ^ a * x 1 ^ b) * φ (nrm x) =
      circ a b * ∫ r in Set.Ioi (0 : ℝ), r ^ (1 + (a + b)) * φ r := by
  have h1 : ∫ x : Fin 2 → ℝ, (x 0 ^ a * x 1 ^ b) * φ (nrm x) =
      ∫ p : ℝ × ℝ, (p.1 ^ a * p.2 ^ b) * φ (√(p.1 ^ 2 + p.2 ^ 2)) := by
    rw [← (volume_preserving_finTwoArrow ℝ).integral_comp
      (MeasurableEquiv.measurableEmbedding _)]
    refine integral_congr_ae (Filter.Eventually.of_forall fun x => ?_)
    simp [nrm, Fin.sum_univ_two]
  rw [h1, ← integral_comp_polarCoord_symm, polarCoord_target]
  have h2 : ∀ p ∈ Set.Ioi (0 : ℝ) ×ˢ Set.Ioo (-Real.pi) Real.pi, p.1 • ((polarCoord.symm p).1 ^ a * (polarCoord.symm p).2 ^ b *
      φ (√((polarCoord.symm p).1 ^ 2 + (polarCoord.symm p).2 ^ 2))) =
      (p.1 ^ (1 + (a + b)) * φ p.1) * (Real.cos p.2 ^ a * Real.sin p.2 ^ b) := by
    intro p hp
    have h0 : 0 < p.1 := hp.1
    have e : (p.1 * Real.cos p.2) ^ 2 + (p.1 * Real.sin p.2) ^ 2 = p.1 ^ 2 := by
      linear_combination p.1 ^ 2 * Real.cos_sq_add_sin_sq p.2
    simp only [polarCoord_symm_apply, e, Real.sqrt_sq h0.le, smul_eq_mul]
    ring
  rw [setIntegral_congr_fun (measurableSet_Ioi.prod measurableSet_Ioo) h2,
    Measure.volume_eq_prod,
    setIntegral_prod_mul (fun r : ℝ => r ^ (1 + (a + b)) * φ r)
      (fun t : ℝ => Real.cos t ^ a * Real.sin t ^ b), mul_comm]
  rfl

theorem gauss_radial_pos (k : ℕ) : 0 < ∫ r in Set.Ioi (0 : ℝ), r ^ k * Real.exp (-r ^ 2) := by
  have h := _root_.integral_rpow_mul_exp_neg_rpow (p := 2) (q := k) (by norm_num)
    (by have : (0 : ℝ) ≤ k := Nat.cast_nonneg k
        linarith)
  have e : ∫ r in Set.Ioi (0 : ℝ), r ^ k * Real.exp (-r ^ 2) =
      ∫ x in Set.Ioi (0 : ℝ), x ^ (k : ℝ) * Real.exp (-x ^ (2 : ℝ)) := by
    simp only [Real.rpow_natCast, Real.rpow_two]
  rw [e, h]
  have := Real.Gamma_pos_of_pos (show (0 : ℝ) < ((k : ℝ) + 1) / 2 by positivity)
  positivity

/-- The surface integral over the unit circle is the integral over the angle. -/
theorem sphere_two (α : Fin 2 → ℕ) : Spec.sphere 2 (mono α) = circ (α 0) (α 1) := by
  have h := polar (n := 2) (by norm_num) α (fun r => Real.exp (-r ^ 2))
  have h' := polar_two (α 0) (α 1) (fun r => Real.exp (-r ^ 2))
  have e : ∀ x : Fin 2 → ℝ, mono α x = x 0 ^ α 0 * x 1 ^ α 1 := fun x => by
    simp [mono, Fin.prod_univ_two]
  simp only [e] at h
  rw [h'] at h
  rw [Fin.sum_univ_two] at h
  exact (mul_right_cancel₀ (gauss_radial_pos _).ne' h).symm

/-! Trigonometric polynomials. -/

/-- The spanning functions. -/
noncomputable def ez (m : ℤ) : ℝ → ℂ := fun θ => exp (m * θ * I)

/-- Trigonometric polynomials of degree at most `d`. -/
def trig (d : ℕ) : Submodule ℂ (ℝ → ℂ) := Submodule.span ℂ (ez '' {m | m.natAbs ≤ d})

theorem ez_mul (m k : ℤ) : ez m * ez k = ez (m + k) := by
  funext θ
  simp only [Pi.mul_apply, ez, ← exp_add]
  congr 1; push_cast; ring

theorem trig_mul_ez {d : ℕ} {f : ℝ → ℂ} (hf : f ∈ trig d) (k : ℤ) : ez k * f ∈ trig (d + k.natAbs) := by
  refine Submodule.span_induction ?_ ?_ ?_ ?_ hf
  · rintro _ ⟨m, hm, rfl⟩
    refine Submodule.subset_span ⟨k + m, ?_, (ez_mul k m).symm⟩
    simp only [Set.mem_ofPred_eq] at hm ⊢
    omega
  · simp
  · intro x y _ _ hx hy
    rw [mul_add]; exact add_mem hx hy
  · intro c x _ hx
    rw [mul_smul_comm]; exact Submodule.smul_mem _ _ hx

theorem cos_eq_ez (θ : ℝ) : ((Real.cos θ : ℝ) : ℂ) = (1 / 2 : ℂ) * ez 1 θ + (1 / 2 : ℂ) * ez (-1) θ := by
  rw [ofReal_cos, Complex.cos]
  simp only [ez]; push_cast; ring_nf

theorem sin_eq_ez (θ : ℝ) :
    ((Real.sin θ : ℝ) : ℂ) = (-I / 2 : ℂ) * ez 1 θ + (I / 2 : ℂ) * ez (-1) θ := by
  rw [ofReal_sin, Complex.sin]
  simp only [ez]; push_cast; ring_nf

theorem trig_cos_mul {d : ℕ} {f : ℝ → ℂ} (hf : f ∈ trig d) :
    (fun θ => ((Real.cos θ : ℝ) : ℂ) * f θ) ∈ trig (d + 1) := by
  have : (fun θ => ((Real.cos θ : ℝ) : ℂ) * f θ) =
      (1 / 2 : ℂ) • (ez 1 * f) + (1 / 2 : ℂ) • (ez (-1) * f) := by
    funext θ; simp only [Pi.add_apply, Pi.smul_apply, Pi.mul_apply, smul_eq_mul, cos_eq_ez]; ring
  rw [this]
  have k1 : ez 1 * f ∈ trig (d + 1) := by
    have := trig_mul_ez hf 1; rwa [Int.natAbs_one] at this
  have k2 : ez (-1) * f ∈ trig (d + 1) := by
    have := trig_mul_ez hf (-1); rwa [Int.natAbs_neg, Int.natAbs_one] at this
  exact add_mem ((trig (d + 1)).smul_mem _ k1) ((trig (d + 1)).smul_mem _ k2)

theorem trig_sin_mul {d : ℕ} {f : ℝ → ℂ} (hf : f ∈ trig d) :
    (fun θ => ((Real.sin θ : ℝ) : ℂ) * f θ) ∈ trig (d + 1) := by
  have : (fun θ => ((Real.sin θ : ℝ) : ℂ) * f θ) =
      (-I / 2 : ℂ) • (ez 1 * f) + (I / 2 : ℂ) • (ez (-1) * f) := by
    funext θ; simp only [Pi.add_apply, Pi.smul_apply, Pi.mul_apply, smul_eq_mul, sin_eq_ez]; ring
  rw [this]
  have k1 : ez 1 * f ∈ trig (d + 1) := by
    have := trig_mul_ez hf 1; rwa [Int.natAbs_one] at this
  have k2 : ez (-1) * f ∈ trig (d + 1) := by
    have := trig_mul_ez hf (-1); rwa [Int.natAbs_neg, Int.natAbs_one] at this
  exact add_mem ((trig (d + 1)).smul_mem _ k1) ((trig (d + 1)).smul_mem _ k2)

theorem trig_one : (fun _ => 1 : ℝ → ℂ) ∈ trig 0 :=
  Submodule.subset_span ⟨0, by simp, by funext θ; simp [ez]⟩

theorem trig_cos_sin (a b : ℕ) :
    (fun θ => (((Real.cos θ ^ a * Real.sin θ ^ b : ℝ)) : ℂ)) ∈ trig (a + b) := by
  induction a with
  | zero =>
    induction b with
    | zero => simpa using trig_one
    | succ b ih =>
      have := trig_sin_mul ih
      rw [show 0 + (b + 1) = 0 + b + 1 by omega]
      convert this using 2 with θ; push_cast; ring
  | succ a ih =>
    have := trig_cos_mul ih
    rw [show a + 1 + b = a + b + 1 by omega]
    convert this using 2 with θ; push_cast; ring

theorem ez_sum {N : ℕ} {m : ℤ} (hm : m.natAbs < N) (φ : ℝ) :
    ∑ k ∈ range N, ez m (2 * Real.pi * k / N + φ) = if m = 0 then (N : ℂ) else 0 := by
  split_ifs with h
  · subst h; simp [ez]
  have hN : (N : ℂ) ≠ 0 := by exact_mod_cast (by omega : N ≠ 0)
  have hpi : (Real.pi : ℂ) ≠ 0 := by exact_mod_cast Real.pi_ne_zero
  set ζ : ℂ := exp (2 * Real.pi * m / N * I) with hζ
  have e : ∀ k ∈ range N, ez m (2 * Real.pi * k / N + φ) = ez m φ * ζ ^ k := by
    intro k _
    rw [hζ, ← exp_nat_mul, ez, ez, ← exp_add]
    congr 1; push_cast; ring
  rw [sum_congr rfl e, ← mul_sum]
  have h1 : ζ ≠ 1 := by
    intro h1
    obtain ⟨q, hq⟩ := exp_eq_one_iff.mp h1
    have : (m : ℂ) = q * N := by
      have h2 : 2 * (Real.pi : ℂ) * I ≠ 0 := by simp [hpi]
      field_simp at hq
      linear_combination hq
    have : m = q * N := by exact_mod_cast this
    rcases eq_or_ne q 0 with rfl | hq0
    · simp at this; exact h this
    · have h3 : m.natAbs = q.natAbs * N := by rw [this, Int.natAbs_mul]; simp
      have h4 : 1 ≤ q.natAbs := by omega
      nlinarith
  have hN1 : ζ ^ N = 1 := by
    rw [hζ, ← exp_nat_mul, exp_eq_one_iff]
    exact ⟨m, by field_simp⟩
  rw [geom_sum_eq h1, hN1]; simp

theorem ez_integral (m : ℤ) :
    ∫ θ in Set.Ioo (-Real.pi) Real.pi, ez m θ = if m = 0 then (2 * Real.pi : ℂ) else 0 := by
  rw [← integral_Ioc_eq_integral_Ioo, ← intervalIntegral.integral_of_le (by linarith [Real.pi_pos])]
  split_ifs with h
  · subst h; simp [ez]; push_cast; ring
  have hm : (m : ℂ) ≠ 0 := by exact_mod_cast h
  have : ∀ θ : ℝ, ez m θ = exp ((m * I) * θ) := fun θ => by rw [ez]; congr 1; ring
  simp only [this]
  rw [integral_exp_mul_complex (by simp [hm])]
  have : exp (m * I * (Real.pi : ℝ)) = exp (m * I * ((-Real.pi : ℝ) : ℂ)) := by
    rw [exp_eq_exp_iff_exists_int]
    exact ⟨m, by push_cast; ring⟩
  rw [this]; simp

/-- The uniform rule with any phase. -/
theorem uniform_trig {N d : ℕ} (hd : d < N) {f : ℝ → ℂ} (hf : f ∈ trig d) (φ : ℝ) :
    IntegrableOn f (Set.Ioo (-Real.pi) Real.pi) ∧
    (∑ k ∈ range N, f (2 * Real.pi * k / N + φ)) * (2 * Real.pi) =
      N * ∫ θ in Set.Ioo (-Real.pi) Real.pi, f θ := by
  refine Submodule.span_induction ?_ ?_ ?_ ?_ hf
  · rintro _ ⟨m, hm, rfl⟩
    refine ⟨?_, ?_⟩
    · have : Continuous (ez m) := by unfold ez; fun_prop
      exact (this.integrableOn_Icc (a := -Real.pi) (b := Real.pi)).mono_set Set.Ioo_subset_Icc_self
    · rw [ez_sum (lt_of_le_of_lt hm hd), ez_integral]
      split_ifs <;> simp
  · exact ⟨integrableOn_zero, by simp⟩
  · intro x y _ _ hx hy
    refine ⟨hx.1.add hy.1, ?_⟩
    simp only [Pi.add_apply]
    rw [sum_add_distrib, add_mul, hx.2, hy.2, integral_add hx.1 hy.1]; ring
  · intro c x _ hx
    refine ⟨hx.1.smul c, ?_⟩
    simp only [Pi.smul_apply, smul_eq_mul]
    rw [← mul_sum, mul_assoc, hx.2, integral_const_mul]; ring

/-- The uniform rule on the circle, with any phase, for powers of the coordinates. -/
theorem uniform_circle {N a b : ℕ} (h : a + b < N) (φ : ℝ) :
    2 * Real.pi * ∑ k ∈ range N, (Real.cos (2 * Real.pi * k / N + φ) ^ a *
      Real.sin (2 * Real.pi * k / N + φ) ^ b) = N * circ a b := by
  have := (uniform_trig h (trig_cos_sin a b) φ).2
  rw [integral_complex_ofReal] at this
  have h2 : ((2 * Real.pi * ∑ k ∈ range N, (Real.cos (2 * Real.pi * k / N + φ) ^ a *
      Real.sin (2 * Real.pi * k / N + φ) ^ b) : ℝ) : ℂ) = ((N * circ a b : ℝ) : ℂ) := by
    rw [circ]; push_cast at this ⊢; linear_combination this
  exact_mod_cast h2

end Quadpy
