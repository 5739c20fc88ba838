import Verif.Lemmas.Classical
import Verif.Lemmas.Radial
import Mathlib.Analysis.SpecialFunctions.Gamma.Beta
import Mathlib.Probability.Distributions.Beta

/-!
# The functionals of the Jacobi, Laguerre and Hermite weights
-/

namespace Quadpy
namespace OneDim

open Polynomial Spec MeasureTheory

theorem weightInt_integrable {s : Set ℝ} {w : ℝ → ℝ}
    (h : ∀ k : ℕ, IntegrableOn (fun x => x ^ k * w x) s) (p : ℝ[X]) :
    IntegrableOn (fun x => p.eval x * w x) s := by
  have e : (fun x => p.eval x * w x) =
      fun x => ∑ k ∈ Finset.range (p.natDegree + 1), p.coeff k * (x ^ k * w x) := by
    funext x
    rw [eval_eq_sum_range, Finset.sum_mul]
    exact Finset.sum_congr rfl fun k _ => by ring
  rw [e]
  exact integrable_finsetSum _ fun k _ => (h k).const_mul _

/-- The functional of a weight with finite moments is linear. -/
theorem weightInt_linear {s : Set ℝ} {w : ℝ → ℝ}
    (h : ∀ k : ℕ, IntegrableOn (fun x => x ^ k * w x) s) :
    ∃ L : ℝ[X] →ₗ[ℝ] ℝ, ∀ p, L p = weightInt s w p :=
  have hi := weightInt_integrable h
  ⟨{ toFun := weightInt s w
     map_add' := fun p q => by
       simp only [weightInt, eval_add, add_mul]
       exact integral_add (hi p) (hi q)
     map_smul' := fun c p => by
       simp only [weightInt, eval_smul, smul_eq_mul, mul_assoc, RingHom.id_apply]
       exact integral_const_mul _ _ }, fun p => rfl⟩

/-- A polynomial that is nonnegative where the weight lives, and not zero, has a positive integral. -/
theorem weightInt_pos {s : Set ℝ} {w : ℝ → ℝ} (h : ∀ k : ℕ, IntegrableOn (fun x => x ^ k * w x) s)
    (hs : IsOpen s) (hne : s.Nonempty) (hw : ∀ x ∈ s, 0 < w x) (p : ℝ[X]) (hp : p ≠ 0)
    (hp0 : ∀ x ∈ s, 0 ≤ p.eval x) : 0 < weightInt s w p := by
  rw [weightInt, setIntegral_pos_iff_support_of_nonneg_ae _ (weightInt_integrable h p)]
  · have hsub : s \ (p.roots.toFinset : Set ℝ) ⊆ Function.support (fun x => p.eval x * w x) ∩ s := by
      rintro x ⟨hx, hr⟩
      refine ⟨?_, hx⟩
      rw [Function.mem_support]
      refine mul_ne_zero (fun h0 => hr ?_) (hw x hx).ne'
      simp [hp, h0]
    refine lt_of_lt_of_le ?_ (measure_mono hsub)
    rw [measure_sdiff_null (Set.Finite.measure_zero (Finset.finite_toSet _) _)]
    exact hs.measure_pos _ hne
  · filter_upwards [ae_restrict_mem hs.measurableSet] with x hx
    exact mul_nonneg (hp0 x hx) (hw x hx).le

theorem linear_ext_pow (D : ℝ[X] →ₗ[ℝ] ℝ) (h : ∀ k : ℕ, D (X ^ k) = 0) (f : ℝ[X]) : D f = 0 := by
  have : D = 0 := by
    apply Polynomial.lhom_ext'
    intro k
    ext
    simpa [← Polynomial.X_pow_eq_monomial] using h k
  rw [this]; rfl

theorem linear_ext_shift (D : ℝ[X] →ₗ[ℝ] ℝ) (h : ∀ k : ℕ, D ((X + 1) ^ k) = 0) (f : ℝ[X]) :
    D f = 0 := by
  have h1 := linear_ext_pow (D ∘ₗ (aeval (X + 1 : ℝ[X])).toLinearMap) (by simpa using h)
    (f.comp (X - 1))
  have h2 : aeval (X + 1 : ℝ[X]) (f.comp (X - 1)) = f := by
    rw [← Polynomial.comp_eq_aeval, Polynomial.comp_assoc]; simp
  simpa [h2] using h1

/-- `f ↦ L (τ f + σ f')` as a linear functional. -/
noncomputable def pearson (L : ℝ[X] →ₗ[ℝ] ℝ) (τ σ : ℝ[X]) : ℝ[X] →ₗ[ℝ] ℝ :=
  L ∘ₗ (LinearMap.mulLeft ℝ τ + LinearMap.mulLeft ℝ σ ∘ₗ Polynomial.derivative)

theorem pearson_apply (L : ℝ[X] →ₗ[ℝ] ℝ) (τ σ f : ℝ[X]) :
    pearson L τ σ f = L (τ * f + σ * derivative f) := rfl

/-! ### Hermite -/

theorem hermite_classical : Classical 0 1 0 0 2 (fun _ => 0) (fun k => (k : ℝ) / 2) (fun _ => 0) where
  c0 := rfl
  cs := fun k => by ring
  hα := fun k => by ring
  hβ0 := by norm_num
  hβ := fun k => by push_cast; ring

theorem hermite_integrable (k : ℕ) :
    IntegrableOn (fun x : ℝ => x ^ k * Real.exp (-x ^ 2)) Set.univ := by
  rw [integrableOn_univ]; exact integrable_pow_gauss k

theorem hermite_moment (k : ℕ) :
    weightInt Set.univ (fun x => Real.exp (-x ^ 2)) (X ^ k) = √Real.pi * g1 k := by
  simp only [weightInt, eval_pow, eval_X, setIntegral_univ]
  exact integral_pow_gauss k

theorem hermite_isRecurrence (n : ℕ) :
    IsRecurrence (weightInt Set.univ fun x => Real.exp (-x ^ 2)) (fun _ => 0)
      (fun k => (k : ℝ) / 2) n := by
  obtain ⟨L, hL⟩ := weightInt_linear hermite_integrable
  have : IsRecurrence L (fun _ => 0) (fun k => (k : ℝ) / 2) n := by
    refine classical_isRecurrence hermite_classical L (fun f => ?_) (by norm_num) n
    rw [← pearson_apply]
    refine linear_ext_pow _ (fun k => ?_) f
    rw [pearson_apply]
    have e : ((C 0 - C 2 * X) * X ^ k + (C 1 + C 0 * X - C 0 * X ^ 2) * derivative (X ^ k) : ℝ[X]) =
        (-2 : ℝ) • X ^ (k + 1) + (k : ℝ) • X ^ (k - 1) := by
      simp only [derivative_X_pow, smul_eq_C_mul, C_0, C_1, map_neg]
      ring
    rw [e, map_add, map_smul, map_smul, hL, hL, hermite_moment, hermite_moment]
    match k with
    | 0 => simp [g1_odd]
    | k + 1 =>
      rw [g1_succ]
      simp only [Nat.add_sub_cancel, smul_eq_mul]
      push_cast; ring
  intro j k h1 h2
  rw [← hL]; exact this j k h1 h2

/-! ### Laguerre -/

theorem laguerre_classical (a : ℝ) : Classical 0 0 1 (a + 1) 1 (fun k => 2 * k + 1 + a)
    (fun k => k * (k + a)) (fun k => k) where
  c0 := by simp
  cs := fun k => by push_cast; ring
  hα := fun k => by ring
  hβ0 := by norm_num
  hβ := fun k => by push_cast; ring

theorem laguerre_rpow {a : ℝ} (k : ℕ) {x : ℝ} (hx : x ∈ Set.Ioi (0 : ℝ)) :
    x ^ k * (x ^ a * Real.exp (-x)) = Real.exp (-x) * x ^ (a + 1 + k - 1) := by
  rw [show a + 1 + k - 1 = a + k by ring, Real.rpow_add hx, Real.rpow_natCast]; ring

theorem laguerre_integrable {a : ℝ} (ha : -1 < a) (k : ℕ) :
    IntegrableOn (fun x : ℝ => x ^ k * (x ^ a * Real.exp (-x))) (Set.Ioi 0) := by
  have h := Real.GammaIntegral_convergent (s := a + 1 + k) (by positivity [show 0 < a + 1 by linarith])
  exact h.congr_fun (fun x hx => (laguerre_rpow k hx).symm) measurableSet_Ioi

theorem laguerre_moment {a : ℝ} (ha : -1 < a) (k : ℕ) :
    weightInt (Set.Ioi 0) (fun x => x ^ a * Real.exp (-x)) (X ^ k) = Real.Gamma (a + 1 + k) := by
  have h0 : 0 < a + 1 := by linarith
  simp only [weightInt, eval_pow, eval_X]
  rw [Real.Gamma_eq_integral (by positivity)]
  exact setIntegral_congr_fun measurableSet_Ioi fun x hx => laguerre_rpow k hx

theorem laguerre_isRecurrence {a : ℝ} (ha : -1 < a) (n : ℕ) :
    IsRecurrence (weightInt (Set.Ioi 0) fun x => x ^ a * Real.exp (-x)) (fun k => 2 * k + 1 + a)
      (fun k => k * (k + a)) n := by
  obtain ⟨L, hL⟩ := weightInt_linear (laguerre_integrable ha)
  have : IsRecurrence L (fun k => 2 * k + 1 + a) (fun k => k * (k + a)) n := by
    refine classical_isRecurrence (laguerre_classical a) L (fun f => ?_) (by norm_num) n
    rw [← pearson_apply]
    refine linear_ext_pow _ (fun k => ?_) f
    rw [pearson_apply]
    have e : (C (a + 1) - C 1 * X) * X ^ k + (C 0 + C 1 * X - C 0 * X ^ 2) * derivative (X ^ k) =
        (a + 1 + k) • X ^ k - (1 : ℝ) • X ^ (k + 1) := by
      simp only [derivative_X_pow, smul_eq_C_mul, C_0, C_1, C_add]
      rcases k with _ | k
      · simp
      · simp only [Nat.add_sub_cancel]; ring
    have h0 : 0 < a + 1 + k := by have : (0 : ℝ) ≤ k := Nat.cast_nonneg k; linarith
    rw [e, map_sub, map_smul, map_smul, hL, hL, laguerre_moment ha, laguerre_moment ha]
    push_cast
    rw [← add_assoc, Real.Gamma_add_one h0.ne']
    simp
  intro j k h1 h2
  rw [← hL]; exact this j k h1 h2

/-! ### Jacobi -/

/-- The coefficient `c` of the structure relation. -/
noncomputable def jacobiC (a b : ℝ) : ℕ → ℝ
  | 0 => 0
  | k + 1 => (k + 1 : ℕ) * (a - b) / (2 * (k + 1 : ℕ) + a + b)

theorem jacobi_classical {a b : ℝ} (ha : -1 < a) (hb : -1 < b) :
    Classical 1 1 0 (b - a) (a + b + 2) (jacobiAlpha a b) (jacobiBeta a b) (jacobiC a b) where
  c0 := rfl
  cs := fun k => by
    rcases k with _ | k
    · simp only [jacobiC, jacobiAlpha]
      have h1 : a + b + 2 ≠ 0 := by linarith
      have h2 : 2 * ((0 : ℕ) + 1 : ℕ) + a + b = a + b + 2 := by push_cast; ring
      rw [h2]
      push_cast; field_simp; ring
    · simp only [jacobiC, jacobiAlpha]
      have hk : (0 : ℝ) ≤ k := Nat.cast_nonneg k
      push_cast
      obtain ⟨t, ht⟩ : ∃ t, t = 2 * ((k : ℝ) + 1) + a + b := ⟨_, rfl⟩
      have h1 : 0 < t := by linarith
      have e1 : 2 * ((k : ℝ) + 1 + 1) + a + b = t + 2 := by rw [ht]; ring
      rw [e1, ← ht, show (k : ℝ) = (t - a - b - 2) / 2 by rw [ht]; ring]
      have h2 : t + 2 ≠ 0 := by linarith
      field_simp
      ring
  hα := fun k => by
    rcases k with _ | k
    · simp only [jacobiC, jacobiAlpha]
      have h1 : a + b + 2 ≠ 0 := by linarith
      push_cast; field_simp; ring
    · simp only [jacobiC, jacobiAlpha]
      have hk : (0 : ℝ) ≤ k := Nat.cast_nonneg k
      push_cast
      obtain ⟨t, ht⟩ : ∃ t, t = 2 * ((k : ℝ) + 1) + a + b := ⟨_, rfl⟩
      have h1 : 0 < t := by linarith
      rw [← ht, show (k : ℝ) = (t - a - b - 2) / 2 by rw [ht]; ring]
      have h2 : t + 2 ≠ 0 := by linarith
      field_simp
      ring
  hβ0 := by
    simp only [jacobiC, jacobiAlpha, jacobiBeta]
    have h1 : a + b + 2 ≠ 0 := by linarith
    have h2 : 2 * ((0 : ℕ) + 1 : ℕ) + a + b = a + b + 2 := by push_cast; ring
    have h3 : 3 + a + b ≠ 0 := by linarith
    rw [h2, show 2 + a + b = a + b + 2 by ring, show a + b + 2 + 1 = 3 + a + b by ring]
    push_cast
    field_simp
    ring
  hβ := fun k => by
    have hk : (0 : ℝ) ≤ k := Nat.cast_nonneg k
    rcases k with _ | k
    · simp only [jacobiC, jacobiAlpha, jacobiBeta]
      push_cast
      obtain ⟨t, ht⟩ : ∃ t, t = a + b + 2 := ⟨_, rfl⟩
      have h1 : 0 < t := by linarith
      have h2 : t + 1 ≠ 0 := by linarith
      have h3 : t + 2 ≠ 0 := by linarith
      have h4 : t + 3 ≠ 0 := by linarith
      obtain rfl : b = t - a - 2 := by rw [ht]; ring
      norm_num
      rw [show 4 + a + (t - a - 2) = t + 2 by ring, show 2 + a + (t - a - 2) = t by ring,
        show 3 + a + (t - a - 2) = t + 1 by ring, show t + 2 + 1 = t + 3 by ring,
        show t + 2 - 1 = t + 1 by ring, show a + (t - a - 2) + 2 = t by ring]
      field_simp
      ring
    · simp only [jacobiC, jacobiAlpha, jacobiBeta]
      push_cast at hk ⊢
      obtain ⟨t, ht⟩ : ∃ t, t = 2 * ((k : ℝ) + 2) + a + b := ⟨_, rfl⟩
      have h1 : 2 < t := by linarith [Nat.cast_nonneg (α := ℝ) k]
      have h0 : t - 1 ≠ 0 := by linarith
      have h2 : t + 1 ≠ 0 := by linarith
      have h3 : t + 2 ≠ 0 := by linarith
      have h4 : t + 3 ≠ 0 := by linarith
      have h5 : t ≠ 0 := by linarith
      rw [show (k : ℝ) = (t - a - b - 4) / 2 by rw [ht]; ring]
      rw [show 2 * ((t - a - b - 4) / 2 + 1 + 2) + a + b = t + 2 by ring,
        show 2 * ((t - a - b - 4) / 2 + 2) + a + b = t by ring,
        show 2 * ((t - a - b - 4) / 2 + 1 + 1) + a + b = t by ring,
        show 2 * ((t - a - b - 4) / 2 + 2 + 1) + a + b = t + 2 by ring,
        show t + 2 + 1 = t + 3 by ring, show t + 2 - 1 = t + 1 by ring]
      field_simp
      ring

/-- The integral of the Jacobi weight. -/
theorem jacobi_int {a b : ℝ} (ha : -1 < a) (hb : -1 < b) :
    ∫ x in Set.Ioo (-1 : ℝ) 1, (1 - x) ^ a * (1 + x) ^ b = jacobiInt a b := by
  have h := Complex.betaIntegral_scaled ((b + 1 : ℝ) : ℂ) ((a + 1 : ℝ) : ℂ) (a := 2) (by norm_num)
  have hB := ProbabilityTheory.beta_eq_betaIntegralReal (b + 1) (a + 1) (by linarith) (by linarith)
  have h2 : ∫ x in (0 : ℝ)..2, ((x : ℂ) ^ (((b + 1 : ℝ) : ℂ) - 1) *
      (((2 : ℝ) : ℂ) - x) ^ (((a + 1 : ℝ) : ℂ) - 1)) =
      ((∫ x in (0 : ℝ)..2, x ^ b * (2 - x) ^ a : ℝ) : ℂ) := by
    rw [← intervalIntegral.integral_ofReal]
    refine intervalIntegral.integral_congr fun x hx => ?_
    rw [Set.uIcc_of_le (by norm_num)] at hx
    rw [show (((b + 1 : ℝ) : ℂ) - 1) = (b : ℂ) by push_cast; ring,
      show (((a + 1 : ℝ) : ℂ) - 1) = (a : ℂ) by push_cast; ring, ← Complex.ofReal_sub,
      ← Complex.ofReal_cpow hx.1, ← Complex.ofReal_cpow (by linarith [hx.2]), Complex.ofReal_mul]
  rw [h2] at h
  have h3 := congrArg Complex.re h
  rw [Complex.ofReal_re, show (((b + 1 : ℝ) : ℂ) + ((a + 1 : ℝ) : ℂ) - 1) = ((a + b + 1 : ℝ) : ℂ) by
    push_cast; ring, ← Complex.ofReal_cpow (by norm_num), Complex.re_ofReal_mul, ← hB] at h3
  rw [← integral_Ioc_eq_integral_Ioo, ← intervalIntegral.integral_of_le (by norm_num)]
  have h4 := intervalIntegral.integral_comp_add_right (a := -1) (b := 1)
    (fun x : ℝ => x ^ b * (2 - x) ^ a) 1
  norm_num at h4
  rw [h3] at h4
  rw [jacobiInt, show (∫ x in (-1 : ℝ)..1, (1 - x) ^ a * (1 + x) ^ b) =
    ∫ x in (-1 : ℝ)..1, (x + 1) ^ b * (2 - (x + 1)) ^ a from
      intervalIntegral.integral_congr fun x _ => by ring_nf, h4, ProbabilityTheory.beta]
  rw [show b + 1 + (a + 1) = a + b + 2 by ring, mul_comm (Real.Gamma (b + 1))]

theorem jacobi_integrable0 {a b : ℝ} (ha : -1 < a) (hb : -1 < b) :
    IntegrableOn (fun x : ℝ => (1 - x) ^ a * (1 + x) ^ b) (Set.Ioo (-1) 1) := by
  by_contra h
  have h1 := jacobi_int ha hb
  rw [integral_undef h, jacobiInt] at h1
  have := Real.Gamma_pos_of_pos (show 0 < a + 1 by linarith)
  have := Real.Gamma_pos_of_pos (show 0 < b + 1 by linarith)
  have := Real.Gamma_pos_of_pos (show 0 < a + b + 2 by linarith)
  have : 0 < (2 : ℝ) ^ (a + b + 1) * (Real.Gamma (a + 1) * Real.Gamma (b + 1) / Real.Gamma (a + b + 2)) := by
    positivity
  linarith

theorem jacobi_integrable {a b : ℝ} (ha : -1 < a) (hb : -1 < b) (k : ℕ) :
    IntegrableOn (fun x : ℝ => x ^ k * ((1 - x) ^ a * (1 + x) ^ b)) (Set.Ioo (-1) 1) := by
  refine Integrable.bdd_mul (c := 1) (jacobi_integrable0 ha hb) ?_ ?_
  · exact (continuous_pow k).aestronglyMeasurable
  · filter_upwards [ae_restrict_mem measurableSet_Ioo] with x hx
    rw [norm_pow]
    exact pow_le_one₀ (norm_nonneg _) (by rw [Real.norm_eq_abs, abs_le]; exact ⟨hx.1.le, hx.2.le⟩)

theorem jacobi_moment {a b : ℝ} (ha : -1 < a) (hb : -1 < b) (k : ℕ) :
    weightInt (Set.Ioo (-1) 1) (fun x => (1 - x) ^ a * (1 + x) ^ b) ((X + 1) ^ k) =
      jacobiInt a (b + k) := by
  have hk : (0 : ℝ) ≤ k := Nat.cast_nonneg k
  rw [← jacobi_int ha (by linarith), weightInt]
  refine setIntegral_congr_fun measurableSet_Ioo fun x hx => ?_
  simp only [eval_pow, eval_add, eval_X, eval_one]
  rw [Real.rpow_add (by linarith [hx.1]), Real.rpow_natCast]; ring

theorem jacobiInt_step {a b : ℝ} (ha : -1 < a) (hb : -1 < b) :
    (a + b + 2) * jacobiInt a (b + 1) = 2 * (b + 1) * jacobiInt a b := by
  have h1 : a + b + 2 ≠ 0 := by linarith
  have h2 := (Real.Gamma_pos_of_pos (show 0 < a + b + 2 by linarith)).ne'
  rw [jacobiInt, jacobiInt, show a + (b + 1) + 2 = a + b + 2 + 1 by ring, Real.Gamma_add_one h1,
    Real.Gamma_add_one (show b + 1 ≠ 0 by linarith), show a + (b + 1) + 1 = a + b + 1 + 1 by ring,
    Real.rpow_add_one (by norm_num)]
  field_simp

theorem jacobi_isRecurrence {a b : ℝ} (ha : -1 < a) (hb : -1 < b) (n : ℕ) :
    IsRecurrence (weightInt (Set.Ioo (-1) 1) fun x => (1 - x) ^ a * (1 + x) ^ b) (jacobiAlpha a b)
      (jacobiBeta a b) n := by
  obtain ⟨L, hL⟩ := weightInt_linear (jacobi_integrable ha hb)
  have : IsRecurrence L (jacobiAlpha a b) (jacobiBeta a b) n := by
    refine classical_isRecurrence (jacobi_classical ha hb) L (fun f => ?_) (fun k => ?_) n
    · rw [← pearson_apply]
      refine linear_ext_shift _ (fun k => ?_) f
      have hk : (0 : ℝ) ≤ k := Nat.cast_nonneg k
      rw [pearson_apply]
      have e : ((C (b - a) - C (a + b + 2) * X) * (X + 1) ^ k +
          (C 1 + C 0 * X - C 1 * X ^ 2) * derivative ((X + 1) ^ k) : ℝ[X]) =
          (2 * (b + k + 1)) • (X + 1) ^ k - (a + (b + k) + 2) • (X + 1) ^ (k + 1) := by
        simp only [smul_eq_C_mul, C_0, C_1, C_add, C_sub, C_mul]
        rw [show (C (2 : ℝ) : ℝ[X]) = 2 from rfl]
        rcases k with _ | k
        · simp
          ring
        · simp only [derivative_pow, Nat.add_sub_cancel, derivative_add, derivative_X, derivative_one]
          push_cast
          simp only [C_add, C_1]
          ring
      rw [e, map_sub, map_smul, map_smul, hL, hL, jacobi_moment ha hb, jacobi_moment ha hb]
      have := jacobiInt_step ha (b := b + k) (by linarith)
      rw [smul_eq_mul, smul_eq_mul]
      push_cast
      rw [← add_assoc b, this]; ring
    · have hk : (0 : ℝ) ≤ k := Nat.cast_nonneg k
      linarith
  intro j k h1 h2
  rw [← hL]; exact this j k h1 h2

end OneDim
end Quadpy
