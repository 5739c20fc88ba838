import Verif.Lemmas.Mono
import Mathlib.MeasureTheory.Constructions.HaarToSphere
import Mathlib.MeasureTheory.Measure.Haar.InnerProductSpace
import Mathlib.MeasureTheory.Integral.Prod
import Mathlib.MeasureTheory.Integral.Pi
import Mathlib.MeasureTheory.Integral.Gamma
import Mathlib.Analysis.SpecialFunctions.Gaussian.GaussianIntegral

/-!
Moments of rotation-invariant weights: spherical coordinates reduce them to the moments of the sphere.
-/

namespace Quadpy
open MeasureTheory Finset

/-- The Euclidean norm on `Fin n → ℝ`. -/
noncomputable def nrm {n : ℕ} (x : Fin n → ℝ) : ℝ := Real.sqrt (∑ i, x i ^ 2)

theorem norm_eq_nrm {n : ℕ} (x : EuclideanSpace ℝ (Fin n)) : ‖x‖ = nrm (fun i => x i) := by
  simp [EuclideanSpace.norm_eq, nrm]

theorem integral_euclidean {n : ℕ} (F : (Fin n → ℝ) → ℝ) :
    ∫ x : EuclideanSpace ℝ (Fin n), F (fun i => x i) = ∫ x, F x := by
  have h := (EuclideanSpace.volume_preserving_symm_measurableEquiv_toLp (Fin n)).integral_comp'
    (g := F)
  exact h

theorem integrable_euclidean {n : ℕ} (F : (Fin n → ℝ) → ℝ)
    (h : Integrable (fun x : EuclideanSpace ℝ (Fin n) => F (fun i => x i))) : Integrable F := by
  have h1 := (EuclideanSpace.volume_preserving_symm_measurableEquiv_toLp (Fin n)).integrable_comp_emb
    (g := F) (MeasurableEquiv.measurableEmbedding _)
  exact h1.1 h

theorem mono_smul {n : ℕ} (α : Fin n → ℕ) (r : ℝ) (x : Fin n → ℝ) :
    mono α (fun i => r * x i) = r ^ (∑ i, α i) * mono α x := by
  simp only [mono, mul_pow, prod_mul_distrib, prod_pow_eq_pow_sum]

open Measure in
/-- Spherical coordinates for a monomial times a radial weight. -/
theorem polar {n : ℕ} (hn : 0 < n) (α : Fin n → ℕ) (φ : ℝ → ℝ) :
    ∫ x, mono α x * φ (nrm x) =
      Spec.sphere n (mono α) * ∫ r in Set.Ioi (0 : ℝ), r ^ (n - 1 + ∑ i, α i) * φ r := by
  have : Nonempty (Fin n) := ⟨⟨0, hn⟩⟩
  have : Nontrivial (EuclideanSpace ℝ (Fin n)) := inferInstance
  set E := EuclideanSpace ℝ (Fin n) with hE
  set μ : Measure E := volume with hμ
  have hd : Module.finrank ℝ E = n := finrank_euclideanSpace_fin
  set F : E → ℝ := fun x => mono α (fun i => x i) * φ ‖x‖ with hF
  have h0 : ∫ x, mono α x * φ (nrm x) = ∫ x, F x ∂μ := by
    rw [← integral_euclidean fun x => mono α x * φ (nrm x)]
    refine integral_congr_ae (Filter.Eventually.of_forall fun x => ?_)
    change _ = _ * φ ‖x‖
    rw [norm_eq_nrm]
  rw [h0]
  calc
    ∫ x, F x ∂μ = ∫ x : ({(0)}ᶜ : Set E), F x.1 ∂(μ.comap (↑)) := by
      rw [integral_subtype_comap (measurableSet_singleton _).compl F, restrict_compl_singleton]
    _ = ∫ z : Metric.sphere (0 : E) 1 × Set.Ioi (0 : ℝ),
          mono α (fun i => z.1.1 i) * (z.2.1 ^ (∑ i, α i) * φ z.2.1)
          ∂μ.toSphere.prod (.volumeIoiPow (Module.finrank ℝ E - 1)) := by
      rw [← μ.measurePreserving_homeomorphUnitSphereProd.integral_comp
        (Homeomorph.measurableEmbedding _)]
      refine integral_congr_ae (Filter.Eventually.of_forall fun x => ?_)
      have hx : ‖x.1‖ ≠ 0 := norm_ne_zero_iff.2 x.2
      simp only [hF, homeomorphUnitSphereProd_apply_snd_coe, homeomorphUnitSphereProd_apply_fst_coe]
      have h1 : mono α (fun i => x.1 i) =
          ‖x.1‖ ^ (∑ i, α i) * mono α (fun i => (‖x.1‖⁻¹ • x.1) i) := by
        rw [← mono_smul]
        congr 1
        funext i
        change _ = ‖x.1‖ * (‖x.1‖⁻¹ * x.1 i)
        rw [mul_inv_cancel_left₀ hx]
      rw [h1]
      ring
    _ = (∫ u, mono α (fun i => u.1 i) ∂μ.toSphere) *
          ∫ r : Set.Ioi (0 : ℝ), r.1 ^ (∑ i, α i) * φ r.1 ∂.volumeIoiPow (Module.finrank ℝ E - 1) :=
      integral_prod_mul (fun u : Metric.sphere (0 : E) 1 => mono α fun i => u.1 i)
        (fun r : Set.Ioi (0 : ℝ) => r.1 ^ (∑ i, α i) * φ r.1)
    _ = _ := by
      congr 1
      simp only [Measure.volumeIoiPow, ENNReal.ofReal]
      rw [integral_withDensity_eq_integral_smul,
        integral_subtype_comap measurableSet_Ioi
          fun a => Real.toNNReal (a ^ (Module.finrank ℝ E - 1)) • (a ^ (∑ i, α i) * φ a),
        setIntegral_congr_fun measurableSet_Ioi fun x hx => ?_]
      · change Real.toNNReal _ • _ = _
        rw [NNReal.smul_def, Real.coe_toNNReal _ (pow_nonneg (le_of_lt hx) _), smul_eq_mul, hd, pow_add,
          mul_assoc]
      · exact (measurable_subtype_coe.pow_const _).real_toNNReal

/-! One-dimensional Gaussian moments. -/

/-- `∫ t^k exp(-t^2) dt / √π`. -/
noncomputable def g1 (k : ℕ) : ℝ :=
  if Even k then Real.Gamma ((k + 1) / 2) / Real.sqrt Real.pi else 0

theorem g1_odd {k : ℕ} (h : Odd k) : g1 k = 0 := by simp [g1, Nat.not_even_iff_odd.2 h]

theorem g1_zero : g1 0 = 1 := by
  have : Real.sqrt Real.pi ≠ 0 := (Real.sqrt_pos.2 Real.pi_pos).ne'
  simp only [g1, Even.zero, if_true]
  norm_num [Real.Gamma_one_half_eq, this]

theorem g1_succ (k : ℕ) : g1 (k + 2) = (k + 1) / 2 * g1 k := by
  unfold g1
  have h : Even (k + 2) ↔ Even k := by simp [Nat.even_add]
  by_cases hk : Even k
  · rw [if_pos hk, if_pos (h.2 hk)]
    rw [show (((k + 2 : ℕ) : ℝ) + 1) / 2 = ((k : ℝ) + 1) / 2 + 1 by push_cast; ring,
      Real.Gamma_add_one (by positivity)]
    ring
  · rw [if_neg hk, if_neg (fun h' => hk (h.1 h')), mul_zero]

theorem integral_Ioi_pow_gauss (k : ℕ) :
    ∫ r in Set.Ioi (0 : ℝ), r ^ k * Real.exp (-r ^ 2) = 1 / 2 * Real.Gamma ((k + 1) / 2) := by
  have h := integral_rpow_mul_exp_neg_rpow (p := 2) (q := k) (by norm_num)
    (by have : (0 : ℝ) ≤ k := Nat.cast_nonneg k; linarith)
  simpa [Real.rpow_natCast] using h

theorem integrable_pow_gauss (k : ℕ) : Integrable fun t : ℝ => t ^ k * Real.exp (-t ^ 2) := by
  have h := integrable_rpow_mul_exp_neg_mul_sq (b := 1) one_pos (s := k)
    (by have : (0 : ℝ) ≤ k := Nat.cast_nonneg k; linarith)
  simpa [Real.rpow_natCast] using h

theorem integral_pow_gauss (k : ℕ) :
    ∫ t : ℝ, t ^ k * Real.exp (-t ^ 2) = Real.sqrt Real.pi * g1 k := by
  have hpi : Real.sqrt Real.pi ≠ 0 := (Real.sqrt_pos.2 Real.pi_pos).ne'
  by_cases hk : Even k
  · have h := integral_comp_abs (f := fun t : ℝ => t ^ k * Real.exp (-t ^ 2))
    simp only [hk.pow_abs, even_two.pow_abs] at h
    rw [h, integral_Ioi_pow_gauss, g1, if_pos hk]
    field_simp
  · have hodd := Nat.not_even_iff_odd.1 hk
    rw [g1_odd hodd, mul_zero]
    have h := integral_neg_eq_self (fun t : ℝ => t ^ k * Real.exp (-t ^ 2)) volume
    simp only [hodd.neg_pow, even_two.neg_pow, neg_mul, integral_neg] at h
    linarith

/-- The Gaussian moments. -/
theorem enr2_mono {n : ℕ} (α : Fin n → ℕ) :
    Spec.enr2 n (mono α) = Real.sqrt Real.pi ^ n * ∏ i, g1 (α i) := by
  unfold Spec.enr2
  have h : (fun x : Fin n → ℝ => mono α x * Real.exp (-∑ i, x i ^ 2)) =
      fun x => ∏ i, (x i ^ α i * Real.exp (-x i ^ 2)) := by
    funext x
    rw [prod_mul_distrib, ← Real.exp_sum, sum_neg_distrib]
    rfl
  rw [h, integral_fintype_prod_volume_eq_prod fun i (t : ℝ) => t ^ α i * Real.exp (-t ^ 2)]
  rw [prod_congr rfl fun i _ => integral_pow_gauss (α i), prod_mul_distrib]
  simp

theorem nrm_sq {n : ℕ} (x : Fin n → ℝ) : nrm x ^ 2 = ∑ i, x i ^ 2 :=
  Real.sq_sqrt (sum_nonneg fun i _ => sq_nonneg _)

/-- The moments of the sphere. -/
theorem sphere_mono {n : ℕ} (hn : 0 < n) (α : Fin n → ℕ) :
    Spec.sphere n (mono α) = 2 * Real.sqrt Real.pi ^ n * (∏ i, g1 (α i)) /
      Real.Gamma ((n + ∑ i, (α i : ℝ)) / 2) := by
  have h := polar hn α fun r => Real.exp (-r ^ 2)
  simp only [nrm_sq] at h
  have h1 := enr2_mono α
  unfold Spec.enr2 at h1
  rw [h1, integral_Ioi_pow_gauss] at h
  have h2 : ((n - 1 + ∑ i, α i : ℕ) : ℝ) + 1 = n + ∑ i, (α i : ℝ) := by
    rw [Nat.cast_add, Nat.cast_sub hn]; push_cast; ring
  rw [h2] at h
  have h3 : 0 < Real.Gamma ((n + ∑ i, (α i : ℝ)) / 2) := by
    apply Real.Gamma_pos_of_pos
    have : (0 : ℝ) < n := by exact_mod_cast hn
    positivity
  rw [eq_div_iff h3.ne']
  linarith

/-- The area of the sphere. -/
noncomputable def sphereArea (n : ℕ) : ℝ := 2 * Real.sqrt Real.pi ^ n / Real.Gamma (n / 2)

/-- The normalised moments of the sphere. -/
noncomputable def sphMom {n : ℕ} (α : Fin n → ℕ) : ℝ :=
  (∏ i, g1 (α i)) * (Real.Gamma (n / 2) / Real.Gamma ((n + ∑ i, (α i : ℝ)) / 2))

theorem sphere_mono' {n : ℕ} (hn : 0 < n) (α : Fin n → ℕ) :
    Spec.sphere n (mono α) = sphereArea n * sphMom α := by
  rw [sphere_mono hn, sphereArea, sphMom]
  have : (0 : ℝ) < n := by exact_mod_cast hn
  have h3 : Real.Gamma ((n : ℝ) / 2) ≠ 0 := (Real.Gamma_pos_of_pos (by positivity)).ne'
  field_simp

end Quadpy
