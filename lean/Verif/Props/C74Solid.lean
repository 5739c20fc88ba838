import Verif.Props.C50
import Verif.Props.C78

/-!
# C74: the error of `P3Scheme.integrate` and `W3Scheme.integrate`
-/

namespace Quadpy
open MeasureTheory Spec

/-- Rules with nonnegative weights and points that are mapped into the domain. -/
theorem mapped_best {W : List ℝ} {P : List (List ℝ)} (hW : ∀ w ∈ W, 0 ≤ w) {tr : (Fin 3 → ℝ) → Fin 3 → ℝ}
    {J : (Fin 3 → ℝ) → ℝ} {K : Set (Fin 3 → ℝ)} (hK : IsCompact K) (hin : ∀ x ∈ P, tr (toVec 3 x) ∈ K) {d : ℕ}
    (h : ∀ p : MvPolynomial (Fin 3) ℝ, p.totalDegree ≤ d →
      dot 3 W P (fun x => MvPolynomial.eval (tr x) p * |J x|) = ∫ x in K, MvPolynomial.eval x p)
    {f : (Fin 3 → ℝ) → ℝ} (hf : Continuous f) (p : MvPolynomial (Fin 3) ℝ) (hp : p.totalDegree ≤ d) {ε : ℝ}
    (he : ∀ x ∈ K, |f x - MvPolynomial.eval x p| ≤ ε) :
    |dot 3 W P (fun x => f (tr x) * |J x|) - ∫ x in K, f x| ≤ 2 * (volume K).toReal * ε := by
  have hpc : Continuous fun x : Fin 3 → ℝ => MvPolynomial.eval x p := MvPolynomial.continuous_eval p
  have h1 := h 1 (by simp)
  simp only [map_one, one_mul, setIntegral_const, smul_eq_mul, mul_one] at h1
  have h2 : ∀ c : ℝ, dot 3 W P (fun x => (MvPolynomial.eval (tr x) p + c) * |J x|) =
      (∫ x in K, MvPolynomial.eval x p) + c * volume.real K := fun c => by
    have := h (p + MvPolynomial.C c) ((MvPolynomial.totalDegree_add _ _).trans (by simpa using hp))
    simp only [map_add, MvPolynomial.eval_C] at this
    rw [this, integral_add (hpc.continuousOn.integrableOn_compact hK) (continuous_const.continuousOn.integrableOn_compact hK),
      setIntegral_const, smul_eq_mul, mul_comm c]
  have h3 : dot 3 W P (fun x => f (tr x) * |J x|) ≤ (∫ x in K, MvPolynomial.eval x p) + ε * volume.real K := by
    rw [← h2]
    exact dot_le_dot hW fun x hx => mul_le_mul_of_nonneg_right
      (by linarith [(abs_le.1 (he _ (hin x hx))).2]) (abs_nonneg _)
  have h4 : (∫ x in K, MvPolynomial.eval x p) + -ε * volume.real K ≤ dot 3 W P (fun x => f (tr x) * |J x|) := by
    rw [← h2]
    exact dot_le_dot hW fun x hx => mul_le_mul_of_nonneg_right
      (by linarith [(abs_le.1 (he _ (hin x hx))).1]) (abs_nonneg _)
  have h5 : |(∫ x in K, f x) - ∫ x in K, MvPolynomial.eval x p| ≤ ε * volume.real K := by
    rw [← integral_sub (hf.continuousOn.integrableOn_compact hK) (hpc.continuousOn.integrableOn_compact hK)]
    exact norm_setIntegral_le_of_norm_le_const (f := fun x => f x - MvPolynomial.eval x p) hK.measure_lt_top
      fun x hx => he x hx
  rw [← measureReal_def, abs_le]
  rw [abs_le] at h5
  constructor <;> linarith

namespace P3

theorem transform_mem {pyra : Fin 5 → Fin 3 → ℝ} (hp : pyra 0 + pyra 2 = pyra 1 + pyra 3) {ξ : Fin 3 → ℝ}
    (h : ∀ j, |ξ j| ≤ 1) : transform ξ pyra ∈ convexHull ℝ (Set.range pyra) := by
  rw [← image_ref hp, transform_eq hp]
  have h2 := abs_le.1 (h 2)
  have h3 : 0 ≤ (1 - ξ 2) / 2 := by linarith
  have e : ∀ j, |ξ j * ((1 - ξ 2) / 2)| ≤ (1 - ξ 2) / 2 := fun j => by
    rw [abs_mul, abs_of_nonneg h3]
    exact mul_le_of_le_one_left h3 (h j)
  refine ⟨_, ?_, rfl⟩
  exact ⟨e 0, e 1, h2.1⟩

/-- The error on any pyramid with a parallelogram as base, for a rule with nonnegative weights and points in the
reference cube. -/
theorem C74_pyramid {S : Scheme} (hS : Exact S) (hW : ∀ w ∈ S.weights, 0 ≤ w)
    (hin : ∀ x ∈ S.points, ∀ j, |toVec 3 x j| ≤ 1) {pyra : Fin 5 → Fin 3 → ℝ} (hp : pyra 0 + pyra 2 = pyra 1 + pyra 3)
    {f : (Fin 3 → ℝ) → ℝ} (hf : Continuous f) (p : MvPolynomial (Fin 3) ℝ) (hd : p.totalDegree ≤ S.degree) {ε : ℝ}
    (he : ∀ x ∈ convexHull ℝ (Set.range pyra), |f x - MvPolynomial.eval x p| ≤ ε) :
    |integrate S f pyra - ∫ x in convexHull ℝ (Set.range pyra), f x| ≤
      2 * (volume (convexHull ℝ (Set.range pyra))).toReal * ε :=
  mapped_best (tr := fun x => transform x pyra) (J := getDetJ pyra) hW ((Set.finite_range pyra).isCompact_convexHull (𝕜 := ℝ))
    (fun x hx => transform_mem hp (hin x hx)) (hS.2 pyra hp) hf p hd he

/-- Felippa's first rule, for an integrand that varies by at most `ω`. -/
example {f : (Fin 3 → ℝ) → ℝ} (hf : Continuous f) {ω : ℝ} {pyra : Fin 5 → Fin 3 → ℝ}
    (hp : pyra 0 + pyra 2 = pyra 1 + pyra 3)
    (h : ∀ x ∈ convexHull ℝ (Set.range pyra), |f x - f (pyra 0)| ≤ ω) :
    |integrate felippa_1 f pyra - ∫ x in convexHull ℝ (Set.range pyra), f x| ≤
      2 * (volume (convexHull ℝ (Set.range pyra))).toReal * ω :=
  C74_pyramid C50_felippa_1 (by simp [felippa_1, schemeOf, untangle]; norm_num) (by
    simp [felippa_1, schemeOf, untangle, toVec]
    intro j; fin_cases j <;> norm_num [abs_le]) hp hf (MvPolynomial.C (f (pyra 0))) (by simp) (by simpa using h)

end P3

namespace W3

theorem transform_mem {wedge : Fin 2 → Fin 3 → Fin 3 → ℝ} (hp : IsPrism wedge) {ξ : Fin 3 → ℝ}
    (h : 0 ≤ ξ 0 ∧ 0 ≤ ξ 1 ∧ ξ 0 + ξ 1 ≤ 1 ∧ |ξ 2| ≤ 1) :
    transform ξ wedge ∈ convexHull ℝ (Set.range fun k : Fin 2 × Fin 3 => wedge k.1 k.2) := by
  rw [← image_ref hp, transform_eq hp]
  exact ⟨_, ⟨h.1, h.2.1, h.2.2.1, abs_le.1 h.2.2.2⟩, rfl⟩

/-- The error on any prism. -/
theorem C74_prism {S : Scheme} (hS : Exact S) (hW : ∀ w ∈ S.weights, 0 ≤ w)
    (hin : ∀ x ∈ S.points, 0 ≤ toVec 3 x 0 ∧ 0 ≤ toVec 3 x 1 ∧ toVec 3 x 0 + toVec 3 x 1 ≤ 1 ∧ |toVec 3 x 2| ≤ 1)
    {wedge : Fin 2 → Fin 3 → Fin 3 → ℝ} (hp : IsPrism wedge)
    {f : (Fin 3 → ℝ) → ℝ} (hf : Continuous f) (p : MvPolynomial (Fin 3) ℝ) (hd : p.totalDegree ≤ S.degree) {ε : ℝ}
    (he : ∀ x ∈ convexHull ℝ (Set.range fun k : Fin 2 × Fin 3 => wedge k.1 k.2), |f x - MvPolynomial.eval x p| ≤ ε) :
    |integrate S f wedge - ∫ x in convexHull ℝ (Set.range fun k : Fin 2 × Fin 3 => wedge k.1 k.2), f x| ≤
      2 * (volume (convexHull ℝ (Set.range fun k : Fin 2 × Fin 3 => wedge k.1 k.2))).toReal * ε :=
  mapped_best (tr := fun x => transform x wedge) (J := fun x => getDetJ x wedge) hW
    ((Set.finite_range _).isCompact_convexHull (𝕜 := ℝ)) (fun x hx => transform_mem hp (hin x hx)) (hS.2 wedge hp) hf p hd he

/-- Felippa's first rule on a prism, for an integrand that varies by at most `ω`. -/
example {f : (Fin 3 → ℝ) → ℝ} (hf : Continuous f) {ω : ℝ} {wedge : Fin 2 → Fin 3 → Fin 3 → ℝ} (hp : IsPrism wedge)
    (h : ∀ x ∈ convexHull ℝ (Set.range fun k : Fin 2 × Fin 3 => wedge k.1 k.2), |f x - f (wedge 0 0)| ≤ ω) :
    |integrate felippa_1 f wedge - ∫ x in convexHull ℝ (Set.range fun k : Fin 2 × Fin 3 => wedge k.1 k.2), f x| ≤
      2 * (volume (convexHull ℝ (Set.range fun k : Fin 2 × Fin 3 => wedge k.1 k.2))).toReal * ω :=
  C74_prism C50_w3_felippa_1 (by simp [felippa_1, s3, schemeOf, untangle]) (by
    simp [felippa_1, s3, schemeOf, untangle, toVec]
    norm_num) hp hf (MvPolynomial.C (f (wedge 0 0))) (by simp) (by simpa using h)

end W3
end Quadpy
