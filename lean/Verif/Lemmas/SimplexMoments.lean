import Verif.Lemmas.Mono
import Mathlib.MeasureTheory.Integral.Pi
import Mathlib.MeasureTheory.Integral.Prod
import Mathlib.Analysis.SpecialFunctions.Integrals.Basic
import Mathlib.MeasureTheory.Function.LocallyIntegrable
import Mathlib.MeasureTheory.Integral.IntervalIntegral.IntegrationByParts
import Mathlib.Tactic.FieldSimp

/-!
# The Dirichlet formula: moments of the simplex
-/

namespace Quadpy
open MeasureTheory Finset

/-- `∫_0^s t^p (s-t)^q dt = p! q! / (p+q+1)! s^(p+q+1)`. -/
theorem beta_pow (p q : ℕ) (s : ℝ) :
    ∫ t in (0 : ℝ)..s, t ^ p * (s - t) ^ q =
      (p.factorial * q.factorial : ℝ) / (p + q + 1).factorial * s ^ (p + q + 1) := by
  induction q generalizing p with
  | zero =>
    simp only [pow_zero, mul_one, integral_pow, Nat.factorial_zero, Nat.cast_one, add_zero]
    rw [zero_pow (by omega), Nat.factorial_succ]
    push_cast
    have : (p.factorial : ℝ) ≠ 0 := by positivity
    field_simp
    ring
  | succ q ih =>
    have hd : ∀ t : ℝ, HasDerivAt (fun t => t ^ (p + 1) * (s - t) ^ (q + 1))
        ((p + 1) * (t ^ p * (s - t) ^ (q + 1)) - (q + 1) * (t ^ (p + 1) * (s - t) ^ q)) t := by
      intro t
      have h1 := (hasDerivAt_id t).pow (p + 1)
      have h2 := ((hasDerivAt_id t).const_sub s).pow (q + 1)
      refine (h1.mul h2).congr_deriv ?_
      simp
      ring
    have h0 := intervalIntegral.integral_eq_sub_of_hasDerivAt (a := 0) (b := s) (fun t _ => hd t)
      (Continuous.intervalIntegrable (by fun_prop) _ _)
    rw [intervalIntegral.integral_sub (Continuous.intervalIntegrable (by fun_prop) _ _)
      (Continuous.intervalIntegrable (by fun_prop) _ _), intervalIntegral.integral_const_mul,
      intervalIntegral.integral_const_mul, ih (p + 1)] at h0
    simp only [sub_self, zero_pow (Nat.succ_ne_zero _), mul_zero, zero_mul, sub_zero] at h0
    rw [show p + 1 + q + 1 = p + (q + 1) + 1 by ring] at h0
    have h1 : ((p : ℝ) + 1) ≠ 0 := by positivity
    rw [← mul_right_inj' h1, sub_eq_zero.1 h0, Nat.factorial_succ p, Nat.factorial_succ q]
    push_cast
    ring

/-- The scaled simplex. -/
def simplexS (n : ℕ) (s : ℝ) : Set (Fin n → ℝ) := {x | (∀ i, 0 ≤ x i) ∧ ∑ i, x i ≤ s}

theorem isClosed_simplexS (n : ℕ) (s : ℝ) : IsClosed (simplexS n s) := by
  have : simplexS n s = (⋂ i, {x : Fin n → ℝ | 0 ≤ x i}) ∩ {x | ∑ i, x i ≤ s} := by
    ext x; simp [simplexS]
  rw [this]
  refine (isClosed_iInter fun i => ?_).inter ?_
  · exact isClosed_le continuous_const (continuous_apply i)
  · exact isClosed_le (by fun_prop) continuous_const

theorem simplexS_subset (n : ℕ) (s : ℝ) :
    simplexS n s ⊆ Set.Icc (fun _ => 0) (fun _ => s) := by
  intro x hx
  refine ⟨hx.1, fun i => ?_⟩
  exact (single_le_sum (fun j _ => hx.1 j) (mem_univ i)).trans hx.2

theorem isCompact_simplexS (n : ℕ) (s : ℝ) : IsCompact (simplexS n s) :=
  isCompact_Icc.of_isClosed_subset (isClosed_simplexS n s) (simplexS_subset n s)

theorem integrableOn_simplexS {n : ℕ} (s : ℝ) {f : (Fin n → ℝ) → ℝ} (hf : Continuous f) :
    IntegrableOn f (simplexS n s) :=
  hf.continuousOn.integrableOn_compact (isCompact_simplexS n s)

theorem mem_simplexS_cons {n : ℕ} (s t : ℝ) (y : Fin n → ℝ) :
    Fin.cons t y ∈ simplexS (n + 1) s ↔ 0 ≤ t ∧ y ∈ simplexS n (s - t) := by
  simp only [simplexS, Set.mem_ofPred_eq, Fin.forall_fin_succ, Fin.cons_zero, Fin.cons_succ,
    Fin.sum_univ_succ]
  constructor
  · rintro ⟨⟨h1, h2⟩, h3⟩; exact ⟨h1, h2, by linarith⟩
  · rintro ⟨h1, h2, h3⟩; exact ⟨⟨h1, h2⟩, by linarith⟩

/-- Fubini: cutting the simplex along the first coordinate. -/
theorem integral_simplexS_succ {n : ℕ} (s : ℝ) (hs : 0 ≤ s) {f : (Fin (n + 1) → ℝ) → ℝ}
    (hf : Continuous f) :
    ∫ x in simplexS (n + 1) s, f x =
      ∫ t in (0 : ℝ)..s, ∫ y in simplexS n (s - t), f (Fin.cons t y) := by
  have hm : ∀ m r, MeasurableSet (simplexS m r) := fun m r => (isClosed_simplexS m r).measurableSet
  have hi := (integrableOn_simplexS s hf).integrable_indicator (hm (n + 1) s)
  rw [← integral_indicator (hm _ _)]
  have hp := (volume_preserving_piFinSuccAbove (fun _ : Fin (n + 1) => ℝ) 0).symm
  rw [← hp.integral_comp (MeasurableEquiv.measurableEmbedding _)]
  have hi' : Integrable (fun x => (simplexS (n + 1) s).indicator f
      ((MeasurableEquiv.piFinSuccAbove (fun _ : Fin (n + 1) => ℝ) 0).symm x)) volume :=
    hp.integrable_comp_of_integrable hi
  rw [Measure.volume_eq_prod] at hi' ⊢
  rw [integral_prod _ hi', intervalIntegral.integral_of_le hs, ← integral_Icc_eq_integral_Ioc,
    ← integral_indicator measurableSet_Icc]
  congr 1
  funext t
  have e : ∀ y : Fin n → ℝ, (MeasurableEquiv.piFinSuccAbove (fun _ : Fin (n + 1) => ℝ) 0).symm (t, y)
      = Fin.cons t y := fun y => by
    simp [MeasurableEquiv.piFinSuccAbove]
    rfl
  simp only [e]
  by_cases ht : t ∈ Set.Icc 0 s
  · rw [Set.indicator_of_mem ht, ← integral_indicator (hm _ _)]
    congr 1
    funext y
    by_cases hy : y ∈ simplexS n (s - t)
    · rw [Set.indicator_of_mem hy, Set.indicator_of_mem ((mem_simplexS_cons s t y).2 ⟨ht.1, hy⟩)]
    · rw [Set.indicator_of_notMem hy, Set.indicator_of_notMem
        fun h => hy ((mem_simplexS_cons s t y).1 h).2]
  · rw [Set.indicator_of_notMem ht]
    refine integral_eq_zero_of_ae (Filter.Eventually.of_forall fun y => ?_)
    simp only [Pi.zero_apply]
    refine Set.indicator_of_notMem (fun h => ht ?_) _
    have := (mem_simplexS_cons s t y).1 h
    refine ⟨this.1, ?_⟩
    have h2 : 0 ≤ ∑ i, y i := sum_nonneg fun i _ => this.2.1 i
    linarith [this.2.2]

/-- The Dirichlet formula on the scaled simplex. -/
theorem dirichlet {n : ℕ} (a : Fin n → ℕ) (b : ℕ) (s : ℝ) (hs : 0 ≤ s) :
    ∫ x in simplexS n s, (s - ∑ i, x i) ^ b * mono a x =
      (b.factorial * ∏ i, ((a i).factorial : ℝ)) / (n + b + ∑ i, a i).factorial *
        s ^ (n + b + ∑ i, a i) := by
  induction n generalizing s b with
  | zero =>
    have : simplexS 0 s = Set.univ := by
      ext x; simp [simplexS, hs]
    rw [this, setIntegral_univ]
    have h1 : (volume : Measure (Fin 0 → ℝ)) = Measure.dirac (fun i => i.elim0) := by
      rw [volume_pi]
      exact Measure.pi_of_empty _ _
    rw [h1, integral_dirac]
    have : (b.factorial : ℝ) ≠ 0 := by positivity
    simp [mono, this]
  | succ n ih =>
    rw [integral_simplexS_succ s hs (by unfold mono; fun_prop)]
    have h1 : ∀ t ∈ Set.uIcc 0 s, (∫ y in simplexS n (s - t),
        (s - ∑ i, (Fin.cons t y : Fin (n + 1) → ℝ) i) ^ b * mono a (Fin.cons t y)) =
        (b.factorial * ∏ i, ((a (Fin.succ i)).factorial : ℝ)) /
          (n + b + ∑ i, a (Fin.succ i)).factorial *
          (t ^ a 0 * (s - t) ^ (n + b + ∑ i, a (Fin.succ i))) := by
      intro t ht
      rw [Set.uIcc_of_le hs] at ht
      have := ih (fun i => a i.succ) b (s - t) (by linarith [ht.2])
      rw [mul_left_comm, ← this, ← integral_const_mul]
      congr 1
      funext y
      simp only [mono, Fin.sum_univ_succ, Fin.prod_univ_succ, Fin.cons_zero, Fin.cons_succ]
      rw [sub_add_eq_sub_sub]
      ring
    rw [intervalIntegral.integral_congr h1, intervalIntegral.integral_const_mul, beta_pow,
      Fin.prod_univ_succ, Fin.sum_univ_succ]
    have h2 : a 0 + (n + b + ∑ i : Fin n, a i.succ) + 1 = n + 1 + b + (a 0 + ∑ i : Fin n, a i.succ) := by
      ring
    rw [h2]
    have h3 : ((n + b + ∑ i : Fin n, a i.succ).factorial : ℝ) ≠ 0 := by positivity
    have h4 : ((n + 1 + b + (a 0 + ∑ i : Fin n, a i.succ)).factorial : ℝ) ≠ 0 := by positivity
    field_simp

theorem unitSimplex_eq (n : ℕ) : Spec.unitSimplex n = simplexS n 1 := rfl

/-- Moments of the unit simplex. -/
theorem simplex_mono {n : ℕ} (a : Fin n → ℕ) :
    Spec.simplex n (mono a) = (∏ i, ((a i).factorial : ℝ)) / (n + ∑ i, a i).factorial := by
  have := dirichlet a 0 1 zero_le_one
  simp only [pow_zero, one_mul, Nat.factorial_zero, Nat.cast_one, add_zero, one_pow, mul_one] at this
  exact this

theorem simplex_linOnMono (n : ℕ) : LinOnMono (Spec.simplex n) := by
  apply linOnMono_integral_one
  intro α
  exact integrableOn_simplexS 1 (by unfold mono; fun_prop)

end Quadpy
