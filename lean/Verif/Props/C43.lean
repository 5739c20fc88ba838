import Verif.Model.Quad
import Verif.Props.C41
import Mathlib.MeasureTheory.Function.Jacobian
import Mathlib.Analysis.Calculus.Deriv.Inv
import Mathlib.MeasureTheory.Integral.IntegralEqImproper

/-!
# C43: quad, reversed and infinite ranges
-/

namespace Quadpy
namespace Quad

open Adaptive MeasureTheory Set

theorem returned_same {G : GK} {c : Config} {f : (Unit → ℝ) → Unit → ℝ} {a : ℝ} {fuel : ℕ}
    {v e : Unit → ℝ} (h : integrateAdaptive G c f [(fun _ => a, fun _ => a)] fuel = .returned v e) :
    v () = 0 := by
  obtain ⟨L, hL, hv, -⟩ := C36_returned _ _ _ _ _ _ _ h
  have hin := C36_bisection_inside hL le_rfl
  rw [hv]
  have : ∀ x ∈ L.map (fun J => valGauss G f J ()), x = 0 := by
    intro x hx
    obtain ⟨J, hJ, rfl⟩ := List.mem_map.1 hx
    have h1 := hin J hJ
    simp only at h1
    have : J.2 () - J.1 () = 0 := by linarith [h1.1, h1.2.1, h1.2.2]
    simp [valGauss, C1.len_unit, this]
  exact List.sum_eq_zero this

/-- Finite limits in any order: if `quad(f, a, b)` returns `(v, e)`, then `quad(f, b, a)` returns
`(-v, e)`. -/
theorem C43_reversed (G : GK) (f : ℝ → List ℝ → ℝ) (a b : ℝ) (args : List ℝ)
    (epsabs epsrel limit : ℝ) (fuel : ℕ) (v e : ℝ)
    (h : quad G f (.fin a) (.fin b) args epsabs epsrel limit fuel = .returned v e) :
    quad G f (.fin b) (.fin a) args epsabs epsrel limit fuel = .returned (-v) e := by
  rcases lt_trichotomy a b with hab | rfl | hab
  · simp only [quad, setup, gt_iff_lt, not_lt.2 hab.le, if_false, hab, if_true] at h ⊢
    split at h
    · rename_i v' e' hv
      simp only [Outcome.returned.injEq, Bool.false_eq_true, if_false] at h
      simp [← h.1, ← h.2]
    · cases h
  · have h' := h
    simp only [quad, setup, gt_iff_lt, lt_irrefl, if_false] at h'
    split at h'
    · rename_i v' e' hv
      simp only [Outcome.returned.injEq, Bool.false_eq_true, if_false] at h'
      have h0 := returned_same hv
      rw [← h'.1] at h ⊢
      rw [h0] at h ⊢
      rw [neg_zero]
      exact h
    · cases h'
  · simp only [quad, setup, gt_iff_lt, not_lt.2 hab.le, if_false, hab, if_true] at h ⊢
    split at h
    · rename_i v' e' hv
      simp only [Outcome.returned.injEq, if_true] at h
      simp [← h.1, ← h.2]
    · cases h

/-- The sign rule fails for infinite limits: `quad(f, +inf, b)`, `quad(f, a, -inf)` and
`quad(f, +inf, -inf)` never return a value, whatever the integrand. -/
theorem C43_reversed_infinite_fails (G : GK) (f : ℝ → List ℝ → ℝ) (a b : Lim) (args : List ℝ)
    (hab : a = .posInf ∨ b = .negInf) (epsabs epsrel limit : ℝ) (fuel : ℕ) :
    quad G f a b args epsabs epsrel limit fuel = .other := by
  rcases hab with rfl | rfl
  · cases b <;> rfl
  · cases a <;> rfl

theorem image_right (x : ℝ) : (fun t : ℝ => x + (1 - t) / t) '' Ioc 0 1 = Ici x := by
  ext y
  simp only [mem_image, mem_Ioc, mem_Ici]
  constructor
  · rintro ⟨t, ⟨h0, h1⟩, rfl⟩
    have : 0 ≤ (1 - t) / t := div_nonneg (by linarith) h0.le
    linarith
  · intro hy
    refine ⟨1 / (1 + (y - x)), ⟨by have : 0 < 1 + (y - x) := by linarith
                                   positivity, ?_⟩, ?_⟩
    · rw [div_le_one (by linarith)]; linarith
    · have : 1 + (y - x) ≠ 0 := by linarith
      field_simp
      ring

theorem image_left (x : ℝ) : (fun t : ℝ => x - (1 - t) / t) '' Ioc 0 1 = Iic x := by
  ext y
  simp only [mem_image, mem_Ioc, mem_Iic]
  constructor
  · rintro ⟨t, ⟨h0, h1⟩, rfl⟩
    have : 0 ≤ (1 - t) / t := div_nonneg (by linarith) h0.le
    linarith
  · intro hy
    refine ⟨1 / (1 + (x - y)), ⟨by have : 0 < 1 + (x - y) := by linarith
                                   positivity, ?_⟩, ?_⟩
    · rw [div_le_one (by linarith)]; linarith
    · have : 1 + (x - y) ≠ 0 := by linarith
      field_simp
      ring

theorem deriv_sub {t : ℝ} (ht : 0 < t) : HasDerivAt (fun t : ℝ => (1 - t) / t) (-1 / t ^ 2) t := by
  have h := ((hasDerivAt_const t (1 : ℝ)).sub (hasDerivAt_id t)).div (hasDerivAt_id t) ht.ne'
  refine (h.congr_deriv ?_)
  simp only [id, Pi.sub_apply]
  field_simp
  ring

theorem inj_right (x : ℝ) : InjOn (fun t : ℝ => x + (1 - t) / t) (Ioc 0 1) := by
  intro s hs t ht h
  have h1 := hs.1; have h2 := ht.1
  simp only [add_right_inj] at h
  rw [div_eq_div_iff h1.ne' h2.ne'] at h
  linarith

theorem inj_left (x : ℝ) : InjOn (fun t : ℝ => x - (1 - t) / t) (Ioc 0 1) := by
  intro s hs t ht h
  have h1 := hs.1; have h2 := ht.1
  simp only [sub_right_inj] at h
  rw [div_eq_div_iff h1.ne' h2.ne'] at h
  linarith

theorem abs_deriv {t : ℝ} : |-1 / t ^ 2| = 1 / t ^ 2 := by
  rw [abs_div, abs_neg, abs_one, abs_of_nonneg (by positivity)]

theorem subst_right (h : ℝ → ℝ) (x : ℝ) :
    ∫ t in Ioc (0 : ℝ) 1, h (x + (1 - t) / t) / t ^ 2 = ∫ y in Ici x, h y := by
  rw [← image_right x, integral_image_eq_integral_abs_deriv_smul measurableSet_Ioc
    (f' := fun t => -1 / t ^ 2)
    (fun t ht => ((deriv_sub ht.1).const_add x).hasDerivWithinAt) (inj_right x)]
  refine setIntegral_congr_fun measurableSet_Ioc fun t ht => ?_
  simp only [abs_deriv, smul_eq_mul]
  ring

theorem subst_left (h : ℝ → ℝ) (x : ℝ) :
    ∫ t in Ioc (0 : ℝ) 1, h (x - (1 - t) / t) / t ^ 2 = ∫ y in Iic x, h y := by
  rw [← image_left x, integral_image_eq_integral_abs_deriv_smul measurableSet_Ioc
    (f' := fun t => -(-1 / t ^ 2))
    (fun t ht => ((deriv_sub ht.1).const_sub x).hasDerivWithinAt) (inj_left x)]
  refine setIntegral_congr_fun measurableSet_Ioc fun t ht => ?_
  simp only [abs_neg, abs_deriv, smul_eq_mul]
  ring

theorem integrable_right (h : ℝ → ℝ) (x : ℝ) (hi : IntegrableOn h (Ici x)) :
    IntegrableOn (fun t => h (x + (1 - t) / t) / t ^ 2) (Ioc 0 1) := by
  rw [← image_right x, integrableOn_image_iff_integrableOn_abs_deriv_smul measurableSet_Ioc
    (f' := fun t => -1 / t ^ 2)
    (fun t ht => ((deriv_sub ht.1).const_add x).hasDerivWithinAt) (inj_right x)] at hi
  refine hi.congr_fun (fun t ht => ?_) measurableSet_Ioc
  simp only [abs_deriv, smul_eq_mul]
  ring

theorem integrable_left (h : ℝ → ℝ) (x : ℝ) (hi : IntegrableOn h (Iic x)) :
    IntegrableOn (fun t => h (x - (1 - t) / t) / t ^ 2) (Ioc 0 1) := by
  rw [← image_left x, integrableOn_image_iff_integrableOn_abs_deriv_smul measurableSet_Ioc
    (f' := fun t => -(-1 / t ^ 2))
    (fun t ht => ((deriv_sub ht.1).const_sub x).hasDerivWithinAt) (inj_left x)] at hi
  refine hi.congr_fun (fun t ht => ?_) measurableSet_Ioc
  simp only [abs_neg, abs_deriv, smul_eq_mul]
  ring

/-- The set of reals between two limits. -/
def range : Lim → Lim → Set ℝ
  | .negInf, .posInf => univ
  | .fin x, .posInf => Ici x
  | .negInf, .fin y => Iic y
  | .fin x, .fin y => Icc x y
  | _, _ => ∅

/-- Whenever `quad` hands an integrand `g` on `[a', b']` to the adaptive routine, the integral of `g`
over `[a', b']` is the integral of `f` over the requested range; for the range from minus to plus
infinity this holds when there are no extra arguments.  `a ≤ b` for finite limits. -/
theorem C43_substitution (f : ℝ → List ℝ → ℝ) (a b : Lim) (args : List ℝ)
    (hi : IntegrableOn (fun x => f x args) (range a b))
    (hargs : a = .negInf → b = .posInf → args = [])
    (hab : ∀ x y, a = .fin x → b = .fin y → x ≤ y)
    (g : ℝ → ℝ) (a' b' : ℝ) (s : Bool) (h : setup f a b args = .ok g a' b' s) :
    s = false ∧ a' ≤ b' ∧ ∫ t in a'..b', g t = ∫ x in range a b, f x args := by
  cases a with
  | posInf => cases b <;> simp [setup] at h
  | negInf =>
    cases b with
    | negInf => simp [setup] at h
    | fin y =>
      simp only [setup, Setup.ok.injEq] at h
      obtain ⟨rfl, rfl, rfl, rfl⟩ := h
      refine ⟨rfl, zero_le_one, ?_⟩
      rw [intervalIntegral.integral_of_le zero_le_one]
      exact subst_left (fun x => f x args) y
    | posInf =>
      simp only [setup, Setup.ok.injEq] at h
      obtain ⟨rfl, rfl, rfl, rfl⟩ := h
      refine ⟨rfl, zero_le_one, ?_⟩
      rw [hargs rfl rfl] at hi ⊢
      simp only [range, setIntegral_univ, integrableOn_univ] at hi ⊢
      rw [intervalIntegral.integral_of_le zero_le_one]
      have e1 := subst_right (fun x => f x []) 0
      have e2 := subst_left (fun x => f x []) 0
      have i1 := integrable_right (fun x => f x []) 0 hi.integrableOn
      have i2 := integrable_left (fun x => f x []) 0 hi.integrableOn
      simp only [zero_add, zero_sub] at e1 e2 i1 i2
      have : ∀ t : ℝ, (f ((1 - t) / t) [] + f (-(1 - t) / t) []) / t ^ 2 =
          f ((1 - t) / t) [] / t ^ 2 + f (-((1 - t) / t)) [] / t ^ 2 := by
        intro t
        rw [add_div, neg_div]
      simp only [this]
      rw [integral_add i1 i2, e1, e2, integral_Ici_eq_integral_Ioi, add_comm,
        intervalIntegral.integral_Iic_add_Ioi hi.integrableOn hi.integrableOn]
  | fin x =>
    cases b with
    | negInf => simp [setup] at h
    | posInf =>
      simp only [setup, Setup.ok.injEq] at h
      obtain ⟨rfl, rfl, rfl, rfl⟩ := h
      refine ⟨rfl, zero_le_one, ?_⟩
      rw [intervalIntegral.integral_of_le zero_le_one]
      exact subst_right (fun x => f x args) x
    | fin y =>
      have hxy := hab x y rfl rfl
      simp only [setup, gt_iff_lt, not_lt.2 hxy, if_false, Setup.ok.injEq] at h
      obtain ⟨rfl, rfl, rfl, rfl⟩ := h
      refine ⟨rfl, hxy, ?_⟩
      rw [intervalIntegral.integral_of_le hxy, range, integral_Icc_eq_integral_Ioc]

/-- Extra arguments are lost on the range from minus to plus infinity: the negative half is
integrated without them.  For `f(x, c) = c` on `[-1, 1]` and zero elsewhere (and zero when the
argument is missing) the substituted integrand has integral 1 while `f(., 1)` has integral 2. -/
theorem C43_args_dropped :
    ∃ (f : ℝ → List ℝ → ℝ) (args : List ℝ) (g : ℝ → ℝ),
      Integrable (fun x => f x args) ∧ setup f .negInf .posInf args = .ok g 0 1 false ∧
      ∫ t in (0 : ℝ)..1, g t = 1 ∧ ∫ x, f x args = 2 := by
  refine ⟨fun x l => (Icc (-1 : ℝ) 1).indicator (fun _ => l.sum) x, [1], _, ?_, rfl, ?_, ?_⟩
  · simp only [List.sum_singleton]
    rw [integrable_indicator_iff measurableSet_Icc]
    exact integrableOn_const (by simp)
  · have e1 := subst_right (fun x => (Icc (-1 : ℝ) 1).indicator (fun _ => 1) x) 0
    simp only [List.sum_singleton, List.sum_nil, zero_add] at e1 ⊢
    rw [intervalIntegral.integral_of_le zero_le_one]
    simp only [indicator_zero, add_zero]
    rw [e1, setIntegral_indicator measurableSet_Icc]
    have : Ici (0 : ℝ) ∩ Icc (-1) 1 = Icc 0 1 := by
      ext x; simp only [mem_inter_iff, mem_Ici, mem_Icc]
      constructor
      · rintro ⟨h1, h2, h3⟩; exact ⟨h1, h3⟩
      · rintro ⟨h1, h2⟩; exact ⟨h1, by linarith, h2⟩
    rw [this]
    simp
  · simp only [List.sum_singleton]
    rw [integral_indicator measurableSet_Icc]
    simp
    norm_num

/-- The hypotheses of the substitution theorem are met, for example by a bump on the half line. -/
example : IntegrableOn (fun x => (fun (x : ℝ) (_ : List ℝ) => (Icc (-1 : ℝ) 1).indicator
    (fun _ => (1 : ℝ)) x) x []) (range (.fin 0) .posInf) := by
  refine Integrable.integrableOn ?_
  rw [integrable_indicator_iff measurableSet_Icc]
  exact integrableOn_const (by simp)

end Quad
end Quadpy
