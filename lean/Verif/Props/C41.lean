import Verif.Props.C36
import Verif.Props.C38
import Verif.Props.C10
import Mathlib.Topology.Algebra.Polynomial

/-!
# C41: adaptive integration is exact for polynomials
-/

namespace Quadpy
namespace Adaptive

open Spec Polynomial

set_option linter.unusedSectionVars false

variable {ι : Type} [Fintype ι]

theorem odds_map {α β : Type} (g : α → β) : ∀ L : List α, odds (L.map g) = (odds L).map g
  | [] => rfl
  | [_] => rfl
  | _ :: b :: t => by simp [odds, odds_map g t]

/-- The Gauss value of an interval is that of `C1Scheme.integrate` with the Gauss rule, when the
odd-numbered Kronrod points are the Gauss points. -/
theorem valGauss_eq (G : GK) (f : (Unit → ℝ) → ι → ℝ) (I : Ivl Unit) (i : ι) :
    valGauss G f I i =
      C1.integrate1 (odds G.pts) G.glW (fun x => f (fun _ => x) i) (I.1 ()) (I.2 ()) := by
  simp only [valGauss, C1.integrate1, C1.integrate, odds_map]

/-- Whatever the history of accepted and rejected intervals: if the call returns, the value is the
exact integral of every (vector of) polynomials of the degree of the Gauss rule.  The Gauss rule
`gauss_legendre(k)` consists of the points with odd number of the Kronrod rule and its own weights,
its degree is `2 k - 1` (contract `ExactC1`). -/
theorem C41_exact (G : GK) (d : ℕ) (hG : ExactC1 (odds G.pts) G.glW d) (c : Config)
    (p : ι → ℝ[X]) (hp : ∀ i, (p i).natDegree ≤ d) (a b : ℝ) (fuel : ℕ) (v e : ι → ℝ)
    (h : integrateAdaptive (δ := Unit) G c (fun x i => (p i).eval (x ()))
      [(fun _ => a, fun _ => b)] fuel = .returned v e) :
    ∀ i, v i = ∫ x in a..b, (p i).eval x := by
  intro i
  have hab : a ≤ b := by
    have := (integrate_returned h).1
    simpa using this
  obtain ⟨L, hL, hv, -⟩ := C36_returned _ _ _ _ _ _ _ h
  have hin := C36_bisection_inside hL hab
  rw [hv i, ← C36_bisection_additive (fun x y => ∫ t in x..y, (p i).eval t) (fun x m y =>
    intervalIntegral.integral_add_adjacent_intervals
      ((p i).continuous.intervalIntegrable _ _) ((p i).continuous.intervalIntegrable _ _)) hL]
  refine congrArg List.sum (List.map_congr_left fun J hJ => ?_)
  rw [valGauss_eq]
  exact C1.C10_exact _ _ d hG (p i) (hp i) _ _ (hin J hJ).2.1

/-- Application to C38: the integral of `x` over `[-1, 1]` is zero, and with a relative tolerance
only, `integrate_adaptive` never stops on it. -/
theorem C38_zero_integral_example (G : GK) (hG : ExactC1 (odds G.pts) G.glW 1)
    (hw : ∀ w ∈ G.gkW, 0 ≤ w) (eps m : ℝ) (hm : 1 ≤ m) (r : ℕ) :
    ∃ s, integrateAdaptive (δ := Unit) (ι := Unit) G ⟨none, some eps, npAny, 0, some m⟩
      (fun x _ => x ()) [(fun _ => -1, fun _ => 1)] r = .running s ∧ s.bad.length = 2 ^ r := by
  refine C38_unbounded_zero_integral G hw _ _ (fun _ => by norm_num) eps m hm () (fun L hL => ?_) r
  have hin := C36_bisection_inside hL (by norm_num)
  have h0 : (L.map fun J => ∫ t in J.1 ()..J.2 (), t).sum = ∫ t in (-1 : ℝ)..1, t :=
    C36_bisection_additive (fun x y => ∫ t in x..y, t) (fun x m y =>
    intervalIntegral.integral_add_adjacent_intervals
      (continuous_id.intervalIntegrable _ _) (continuous_id.intervalIntegrable _ _)) hL
  have h1 : (∫ t in (-1 : ℝ)..1, t) = 0 := by simp
  rw [h1] at h0
  rw [← h0]
  refine congrArg List.sum (List.map_congr_left fun J hJ => ?_)
  rw [valGauss_eq]
  have := C1.C10_exact _ _ 1 hG X (by simp) _ _ (hin J hJ).2.1
  simpa using this

/-- The contracts are met: the three-point Simpson rule as "Kronrod" rule of the midpoint rule. -/
example : ExactC1 (odds [-1, 0, 1]) [2] 1 ∧ ∀ w ∈ ([1 / 3, 4 / 3, 1 / 3] : List ℝ), 0 ≤ w := by
  refine ⟨exactC1_of_moments rfl fun k hk => ?_, by simp; norm_num⟩
  interval_cases k <;> norm_num [vdot, odds]

end Adaptive
end Quadpy
