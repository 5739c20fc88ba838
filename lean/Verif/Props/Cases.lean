import Verif.Props.C36
import Verif.Props.C37
import Verif.Props.C38
import Verif.Props.C39
import Verif.Props.C44

/-!
# Concrete cases for C36, C37, C38, C39 and C44: a run of the adaptive integration

`|x|` on `[-1, 1]` with the midpoint rule as Gauss rule and Simpson's rule as Kronrod rule: the first
evaluation is not accurate, the halves are.
-/

namespace Quadpy
namespace Adaptive

noncomputable def caseG : GK := ⟨[-1, 0, 1], [1 / 3, 4 / 3, 1 / 3], [2]⟩
noncomputable def caseF : (Unit → ℝ) → Unit → ℝ := fun x _ => |x ()|
def caseI : Ivl Unit := (fun _ => -1, fun _ => 1)
noncomputable def caseC : Config := ⟨some (1 / 10 ^ 10), none, npAny, 1 / 2, some 10⟩
noncomputable def caseL : Ivl Unit := (caseI.1, fun i => 1 / 2 * (caseI.1 i + caseI.2 i))
noncomputable def caseR : Ivl Unit := (fun i => 1 / 2 * (caseI.1 i + caseI.2 i), caseI.2)

theorem case_left : errEst caseG caseF caseL () = 0 ∧ valGauss caseG caseF caseL () = 1 / 2 ∧
    len caseL = 1 := by
  have h3 : len caseL = 1 := by simp [len, caseL, caseI]
  have h2 : valGauss caseG caseF caseL () = 1 / 2 := by
    rw [valGauss, h3]
    norm_num [caseG, caseF, caseL, caseI, odds, vdot, affine, abs_of_neg]
  refine ⟨C44_zero _ _ _ _ ?_ ?_, h2, h3⟩
  · rw [Itilde, h3]
    norm_num [caseG, caseF, caseL, caseI, average, vdot, affine, abs_of_neg]
  · rw [h2, valKronrod, h3]
    norm_num [caseG, caseF, caseL, caseI, average, vdot, affine, abs_of_neg]

theorem case_right : errEst caseG caseF caseR () = 0 ∧ valGauss caseG caseF caseR () = 1 / 2 ∧
    len caseR = 1 := by
  have h3 : len caseR = 1 := by simp [len, caseR, caseI]
  have h2 : valGauss caseG caseF caseR () = 1 / 2 := by
    rw [valGauss, h3]
    norm_num [caseG, caseF, caseR, caseI, odds, vdot, affine, abs_of_pos]
  refine ⟨C44_zero _ _ _ _ ?_ ?_, h2, h3⟩
  · rw [Itilde, h3]
    norm_num [caseG, caseF, caseR, caseI, average, vdot, affine, abs_of_pos]
  · rw [h2, valKronrod, h3]
    norm_num [caseG, caseF, caseR, caseI, average, vdot, affine, abs_of_pos]

theorem case_init : init caseG caseC caseF [caseI] = ⟨[caseI], fun _ => 0, fun _ => 0, 1, 0⟩ := by
  have h : errEst caseG caseF caseI () = 8 / 9 := C44_example
  have hg : good0 caseG caseC caseF caseI = false := by
    simp only [good0, caseC, npAny]
    simp [h]
    norm_num
  simp only [init, List.filter_cons, List.filter_nil, hg]
  rfl

theorem case_round : round caseG caseC caseF ⟨[caseI], fun _ => 0, fun _ => 0, 1, 0⟩ =
    .next ⟨[], fun _ => 1, fun _ => 0, 1, 2⟩ := by
  obtain ⟨l1, l2, l3⟩ := case_left
  obtain ⟨r1, r2, r3⟩ := case_right
  have hb : bisect [caseI] = [caseL, caseR] := rfl
  have hs : (([caseL, caseR].map len).sum : ℝ) = 2 := by simp [l3, r3]; norm_num
  have gL : ∀ t, goodN caseG caseC caseF t (fun _ => 0) 2 caseL = true := by
    intro t
    simp only [goodN, caseC, npAny, l3]
    simp [l1]
  have gR : ∀ t, goodN caseG caseC caseF t (fun _ => 0) 2 caseR = true := by
    intro t
    simp only [goodN, caseC, npAny, r3]
    simp [r1]
  simp only [round, hb, hs]
  rw [if_neg (by simp [caseC]), if_neg]
  · simp only [List.filter_cons, List.filter_nil, gL, gR]
    simp [total, l1, l2, r1, r2]
    norm_num
  · simp [l3, r3, caseC]
    norm_num

/-- The call is not finished at once; after one round it returns the integral and the error 0. -/
theorem case_run : (∃ s, integrateAdaptive caseG caseC caseF [caseI] 0 = .running s) ∧
    integrateAdaptive caseG caseC caseF [caseI] 1 = .returned (fun _ => 1) (fun _ => 0) := by
  have hc : (∀ I ∈ [caseI], ∀ i, I.1 i ≤ I.2 i) ∧ (caseC.epsAbs.isSome ∨ caseC.epsRel.isSome) := by
    simp [caseI, caseC]
  constructor
  · refine ⟨⟨[caseI], fun _ => 0, fun _ => 0, 1, 0⟩, ?_⟩
    rw [integrateAdaptive, if_pos hc, case_init, loop, if_neg (by simp)]
    rfl
  · rw [integrateAdaptive, if_pos hc, case_init, loop, if_neg (by simp)]
    simp only [case_round]
    simp [loop, reshape]

/-- C36: the value 1 is the sum over a partition of `[-1, 1]`, and not over the trivial one. -/
example : ∃ L : List (Ivl Unit), Spec.Bisection caseI L ∧
    (1 : ℝ) = (L.map fun J => valGauss caseG caseF J ()).sum ∧ L ≠ [caseI] := by
  obtain ⟨L, h1, h2, -⟩ := C36_returned caseG caseC caseF caseI 1 _ _ case_run.2
  refine ⟨L, h1, h2 (), ?_⟩
  rintro rfl
  have := h2 ()
  simp [valGauss, caseG, caseF, caseI, odds, vdot, affine] at this

/-- C37 -/
example : (0 : ℝ) < 1 / 10 ^ 10 :=
  C37_abs caseG caseC caseF caseI 1 _ _ _ rfl rfl (.inl rfl) case_run.2 ()

/-- C39: the parts are not shorter than a half. -/
example : ∃ L : List (Ivl Unit), Spec.Bisection caseI L ∧ ∀ J ∈ L, J = caseI ∨ 1 / 2 ≤ len J := by
  obtain ⟨L, h1, -, h3⟩ := C39_min_length caseG caseC caseF caseI 1 _ _ case_run.2
  exact ⟨L, h1, h3⟩

/-- C39: no call with this configuration runs for more than three rounds, whatever the integrand. -/
example (f : (Unit → ℝ) → Unit → ℝ) (s : State Unit Unit) :
    integrateAdaptive caseG caseC f [caseI] 3 ≠ .running s := by
  refine C39_stops caseG caseC f caseI 3 (by norm_num) ?_ s
  have : len caseI = 2 := by
    simp [len, caseI]; norm_num
  rw [this]
  norm_num [caseC]

/-- C38: with `eps_abs = 0` a call for `|x|` on `[-1, 1]` has `2 ^ 20` pending intervals after 20 rounds, although
one subinterval was allowed. -/
example : ∃ s, integrateAdaptive caseG ⟨some 0, none, npAny, 0, some 1⟩ caseF [caseI] 20 = .running s ∧
    s.bad.length = 1048576 := by
  obtain ⟨s, h1, h2⟩ := C38_unbounded_eps_zero caseG (by simp [caseG]; norm_num) caseF caseI
    (by simp [caseI]) 1 le_rfl 20
  exact ⟨s, h1, by rw [h2]; norm_num⟩

end Adaptive
end Quadpy
