import Verif.Props.C37

/-!
# C40: adaptive integration of several intervals

The property is false: for two or more intervals the call never returns.  If the loop ends, the final
reshape fails.
-/

namespace Quadpy
namespace Adaptive

set_option linter.unusedSectionVars false

variable {δ ι : Type} [Fintype δ] [Fintype ι]

/-- No call with two or more intervals (or with none) returns a value, for every integrand with at
least one component, every tolerance and every history. -/
theorem C40_never_returns [Nonempty ι] (G : GK) (c : Config) (f : (δ → ℝ) → ι → ℝ)
    (Is : List (Ivl δ)) (hIs : Is.length ≠ 1) (fuel : ℕ) (v e : ι → ℝ) :
    integrateAdaptive G c f Is fuel ≠ .returned v e := by
  intro h
  have h1 := (integrate_returned h).2.2.1
  have h2 : 0 < Fintype.card ι := Fintype.card_pos
  exact hIs (Nat.eq_of_mul_eq_mul_left h2 (by omega))

/-- When the loop has accepted everything, the call for several intervals ends with the numpy reshape
error. -/
theorem C40_reshape_error [Nonempty ι] (G : GK) (c : Config) (f : (δ → ℝ) → ι → ℝ)
    (Is : List (Ivl δ)) (hIs : Is.length ≠ 1) (hI : ∀ I ∈ Is, ∀ i, I.1 i ≤ I.2 i)
    (he : c.epsAbs.isSome ∨ c.epsRel.isSome) (fuel : ℕ)
    (h : ∃ v e, loop G c f fuel (init G c f Is) = .returned v e) :
    integrateAdaptive G c f Is fuel = .reshapeError := by
  obtain ⟨v, e, h⟩ := h
  have h2 : 0 < Fintype.card ι := Fintype.card_pos
  rw [integrateAdaptive, if_pos ⟨hI, he⟩, h, reshape, if_neg]
  intro h3
  exact hIs (Nat.eq_of_mul_eq_mul_left h2 (by omega))

/-- The case is met by the simplest call: the constant 1 on `[0, 1]` and `[1, 2]` with the defaults
`eps_abs = eps_rel = 1e-10`: both intervals are accepted at once (their error estimate is zero), and
the call fails. -/
example : integrateAdaptive (δ := Unit) (ι := Unit) ⟨[-1, 0, 1], [1 / 3, 4 / 3, 1 / 3], [2]⟩
    ⟨some (1 / 10 ^ 10), some (1 / 10 ^ 10), npAny, 0, none⟩ (fun _ _ => 1)
    [(fun _ => 0, fun _ => 1), (fun _ => 1, fun _ => 2)] 0 = .reshapeError := by
  have hE : ∀ I : Ivl Unit, ∀ i, errEst ⟨[-1, 0, 1], [1 / 3, 4 / 3, 1 / 3], [2]⟩
      (fun _ (_ : Unit) => (1 : ℝ)) I i = 0 := by
    intro I i
    have : Itilde ⟨[-1, 0, 1], [1 / 3, 4 / 3, 1 / 3], [2]⟩
      (fun _ (_ : Unit) => (1 : ℝ)) I i = 0 := by
      simp [Itilde, average, vdot]
      right
      norm_num
    rw [errEst, this, mul_zero]
  refine C40_reshape_error _ _ _ _ (by simp) ?_ (by simp) 0 ?_
  · intro I hI
    simp at hI
    rcases hI with rfl | rfl <;> simp
  · rw [loop, if_pos]
    · exact ⟨_, _, rfl⟩
    have hg : ∀ I : Ivl Unit, good0 ⟨[-1, 0, 1], [1 / 3, 4 / 3, 1 / 3], [2]⟩
        ⟨some (1 / 10 ^ 10), some (1 / 10 ^ 10), npAny, 0, none⟩ (fun _ (_ : Unit) => (1 : ℝ)) I
        = true := by
      intro I
      simp only [good0, hE, npAny]
      norm_num
    simp only [init, hg]
    rfl

end Adaptive
end Quadpy
