import Verif.Lemmas.AdaptiveLoop

/-!
# C36: adaptive integration covers the requested interval exactly
-/

namespace Quadpy
namespace Adaptive

open Spec

set_option linter.unusedSectionVars false

variable {δ ι : Type} [Fintype δ] [Fintype ι]

/-- At every moment (after any number of rounds), the accepted intervals `acc` and the pending ones
together are a partition by bisection of the requested intervals, and the two running sums are the
sums over the accepted intervals. -/
theorem C36_running (G : GK) (c : Config) (f : (δ → ℝ) → ι → ℝ) (Is : List (Ivl δ)) (fuel : ℕ)
    (s : State δ ι) (h : integrateAdaptive G c f Is fuel = .running s) :
    ∃ acc : List (Ivl δ), Bisections Is (acc ++ s.bad) ∧
      (∀ i, s.values i = (acc.map fun J => valGauss G f J i).sum) ∧
      (∀ i, s.errors i = (acc.map fun J => errEst G f J i).sum) := by
  obtain ⟨h1, -⟩ := loop_running (integrate_running h)
  obtain ⟨acc, hi⟩ := reach_inv h1 _ (inv_init G c f Is)
  exact ⟨_, hi.part, fun i => by rw [hi.vals]; rfl, fun i => by rw [hi.errs]; rfl⟩

/-- When the call returns, the value is the sum of the Gauss values over a partition of the interval
by bisection, and the error is the sum of the error estimates over the same partition. -/
theorem C36_returned (G : GK) (c : Config) (f : (δ → ℝ) → ι → ℝ) (I : Ivl δ) (fuel : ℕ)
    (v e : ι → ℝ) (h : integrateAdaptive G c f [I] fuel = .returned v e) :
    ∃ L : List (Ivl δ), Bisection I L ∧
      (∀ i, v i = (L.map fun J => valGauss G f J i).sum) ∧
      (∀ i, e i = (L.map fun J => errEst G f J i).sum) := by
  obtain ⟨-, -, -, h⟩ := integrate_returned h
  obtain ⟨k, s, -, h1, hb, rfl, rfl⟩ := loop_returned h
  obtain ⟨acc, hi⟩ := reach_inv h1 _ (inv_init G c f [I])
  obtain ⟨Ls, h2, h3⟩ := hi.part
  cases h2 with
  | cons h4 h5 =>
    cases h5
    rw [hb, List.append_nil] at h3
    simp only [List.flatten_cons, List.flatten_nil, List.append_nil] at h3
    refine ⟨_, h4, fun i => ?_, fun i => ?_⟩
    · rw [hi.vals, total_perm _ h3]; rfl
    · rw [hi.errs, total_perm _ h3]; rfl

/-- What a partition by bisection means on the real line: for every additive interval function (for
example the integral of `g`) the total over the parts is the value of the whole. -/
theorem C36_bisection_additive (F : ℝ → ℝ → ℝ) (hF : ∀ a m b, F a m + F m b = F a b)
    {I : Ivl Unit} {L : List (Ivl Unit)} (h : Bisection I L) :
    (L.map fun J => F (J.1 ()) (J.2 ())).sum = F (I.1 ()) (I.2 ()) := by
  induction h with
  | whole I => simp
  | cut a b L R _ _ ih1 ih2 => rw [List.map_append, List.sum_append, ih1, ih2, hF]

/-- The parts are ordered intervals inside the requested one. -/
theorem C36_bisection_inside {I : Ivl Unit} {L : List (Ivl Unit)} (h : Bisection I L)
    (hI : I.1 () ≤ I.2 ()) : ∀ J ∈ L, I.1 () ≤ J.1 () ∧ J.1 () ≤ J.2 () ∧ J.2 () ≤ I.2 () := by
  induction h with
  | whole I => simpa using hI
  | cut a b L R _ _ ih1 ih2 =>
    intro J hJ
    simp only [mid] at ih1 ih2 hI ⊢
    rcases List.mem_append.1 hJ with hJ | hJ
    · have := ih1 (by linarith) J hJ
      exact ⟨this.1, this.2.1, by linarith [this.2.2]⟩
    · have := ih2 (by linarith) J hJ
      exact ⟨by linarith [this.1], this.2.1, this.2.2⟩

end Adaptive
end Quadpy
