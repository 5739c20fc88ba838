import Verif.Props.C37

/-!
# C39: adaptive integration respects minimum_interval_length
-/

namespace Quadpy
namespace Adaptive

open Spec

set_option linter.unusedSectionVars false

variable {δ ι : Type} [Fintype δ] [Fintype ι]

/-- After `k` rounds all pending intervals have length `len I / 2^k`. -/
theorem reach_len {G : GK} {c : Config} {f : (δ → ℝ) → ι → ℝ} {I : Ivl δ} {k : ℕ}
    {s : State δ ι} (h : Reach G c f (init G c f [I]) k s) :
    ∀ J ∈ s.bad, len J = len I / 2 ^ k := by
  induction h with
  | refl =>
    intro J hJ
    simp only [init] at hJ
    have := (List.mem_filter.1 hJ).1
    simp only [List.mem_singleton] at this
    rw [this]; simp
  | tail _ h2 ih =>
    intro J hJ
    obtain ⟨-, -, rfl⟩ := round_next h2.2
    obtain ⟨J', h3, h4⟩ := mem_bisect (List.mem_filter.1 hJ).1
    rw [h4, ih J' h3, pow_succ]
    field_simp

theorem reach_inv_min {G : GK} {c : Config} {f : (δ → ℝ) → ι → ℝ} {I : Ivl δ} {k : ℕ}
    {s : State δ ι} (h : Reach G c f (init G c f [I]) k s) :
    ∃ acc, Inv G f [I] s acc ∧ ∀ J ∈ acc, J = I ∨ c.minLen ≤ len J := by
  induction h with
  | refl =>
    refine ⟨_, inv_init G c f [I], fun J hJ => Or.inl ?_⟩
    simpa using (List.mem_filter.1 hJ).1
  | tail _ h2 ih =>
    obtain ⟨acc, hi, ha⟩ := ih
    obtain ⟨acc', hi', e⟩ := inv_round hi h2.2
    refine ⟨_, hi', fun J hJ => ?_⟩
    rcases List.mem_append.1 hJ with hJ | hJ
    · exact ha J hJ
    · rw [e] at hJ
      exact Or.inr ((round_next h2.2).2.1 J (List.mem_filter.1 hJ).1)

/-- The result is the sum over a partition whose parts are the requested interval itself or have at
least the minimum length. -/
theorem C39_min_length (G : GK) (c : Config) (f : (δ → ℝ) → ι → ℝ) (I : Ivl δ) (fuel : ℕ)
    (v e : ι → ℝ) (h : integrateAdaptive G c f [I] fuel = .returned v e) :
    ∃ L : List (Ivl δ), Bisection I L ∧ (∀ i, v i = (L.map fun J => valGauss G f J i).sum) ∧
      ∀ J ∈ L, J = I ∨ c.minLen ≤ len J := by
  obtain ⟨-, -, -, h⟩ := integrate_returned h
  obtain ⟨k, s, -, h1, hb, rfl, rfl⟩ := loop_returned h
  obtain ⟨acc, hi, ha⟩ := reach_inv_min h1
  obtain ⟨Ls, h2, h3⟩ := hi.part
  cases h2 with
  | cons h4 h5 =>
    cases h5
    rw [hb, List.append_nil] at h3
    simp only [List.flatten_cons, List.flatten_nil, List.append_nil] at h3
    refine ⟨_, h4, fun i => ?_, fun J hJ => ha J (h3.mem_iff.2 hJ)⟩
    rw [hi.vals, total_perm _ h3]; rfl

/-- With a positive minimum length the call stops (returns or raises): it is not running any more
after `r ≥ 1` rounds as soon as `len I < 2^r * minimum`, that is `r > log2(len I / minimum)`. -/
theorem C39_stops (G : GK) (c : Config) (f : (δ → ℝ) → ι → ℝ) (I : Ivl δ) (r : ℕ)
    (h1r : 1 ≤ r) (hr : len I < 2 ^ r * c.minLen) (s : State δ ι) :
    integrateAdaptive G c f [I] r ≠ .running s := by
  intro h
  obtain ⟨h1, hb⟩ := loop_running (integrate_running h)
  obtain ⟨J, hJ⟩ := List.exists_mem_of_ne_nil _ hb
  cases h1 with
  | refl => omega
  | @tail k s' _ h2 h3 =>
    obtain ⟨-, h4, rfl⟩ := round_next h3.2
    have h5 := (List.mem_filter.1 hJ).1
    have h6 := h4 J h5
    obtain ⟨J', h7, h8⟩ := mem_bisect h5
    rw [h8, reach_len h2 J' h7, div_div, ← pow_succ] at h6
    rw [le_div_iff₀ (by positivity)] at h6
    linarith

end Adaptive
end Quadpy
