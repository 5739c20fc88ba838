import Verif.Props.C37

/-!
# C38: max_num_subintervals and termination

The property is false: the counter only counts accepted intervals.  With tolerance zero, or with a
relative tolerance only and an integral that is zero, no interval is ever accepted, the counter stays
at one, and the loop doubles the number of subintervals in every round without end.
-/

namespace Quadpy
namespace Adaptive

open Spec

set_option linter.unusedSectionVars false

variable {δ ι : Type} [Fintype δ] [Fintype ι]

/-- If no interval is ever accepted, the loop goes on for ever and the number of subintervals doubles
in every round, whatever `max_num_subintervals ≥ 1` is. -/
theorem never_accepts {G : GK} {c : Config} {f : (δ → ℝ) → ι → ℝ} (I : Ivl δ)
    (hI : ∀ i, I.1 i ≤ I.2 i) (he : c.epsAbs.isSome ∨ c.epsRel.isSome)
    (hm : ∀ m, c.maxSub = some m → 1 ≤ m) (hl : c.minLen ≤ 0)
    (h0 : good0 G c f I = false)
    (hN : ∀ s : State δ ι, s.num = 1 → s.lastGood = 0 → Inv G f [I] s [] →
      ∀ J ∈ bisect s.bad, goodN G c f
        (fun i => s.values i + total (valGauss G f) (bisect s.bad) i) s.errors
        (((bisect s.bad).map len).sum) J = false) (fuel : ℕ) :
    ∃ s, integrateAdaptive G c f [I] fuel = .running s ∧ s.bad.length = 2 ^ fuel := by
  suffices h : ∀ k, ∃ s, Reach G c f (init G c f [I]) k s ∧ s.bad.length = 2 ^ k ∧ s.num = 1 ∧
      s.lastGood = 0 ∧ Inv G f [I] s [] by
    obtain ⟨s, h1, h2, -⟩ := h fuel
    refine ⟨s, ?_, h2⟩
    have h3 := loop_of_reach h1 0
    rw [Nat.add_zero, loop] at h3
    have hb : s.bad ≠ [] := by
      intro hb
      rw [hb] at h2
      exact absurd h2.symm (pow_ne_zero _ two_ne_zero)
    simp only [hb, if_false] at h3
    rw [integrateAdaptive, if_pos ⟨by simpa using hI, he⟩, h3, reshape]
    all_goals simp
  intro k
  induction k with
  | zero =>
    refine ⟨_, .refl, ?_, rfl, ?_, ?_⟩
    · simp [init, h0]
    · simp [init, h0]
    · have := inv_init G c f [I]
      simpa [h0] using this
  | succ k ih =>
    obtain ⟨s, h1, h2, h3, h4, h5⟩ := ih
    have hg := hN s h3 h4 h5
    have hb : s.bad ≠ [] := by
      intro hb
      rw [hb] at h2
      exact absurd h2.symm (pow_ne_zero _ two_ne_zero)
    have hf : (bisect s.bad).filter (fun J => goodN G c f
        (fun i => s.values i + total (valGauss G f) (bisect s.bad) i) s.errors
        (((bisect s.bad).map len).sum) J) = [] := by
      rw [List.filter_eq_nil_iff]
      exact fun J hJ => by simp [hg J hJ]
    have hf' : (bisect s.bad).filter (fun J => !goodN G c f
        (fun i => s.values i + total (valGauss G f) (bisect s.bad) i) s.errors
        (((bisect s.bad).map len).sum) J) = bisect s.bad := by
      rw [List.filter_eq_self]
      exact fun J hJ => by simp [hg J hJ]
    obtain ⟨s', hs'⟩ : ∃ s', round G c f s = .next s' := by
      simp only [round]
      rw [if_neg, if_neg]
      · exact ⟨_, rfl⟩
      · rintro ⟨J, -, hJ⟩
        linarith [len_nonneg J]
      · cases hmx : c.maxSub with
        | none => simp
        | some m =>
          have := hm m hmx
          simp [h3, h4, this]
    refine ⟨s', .tail h1 ⟨hb, hs'⟩, ?_⟩
    obtain ⟨acc', hi, ha⟩ := inv_round h5 hs'
    rw [hf] at ha
    subst ha
    obtain ⟨-, -, rfl⟩ := round_next hs'
    refine ⟨?_, ?_, ?_, by simpa using hi⟩
    · simp only [hf', bisect_length, h2]; ring
    · simp only [h3, h4]
    · simp only [hf, List.length_nil]

/-- Refutation 1: with `eps_abs = 0` (and no relative tolerance), for every integrand, interval and
every limit `max_num_subintervals ≥ 1`, the call never stops, and after `r` rounds it works on `2^r`
subintervals. -/
theorem C38_unbounded_eps_zero (G : GK) (hG : ∀ w ∈ G.gkW, 0 ≤ w) [Nonempty ι]
    (f : (δ → ℝ) → ι → ℝ) (I : Ivl δ) (hI : ∀ i, I.1 i ≤ I.2 i) (m : ℝ) (hm : 1 ≤ m) (r : ℕ) :
    ∃ s, integrateAdaptive G ⟨some 0, none, npAny, 0, some m⟩ f [I] r = .running s ∧
      s.bad.length = 2 ^ r := by
  refine never_accepts I hI (by simp) ?_ le_rfl ?_ ?_ r
  · intro m' h
    simp at h
    linarith
  · simp only [good0, npAny, List.append_nil, List.any_cons, List.any_nil, Bool.or_false, id,
      decide_eq_false_iff_not]
    intro h
    obtain ⟨i⟩ := ‹Nonempty ι›
    exact absurd (h i) (not_lt.2 (errEst_nonneg hG I i))
  · intro s _ _ hi J hJ
    simp only [goodN, npAny, List.append_nil, List.any_cons, List.any_nil, Bool.or_false, id,
      decide_eq_false_iff_not]
    rintro ⟨-, h⟩
    obtain ⟨i⟩ := ‹Nonempty ι›
    have := h i
    rw [hi.errs] at this
    simp only [total, List.map_nil, List.sum_nil, sub_zero, zero_mul] at this
    exact absurd this (not_lt.2 (errEst_nonneg hG J i))

/-- Refutation 2: with a relative tolerance only, when the Gauss values over every partition of the
interval add up to zero (as they do for `x` on `[-1, 1]`, see `C38_zero_integral_example`), the call
never stops, for every tolerance and every limit. -/
theorem C38_unbounded_zero_integral (G : GK) (hG : ∀ w ∈ G.gkW, 0 ≤ w)
    (f : (δ → ℝ) → ι → ℝ) (I : Ivl δ) (hI : ∀ i, I.1 i ≤ I.2 i) (eps m : ℝ) (hm : 1 ≤ m) (i : ι)
    (hz : ∀ L, Bisection I L → (L.map fun J => valGauss G f J i).sum = 0) (r : ℕ) :
    ∃ s, integrateAdaptive G ⟨none, some eps, npAny, 0, some m⟩ f [I] r = .running s ∧
      s.bad.length = 2 ^ r := by
  refine never_accepts I hI (by simp) ?_ le_rfl ?_ ?_ r
  · intro m' h
    simp at h
    linarith
  · simp only [good0, npAny, List.nil_append, List.any_cons, List.any_nil, Bool.or_false, id,
      decide_eq_false_iff_not]
    intro h
    have h1 := hz [I] (.whole I)
    simp only [List.map_cons, List.map_nil, List.sum_cons, List.sum_nil, add_zero] at h1
    have := h i
    rw [h1] at this
    simp only [abs_zero, mul_zero] at this
    exact absurd this (not_lt.2 (errEst_nonneg hG I i))
  · intro s _ _ hi J hJ
    simp only [goodN, npAny, List.nil_append, List.any_cons, List.any_nil, Bool.or_false, id,
      decide_eq_false_iff_not]
    rintro ⟨-, h⟩
    have h1 := h i
    obtain ⟨Ls, h2, h3⟩ := bisections_bisect hi.part
    rw [hi.errs, hi.vals] at h1
    cases h2 with
    | cons h4 h5 =>
      cases h5
      simp only [List.nil_append, List.flatten_cons, List.flatten_nil, List.append_nil] at h3
      rw [total_perm (valGauss G f) h3] at h1
      have h6 := hz _ h4
      simp only [total, List.map_nil, List.sum_nil, sub_zero, zero_add, h6, abs_zero, mul_zero,
        zero_mul] at h1
      exact absurd h1 (not_lt.2 (errEst_nonneg hG J i))

/-- What does hold: the error "max_num_subintervals reached" is only raised when the intervals
accepted so far are really too many (at least the limit), and otherwise the intervals accepted before
the last evaluation are fewer than the limit.  Missing: the pending intervals, which the code does
not count. -/
theorem C38_limit_partial (G : GK) (c : Config) (f : (δ → ℝ) → ι → ℝ) (Is : List (Ivl δ))
    (m : ℝ) (hm : c.maxSub = some m) (fuel : ℕ)
    (h : integrateAdaptive G c f Is fuel = .tooMany) :
    ∃ acc bad : List (Ivl δ), Bisections Is (acc ++ bad) ∧ m < acc.length + 1 ∧ bad ≠ [] := by
  rw [integrateAdaptive] at h
  split_ifs at h
  have h' : loop G c f fuel (init G c f Is) = .tooMany := by
    cases hl : loop G c f fuel (init G c f Is) with
    | returned v e =>
      simp only [hl, reshape] at h
      split_ifs at h
    | tooMany => rfl
    | _ => simp [hl, reshape] at h
  obtain ⟨k, s, -, h1, h2, h3⟩ := loop_tooMany h'
  obtain ⟨acc, hi⟩ := reach_inv h1 _ (inv_init G c f Is)
  refine ⟨_, _, hi.part, ?_, h2⟩
  simp only [round, hm] at h3
  split_ifs at h3 with h4
  have := hi.cnt
  have h5 : ((s.num + s.lastGood : ℕ) : ℝ) =
      1 + (((Is.filter fun I => good0 G c f I) ++ acc).length : ℕ) := by
    rw [this]; push_cast; ring
  push_cast at h4 h5
  linarith

end Adaptive
end Quadpy
