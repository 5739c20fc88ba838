import Verif.Props.C36

/-!
# C37: adaptive integration respects the tolerance it is given
-/

namespace Quadpy
namespace Adaptive

open Spec

set_option linter.unusedSectionVars false

variable {δ ι : Type} [Fintype δ] [Fintype ι]

/-- `np.any` and `np.all` as `criteria_connection`. -/
def npAny (l : List Bool) : Bool := l.any id
def npAll (l : List Bool) : Bool := l.all id

/-- When every interval of the last round passes a test of the form
`err < allowance * (length / sum of lengths)`, the total error is below the allowance. -/
theorem sum_lt_allowance (L : List (Ivl δ)) (hL : L ≠ []) (err : Ivl δ → ℝ) (A : ℝ)
    (hs : (L.map len).sum ≠ 0)
    (h : ∀ I ∈ L, err I < A * (len I / (L.map len).sum)) : (L.map err).sum < A := by
  have h1 : (L.map err).sum < (L.map fun I => A * (len I / (L.map len).sum)).sum :=
    List.sum_lt_sum_of_ne_nil hL _ _ h
  have h2 : (L.map fun I => A * (len I / (L.map len).sum)).sum = A := by
    simp only [div_eq_mul_inv]
    rw [List.sum_map_mul_left, List.sum_map_mul_right, mul_inv_cancel₀ hs, mul_one]
  rwa [h2] at h1

/-- Analysis of a returning call: either the first evaluation accepted the interval, or the last
round accepted all its intervals. -/
theorem returned_cases {G : GK} {c : Config} {f : (δ → ℝ) → ι → ℝ} {I : Ivl δ} {fuel : ℕ}
    {v e : ι → ℝ} (h : integrateAdaptive G c f [I] fuel = .returned v e) :
    (good0 G c f I = true ∧ v = valGauss G f I ∧ e = errEst G f I) ∨
    (∃ s : State δ ι, s.bad ≠ [] ∧ (∀ i, v i = s.values i + total (valGauss G f) (bisect s.bad) i) ∧
      (∀ i, e i = s.errors i + total (errEst G f) (bisect s.bad) i) ∧
      ∀ J ∈ bisect s.bad, goodN G c f v s.errors (((bisect s.bad).map len).sum) J = true) := by
  obtain ⟨-, -, -, h⟩ := integrate_returned h
  obtain ⟨k, s, -, h1, hb, rfl, rfl⟩ := loop_returned h
  cases h1 with
  | refl =>
    left
    simp only [init, List.filter_eq_nil_iff, List.mem_singleton, forall_eq] at hb
    have hg : good0 G c f I = true := by simpa using hb
    refine ⟨hg, ?_, ?_⟩ <;> funext i <;> simp [init, hg, total]
  | @tail k s' _ h2 h3 =>
    right
    obtain ⟨-, -, rfl⟩ := round_next h3.2
    simp only [List.filter_eq_nil_iff] at hb
    have hg : ∀ J ∈ bisect s'.bad, goodN G c f
        (fun i => s'.values i + total (valGauss G f) (bisect s'.bad) i) s'.errors
        (((bisect s'.bad).map len).sum) J = true := fun J hJ => by simpa using hb J hJ
    have hf := List.filter_eq_self.2 hg
    refine ⟨s', h3.1, fun i => ?_, fun i => ?_, ?_⟩
    · simp only [hf]
    · simp only [hf]
    · simp only [hf]
      exact hg

theorem bisect_ne_nil {L : List (Ivl δ)} (h : L ≠ []) : bisect L ≠ [] := by
  intro h'
  have := bisect_length L
  rw [h'] at this
  exact h (List.length_eq_zero_iff.1 (by rw [List.length_nil] at this; omega))

/-- With only an absolute tolerance, the reported error of a returning call is below it. -/
theorem C37_abs (G : GK) (c : Config) (f : (δ → ℝ) → ι → ℝ) (I : Ivl δ) (fuel : ℕ)
    (v e : ι → ℝ) (eps : ℝ) (ha : c.epsAbs = some eps) (hr : c.epsRel = none)
    (hc : c.conn = npAny ∨ c.conn = npAll)
    (h : integrateAdaptive G c f [I] fuel = .returned v e) : ∀ i, e i < eps := by
  have hc1 : ∀ b, c.conn [b] = b := by
    intro b; rcases hc with hc | hc <;> simp [hc, npAny, npAll]
  rcases returned_cases h with ⟨hg, rfl, rfl⟩ | ⟨s, hb, hv, he, hg⟩
  · simpa [good0, ha, hr, hc1] using hg
  · intro i
    simp only [goodN, ha, hr, List.append_nil, hc1, decide_eq_true_eq] at hg
    have hne := bisect_ne_nil hb
    obtain ⟨J, hJ⟩ := List.exists_mem_of_ne_nil _ hne
    have := sum_lt_allowance (bisect s.bad) hne (fun J => errEst G f J i) (eps - s.errors i)
      (hg J hJ).1 (fun J hJ => (hg J hJ).2 i)
    rw [he i, total]
    linarith

/-- With only a relative tolerance, the reported error is below it relative to the reported
value. -/
theorem C37_rel (G : GK) (c : Config) (f : (δ → ℝ) → ι → ℝ) (I : Ivl δ) (fuel : ℕ)
    (v e : ι → ℝ) (eps : ℝ) (ha : c.epsAbs = none) (hr : c.epsRel = some eps)
    (hc : c.conn = npAny ∨ c.conn = npAll)
    (h : integrateAdaptive G c f [I] fuel = .returned v e) : ∀ i, e i < eps * |v i| := by
  have hc1 : ∀ b, c.conn [b] = b := by
    intro b; rcases hc with hc | hc <;> simp [hc, npAny, npAll]
  rcases returned_cases h with ⟨hg, rfl, rfl⟩ | ⟨s, hb, hv, he, hg⟩
  · simpa [good0, ha, hr, hc1] using hg
  · intro i
    simp only [goodN, ha, hr, List.nil_append, hc1, decide_eq_true_eq] at hg
    have hne := bisect_ne_nil hb
    obtain ⟨J, hJ⟩ := List.exists_mem_of_ne_nil _ hne
    have := sum_lt_allowance (bisect s.bad) hne (fun J => errEst G f J i)
      (eps * |v i| - s.errors i) (hg J hJ).1 (fun J hJ => (hg J hJ).2 i)
    rw [he i, total]
    linarith

/-- With both tolerances and `np.any` (the default), the reported error is below the larger of the
absolute tolerance and the relative tolerance times the reported value, in every component. -/
theorem C37_any (G : GK) (c : Config) (f : (δ → ℝ) → ι → ℝ) (I : Ivl δ) (fuel : ℕ)
    (v e : ι → ℝ) (ea er : ℝ) (ha : c.epsAbs = some ea) (hr : c.epsRel = some er)
    (hc : c.conn = npAny)
    (h : integrateAdaptive G c f [I] fuel = .returned v e) : ∀ i, e i < max ea (er * |v i|) := by
  rcases returned_cases h with ⟨hg, rfl, rfl⟩ | ⟨s, hb, hv, he, hg⟩
  · intro i
    simp only [good0, ha, hr, hc, npAny, List.singleton_append, List.any_cons, List.any_nil, id,
      Bool.or_false, Bool.or_eq_true, decide_eq_true_eq] at hg
    rcases hg with hg | hg
    · exact lt_max_of_lt_left (hg i)
    · exact lt_max_of_lt_right (hg i)
  · intro i
    simp only [goodN, ha, hr, hc, npAny, List.singleton_append, List.any_cons, List.any_nil, id,
      Bool.or_false, Bool.or_eq_true, decide_eq_true_eq] at hg
    have hne := bisect_ne_nil hb
    obtain ⟨J, hJ⟩ := List.exists_mem_of_ne_nil _ hne
    have hs : ((bisect s.bad).map len).sum ≠ 0 := by
      rcases hg J hJ with h | h <;> exact h.1
    have hpos : 0 ≤ ((bisect s.bad).map len).sum :=
      List.sum_nonneg fun x hx => by
        obtain ⟨J, -, rfl⟩ := List.mem_map.1 hx
        exact len_nonneg J
    have := sum_lt_allowance (bisect s.bad) hne (fun J => errEst G f J i)
      (max ea (er * |v i|) - s.errors i) hs (fun J hJ => by
        have ht : 0 ≤ len J / ((bisect s.bad).map len).sum := div_nonneg (len_nonneg J) hpos
        rcases hg J hJ with h | h
        · exact (h.2 i).trans_le
            (mul_le_mul_of_nonneg_right (by have := le_max_left ea (er * |v i|); linarith) ht)
        · exact (h.2 i).trans_le
            (mul_le_mul_of_nonneg_right (by have := le_max_right ea (er * |v i|); linarith) ht))
    rw [he i, total]
    linarith

/-- With both tolerances and `np.all`, the reported error is below both bounds. -/
theorem C37_all (G : GK) (c : Config) (f : (δ → ℝ) → ι → ℝ) (I : Ivl δ) (fuel : ℕ)
    (v e : ι → ℝ) (ea er : ℝ) (ha : c.epsAbs = some ea) (hr : c.epsRel = some er)
    (hc : c.conn = npAll)
    (h : integrateAdaptive G c f [I] fuel = .returned v e) : ∀ i, e i < ea ∧ e i < er * |v i| := by
  rcases returned_cases h with ⟨hg, rfl, rfl⟩ | ⟨s, hb, hv, he, hg⟩
  · intro i
    simp only [good0, ha, hr, hc, npAll, List.singleton_append, List.all_cons, List.all_nil, id,
      Bool.and_true, Bool.and_eq_true, decide_eq_true_eq] at hg
    exact ⟨hg.1 i, hg.2 i⟩
  · intro i
    simp only [goodN, ha, hr, hc, npAll, List.singleton_append, List.all_cons, List.all_nil, id,
      Bool.and_true, Bool.and_eq_true, decide_eq_true_eq] at hg
    have hne := bisect_ne_nil hb
    obtain ⟨J, hJ⟩ := List.exists_mem_of_ne_nil _ hne
    have h1 := sum_lt_allowance (bisect s.bad) hne (fun J => errEst G f J i) (ea - s.errors i)
      (hg J hJ).1.1 (fun J hJ => (hg J hJ).1.2 i)
    have h2 := sum_lt_allowance (bisect s.bad) hne (fun J => errEst G f J i)
      (er * |v i| - s.errors i) (hg J hJ).1.1 (fun J hJ => (hg J hJ).2.2 i)
    rw [he i, total]
    exact ⟨by linarith, by linarith⟩

end Adaptive
end Quadpy
