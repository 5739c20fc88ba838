import Verif.Lemmas.AdaptiveLive
import Verif.Props.C41

/-!
# C70: adaptive integration ends

C38 shows inputs on which `integrate_adaptive` runs for ever.  Here are the conditions under which it
does not: an absolute tolerance above zero and a continuous integrand.
-/

namespace Quadpy
namespace Adaptive

open Spec Polynomial

set_option linter.unusedSectionVars false

variable {δ ι : Type} [Fintype δ] [Fintype ι]

/-- What `gauss_kronrod(k)` guarantees: as many weights as points, weights that are not negative and
add up to the length of the reference interval, points inside the reference interval. -/
structure KronrodRule (G : GK) : Prop where
  length : G.pts.length = G.gkW.length
  nonneg : ∀ w ∈ G.gkW, 0 ≤ w
  sum : G.gkW.sum = 2
  inside : ∀ x ∈ G.pts, x ∈ Set.Icc (-1 : ℝ) 1

/-- With an absolute tolerance above zero and no relative one, and with an integrand that is
continuous on the interval, the loop ends: from some number of rounds on, the call has returned or
raised.  The limits `minimum_interval_length` and `max_num_subintervals` are arbitrary. -/
theorem C70_ends (G : GK) (hG : KronrodRule G) (c : Config) (eps : ℝ) (heps : 0 < eps)
    (ha : c.epsAbs = some eps) (hr : c.epsRel = none) (hc : c.conn = npAny ∨ c.conn = npAll)
    (f : (δ → ℝ) → ι → ℝ) (I : Ivl δ) (hf : ContinuousOn f (segment ℝ I.1 I.2)) :
    ∃ n, ∀ fuel, n ≤ fuel → ∀ s, integrateAdaptive G c f [I] fuel ≠ .running s := by
  have hc1 : ∀ b, c.conn [b] = b := by
    intro b; rcases hc with hc | hc <;> simp [hc, npAny, npAll]
  refine ends_of_judged hG.nonneg hG.length hG.sum hG.inside hf (M := fun _ => eps) heps
    (fun _ => le_rfl) ?_ ?_ ?_
  · intro s acc _ J _
    simp only [goodN, ha, hr, List.append_nil, hc1, decide_eq_true_eq]
  · intro h
    simpa [good0, ha, hr, hc1] using h
  · intro h
    simpa [good0, ha, hr, hc1] using h

/-- An outcome that is reached is not changed by more rounds. -/
theorem outcome_stable {G : GK} {c : Config} {f : (δ → ℝ) → ι → ℝ} {n m : ℕ} (hm : n ≤ m)
    {s : State δ ι} (h : ∀ s', loop G c f n s ≠ .running s') : loop G c f m s = loop G c f n s := by
  induction n generalizing s m with
  | zero =>
    by_cases hb : s.bad = []
    · cases m <;> simp only [loop, hb, if_true]
    · exact absurd (by rw [loop, if_neg hb]) (h s)
  | succ n ih =>
    obtain ⟨m, rfl⟩ : ∃ m', m = m' + 1 := ⟨m - 1, by omega⟩
    rw [loop, loop]
    rw [loop] at h
    split_ifs with hb
    · rfl
    · simp only [hb, if_false] at h
      cases hr : round G c f s with
      | next s' =>
        simp only [hr] at h ⊢
        exact ih (by omega) h
      | tooMany => rfl
      | tooShort => rfl

/-- Without the two limits (their defaults) a loop that ends returns. -/
theorem returns_of_ends {G : GK} {c : Config} {f : (δ → ℝ) → ι → ℝ} {I : Ivl δ}
    (hI : ∀ i, I.1 i ≤ I.2 i) (he : c.epsAbs.isSome ∨ c.epsRel.isSome) (hm : c.maxSub = none)
    (hl : c.minLen ≤ 0)
    (h : ∃ n, ∀ fuel, n ≤ fuel → ∀ s, integrateAdaptive G c f [I] fuel ≠ .running s) :
    ∃ n v e, ∀ fuel, n ≤ fuel → integrateAdaptive G c f [I] fuel = .returned v e := by
  obtain ⟨n, hn⟩ := h
  have hround : ∀ s : State δ ι, ∃ s', round G c f s = .next s' := by
    intro s
    simp only [round, hm, if_false]
    rw [if_neg]
    · exact ⟨_, rfl⟩
    · rintro ⟨J, -, hJ⟩
      linarith [len_nonneg J]
  have hloop : ∀ (k : ℕ) (s : State δ ι), (∃ v e, loop G c f k s = .returned v e) ∨
      ∃ s', loop G c f k s = .running s' := by
    intro k
    induction k with
    | zero =>
      intro s
      rw [loop]
      split_ifs
      · exact .inl ⟨_, _, rfl⟩
      · exact .inr ⟨_, rfl⟩
    | succ k ih =>
      intro s
      rw [loop]
      split_ifs
      · exact .inl ⟨_, _, rfl⟩
      · obtain ⟨s', hs'⟩ := hround s
        simp only [hs']
        exact ih s'
  have hint : ∀ k, integrateAdaptive G c f [I] k = loop G c f k (init G c f [I]) := by
    intro k
    rw [integrateAdaptive, if_pos ⟨by simpa using hI, he⟩]
    cases loop G c f k (init G c f [I]) <;> simp [reshape]
  simp only [hint] at hn ⊢
  rcases hloop n (init G c f [I]) with ⟨v, e, h1⟩ | ⟨s, h1⟩
  · exact ⟨n, v, e, fun fuel hf => by rw [outcome_stable hf (hn n le_rfl), h1]⟩
  · exact absurd h1 (hn n le_rfl s)

/-- With the default limits (none) the call returns, and the error it reports is below the
tolerance. -/
theorem C70_returns (G : GK) (hG : KronrodRule G) (c : Config) (eps : ℝ) (heps : 0 < eps)
    (ha : c.epsAbs = some eps) (hr : c.epsRel = none) (hc : c.conn = npAny ∨ c.conn = npAll)
    (hm : c.maxSub = none) (hl : c.minLen ≤ 0)
    (f : (δ → ℝ) → ι → ℝ) (I : Ivl δ) (hI : ∀ i, I.1 i ≤ I.2 i)
    (hf : ContinuousOn f (segment ℝ I.1 I.2)) :
    ∃ n v e, (∀ fuel, n ≤ fuel → integrateAdaptive G c f [I] fuel = .returned v e) ∧
      ∀ i, e i < eps := by
  obtain ⟨n, v, e, h⟩ := returns_of_ends hI (by simp [ha]) hm hl
    (C70_ends G hG c eps heps ha hr hc f I hf)
  exact ⟨n, v, e, h, C37_abs G c f I n v e eps ha hr hc (h n le_rfl)⟩

theorem forall_unit {P : Unit → Prop} : (∀ i, P i) ↔ P () := ⟨fun h => h (), fun h _ => h⟩

theorem sum_bisection_poly {G : GK} {d : ℕ} (hG : ExactC1 (odds G.pts) G.glW d) {p : ℝ[X]}
    (hp : p.natDegree ≤ d) {a b : ℝ} (hab : a ≤ b) {L : List (Ivl Unit)}
    (hL : Bisection (fun _ => a, fun _ => b) L) :
    (L.map fun J => valGauss (ι := Unit) G (fun x _ => p.eval (x ())) J ()).sum =
      ∫ x in a..b, p.eval x := by
  have hin := C36_bisection_inside hL hab
  rw [← C36_bisection_additive (fun x y => ∫ t in x..y, p.eval t) (fun x m y =>
    intervalIntegral.integral_add_adjacent_intervals
      (p.continuous.intervalIntegrable _ _) (p.continuous.intervalIntegrable _ _)) hL]
  refine congrArg List.sum (List.map_congr_left fun J hJ => ?_)
  rw [valGauss_eq]
  exact C1.C10_exact _ _ d hG p hp _ _ (hin J hJ).2.1

/-- The default criteria (absolute and relative tolerance joined by `np.any`): for every polynomial
of the degree of the Gauss rule and every interval the call returns, the value is the integral, and
the error it reports is below the larger of the two tolerances. -/
theorem C70_polynomial (G : GK) (hK : KronrodRule G) (d : ℕ) (hG : ExactC1 (odds G.pts) G.glW d)
    (ea er : ℝ) (hea : 0 < ea) (p : ℝ[X]) (hp : p.natDegree ≤ d) (a b : ℝ) (hab : a ≤ b) :
    ∃ n v e, (∀ fuel, n ≤ fuel → integrateAdaptive (δ := Unit) (ι := Unit) G
        ⟨some ea, some er, npAny, 0, none⟩ (fun x _ => p.eval (x ()))
        [(fun _ => a, fun _ => b)] fuel = .returned v e) ∧
      v () = (∫ x in a..b, p.eval x) ∧ e () < max ea (er * |∫ x in a..b, p.eval x|) := by
  have hval : valGauss (ι := Unit) G (fun x _ => p.eval (x ())) (fun _ => a, fun _ => b) () =
      ∫ x in a..b, p.eval x := by
    simpa using sum_bisection_poly hG hp hab (.whole _)
  have hends : ∃ n, ∀ fuel, n ≤ fuel → ∀ s, integrateAdaptive (δ := Unit) (ι := Unit) G
      ⟨some ea, some er, npAny, 0, none⟩ (fun x _ => p.eval (x ()))
      [(fun _ => a, fun _ => b)] fuel ≠ .running s := by
    refine ends_of_judged hK.nonneg hK.length hK.sum hK.inside ?_
      (M := fun _ => max ea (er * |∫ x in a..b, p.eval x|)) (M₀ := ea) hea
      (fun _ => le_max_left _ _) ?_ ?_ ?_
    · refine Continuous.continuousOn (continuous_pi fun _ => ?_)
      exact p.continuous.comp (continuous_apply ())
    · intro s acc hi J hJ
      have httv : s.values () + total (valGauss (ι := Unit) G (fun x _ => p.eval (x ())))
          (bisect s.bad) () = ∫ x in a..b, p.eval x := by
        obtain ⟨Ls, h2, h3⟩ := bisections_bisect hi.part
        cases h2 with
        | cons h4 h5 =>
          cases h5
          simp only [List.flatten_cons, List.flatten_nil, List.append_nil] at h3
          rw [hi.vals, ← total_append, total_perm _ h3, total]
          exact sum_bisection_poly hG hp hab h4
      have hq : 0 ≤ len J / ((bisect s.bad).map len).sum :=
        div_nonneg (len_nonneg J) (sum_len_nonneg _)
      simp only [goodN, npAny, List.singleton_append, List.any_cons, List.any_nil, id,
        Bool.or_false, Bool.or_eq_true, decide_eq_true_eq, httv, forall_unit]
      rw [← and_or_left, ← max_sub_sub_right, max_mul_of_nonneg _ _ hq, lt_max_iff]
    · intro h
      have h1 := h ()
      rw [← hval, lt_max_iff] at h1
      simpa [good0, npAny, forall_unit] using h1
    · intro h _
      rw [← hval, lt_max_iff]
      simpa [good0, npAny, forall_unit] using h
  obtain ⟨n, v, e, h⟩ := returns_of_ends (fun _ => hab) (by simp) rfl le_rfl hends
  refine ⟨n, v, e, h, ?_, ?_⟩
  · exact C41_exact G d hG _ (fun _ => p) (fun _ => hp) a b n v e (h n le_rfl) ()
  · have h1 := C41_exact G d hG _ (fun _ => p) (fun _ => hp) a b n v e (h n le_rfl) ()
    have h2 := C37_any G _ _ _ n v e ea er rfl rfl rfl (h n le_rfl) ()
    rwa [h1] at h2

/-- The three-point Simpson rule meets the contract. -/
theorem simpson_rule : KronrodRule ⟨[-1, 0, 1], [1 / 3, 4 / 3, 1 / 3], [2]⟩ := by
  refine ⟨rfl, ?_, ?_, ?_⟩
  · simp; norm_num
  · norm_num
  · simp

/-- A case that no rule integrates exactly: the square root over `[0, 1]` with tolerance `10⁻¹⁰`. -/
example : ∃ n v e, (∀ fuel, n ≤ fuel →
    integrateAdaptive (δ := Unit) (ι := Unit) ⟨[-1, 0, 1], [1 / 3, 4 / 3, 1 / 3], [2]⟩
      ⟨some (1 / 10 ^ 10), none, npAny, 0, none⟩ (fun x _ => √(x ()))
      [(fun _ => 0, fun _ => 1)] fuel = .returned v e) ∧ ∀ i, e i < 1 / 10 ^ 10 := by
  refine C70_returns _ simpson_rule _ _ (by norm_num) rfl rfl (.inl rfl) rfl le_rfl _ _
    (fun _ => zero_le_one) (Continuous.continuousOn (continuous_pi fun _ => ?_))
  exact Real.continuous_sqrt.comp (continuous_apply ())

/-- The integral of `x` over `[-1, 1]`, on which a relative tolerance alone runs for ever
(`C38_zero_integral_example`), with the default criteria. -/
example (ea er : ℝ) (hea : 0 < ea) : ∃ n v e, (∀ fuel, n ≤ fuel →
    integrateAdaptive (δ := Unit) (ι := Unit) ⟨[-1, 0, 1], [1 / 3, 4 / 3, 1 / 3], [2]⟩
      ⟨some ea, some er, npAny, 0, none⟩ (fun x _ => (X : ℝ[X]).eval (x ()))
      [(fun _ => -1, fun _ => 1)] fuel = .returned v e) ∧ v () = 0 := by
  obtain ⟨n, v, e, h, hv, -⟩ := C70_polynomial _ simpson_rule 1
    (exactC1_of_moments rfl fun k hk => by interval_cases k <;> norm_num [vdot, odds]) ea er hea X
    (by simp) (-1) 1 (by norm_num)
  exact ⟨n, v, e, h, by rw [hv]; simp⟩

end Adaptive
end Quadpy
