import Verif.Lemmas.ErrorBound
import Verif.Props.C19
import Verif.Props.C20
import Verif.Props.C47

/-!
# C74: the error of one-dimensional rules, and convergence
-/

namespace Quadpy
open Adaptive Spec Polynomial MeasureTheory OneDim Filter
open scoped Topology

/-- A rule of degree `d` with points in the interval integrates a function up to a multiple of its distance
to the polynomials of degree `d`. -/
theorem C74_best {P W : List ℝ} {d : ℕ} (h : ExactC1 P W d) (hP : ∀ x ∈ P, -1 ≤ x ∧ x ≤ 1) {a b : ℝ}
    (hab : a ≤ b) {f : ℝ → ℝ} (hf : ContinuousOn f (Set.Icc a b)) (p : ℝ[X]) (hp : p.natDegree ≤ d) {ε : ℝ}
    (he : ∀ x ∈ Set.Icc a b, |f x - p.eval x| ≤ ε) :
    |C1.integrate1 P W f a b - ∫ x in a..b, f x| ≤ (b - a) * ((W.map abs).sum / 2 + 1) * ε := by
  have hε : 0 ≤ ε := (abs_nonneg _).trans (he a ⟨le_rfl, hab⟩)
  have h1 := C1.integrate1_close (W := W) hP hab hε he
  rw [C1.C10_exact P W d h p hp a b hab] at h1
  have hfi : IntervalIntegrable f volume a b := (hf.mono (by rw [Set.uIcc_of_le hab])).intervalIntegrable
  have hpi : IntervalIntegrable (fun x => p.eval x) volume a b := p.continuous.intervalIntegrable _ _
  have h2 : |(∫ x in a..b, p.eval x) - ∫ x in a..b, f x| ≤ (b - a) * ε := by
    rw [← intervalIntegral.integral_sub hpi hfi]
    have := intervalIntegral.norm_integral_le_of_norm_le_const (a := a) (b := b) (C := ε)
      (f := fun x => p.eval x - f x) fun x hx => by
        rw [Set.uIoc_of_le hab] at hx
        rw [Real.norm_eq_abs, abs_sub_comm]
        exact he x ⟨hx.1.le, hx.2⟩
    rw [Real.norm_eq_abs, abs_of_nonneg (sub_nonneg.2 hab)] at this
    linarith
  have := abs_sub_le (C1.integrate1 P W f a b) (∫ x in a..b, p.eval x) (∫ x in a..b, f x)
  calc _ ≤ _ := this
    _ ≤ _ := add_le_add h1 h2
    _ = _ := by ring

/-- The sum of the weights of a rule is 2. -/
theorem sum_of_exactC1 {P W : List ℝ} {d : ℕ} (h : ExactC1 P W d) : W.sum = 2 := by
  have h0 := h.2 1 (by simp)
  have : ∀ {P W : List ℝ}, P.length = W.length →
      vdot (P.map fun x => (1 : ℝ[X]).eval x) W = W.sum := by
    intro P W hl
    induction P generalizing W with
    | nil => cases W <;> simp_all [vdot]
    | cons x P ih =>
      cases W with
      | nil => simp at hl
      | cons w W =>
        rw [List.map_cons, vdot_cons, ih (by simpa using hl), List.sum_cons]
        simp
  rw [this h.1] at h0
  rw [h0]
  norm_num

/-- With nonnegative weights. -/
theorem C74_best_nonneg {P W : List ℝ} {d : ℕ} (h : ExactC1 P W d) (hP : ∀ x ∈ P, -1 ≤ x ∧ x ≤ 1)
    (hW : ∀ w ∈ W, 0 ≤ w) {a b : ℝ} (hab : a ≤ b) {f : ℝ → ℝ} (hf : ContinuousOn f (Set.Icc a b)) (p : ℝ[X])
    (hp : p.natDegree ≤ d) {ε : ℝ} (he : ∀ x ∈ Set.Icc a b, |f x - p.eval x| ≤ ε) :
    |C1.integrate1 P W f a b - ∫ x in a..b, f x| ≤ 2 * (b - a) * ε := by
  have := C74_best h hP hab hf p hp he
  rw [sum_abs_of_nonneg hW, sum_of_exactC1 h] at this
  linarith

/-- The error for smooth functions: a rule of degree `d` has an error of the order `d + 2` in the length of
the interval. -/
theorem C74_smooth {P W : List ℝ} {d : ℕ} (h : ExactC1 P W d) (hP : ∀ x ∈ P, -1 ≤ x ∧ x ≤ 1) {a b : ℝ}
    (hab : a < b) {f : ℝ → ℝ} (hf : ContDiff ℝ (d + 1) f) {M : ℝ}
    (hM : ∀ x ∈ Set.Icc a b, |iteratedDeriv (d + 1) f x| ≤ M) :
    |C1.integrate1 P W f a b - ∫ x in a..b, f x| ≤
      (b - a) * ((W.map abs).sum / 2 + 1) * (M * (b - a) ^ (d + 1) / d.factorial) := by
  obtain ⟨p, hp, he⟩ := exists_taylor f d hab.le hf.contDiffOn fun x hx => by
    rw [iteratedDerivWithin_eq_iteratedDeriv (uniqueDiffOn_Icc hab) hf.contDiffAt hx]
    exact hM x hx
  exact C74_best h hP hab.le hf.continuous.continuousOn p hp he

/-- The composite rule on `N` parts of equal length: what `integrate` gives for the array of these intervals,
summed up. Its error is of the order `d + 1` in the length of the parts. -/
theorem C74_composite {P W : List ℝ} {d : ℕ} (h : ExactC1 P W d) (hP : ∀ x ∈ P, -1 ≤ x ∧ x ≤ 1) {a b : ℝ}
    (hab : a < b) {f : ℝ → ℝ} (hf : ContDiff ℝ (d + 1) f) {M : ℝ}
    (hM : ∀ x ∈ Set.Icc a b, |iteratedDeriv (d + 1) f x| ≤ M) {N : ℕ} (hN : 0 < N) :
    |∑ i ∈ Finset.range N, C1.integrate1 P W f (a + i * ((b - a) / N)) (a + (i + 1 : ℕ) * ((b - a) / N)) -
      ∫ x in a..b, f x| ≤
      (b - a) * ((W.map abs).sum / 2 + 1) * (M * ((b - a) / N) ^ (d + 1) / d.factorial) := by
  set δ := (b - a) / N with hδ
  have hN' : (0 : ℝ) < N := by exact_mod_cast hN
  have hδ0 : 0 < δ := div_pos (sub_pos.2 hab) hN'
  have hNδ : N * δ = b - a := by rw [hδ]; field_simp
  have hsum := intervalIntegral.sum_integral_adjacent_intervals (f := f) (μ := volume)
    (a := fun i : ℕ => a + i * δ) (n := N) fun k _ => hf.continuous.intervalIntegrable _ _
  simp only [Nat.cast_zero, zero_mul, add_zero] at hsum
  rw [hNδ, add_sub_cancel] at hsum
  rw [← hsum, ← Finset.sum_sub_distrib]
  refine (Finset.abs_sum_le_sum_abs _ _).trans ?_
  have hi : ∀ i ∈ Finset.range N,
      |C1.integrate1 P W f (a + i * δ) (a + (i + 1 : ℕ) * δ) - ∫ x in a + i * δ..a + (i + 1 : ℕ) * δ, f x| ≤
        δ * ((W.map abs).sum / 2 + 1) * (M * δ ^ (d + 1) / d.factorial) := by
    intro i hi
    have hlt : a + i * δ < a + (i + 1 : ℕ) * δ := by push_cast; linarith
    have := C74_smooth h hP hlt hf (M := M) fun x hx => hM x ⟨by
      have : 0 ≤ i * δ := by positivity
      linarith [hx.1], by
      have h1 : ((i + 1 : ℕ) : ℝ) ≤ N := by exact_mod_cast Finset.mem_range.1 hi
      have h2 := mul_le_mul_of_nonneg_right h1 hδ0.le
      linarith [hx.2]⟩
    rwa [show a + ((i + 1 : ℕ) : ℝ) * δ - (a + i * δ) = δ by push_cast; ring] at this
  refine (Finset.sum_le_sum hi).trans (le_of_eq ?_)
  rw [Finset.sum_const, Finset.card_range, nsmul_eq_mul, ← hNδ]
  ring

/-- So the composite rule converges. -/
theorem C74_composite_tendsto {P W : List ℝ} {d : ℕ} (h : ExactC1 P W d) (hP : ∀ x ∈ P, -1 ≤ x ∧ x ≤ 1)
    {a b : ℝ} (hab : a < b) {f : ℝ → ℝ} (hf : ContDiff ℝ (d + 1) f) :
    Tendsto (fun N : ℕ => ∑ i ∈ Finset.range (N + 1), C1.integrate1 P W f
      (a + i * ((b - a) / (N + 1 : ℕ))) (a + (i + 1 : ℕ) * ((b - a) / (N + 1 : ℕ)))) atTop
      (𝓝 (∫ x in a..b, f x)) := by
  obtain ⟨M, hM⟩ := (isCompact_Icc (a := a) (b := b)).exists_bound_of_continuousOn
    (hf.continuous_iteratedDeriv (d + 1) le_rfl).continuousOn
  rw [tendsto_iff_norm_sub_tendsto_zero]
  have hlim : Tendsto (fun N : ℕ => (b - a) * ((W.map abs).sum / 2 + 1) *
      (M * ((b - a) / (N + 1 : ℕ)) ^ (d + 1) / d.factorial)) atTop (𝓝 0) := by
    have h1 : Tendsto (fun N : ℕ => (b - a) / ((N + 1 : ℕ) : ℝ)) atTop (𝓝 0) :=
      (tendsto_const_div_atTop_nhds_zero_nat (b - a)).comp (tendsto_add_atTop_nat 1)
    have h2 := h1.pow (d + 1)
    rw [zero_pow (by omega)] at h2
    have h3 := ((h2.const_mul M).div_const (d.factorial : ℝ)).const_mul
      ((b - a) * ((W.map abs).sum / 2 + 1))
    simpa using h3
  refine squeeze_zero (fun _ => norm_nonneg _) (fun N => ?_) hlim
  exact C74_composite h hP hab hf (fun x hx => hM x hx) (Nat.succ_pos N)

/-- A family of rules with degrees growing beyond all bounds, points in the interval and bounded sums of the
absolute values of the weights converges for every continuous function. -/
theorem C74_tendsto {P W : ℕ → List ℝ} {d : ℕ → ℕ} (h : ∀ n, ExactC1 (P n) (W n) (d n))
    (hP : ∀ n, ∀ x ∈ P n, -1 ≤ x ∧ x ≤ 1) {B : ℝ} (hW : ∀ n, ((W n).map abs).sum ≤ B)
    (hd : Tendsto d atTop atTop) {a b : ℝ} (hab : a ≤ b) {f : ℝ → ℝ} (hf : ContinuousOn f (Set.Icc a b)) :
    Tendsto (fun n => C1.integrate1 (P n) (W n) f a b) atTop (𝓝 (∫ x in a..b, f x)) := by
  have hB : 0 ≤ B := (List.sum_nonneg (by simp)).trans (hW 0)
  rw [Metric.tendsto_atTop]
  intro ε hε
  set c := (b - a) * (B / 2 + 1) with hc
  have hc0 : 0 ≤ c := mul_nonneg (sub_nonneg.2 hab) (by linarith)
  obtain ⟨p, hp⟩ := exists_polynomial_near_of_continuousOn a b f hf (ε / (c + 1)) (by positivity)
  obtain ⟨N, hN⟩ := (tendsto_atTop_atTop.1 hd) p.natDegree
  refine ⟨N, fun n hn => ?_⟩
  have he : ∀ x ∈ Set.Icc a b, |f x - p.eval x| ≤ ε / (c + 1) := fun x hx => by
    rw [abs_sub_comm]; exact (hp x hx).le
  have h1 := C74_best (h n) (hP n) hab hf p (hN n hn) he
  rw [Real.dist_eq]
  refine lt_of_le_of_lt (b := c * (ε / (c + 1))) (h1.trans ?_) ?_
  · refine mul_le_mul_of_nonneg_right (mul_le_mul_of_nonneg_left ?_ (sub_nonneg.2 hab)) (by positivity)
    linarith [hW n]
  · rw [mul_div_assoc', div_lt_iff₀ (by linarith)]
    nlinarith

theorem C74_tendsto_nonneg {P W : ℕ → List ℝ} {d : ℕ → ℕ} (h : ∀ n, ExactC1 (P n) (W n) (d n))
    (hP : ∀ n, ∀ x ∈ P n, -1 ≤ x ∧ x ≤ 1) (hW : ∀ n, ∀ w ∈ W n, 0 ≤ w)
    (hd : Tendsto d atTop atTop) {a b : ℝ} (hab : a ≤ b) {f : ℝ → ℝ} (hf : ContinuousOn f (Set.Icc a b)) :
    Tendsto (fun n => C1.integrate1 (P n) (W n) f a b) atTop (𝓝 (∫ x in a..b, f x)) :=
  C74_tendsto h hP (B := 2) (fun n => by rw [sum_abs_of_nonneg (hW n), sum_of_exactC1 (h n)]) hd hab hf

end Quadpy
