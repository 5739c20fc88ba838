import Verif.Props.C55
import Verif.Lemmas.PattersonTables

/-!
# C55: the Gauss-Patterson rules of the code

All nine rules, with the tables of the source: how many there are, their sizes, order, symmetry and
nestedness, and the degree which the code states, up to a relative error of `10⁻¹⁴`.
-/

open MeasureTheory Finset Polynomial

namespace Quadpy
namespace Patterson
open OneDim Spec

theorem sortedTo {k : ℕ} (h : k ≤ 8) : ∃ R, SortedTo k R := by
  interval_cases k
  · exact ⟨_, sortedTo0⟩
  · exact ⟨_, sortedTo1⟩
  · exact ⟨_, sortedTo2⟩
  · exact ⟨_, sortedTo3⟩
  · exact ⟨_, sortedTo4⟩
  · exact ⟨_, sortedTo5⟩
  · exact ⟨_, sortedTo6⟩
  · exact ⟨_, sortedTo7⟩
  · exact ⟨_, sortedTo8⟩

/-- The parts of a rule. -/
theorem rule_parts {gauss : ℕ → List ℝ × List ℝ} {index : ℕ} {P W : List ℝ} {d : ℕ}
    (h : gaussPattersonRule gauss index = some (P, W, d)) :
    index ≤ 8 ∧ P = (patPoints patTable index).insertionSort (· ≤ ·) ∧
      (d = if 0 < index then 3 * 2 ^ index - 1 else 1) ∧
      (index < 6 → W = patWeights gauss P) ∧
      (index = 6 → W = patMirror patS6 0.2818881418019236e-01) ∧
      (index = 7 → W = patMirror patS7 0.14094407090096179347e-01) ∧
      (index = 8 → W = patMirror patS8 0.704720354504808967346e-02) := by
  unfold gaussPattersonRule at h
  by_cases h5 : index < 6
  · rw [if_pos h5] at h
    cases h
    exact ⟨by omega, rfl, rfl, fun _ => rfl, fun h => by omega, fun h => by omega, fun h => by omega⟩
  · rw [if_neg h5] at h
    by_cases h6 : index = 6
    · rw [if_pos h6] at h
      cases h
      exact ⟨by omega, rfl, rfl, fun h => absurd h h5, fun _ => rfl, fun h => by omega, fun h => by omega⟩
    · rw [if_neg h6] at h
      by_cases h7 : index = 7
      · rw [if_pos h7] at h
        cases h
        exact ⟨by omega, rfl, rfl, fun h => absurd h h5, fun h => by omega, fun _ => rfl, fun h => by omega⟩
      · rw [if_neg h7] at h
        by_cases h8 : index = 8
        · rw [if_pos h8] at h
          cases h
          exact ⟨by omega, rfl, rfl, fun h => absurd h h5, fun h => by omega, fun h => by omega, fun _ => rfl⟩
        · rw [if_neg h8] at h
          cases h

/-- There are nine rules. -/
theorem C55_rule_returns (gauss : ℕ → List ℝ × List ℝ) (index : ℕ) :
    (gaussPattersonRule gauss index).isSome ↔ index ≤ 8 := by
  constructor
  · intro h
    obtain ⟨⟨P, W, d⟩, h⟩ := Option.isSome_iff_exists.1 h
    exact (rule_parts h).1
  · intro h
    unfold gaussPattersonRule
    interval_cases index <;> simp

/-- The points are strictly ascending and symmetric about 0; their number and the degree. -/
theorem C55_rule_points {gauss : ℕ → List ℝ × List ℝ} {index : ℕ} {P W : List ℝ} {d : ℕ}
    (h : gaussPattersonRule gauss index = some (P, W, d)) :
    P.Pairwise (· < ·) ∧ (P.reverse = P.map fun x => -x) ∧ P.length = 2 ^ (index + 1) - 1 ∧
      d = if 0 < index then 3 * 2 ^ index - 1 else 1 := by
  obtain ⟨h8, rfl, hd, -⟩ := rule_parts h
  obtain ⟨R, hR⟩ := sortedTo h8
  refine ⟨?_, ?_, ?_, hd⟩
  · rw [hR.points]
    exact GenzKeister.pairwise_mirrorNeg hR.pairwise
  · rw [hR.points]
    exact GenzKeister.mirrorNeg_reverse _
  · rw [List.length_insertionSort, patPoints_length]
    simp only [patTable_eq, List.length_map]
    interval_cases index <;> decide +kernel

/-- The points of a rule are among those of the rules with larger index. -/
theorem C55_rule_nested {gauss : ℕ → List ℝ × List ℝ} {i j : ℕ} (hij : i ≤ j) {P W P' W' : List ℝ}
    {d d' : ℕ} (h : gaussPattersonRule gauss i = some (P, W, d))
    (h' : gaussPattersonRule gauss j = some (P', W', d')) : P ⊆ P' := by
  obtain ⟨-, rfl, -⟩ := rule_parts h
  obtain ⟨-, rfl, -⟩ := rule_parts h'
  exact C55_nested gauss patTable i j hij

theorem rule_small {gauss : ℕ → List ℝ × List ℝ} (hg : IsGauss gauss) {index : ℕ} {R : List ℕ}
    (hR : SortedTo index R) (hl : 2 * R.length + 1 = 2 ^ (index + 1) - 1) (h6 : index < 6)
    {A f d : ℕ} (hA : 0 < A) (h0 : 0 < R.length)
    (hc : checkR (R.map fun n => n ^ 2) A ((10 ^ 23) ^ 2) (10 ^ 14) f = true)
    (hd : d ≤ 2 * (R.length + f) + 1) :
    Approx ((patPoints patTable index).insertionSort (· ≤ ·))
      (patWeights gauss ((patPoints patTable index).insertionSort (· ≤ ·))) d (1 / (10 ^ 14 : ℕ)) := by
  have hx := (C55_patterson gauss index (by omega) hg).2
  rw [← hl] at hx
  refine checkR_sound (Q := R.map fun n => n ^ 2) (by simpa using h0) hA (by positivity) (by positivity)
    ?_ (by rw [List.length_map]; exact hx) hc (by simpa using hd)
  intro x hx
  rw [hR.points, GenzKeister.mem_mirrorNeg] at hx
  have key : ∀ y ∈ (0 : ℝ) :: R.map (nz (10 ^ 23)), y = 0 ∨ ∃ q ∈ R.map fun n : ℕ => n ^ 2,
      (((10 ^ 23) ^ 2 : ℕ) : ℝ) * y ^ 2 = (q : ℝ) := by
    intro y hy
    rcases List.mem_cons.1 hy with rfl | hy
    · exact Or.inl rfl
    · obtain ⟨n, hn, rfl⟩ := List.mem_map.1 hy
      refine Or.inr ⟨n ^ 2, List.mem_map.2 ⟨n, hn, rfl⟩, ?_⟩
      rw [nz]
      push_cast
      field_simp
      norm_num
      ring
  rcases hx with hx | hx
  · exact key x hx
  · have := key (-x) hx
    rwa [neg_eq_zero, neg_sq] at this

theorem rule_approx {gauss : ℕ → List ℝ × List ℝ} (hg : IsGauss gauss) {index : ℕ} {P W : List ℝ}
    {d : ℕ} (h : gaussPattersonRule gauss index = some (P, W, d)) :
    Approx P W d (1 / (10 ^ 14 : ℕ)) := by
  obtain ⟨h8, hP, hd, hW, hW6, hW7, hW8⟩ := rule_parts h
  interval_cases index
  · have hW := hW (by norm_num)
    subst hW hd hP
    have hx := (C55_patterson gauss 0 (by norm_num) hg).2
    refine ⟨hx.1, fun p hp => ?_⟩
    have := hx.2 p (by simpa using hp)
    rw [gaussPatterson] at this
    rw [this, sub_self, abs_zero]
    refine mul_nonneg (by positivity) (intervalIntegral.integral_nonneg (by norm_num) fun x _ =>
      sum_nonneg fun k _ => by positivity)
  · have hW := hW (by norm_num)
    subst hW hd hP
    exact rule_small hg sortedTo1 rfl (by norm_num) (by norm_num) (by decide) checkR1 (by decide)
  · have hW := hW (by norm_num)
    subst hW hd hP
    exact rule_small hg sortedTo2 rfl (by norm_num) (by norm_num) (by decide) checkR2 (by decide)
  · have hW := hW (by norm_num)
    subst hW hd hP
    exact rule_small hg sortedTo3 rfl (by norm_num) (by norm_num) (by decide) checkR3 (by decide)
  · have hW := hW (by norm_num)
    subst hW hd hP
    exact rule_small hg sortedTo4 rfl (by norm_num) (by norm_num) (by decide) checkR4 (by decide)
  · have hW := hW (by norm_num)
    subst hW hd hP
    exact rule_small hg sortedTo5 rfl (by norm_num) (by norm_num) (by decide) checkR5 (by decide)
  · rw [hP, hW6 rfl, mirror6, sortedTo6.points, hd]
    exact checkN_sound (by positivity) (by positivity) (by positivity) (by decide +kernel) checkN6 (by decide)
  · rw [hP, hW7 rfl, mirror7, sortedTo7.points, hd]
    exact checkN_sound (by positivity) (by positivity) (by positivity) (by decide +kernel) checkN7 (by decide)
  · rw [hP, hW8 rfl, mirror8, sortedTo8.points, hd]
    exact checkN_sound (by positivity) (by positivity) (by positivity) (by decide +kernel) checkN8 (by decide)

/-- Every rule integrates the polynomials up to the degree it states, up to `10⁻¹⁴` times the integral of
the polynomial with the absolute values of the coefficients at `|x|`. -/
theorem C55_rule_degree {gauss : ℕ → List ℝ × List ℝ} (hg : IsGauss gauss) {index : ℕ} {P W : List ℝ}
    {d : ℕ} (h : gaussPattersonRule gauss index = some (P, W, d)) {p : ℝ[X]} (hp : p.natDegree ≤ d) :
    P.length = W.length ∧
    |(List.zipWith (fun x w => p.eval x * w) P W).sum - ∫ x in (-1 : ℝ)..1, p.eval x| ≤
      1 / 10 ^ 14 * ∫ x in (-1 : ℝ)..1, ∑ k ∈ p.support, |p.coeff k| * |x| ^ k := by
  have ha := rule_approx hg h
  have := ha.2 p hp
  rw [Adaptive.vdot, List.zipWith_map_left,
    show (1 : ℝ) / (10 ^ 14 : ℕ) = 1 / 10 ^ 14 by norm_num] at this
  exact ⟨ha.1, this⟩

/-- The rule with 511 points and degree 767. -/
example : ∃ gauss P W, IsGauss gauss ∧ gaussPattersonRule gauss 8 = some (P, W, 767) ∧
    P.length = 511 ∧ |(List.zipWith (fun x w => x ^ 766 * w) P W).sum - 2 / 767| ≤
      1 / 10 ^ 14 * (2 / 767) := by
  obtain ⟨gauss, hg⟩ := exists_isGauss
  obtain ⟨⟨P, W, d⟩, h⟩ := Option.isSome_iff_exists.1 ((C55_rule_returns gauss 8).2 le_rfl)
  obtain ⟨-, -, h1, h2⟩ := C55_rule_points h
  have h2 : d = 767 := h2
  subst h2
  refine ⟨gauss, P, W, hg, h, h1, ?_⟩
  have := (C55_rule_degree hg h (p := X ^ 766) (by rw [natDegree_X_pow]; norm_num)).2
  simp only [eval_pow, eval_X, integral_pow_one] at this
  have e : ∫ x in (-1 : ℝ)..1, ∑ k ∈ (X ^ 766 : ℝ[X]).support, |(X ^ 766 : ℝ[X]).coeff k| * |x| ^ k =
      2 / 767 := by
    rw [support_X_pow]
    simp only [sum_singleton, coeff_X_pow, if_true, abs_one, one_mul, integral_abs_pow_one]
    norm_num
  rw [e, if_pos (by decide)] at this
  norm_num at this ⊢
  exact this

end Patterson
end Quadpy
