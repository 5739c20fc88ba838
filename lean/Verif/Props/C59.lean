import Verif.Lemmas.GenzKeisterTables
import Verif.Spec.OneDim

/-!
# C59: the rules of Genz and Keister

The eight nested rules for the weight function `e^(-x²)`: which there are, their sizes, their degrees,
symmetry and nestedness.
-/

open MeasureTheory Finset Polynomial

namespace Quadpy
namespace GenzKeister
open Spec

theorem sort0 : sort points0 = [0] := by
  rw [sort, points0, zero_lit]
  rfl

theorem sort1 : sort points1 = [0, √(3 / 2)] := by
  rw [sort, points1, points0, zero_lit]
  have h : (0 : ℝ) ≤ √(3 / 2) := Real.sqrt_nonneg _
  generalize (√(3 / 2) : ℝ) = x at h ⊢
  exact List.Pairwise.insertionSort_eq (by simpa using h)

theorem eval_three (p : ℝ[X]) (hp : p.natDegree ≤ 5) :
    ∫ x, p.eval x * Real.exp (-x ^ 2) =
      √Real.pi * (p.coeff 0 + p.coeff 2 * (1 / 2) + p.coeff 4 * (3 / 4)) := by
  have e : (fun x => p.eval x * Real.exp (-x ^ 2)) =
      fun x => ∑ k ∈ range 6, p.coeff k * (x ^ k * Real.exp (-x ^ 2)) := by
    funext x
    rw [eval_eq_sum_range' (n := 6) (by omega), sum_mul]
    exact sum_congr rfl fun k _ => by ring
  rw [e, integral_finsetSum _ fun k _ => (integrable_pow_gauss k).const_mul _]
  simp only [integral_const_mul, integral_pow_gauss, sum_range_succ, range_zero, sum_empty]
  rw [g1_zero, g1_two, g1_four, g1_odd (k := 1) (by decide), g1_odd (k := 3) (by decide),
    g1_odd (k := 5) (by decide)]
  ring

/-- The rules with one and with three points are exact. -/
theorem C59_exact {n : ℕ} (hn : n ≤ 1) : ∃ P W d, genzKeister n = some (P, W, d) ∧
    ExactL P W d fun p => ∫ x, p.eval x * Real.exp (-x ^ 2) := by
  interval_cases n
  · refine ⟨_, _, _, rfl, ?_⟩
    rw [sort0]
    refine ⟨rfl, fun p hp => ?_⟩
    have hp : p.natDegree ≤ 1 := hp
    beta_reduce
    rw [eval_three p (by omega), coeff_eq_zero_of_natDegree_lt (n := 2) (by omega),
      coeff_eq_zero_of_natDegree_lt (n := 4) (by omega)]
    simp [mirrorNeg, mirror, Adaptive.vdot, coeff_zero_eq_eval_zero]
    ring
  · refine ⟨_, _, _, rfl, ?_⟩
    rw [sort1]
    refine ⟨rfl, fun p hp => ?_⟩
    have hp : p.natDegree ≤ 5 := hp
    beta_reduce
    rw [eval_three p hp]
    have h2 : (√(3 / 2) : ℝ) ^ 2 = 3 / 2 := Real.sq_sqrt (by norm_num)
    have h4 : (√(3 / 2) : ℝ) ^ 4 = 9 / 4 := by
      rw [show (4 : ℕ) = 2 * 2 by rfl, pow_mul, h2]; norm_num
    simp only [mirrorNeg, mirror, List.tail_cons, List.reverse_cons, List.reverse_nil,
      List.nil_append, List.map_cons, List.map_nil, List.take_succ_cons, List.take_zero,
      List.cons_append, Adaptive.vdot, List.zipWith_cons_cons, List.zipWith_nil_left, List.sum_cons,
      List.sum_nil]
    simp only [eval_eq_sum_range' (n := 6) (show p.natDegree < 6 by omega), sum_range_succ, range_zero,
      sum_empty]
    generalize (√(3 / 2) : ℝ) = x at h2 h4 ⊢
    linear_combination √Real.pi * (p.coeff 2 / 3) * h2 + √Real.pi * (p.coeff 4 / 3) * h4

/-- There are eight rules. -/
theorem C59_returns (n : ℕ) : (genzKeister n).isSome ↔ n ≤ 7 := by
  constructor
  · intro h
    by_contra hn
    rw [genzKeister, table] at h
    · cases h
    all_goals omega
  · intro h
    interval_cases n <;> rfl

theorem of_genzKeister {n : ℕ} {P W : List ℝ} {d : ℕ} (h : genzKeister n = some (P, W, d)) :
    ∃ L w, table n = some (L, w, d) ∧ P = mirrorNeg (sort L) ∧ W = mirror w := by
  rw [genzKeister, Option.map_eq_some_iff] at h
  obtain ⟨⟨L, w, d'⟩, h, e⟩ := h
  cases e
  exact ⟨L, w, h, rfl, rfl⟩

/-- The numbers of points and the degrees. -/
theorem C59_sizes {n : ℕ} {P W : List ℝ} {d : ℕ} (h : genzKeister n = some (P, W, d)) :
    P.length = [1, 3, 9, 19, 35, 37, 41, 43].getD n 0 ∧ W.length = P.length ∧
      d = [1, 5, 15, 29, 51, 55, 63, 67].getD n 0 := by
  have hn := (C59_returns n).1 (by rw [h]; rfl)
  have h1 : ∀ {L : List ℝ} {k : ℕ}, L.length = k + 1 → (mirrorNeg (sort L)).length = 2 * k + 1 := by
    intro L k hL
    have : (sort L).length = k + 1 := (List.length_insertionSort _ _).trans hL
    simp [mirrorNeg, this]
    omega
  have h2 : ∀ {L : List ℝ} {k : ℕ}, L.length = k + 1 → (mirror L).length = 2 * k + 1 := by
    intro L k hL
    simp [mirror, hL]
    omega
  obtain ⟨L, w, ht, rfl, rfl⟩ := of_genzKeister h
  interval_cases n <;> cases ht
  · exact ⟨h1 (k := 0) rfl, (h2 (k := 0) rfl).trans (h1 (k := 0) rfl).symm, rfl⟩
  · exact ⟨h1 (k := 1) rfl, (h2 (k := 1) rfl).trans (h1 (k := 1) rfl).symm, rfl⟩
  · exact ⟨h1 (k := 4) rfl, (h2 (k := 4) rfl).trans (h1 (k := 4) rfl).symm, rfl⟩
  · exact ⟨h1 (k := 9) rfl, (h2 (k := 9) rfl).trans (h1 (k := 9) rfl).symm, rfl⟩
  · exact ⟨h1 (k := 17) rfl, (h2 (k := 17) rfl).trans (h1 (k := 17) rfl).symm, rfl⟩
  · exact ⟨h1 (k := 18) rfl, (h2 (k := 18) rfl).trans (h1 (k := 18) rfl).symm, rfl⟩
  · exact ⟨h1 (k := 20) rfl, (h2 (k := 20) rfl).trans (h1 (k := 20) rfl).symm, rfl⟩
  · exact ⟨h1 (k := 21) rfl, (h2 (k := 21) rfl).trans (h1 (k := 21) rfl).symm, rfl⟩

/-- What is common to all eight tables. -/
theorem sorted_table {n : ℕ} {L w : List ℝ} {d : ℕ} (h : table n = some (L, w, d)) :
    ∃ r w0 v, sort L = 0 :: r ∧ (0 :: r).Pairwise (· < ·) ∧ w = w0 :: v ∧
      Approx (mirrorNeg (sort L)) (mirror w) d (1 / (10 ^ 14 : ℕ)) := by
  have good : ∀ {L w d M}, Good L w d M → ∃ r w0 v, sort L = 0 :: r ∧
      (0 :: r).Pairwise (· < ·) ∧ w = w0 :: v ∧
      Approx (mirrorNeg (sort L)) (mirror w) d (1 / (10 ^ 14 : ℕ)) := fun g => by
    obtain ⟨r, W0, V, Q, Dw, D2, lo, hi, e1, e3, e2, -⟩ := g.ex
    exact ⟨r, _, _, e1, e3, e2, g.approx⟩
  have exact01 : ∀ {n L w d}, n ≤ 1 → table n = some (L, w, d) →
      Approx (mirrorNeg (sort L)) (mirror w) d (1 / (10 ^ 14 : ℕ)) := by
    intro n L w d hn h
    obtain ⟨P, W, d', h', hl, hx⟩ := C59_exact hn
    rw [genzKeister, h] at h'
    cases h'
    refine ⟨hl, fun p hp => ?_⟩
    rw [hx p hp, sub_self, abs_zero]
    exact mul_nonneg (by positivity) (integral_nonneg fun x =>
      mul_nonneg (sum_nonneg fun k _ => by positivity) (Real.exp_pos _).le)
  match n, h with
  | 0, h =>
    have a := exact01 (by norm_num) h
    cases h
    exact ⟨[], _, [], sort0, by simp, rfl, a⟩
  | 1, h =>
    have a := exact01 (by norm_num) h
    cases h
    exact ⟨[√(3 / 2)], _, _, sort1, by simp, rfl, a⟩
  | 2, h => cases h; exact good good2
  | 3, h => cases h; exact good good3
  | 4, h => cases h; exact good good4
  | 5, h => cases h; exact good good5
  | 6, h => cases h; exact good good6
  | 7, h => cases h; exact good good7

/-- Every rule integrates the polynomials up to its degree against `e^(-x²)`, up to `10⁻¹⁴` times the
integral of the polynomial with the absolute values of the coefficients at `|x|`. -/
theorem C59_degree {n : ℕ} {P W : List ℝ} {d : ℕ} (h : genzKeister n = some (P, W, d))
    {p : ℝ[X]} (hp : p.natDegree ≤ d) :
    |(List.zipWith (fun x w => p.eval x * w) P W).sum - ∫ x, p.eval x * Real.exp (-x ^ 2)| ≤
      1 / 10 ^ 14 * ∫ x, (∑ k ∈ p.support, |p.coeff k| * |x| ^ k) * Real.exp (-x ^ 2) := by
  obtain ⟨L, w, ht, rfl, rfl⟩ := of_genzKeister h
  obtain ⟨r, w0, v, -, -, -, ha⟩ := sorted_table ht
  have := ha.2 p hp
  rw [Adaptive.vdot, List.zipWith_map_left] at this
  rw [show (1 : ℝ) / (10 ^ 14 : ℕ) = 1 / 10 ^ 14 by norm_num] at this
  exact this

/-- The points are distinct and in ascending order, and the rules are symmetric. -/
theorem C59_symmetric {n : ℕ} {P W : List ℝ} {d : ℕ} (h : genzKeister n = some (P, W, d)) :
    P.Pairwise (· < ·) ∧ (P.reverse = P.map fun x => -x) ∧ W.reverse = W := by
  obtain ⟨L, w, ht, rfl, rfl⟩ := of_genzKeister h
  obtain ⟨r, w0, v, e1, e2, rfl, -⟩ := sorted_table ht
  rw [e1]
  exact ⟨pairwise_mirrorNeg e2, mirrorNeg_reverse r, mirror_reverse w0 v⟩

/-- The first four rules are nested, and all later ones extend the fourth. -/
theorem C59_nested {n m : ℕ} (hn : n ≤ 3) (hm : n ≤ m) {P W P' W' : List ℝ} {d d' : ℕ}
    (h : genzKeister n = some (P, W, d)) (h' : genzKeister m = some (P', W', d')) : P ⊆ P' := by
  have hm7 := (C59_returns m).1 (by rw [h']; rfl)
  obtain ⟨L, w, ht, rfl, rfl⟩ := of_genzKeister h
  obtain ⟨L', w', ht', rfl, rfl⟩ := of_genzKeister h'
  obtain ⟨r, w0, v, e1, -⟩ := sorted_table ht
  obtain ⟨r', w0', v', e1', -⟩ := sorted_table ht'
  have hL : L ⊆ L' := by
    have a : ∀ {A B : List ℝ}, A ⊆ A ++ B := fun {A B} => List.subset_append_left A B
    interval_cases n <;> interval_cases m <;> cases ht <;> cases ht' <;>
      first
        | exact fun x hx => hx
        | exact a
        | exact a.trans a
        | exact a.trans (a.trans a)
        | exact a.trans (a.trans (a.trans a))
  intro x hx
  rw [e1, mem_mirrorNeg, ← e1, mem_sort, mem_sort] at hx
  rw [e1', mem_mirrorNeg, ← e1', mem_sort, mem_sort]
  exact hx.imp (fun h => hL h) fun h => hL h

/-- The rule with 43 points and degree 67. -/
example : ∃ P W, genzKeister 7 = some (P, W, 67) ∧ P.length = 43 ∧
    |(List.zipWith (fun x w => x ^ 66 * w) P W).sum - ∫ x : ℝ, x ^ 66 * Real.exp (-x ^ 2)| ≤
      1 / 10 ^ 14 * ∫ x : ℝ, x ^ 66 * Real.exp (-x ^ 2) := by
  obtain ⟨⟨P, W, d⟩, h⟩ := Option.isSome_iff_exists.1 ((C59_returns 7).2 le_rfl)
  obtain ⟨h1, -, h2⟩ := C59_sizes h
  have h2 : d = 67 := h2
  subst h2
  refine ⟨P, W, h, h1, ?_⟩
  have := C59_degree h (p := X ^ 66) (by simp)
  simpa [← pow_abs, Even.pow_abs (show Even 66 by decide)] using this

end GenzKeister
end Quadpy
