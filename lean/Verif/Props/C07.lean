import Verif.Model.Simplex
import Verif.Lemmas.SimplexMoments

/-!
# C07: closed-form monomial integral over the unit simplex
-/

namespace Quadpy
namespace Tn

theorem decFirst_length (k : List ℕ) : (decFirst k).length = k.length := by
  induction k with
  | nil => rfl
  | cons a t ih => cases a <;> simp [decFirst, ih]

theorem decFirst_prod {k : List ℕ} (h : ¬ k.all (· == 0)) :
    (k.map Nat.factorial).prod = firstPos k * ((decFirst k).map Nat.factorial).prod := by
  induction k with
  | nil => simp at h
  | cons a t ih =>
    cases a with
    | zero =>
      simp only [decFirst, firstPos, List.map_cons, List.prod_cons]
      rw [ih (by simpa using h)]
      simp
    | succ a =>
      simp only [decFirst, firstPos, List.map_cons, List.prod_cons, Nat.factorial_succ]
      ring

theorem monomialOverSimplex_eq (k : List ℕ) : monomialOverSimplex k =
    ((k.map Nat.factorial).prod : ℝ) / ((k.length + k.sum).factorial : ℝ) := by
  induction hs : k.sum generalizing k with
  | zero =>
    have h : k.all (· == 0) := by
      simpa [List.all_eq_true] using List.sum_eq_zero_iff.1 hs
    rw [monomialOverSimplex, dif_pos h]
    have : (k.map Nat.factorial).prod = 1 := by
      refine List.prod_eq_one fun x hx => ?_
      obtain ⟨y, hy, rfl⟩ := List.mem_map.1 hx
      rw [List.sum_eq_zero_iff.1 hs y hy]; rfl
    rw [this]; simp
  | succ s ih =>
    have h : ¬ k.all (· == 0) := by
      intro h
      have : k.sum = 0 := List.sum_eq_zero_iff.2 (by simpa [List.all_eq_true] using h)
      omega
    have h1 := decFirst_sum h
    rw [monomialOverSimplex, dif_neg h, ih _ (by omega), decFirst_length, decFirst_prod h, hs,
      show k.length + (s + 1) = (k.length + s) + 1 by ring, Nat.factorial_succ]
    push_cast
    have h2 : ((k.length + s).factorial : ℝ) ≠ 0 := by positivity
    have h3 : ((k.length : ℝ) + s + 1) ≠ 0 := by positivity
    have h4 : ((s : ℝ) + 1 + k.length) ≠ 0 := by positivity
    field_simp
    ring

/-- `integrate_monomial_over_unit_simplex(k)` is the Lebesgue integral of `x^k` over the unit simplex,
for every dimension and every exponent list. -/
theorem C07_simplex_monomial {n : ℕ} (k : Fin n → ℕ) :
    monomialOverSimplex (List.ofFn k) =
      ∫ x in {x : Fin n → ℝ | (∀ i, 0 ≤ x i) ∧ ∑ i, x i ≤ 1}, ∏ i, x i ^ k i := by
  have := simplex_mono k
  rw [Spec.simplex, Spec.unitSimplex] at this
  rw [show (∫ x in {x : Fin n → ℝ | (∀ i, 0 ≤ x i) ∧ ∑ i, x i ≤ 1}, ∏ i, x i ^ k i) = _ from this,
    monomialOverSimplex_eq, List.map_ofFn, List.prod_ofFn, List.length_ofFn, List.sum_ofFn]
  simp

/-- For example `∫ x y^2 = 1/60` over the unit triangle. -/
example : monomialOverSimplex [1, 2] = 1 / 60 := by
  rw [monomialOverSimplex_eq]
  norm_num [Nat.factorial]

end Tn
end Quadpy
