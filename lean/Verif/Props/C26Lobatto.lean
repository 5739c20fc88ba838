import Verif.Lemmas.Lobatto
import Verif.Model.Enr

/-!
C26, continued: the spherical product Lobatto rule.
-/

namespace Quadpy
open Finset Enr

theorem C26_stroudEnr53 (n : ℕ) (hn : 1 ≤ n) :
    (stroudEnr53 n).degree = 5 ∧ (stroudEnr53 n).ExactOnEnr n := by
  have p1 : (0 : ℝ) ≤ (n : ℝ) + 3 := by positivity
  have p2 : ∀ k : ℕ, (0 : ℝ) ≤ ((k + 1 : ℕ) + 2) * (n + 3) := fun k => by positivity
  have hsec : ∀ k < n, Sector n k √(((k + 1 : ℕ) + 2) * ((n : ℝ) + 3)) √((n : ℝ) + 3)
      (pm (List.replicate (k + 1 - 1) 0 ++ [√(((k + 1 : ℕ) + 2) * ((n : ℝ) + 3))] ++
        List.replicate (n - (k + 1)) √((n : ℝ) + 3))) := fun k hk => by
    have := sector_pm hk (r := √(((k + 1 : ℕ) + 2) * ((n : ℝ) + 3))) (s := √((n : ℝ) + 3))
      (by positivity) (by positivity)
    rwa [Nat.sub_sub] at this
  have hT : ∑ k ∈ range n, (2 : ℝ) ^ (((k + 1 : ℕ) : ℤ) - n) * (n + 1) /
      (((k + 1 : ℕ) + 1) * ((k + 1 : ℕ) + 2) * (n + 3)) * 2 ^ (n - k) =
        (n + 1) * n / ((n + 3) * (n + 2)) := by
    have e : ∀ m ≤ n, ∑ k ∈ range m, (2 : ℝ) ^ (((k + 1 : ℕ) : ℤ) - n) * (n + 1) /
        (((k + 1 : ℕ) + 1) * ((k + 1 : ℕ) + 2) * (n + 3)) * 2 ^ (n - k) =
          (n + 1) * m / ((n + 3) * (m + 2)) := by
      intro m
      induction m with
      | zero => simp
      | succ m ih =>
        intro h
        rw [sum_range_succ, ih (by omega)]
        have := two_zpow_sector (show m < n by omega)
        push_cast at this ⊢
        field_simp
        linear_combination ((m : ℝ) + 2) * this
    exact e n le_rfl
  refine ⟨rfl, ?_⟩
  refine lobatto_exact (enr_relMom hn) _ (1 - (n + 1) * n / ((n + 3) * (n + 2))) √((n : ℝ) + 3)
    (fun k => (2 : ℝ) ^ (((k + 1 : ℕ) : ℤ) - n) * (n + 1) / (((k + 1 : ℕ) + 1) * ((k + 1 : ℕ) + 2) * (n + 3)))
    (fun k => √(((k + 1 : ℕ) + 2) * ((n : ℝ) + 3)))
    (fun k => 2 * (n + 1) / ((k + 2) * (k + 3) * (n + 3))) (fun k => (n + 1) * k / ((n + 3) * (k + 2)))
    _ hsec ?_ ?_ ?_ ?_ ?_ ?_ ?_ ?_ ?_
  · simp only [List.mem_append, List.mem_map, List.mem_range, List.mem_singleton]
    rintro g (⟨k, hk, rfl⟩ | rfl) x hx
    · exact (hsec k hk).shape x hx
    · simp at hx; simp [hx]
  · intro f
    rw [List.map_append, List.sum_append, List.map_map, list_range_sum, List.map_map, list_range_sum]
    simp only [Function.comp, List.map_cons, List.map_nil, List.sum_cons, List.sum_nil, add_zero,
      osum_zero_row]
    have hlen : ∑ k ∈ range n, (2 : ℝ) ^ (((k + 1 : ℕ) : ℤ) - n) * (n + 1) /
        (((k + 1 : ℕ) + 1) * ((k + 1 : ℕ) + 2) * (n + 3)) *
        ((pm (List.replicate (k + 1 - 1) 0 ++ [√(((k + 1 : ℕ) + 2) * ((n : ℝ) + 3))] ++
        List.replicate (n - (k + 1)) √((n : ℝ) + 3))).length : ℝ) =
        (n + 1) * n / ((n + 3) * (n + 2)) := by
      refine (sum_congr rfl fun k hk => ?_).trans hT
      rw [(hsec k (mem_range.1 hk)).length (mem_range.1 hk).le]
    rw [hlen, add_comm]
  · intro k hk
    have := two_zpow_sector hk
    push_cast at this ⊢
    field_simp
    linear_combination (k + 1 + 2) * (k + 1 + 1) * this
  · simp
  · intro k hk; push_cast; field_simp; ring
  · field_simp; ring
  · intro k hk
    rw [Real.sq_sqrt p1, Real.sq_sqrt (p2 k)]
    push_cast; field_simp; ring
  · intro k hk
    rw [sqrt_pow4 p1, sqrt_pow4 (p2 k)]
    push_cast; field_simp; ring
  · intro k hk
    rw [sqrt_pow4 p1, Real.sq_sqrt p1, Real.sq_sqrt (p2 k)]
    push_cast; field_simp; ring

end Quadpy
