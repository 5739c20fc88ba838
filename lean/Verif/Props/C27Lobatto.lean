import Verif.Lemmas.Lobatto
import Verif.Model.Enr2

/-!
C27, continued: the spherical product Lobatto rule.
-/

namespace Quadpy
open Finset Enr2

theorem C27_stroudEnr2_54 (n : ℕ) :
    (stroudEnr2_54 n).degree = 5 ∧ (stroudEnr2_54 n).ExactOnEnr2 n := by
  have p1 : (0 : ℝ) ≤ 1 / 2 := by positivity
  have p2 : ∀ k : ℕ, (0 : ℝ) ≤ ((k + 1 : ℕ) + 2) / 2 := fun k => by positivity
  have hsec : ∀ k < n, Sector n k √(((k + 1 : ℕ) + 2) / 2) √(1 / 2)
      (pm (List.replicate (k + 1 - 1) 0 ++ [√(((k + 1 : ℕ) + 2) / 2)] ++
        List.replicate (n - (k + 1)) √(1 / 2))) := fun k hk => by
    have := sector_pm hk (r := √(((k + 1 : ℕ) + 2) / 2)) (s := √(1 / 2))
      (by positivity) (by positivity)
    rwa [Nat.sub_sub] at this
  refine ⟨rfl, ?_⟩
  refine lobatto_exact (enr2_relMom n) _ (2 / (n + 2)) √(1 / 2)
    (fun k => (2 : ℝ) ^ (((k + 1 : ℕ) : ℤ) - n) / (((k + 1 : ℕ) + 1) * ((k + 1 : ℕ) + 2)))
    (fun k => √(((k + 1 : ℕ) + 2) / 2))
    (fun k => 2 / ((k + 2) * (k + 3))) (fun k => k / (k + 2))
    _ hsec ?_ ?_ ?_ ?_ ?_ ?_ ?_ ?_ ?_
  · simp only [List.mem_cons, List.mem_map, List.mem_range]
    rintro g (rfl | ⟨k, hk, rfl⟩) x hx
    · simp at hx; simp [hx]
    · exact (hsec k hk).shape x hx
  · intro f
    rw [List.map_cons, List.sum_cons, List.map_map, list_range_sum]
    simp only [osum_zero_row]
    rfl
  · intro k hk
    have := two_zpow_sector hk
    push_cast at this ⊢
    field_simp
    linear_combination (k + 1 + 2) * (k + 1 + 1) * this
  · simp
  · intro k hk; push_cast; field_simp; ring
  · field_simp; ring
  · intro k hk
    rw [Real.sq_sqrt p1, Real.sq_sqrt (p2 k)]
    push_cast; field_simp; ring
  · intro k hk
    rw [sqrt_pow4 p1, sqrt_pow4 (p2 k)]
    push_cast; field_simp; ring
  · intro k hk
    rw [sqrt_pow4 p1, Real.sq_sqrt p1, Real.sq_sqrt (p2 k)]
    push_cast; field_simp; ring

end Quadpy
