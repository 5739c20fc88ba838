import Verif.Lemmas.Lobatto
import Verif.Model.Un

/-!
C25, continued: the spherical product Lobatto rule.
-/

namespace Quadpy
open Finset Un

theorem C25_stroudUn53 (n : ℕ) (hn : 1 ≤ n) :
    (stroudUn53 n).degree = 5 ∧ (stroudUn53 n).ExactOnSphere n := by
  have hn0 : (n : ℝ) ≠ 0 := by positivity
  have p1 : (0 : ℝ) ≤ 1 / (n + 2) := by positivity
  have p2 : ∀ k : ℕ, (0 : ℝ) ≤ ((k + 1 : ℕ) + 2) / (n + 2) := fun k => by positivity
  refine ⟨rfl, ?_⟩
  refine lobatto_exact (sphere_relMom hn) _ 0 √(1 / ((n : ℝ) + 2))
    (fun k => (2 : ℝ) ^ (((k + 1 : ℕ) : ℤ) - n) * (n + 2) / (n * ((k + 1 : ℕ) + 1) * ((k + 1 : ℕ) + 2)))
    (fun k => √(((k + 1 : ℕ) + 2) / ((n : ℝ) + 2)))
    (fun k => 2 * (n + 2) / (n * (k + 2) * (k + 3))) (fun k => (n + 2) * k / (n * (k + 2)))
    _ (fun k hk => sector_pm hk (by positivity) (by positivity)) ?_ ?_ ?_ ?_ ?_ ?_ ?_ ?_ ?_
  · simp only [List.mem_map, List.mem_range]
    rintro g ⟨k, hk, rfl⟩ x hx
    exact (sector_pm hk (by positivity) (by positivity)).shape x hx
  · intro f
    rw [List.map_map, list_range_sum, zero_mul, zero_add]
    rfl
  · intro k hk
    have := two_zpow_sector hk
    push_cast at this ⊢
    field_simp
    linear_combination (k + 1 + 2) * (k + 1 + 1) * this
  · simp
  · intro k hk; push_cast; field_simp; ring
  · field_simp; ring
  · intro k hk
    rw [Real.sq_sqrt p1, Real.sq_sqrt (p2 k)]
    push_cast; field_simp; ring
  · intro k hk
    rw [sqrt_pow4 p1, sqrt_pow4 (p2 k)]
    push_cast; field_simp; ring
  · intro k hk
    rw [sqrt_pow4 p1, Real.sq_sqrt p1, Real.sq_sqrt (p2 k)]
    push_cast; field_simp; ring

end Quadpy
