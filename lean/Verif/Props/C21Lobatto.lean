import Verif.Lemmas.Lobatto
import Verif.Model.Cn

/-!
C21, continued: the spherical product Lobatto rule.
-/

namespace Quadpy
open Finset Cn

theorem C21_stroud1966b (n : ℕ) :
    (stroud1966b n).degree = 5 ∧ (stroud1966b n).ExactOnCube n := by
  have p2 : ∀ k : ℕ, (0 : ℝ) ≤ (5 * (k + 1 : ℕ) + 4) / 15 := fun k => by positivity
  have hs2 : (1 / √3 : ℝ) ^ 2 = 1 / 3 := by rw [div_pow, Real.sq_sqrt (by norm_num)]; norm_num
  have hs4 : (1 / √3 : ℝ) ^ 4 = 1 / 9 := by
    rw [show (4 : ℕ) = 2 * 2 by norm_num, pow_mul, hs2]; norm_num
  have hsec : ∀ k < n, Sector n k √((5 * (k + 1 : ℕ) + 4) / 15) (1 / √3) (stroud1966bArr n (k + 1)) :=
    fun k hk => by
    have := sector_scaled hk (r := √((5 * (k + 1 : ℕ) + 4) / 15)) (s := 1 / √3)
      (by positivity) (by positivity)
    unfold stroud1966bArr
    rwa [show n - (k + 1) + 1 = n - k by omega]
  refine ⟨rfl, ?_⟩
  have h1 : Spec.cube n (fun _ => 1) = 2 ^ n := by
    rw [one_eq_mono, cube_mono, cubeMom_zero, mul_one]
  rw [Scheme.ExactOnCube, ← h1]
  refine lobatto_exact (cube_relMom n) _ (4 / (5 * n + 4)) (1 / √3)
    (fun k => 5 * (2 : ℝ) ^ (((k + 1 : ℕ) : ℤ) - n + 1) / ((5 * (k + 1 : ℕ) - 1) * (5 * (k + 1 : ℕ) + 4)))
    (fun k => √((5 * (k + 1 : ℕ) + 4) / 15))
    (fun k => 20 / ((5 * k + 4) * (5 * k + 9))) (fun k => 5 * k / (5 * k + 4))
    _ hsec ?_ ?_ ?_ ?_ ?_ ?_ ?_ ?_ ?_
  · simp only [List.mem_cons, List.mem_map, List.mem_range]
    rintro g (rfl | ⟨k, hk, rfl⟩) x hx
    · simp [z] at hx; simp [hx]
    · exact (hsec k hk).shape x hx
  · intro f
    rw [List.map_cons, List.sum_cons, List.map_map, list_range_sum]
    simp only [z, osum_zero_row]
    rfl
  · intro k hk
    have := two_zpow_sector hk
    rw [zpow_add₀ two_ne_zero, zpow_one]
    push_cast at this ⊢
    rw [show (5 * ((k : ℝ) + 1) - 1) = 5 * k + 4 by ring]
    field_simp
    linear_combination (10 * (5 * (k : ℝ) + 9)) * this
  · simp
  · intro k hk; push_cast; field_simp; ring
  · field_simp; ring
  · intro k hk
    rw [hs2, Real.sq_sqrt (p2 k)]
    push_cast; field_simp; ring
  · intro k hk
    rw [hs4, sqrt_pow4 (p2 k)]
    push_cast; field_simp; ring
  · intro k hk
    rw [hs4, hs2, Real.sq_sqrt (p2 k)]
    push_cast; field_simp; ring

end Quadpy
