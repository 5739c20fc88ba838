import Verif.Lemmas.Lobatto
import Verif.Model.Sn

/-!
C24, continued: the spherical product Lobatto rule.
-/

namespace Quadpy
open Finset Sn

theorem C24_stroud1966b (n : ℕ) (hn : 1 ≤ n) :
    (stroud1966b n).degree = 5 ∧ (stroud1966b n).ExactOnBall n := by
  have hn0 : (n : ℝ) ≠ 0 := by positivity
  have p1 : (0 : ℝ) ≤ (n + 2) / ((n + 2) * (n + 4)) := by positivity
  have p2 : ∀ k : ℕ, (0 : ℝ) ≤ ((k + 1 : ℕ) + 2) * (n + 2) / ((n + 2) * (n + 4)) :=
    fun k => by positivity
  have hsec : ∀ k < n, Sector n k √(((k + 1 : ℕ) + 2) * (n + 2) / (((n : ℝ) + 2) * (n + 4)))
      √((n + 2) / (((n : ℝ) + 2) * (n + 4)))
      ((pm ([√(((k + 1 : ℕ) + 2) * (n + 2) / (((n : ℝ) + 2) * (n + 4)))] ++
        List.replicate (n - (k + 1)) √((n + 2) / (((n : ℝ) + 2) * (n + 4))))).map
          (List.replicate (k + 1 - 1) 0 ++ ·)) := fun k hk => by
    have := sector_pm hk (r := √(((k + 1 : ℕ) + 2) * (n + 2) / (((n : ℝ) + 2) * (n + 4))))
      (s := √((n + 2) / (((n : ℝ) + 2) * (n + 4)))) (by positivity) (by positivity)
    rwa [Nat.sub_sub, List.append_assoc, pm_zeros] at this
  have hfold : ∀ (m : ℕ) (g : ℕ → ℝ), (List.range m).foldl (fun b k => b - g k) 1 =
      1 - ∑ k ∈ range m, g k := by
    intro m g
    induction m with
    | zero => simp
    | succ m ih =>
      rw [List.range_succ, List.foldl_append, ih, sum_range_succ]
      simp only [List.foldl_cons, List.foldl_nil]; ring
  have hT : ∑ k ∈ range n, (2 : ℝ) ^ (n - (k + 1) + 1) * ((2 : ℝ) ^ (((k + 1 : ℕ) : ℤ) - n) *
      (n + 2) * n * (n + 4) / (n * ((k + 1 : ℕ) + 1) * ((k + 1 : ℕ) + 2) * (n + 2) ^ 2)) =
        (n : ℝ) * (n + 4) / (n + 2) ^ 2 := by
    have e : ∀ m ≤ n, ∑ k ∈ range m, (2 : ℝ) ^ (n - (k + 1) + 1) * ((2 : ℝ) ^ (((k + 1 : ℕ) : ℤ) - n) *
      (n + 2) * n * (n + 4) / (n * ((k + 1 : ℕ) + 1) * ((k + 1 : ℕ) + 2) * (n + 2) ^ 2)) =
          (m : ℝ) * (n + 4) / ((m + 2) * (n + 2)) := by
      intro m
      induction m with
      | zero => simp
      | succ m ih =>
        intro h
        rw [sum_range_succ, ih (by omega)]
        have := two_zpow_sector (show m < n by omega)
        rw [show n - (m + 1) + 1 = n - m by omega]
        push_cast at this ⊢
        field_simp
        linear_combination ((m : ℝ) + 2) * this
    rw [e n le_rfl]; field_simp
  refine ⟨rfl, ?_⟩
  refine lobatto_exact (ball_relMom hn) _ (1 - n * (n + 4) / (n + 2) ^ 2)
    √((n + 2) / (((n : ℝ) + 2) * (n + 4)))
    (fun k => (2 : ℝ) ^ (((k + 1 : ℕ) : ℤ) - n) *
      (n + 2) * n * (n + 4) / (n * ((k + 1 : ℕ) + 1) * ((k + 1 : ℕ) + 2) * (n + 2) ^ 2))
    (fun k => √(((k + 1 : ℕ) + 2) * (n + 2) / (((n : ℝ) + 2) * (n + 4))))
    (fun k => 2 * (n + 4) / ((k + 2) * (k + 3) * (n + 2))) (fun k => k * (n + 4) / ((k + 2) * (n + 2)))
    _ hsec ?_ ?_ ?_ ?_ ?_ ?_ ?_ ?_ ?_
  · simp only [List.mem_append, List.mem_map, List.mem_range, List.mem_singleton]
    rintro g (⟨k, hk, rfl⟩ | rfl) x hx
    · exact (hsec k hk).shape x hx
    · simp [z] at hx; simp [hx]
  · intro f
    rw [List.map_append, List.sum_append, List.map_map, list_range_sum, hfold]
    beta_reduce
    rw [hT, add_comm]
    simp only [List.map_cons, List.map_nil, List.sum_cons, List.sum_nil, add_zero]
    congr 1
    rw [z, osum_zero_row]
  · intro k hk
    have := two_zpow_sector hk
    push_cast at this ⊢
    field_simp
    linear_combination (k + 1 + 2) * (k + 1 + 1) * this
  · simp
  · intro k hk; push_cast; field_simp; ring
  · field_simp; ring
  · intro k hk
    rw [Real.sq_sqrt p1, Real.sq_sqrt (p2 k)]
    push_cast; field_simp; ring
  · intro k hk
    rw [sqrt_pow4 p1, sqrt_pow4 (p2 k)]
    push_cast; field_simp; ring
  · intro k hk
    rw [sqrt_pow4 p1, Real.sq_sqrt p1, Real.sq_sqrt (p2 k)]
    push_cast; field_simp; ring

end Quadpy
