import Verif.Lemmas.SimplexFrame
import Verif.Props.C27Radii

/-!
C27, continued: the rules on the regular simplex.
-/

namespace Quadpy
open Finset Enr2

theorem enr2Rho_zero {n : ℕ} (hn : 0 < n) : enr2Rho n 0 = 1 := by
  have hG : Real.Gamma ((n : ℝ) / 2) ≠ 0 :=
    (Real.Gamma_pos_of_pos (by have : (0 : ℝ) < n := by exact_mod_cast hn
                               positivity)).ne'
  simp [enr2Rho, hG]

theorem enr2Rho_add_two {n : ℕ} (hn : 0 < n) (k : ℕ) :
    enr2Rho n (k + 2) = (n + k) / 2 * enr2Rho n k := by
  have h : (0 : ℝ) < n := by exact_mod_cast hn
  unfold enr2Rho
  rw [show ((n : ℝ) + (k + 2 : ℕ)) / 2 = (n + k) / 2 + 1 by push_cast; ring,
    Real.Gamma_add_one (by positivity)]
  ring

theorem C27_stroudSecrest1 (n : ℕ) (hn : 1 ≤ n) :
    (Enr2.stroudSecrest1 n).degree = 2 ∧ (Enr2.stroudSecrest1 n).ExactOnEnr2 n := by
  refine ⟨rfl, secrest_deg2 hn (enr2_linOnMono n) (enr2_radMom hn) _ (enr2Rho_zero hn) ?_⟩
  rw [Real.sq_sqrt (by positivity), enr2Rho_add_two hn 0, enr2Rho_zero hn]
  push_cast; ring

theorem C27_luDarmofal1 (n : ℕ) (hn : 2 ≤ n) :
    ∃ S, luDarmofal1 n = some S ∧ S.degree = 5 ∧ S.ExactOnEnr2 n := by
  have hn0 : (n : ℝ) ≠ 0 := by positivity
  have hn2 : (2 : ℝ) ≤ n := by exact_mod_cast hn
  have hn1 : (n : ℝ) - 1 ≠ 0 := by linarith
  have hp : 0 < n := by omega
  have hc : (0 : ℝ) ≤ (n : ℝ) / 2 + 1 := by positivity
  have r2 : enr2Rho n 2 = n / 2 := by
    rw [enr2Rho_add_two hp 0, enr2Rho_zero hp]; push_cast; ring
  have r4 : enr2Rho n 4 = n * (n + 2) / 4 := by
    rw [enr2Rho_add_two hp 2, r2]; push_cast; ring
  refine ⟨_, by
    simp only [luDarmofal1, guard, if_pos hn, Option.bind_eq_bind]; rfl, rfl, ?_⟩
  refine simplex_deg5 hn (enr2_linOnMono n) (enr2_radMom hp) _ (2 / (n + 2))
    (n ^ 2 * (7 - n) / (2 * (n + 1) ^ 2 * (n + 2) ^ 2)) (2 * (n - 1) ^ 2 / ((n + 1) ^ 2 * (n + 2) ^ 2))
    √((n : ℝ) / 2 + 1)
    ⟨rfl, by simp [add_assoc], ?_⟩ rfl (enr2Rho_zero hp) ?_ ?_ ?_ ?_ ?_
  · simp only [List.mem_append, List.mem_map, List.mem_singleton]
    rintro x ((((rfl | ⟨y, h, rfl⟩) | ⟨y, h, rfl⟩) | ⟨y, h, rfl⟩) | ⟨y, h, rfl⟩)
    · simp
    · simpa [Un.smulRow] using nsimplex_length' n _ h
    · simpa [Un.smulRow] using nsimplex_length' n _ h
    · simpa [Un.smulRow] using edgePoints_length' n _ h
    · simpa [Un.smulRow] using edgePoints_length' n _ h
  · intro f
    dsimp only
    have m2 : ∀ (L : List (List ℝ)) (w c : ℝ),
        dot n (List.replicate L.length w) (L.map (Un.smulRow c)) f =
          w * osum n (L.map (Un.smulRow c)) f := fun L w c => by
      rw [← dot_replicate, List.length_map]
    have m0 : dot n [2 / ((n : ℝ) + 2)] [List.replicate n 0] f = 2 / (n + 2) * f 0 := by
      have := dot_replicate (2 / ((n : ℝ) + 2)) [List.replicate n 0] f
      rw [osum_zero_row] at this
      exact this
    rw [dot_append (by simp [add_assoc]), dot_append (by simp), dot_append (by simp), dot_append (by simp), m0, m2, m2, m2, m2,
      osum_simplex, osum_simplex, osum_edge, osum_edge]
    simp only [sum_add_distrib]
    ring
  · field_simp; ring
  · rw [Real.sq_sqrt hc, r2]; field_simp; ring
  · field_simp; ring
  · rw [sqrt_pow4 hc, r4]; field_simp

/-- For `n = 7` the weights of the simplex points vanish; the rule still holds. -/
example : ∃ S, luDarmofal1 7 = some S ∧ S.ExactOnEnr2 7 := by
  obtain ⟨S, h, _, hE⟩ := C27_luDarmofal1 7 (by norm_num)
  exact ⟨S, h, hE⟩

end Quadpy
