import Verif.Lemmas.Radii
import Verif.Props.C25
import Verif.Props.C05
import Verif.Model.Enr2

/-!
C27, continued: the rule made of two scaled copies of a sphere rule.
-/

namespace Quadpy
open Finset Enr2

/-- Radial moments of `exp(-|x|^2)`. -/
noncomputable def enr2Rho (n k : ℕ) : ℝ := Real.Gamma (((n : ℝ) + k) / 2) / Real.Gamma (n / 2)

theorem enr2_radMom {n : ℕ} (hn : 0 < n) (α : Fin n → ℕ) :
    Spec.enr2 n (mono α) = Spec.enr2 n (fun _ => 1) * radMom (enr2Rho n) α := by
  have h1 : (0 : ℝ) < n := by exact_mod_cast hn
  have h2 : Real.Gamma ((n : ℝ) / 2) ≠ 0 := (Real.Gamma_pos_of_pos (by positivity)).ne'
  have h3 : Real.Gamma (((n : ℝ) + (∑ i, α i : ℕ)) / 2) ≠ 0 :=
    (Real.Gamma_pos_of_pos (by positivity)).ne'
  rw [enr2_mono, enr2_one, radMom, enr2Rho, sphMom_eq α _ rfl]
  field_simp

theorem C27_stroud1967_7_4 (n : ℕ) (hn : 3 ≤ n) :
    ∃ S, stroud1967_7_4 n = some S ∧ S.degree = 7 ∧ S.ExactOnEnr2 n := by
  have hn0 : (n : ℝ) ≠ 0 := by positivity
  have h3 : (3 : ℝ) ≤ n := by exact_mod_cast hn
  have pa : (0 : ℝ) ≤ 2 * (n + 2) := by positivity
  have ha := Real.sq_sqrt pa
  have hq : √(2 * ((n : ℝ) + 2)) ≤ n + 2 := by
    apply abs_le_of_sq_le_sq' _ (by positivity) |>.2
    rw [ha]
    nlinarith
  have p1 : (0 : ℝ) ≤ (n + 2 - 1 * √(2 * ((n : ℝ) + 2))) / 2 := by linarith
  have p2 : (0 : ℝ) ≤ (n + 2 - -1 * √(2 * ((n : ℝ) + 2))) / 2 := by
    have := Real.sqrt_nonneg (2 * ((n : ℝ) + 2)); linarith
  have hG : Real.Gamma ((n : ℝ) / 2) ≠ 0 := (Real.Gamma_pos_of_pos (by positivity)).ne'
  obtain ⟨S, hS, hd, hE⟩ := C25_stroud1967 n (by omega)
  refine ⟨_, by
    simp only [stroud1967_7_4, guard, if_pos hn, sqrtO_some p1, sqrtO_some p2, hS,
      C05_gamma_n_2 n (by omega), Option.bind_eq_bind, Option.bind_some]; rfl, rfl, ?_⟩
  refine radii_exact (by omega) (enr2_linOnMono n) (enr2_radMom (by omega)) hE
    ((n + 2 + 1 * √(2 * ((n : ℝ) + 2))) / (2 * (n + 2)))
    ((n + 2 + -1 * √(2 * ((n : ℝ) + 2))) / (2 * (n + 2)))
    _ _ rfl hd.symm ?_ rfl ?_
  · have hp : √Real.pi ≠ 0 := by positivity
    simp only [List.map_append, List.map_map]
    congr 1 <;> (apply List.map_congr_left; intro x _; simp only [Function.comp]; field_simp; ring)
  · intro k hk
    have hk3 : k ≤ 3 := by omega
    rw [pow_mul, pow_mul, Real.sq_sqrt p1, Real.sq_sqrt p2]
    generalize √(2 * ((n : ℝ) + 2)) = a at *
    have e1 : Real.Gamma (((n : ℝ) + 2) / 2) = n / 2 * Real.Gamma (n / 2) := by
      rw [show ((n : ℝ) + 2) / 2 = n / 2 + 1 by ring, Real.Gamma_add_one (by positivity)]
    have e2 : Real.Gamma (((n : ℝ) + 4) / 2) = (n + 2) / 2 * (n / 2 * Real.Gamma (n / 2)) := by
      rw [show ((n : ℝ) + 4) / 2 = (n + 2) / 2 + 1 by ring, Real.Gamma_add_one (by positivity), e1]
    have e3 : Real.Gamma (((n : ℝ) + 6) / 2) =
        (n + 4) / 2 * ((n + 2) / 2 * (n / 2 * Real.Gamma (n / 2))) := by
      rw [show ((n : ℝ) + 6) / 2 = (n + 4) / 2 + 1 by ring, Real.Gamma_add_one (by positivity), e2]
    interval_cases k <;> simp only [enr2Rho] <;> push_cast
    · rw [add_zero, div_self hG]; field_simp; ring
    · norm_num [e1]
      field_simp
      linear_combination (-2 : ℝ) * ha
    · norm_num [e2]
      field_simp
      linear_combination (-(2 * n + 4) : ℝ) * ha
    · norm_num [e3]
      field_simp
      linear_combination (-2 * (a ^ 2 + 2 * (n + 2)) : ℝ) * ha

end Quadpy
