import Verif.Lemmas.Mono
import Mathlib.MeasureTheory.Integral.Pi
import Mathlib.Analysis.SpecialFunctions.Integrals.Basic
import Mathlib.MeasureTheory.Function.LocallyIntegrable

namespace Quadpy
open MeasureTheory Finset

/-- One-dimensional normalised moment of `[-1, 1]`. -/
noncomputable def m1 (k : ℕ) : ℝ := if Even k then 1 / ((k : ℝ) + 1) else 0

theorem m1_zero : m1 0 = 1 := by simp [m1]
theorem m1_two : m1 2 = 1 / 3 := by norm_num [m1]
theorem m1_four : m1 4 = 1 / 5 := by norm_num [m1, show Even 4 from ⟨2, rfl⟩]
theorem m1_six : m1 6 = 1 / 7 := by norm_num [m1, show Even 6 from ⟨3, rfl⟩]
theorem m1_odd {k : ℕ} (h : Odd k) : m1 k = 0 := by simp [m1, Nat.not_even_iff_odd.2 h]

theorem integral_pow_sym (k : ℕ) : ∫ t in (-1 : ℝ)..1, t ^ k = 2 * m1 k := by
  rw [integral_pow, m1]
  split_ifs with h
  · rw [Even.add_one h |>.neg_one_pow]; ring
  · rw [Odd.add_one (Nat.not_even_iff_odd.1 h) |>.neg_one_pow]; ring

/-- Normalised moment of the cube. -/
noncomputable def cubeMom {n : ℕ} (α : Fin n → ℕ) : ℝ := ∏ i, m1 (α i)

theorem cube_mono {n : ℕ} (α : Fin n → ℕ) : Spec.cube n (mono α) = 2 ^ n * cubeMom α := by
  unfold Spec.cube mono cubeMom
  have h : (volume : Measure (Fin n → ℝ)).restrict (Set.Icc (fun _ => -1) (fun _ => 1)) =
      Measure.pi fun _ : Fin n => (volume : Measure ℝ).restrict (Set.Icc (-1) 1) := by
    rw [← Set.pi_univ_Icc, volume_pi, Measure.restrict_pi_pi]
  rw [h, integral_fintype_prod_eq_prod (fun i t => t ^ α i)]
  have : ∀ i : Fin n, ∫ t in Set.Icc (-1 : ℝ) 1, t ^ α i = 2 * m1 (α i) := by
    intro i
    rw [integral_Icc_eq_integral_Ioc, ← intervalIntegral.integral_of_le (by norm_num),
      integral_pow_sym]
  rw [prod_congr rfl fun i _ => this i, prod_mul_distrib]
  simp

theorem cube_linOnMono (n : ℕ) : LinOnMono (Spec.cube n) := by
  apply linOnMono_integral_one
  intro α
  have hc : Continuous (mono α) := by unfold mono; fun_prop
  exact hc.continuousOn.integrableOn_compact isCompact_Icc

theorem cubeMom_odd {n : ℕ} (α : Fin n → ℕ) (h : ∃ i, Odd (α i)) : cubeMom α = 0 := by
  obtain ⟨i, hi⟩ := h
  exact prod_eq_zero (mem_univ i) (m1_odd hi)

theorem cubeMom_zero {n : ℕ} : cubeMom (0 : Fin n → ℕ) = 1 := by simp [cubeMom, m1_zero]
theorem cubeMom_e1 {n : ℕ} (a : Fin n) (k : ℕ) : cubeMom (e1 a k) = m1 k :=
  prod_e1 (fun _ k => m1 k) (fun _ => m1_zero) a k
theorem cubeMom_e2 {n : ℕ} {a b : Fin n} (h : a ≠ b) (k l : ℕ) :
    cubeMom (e2 a b k l) = m1 k * m1 l :=
  prod_e2 (fun _ k => m1 k) (fun _ => m1_zero) h k l
theorem cubeMom_e3 {n : ℕ} {a b c : Fin n} (hab : a ≠ b) (hac : a ≠ c) (hbc : b ≠ c)
    (k l m : ℕ) : cubeMom (e3 a b c k l m) = m1 k * m1 l * m1 m :=
  prod_e3 (fun _ k => m1 k) (fun _ => m1_zero) hab hac hbc k l m

end Quadpy
