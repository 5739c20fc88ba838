import Verif.Lemmas.McNamee
import Verif.Lemmas.Radii
import Verif.Props.C15

/-! Moments of degree 8 of the n-cube, the n-ball, `exp(-|x|)` and `exp(-|x|^2)`. -/

namespace Quadpy
open Finset

theorem m1_eight : m1 8 = 1 / 9 := by norm_num [m1, show Even 8 from ⟨4, rfl⟩]

theorem cube_symMom9 (n : ℕ) : SymMom9 (n := n) cubeMom (1 / 3) (1 / 5) (1 / 9) (1 / 7) (1 / 15)
    (1 / 27) (1 / 9) (1 / 21) (1 / 25) (1 / 45) (1 / 81) where
  toSymMom := cube_symMom n
  eight := fun a => by rw [cubeMom_e1, m1_eight]
  sixtwo := fun a b h => by rw [cubeMom_e2 h, m1_two, m1_six]; norm_num
  fourfour := fun a b h => by rw [cubeMom_e2 h, m1_four]; norm_num
  ftt := fun a b c hab hac hbc => by rw [cubeMom_e3 hab hac hbc, m1_two, m1_four]; norm_num
  tttt := fun a b c d h => by
    rw [cubeMom, prod_e4 (fun _ k => m1 k) (fun _ => m1_zero) h, m1_two]; norm_num

theorem g1_eight : g1 8 = 105 / 16 := by rw [g1_succ, g1_six]; norm_num

theorem enr2_symMom9 (n : ℕ) : SymMom9 (n := n) (fun α => ∏ i, g1 (α i)) (1 / 2) (3 / 4) (1 / 4)
    (15 / 8) (3 / 8) (1 / 8) (105 / 16) (15 / 16) (9 / 16) (3 / 16) (1 / 16) where
  toSymMom := enr2_symMom n
  eight := fun a => by rw [prod_e1 (fun _ k => g1 k) (fun _ => g1_zero), g1_eight]
  sixtwo := fun a b h => by
    rw [prod_e2 (fun _ k => g1 k) (fun _ => g1_zero) h, g1_two, g1_six]; norm_num
  fourfour := fun a b h => by
    rw [prod_e2 (fun _ k => g1 k) (fun _ => g1_zero) h, g1_four]; norm_num
  ftt := fun a b c hab hac hbc => by
    rw [prod_e3 (fun _ k => g1 k) (fun _ => g1_zero) hab hac hbc, g1_two, g1_four]; norm_num
  tttt := fun a b c d h => by
    rw [prod_e4 (fun _ k => g1 k) (fun _ => g1_zero) h, g1_two]; norm_num

theorem gamma_ratio4 {n : ℕ} (hn : 0 < n) :
    Real.Gamma ((n : ℝ) / 2) / Real.Gamma ((n + 8) / 2) =
      16 / (n * (n + 2) * (n + 4) * (n + 6)) := by
  have h0 : (0 : ℝ) < n := by exact_mod_cast hn
  have h1 : Real.Gamma ((n : ℝ) / 2) ≠ 0 := (Real.Gamma_pos_of_pos (by positivity)).ne'
  rw [show ((n : ℝ) + 8) / 2 = n / 2 + 1 + 1 + 1 + 1 by ring, Real.Gamma_add_one (by positivity),
    Real.Gamma_add_one (by positivity), Real.Gamma_add_one (by positivity),
    Real.Gamma_add_one (by positivity)]
  field_simp
  ring

theorem radial_symMom9 {n : ℕ} (hn : 0 < n) (ρ : ℕ → ℝ) (h0 : ρ 0 = 1) :
    SymMom9 (n := n) (radMom ρ) (ρ 2 / n) (3 * ρ 4 / (n * (n + 2))) (ρ 4 / (n * (n + 2)))
      (15 * ρ 6 / (n * (n + 2) * (n + 4))) (3 * ρ 6 / (n * (n + 2) * (n + 4)))
      (ρ 6 / (n * (n + 2) * (n + 4))) (105 * ρ 8 / (n * (n + 2) * (n + 4) * (n + 6)))
      (15 * ρ 8 / (n * (n + 2) * (n + 4) * (n + 6))) (9 * ρ 8 / (n * (n + 2) * (n + 4) * (n + 6)))
      (3 * ρ 8 / (n * (n + 2) * (n + 4) * (n + 6))) (ρ 8 / (n * (n + 2) * (n + 4) * (n + 6))) where
  toSymMom := radial_symMom hn ρ h0
  eight := fun a => by
    rw [radMom, sum_e1, sphMom_eq _ _ (sum_e1 a 8), prod_e1 (fun _ k => g1 k) (fun _ => g1_zero),
      g1_eight]
    push_cast
    rw [gamma_ratio4 hn]; ring
  sixtwo := fun a b hab => by
    rw [radMom, sum_e2, sphMom_eq _ _ (sum_e2 a b 6 2),
      prod_e2 (fun _ k => g1 k) (fun _ => g1_zero) hab, g1_two, g1_six]
    norm_num
    rw [gamma_ratio4 hn]; ring
  fourfour := fun a b hab => by
    rw [radMom, sum_e2, sphMom_eq _ _ (sum_e2 a b 4 4),
      prod_e2 (fun _ k => g1 k) (fun _ => g1_zero) hab, g1_four]
    norm_num
    rw [gamma_ratio4 hn]; ring
  ftt := fun a b c hab hac hbc => by
    rw [radMom, sum_e3, sphMom_eq _ _ (sum_e3 a b c 4 2 2),
      prod_e3 (fun _ k => g1 k) (fun _ => g1_zero) hab hac hbc, g1_two, g1_four]
    norm_num
    rw [gamma_ratio4 hn]; ring
  tttt := fun a b c d h => by
    rw [radMom, sum_e4, sphMom_eq _ _ (sum_e4 a b c d 2 2 2 2),
      prod_e4 (fun _ k => g1 k) (fun _ => g1_zero) h, g1_two]
    norm_num
    rw [gamma_ratio4 hn]; ring

namespace McNameeStenger

theorem cube_relMom9 (n : ℕ) : RelMom9 (Spec.cube n) (1 / 3) (1 / 5) (1 / 9) (1 / 7) (1 / 15)
    (1 / 27) (1 / 9) (1 / 21) (1 / 25) (1 / 45) (1 / 81) := by
  refine ⟨cubeMom, cube_linOnMono n, fun α => ?_, cube_symMom9 n⟩
  rw [one_eq_mono, cube_mono, cube_mono, cubeMom_zero, mul_one]

theorem enr2_relMom9 (n : ℕ) : RelMom9 (Spec.enr2 n) (1 / 2) (3 / 4) (1 / 4) (15 / 8) (3 / 8)
    (1 / 8) (105 / 16) (15 / 16) (9 / 16) (3 / 16) (1 / 16) :=
  ⟨_, enr2_linOnMono n, fun α => by rw [enr2_one, enr2_mono], enr2_symMom9 n⟩

theorem ball_relMom9 {n : ℕ} (hn : 0 < n) :
    RelMom9 (Spec.ball n) (1 / (n + 2)) (3 / ((n + 2) * (n + 4))) (1 / ((n + 2) * (n + 4)))
      (15 / ((n + 2) * (n + 4) * (n + 6))) (3 / ((n + 2) * (n + 4) * (n + 6)))
      (1 / ((n + 2) * (n + 4) * (n + 6))) (105 / ((n + 2) * (n + 4) * (n + 6) * (n + 8)))
      (15 / ((n + 2) * (n + 4) * (n + 6) * (n + 8))) (9 / ((n + 2) * (n + 4) * (n + 6) * (n + 8)))
      (3 / ((n + 2) * (n + 4) * (n + 6) * (n + 8))) (1 / ((n + 2) * (n + 4) * (n + 6) * (n + 8))) := by
  have hn0 : (n : ℝ) ≠ 0 := by positivity
  have ha : -(n : ℝ) < 0 := by simp [hn]
  have h := radial_symMom9 hn (ballRho n 0) (by simp [ballRho, hn0])
  have hl := ballPow_linOnMono hn ha
  have hm := ballPow_mono hn ha
  rw [← ball_eq_ballPow] at hl hm
  refine ⟨_, hl, hm, ?_⟩
  convert h using 1 <;> simp only [ballRho, add_zero] <;> push_cast <;> field_simp

theorem enr_relMom9 {n : ℕ} (hn : 0 < n) :
    RelMom9 (Spec.enr n) (n + 1) (3 * (n + 1) * (n + 3)) ((n + 1) * (n + 3))
      (15 * (n + 1) * (n + 3) * (n + 5)) (3 * (n + 1) * (n + 3) * (n + 5))
      ((n + 1) * (n + 3) * (n + 5)) (105 * (n + 1) * (n + 3) * (n + 5) * (n + 7))
      (15 * (n + 1) * (n + 3) * (n + 5) * (n + 7)) (9 * (n + 1) * (n + 3) * (n + 5) * (n + 7))
      (3 * (n + 1) * (n + 3) * (n + 5) * (n + 7)) ((n + 1) * (n + 3) * (n + 5) * (n + 7)) := by
  have hn0 : (n : ℝ) ≠ 0 := by positivity
  have h := radial_symMom9 hn (enrRho n) (enrRho_zero n)
  have e2 : enrRho n 2 = n * (n + 1) := by
    rw [enrRho_eq hn 1, enrRho_eq hn 0, enrRho_zero]; push_cast; ring
  have e4 : enrRho n 4 = n * (n + 1) * (n + 2) * (n + 3) := by
    rw [enrRho_eq hn 3, enrRho_eq hn 2, e2]; push_cast; ring
  have e6 : enrRho n 6 = n * (n + 1) * (n + 2) * (n + 3) * (n + 4) * (n + 5) := by
    rw [enrRho_eq hn 5, enrRho_eq hn 4, e4]; push_cast; ring
  have e8 : enrRho n 8 = n * (n + 1) * (n + 2) * (n + 3) * (n + 4) * (n + 5) * (n + 6) * (n + 7) := by
    rw [enrRho_eq hn 7, enrRho_eq hn 6, e6]; push_cast; ring
  refine ⟨_, enr_linOnMono hn, enr_mono hn, ?_⟩
  convert h using 1 <;> simp only [e2, e4, e6, e8] <;> field_simp

/-! The functionals are positive. -/

theorem cube_one (n : ℕ) : Spec.cube n (fun _ => 1) = 2 ^ n := by
  rw [one_eq_mono, cube_mono, cubeMom_zero, mul_one]

theorem ball_pos {n : ℕ} (hn : 0 < n) : 0 < Spec.ball n (fun _ => 1) := by
  rw [ball_one hn]
  have := sphereArea_pos hn
  positivity

theorem enr2_pos (n : ℕ) : 0 < Spec.enr2 n (fun _ => 1) := by
  rw [enr2_one]; positivity

theorem enr_pos {n : ℕ} (hn : 0 < n) : 0 < Spec.enr n (fun _ => 1) := by
  have h1 : Spec.sphere n (mono 0) = sphereArea n := by
    have hG : Real.Gamma ((n : ℝ) / 2) ≠ 0 := (Real.Gamma_pos_of_pos (by positivity)).ne'
    rw [sphere_mono' hn]
    simp [sphMom, g1_zero, hG]
  rw [one_eq_mono, enr_eq, polar hn 0 (fun r => Real.exp (-r)), h1, enr_integral]
  have := sphereArea_pos hn
  positivity

end McNameeStenger
end Quadpy
