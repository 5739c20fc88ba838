import Verif.Lemmas.RadialProduct
import Verif.Props.C57Sphere
import Verif.Props.C27Radii

/-!
# C57: products of a decimal radial rule with McLaren's sphere rule
-/

namespace Quadpy
open ProductRules Dec

theorem mc_data_length : ∀ p ∈ mc_data, p.2.length = 3 := by
  intro p hp
  simp only [mc_data, List.mem_append, List.mem_map, List.mem_flatMap] at hp
  rcases hp with ⟨x, hx, rfl⟩ | ⟨g, hg, t, -, rfl⟩
  · have h : (5 : ℝ) - √5 ≠ 0 := by nlinarith [Real.sq_sqrt (show (0 : ℝ) ≤ 5 by norm_num), Real.sqrt_nonneg 5]
    have hr : mc_r ≠ 0 := by
      obtain ⟨lf, uf⟩ := sqrt5_near
      exact (Real.sqrt_pos.2 (by linarith)).ne'
    have hs : mc_s ≠ 0 := by
      exact (Real.sqrt_pos.2 (by positivity)).ne'
    rw [pmRoll_three hr hs] at hx
    simp only [List.mem_cons, List.not_mem_nil, or_false] at hx
    rcases hx with rfl | rfl | rfl | rfl | rfl | rfl | rfl | rfl | rfl | rfl | rfl | rfl <;> rfl
  · simp only [List.mem_cons, List.not_mem_nil, or_false] at hg
    rcases hg with rfl | rfl | rfl | rfl | rfl | rfl | rfl | rfl | rfl | rfl | rfl | rfl <;> rfl

theorem C57_u3_mclaren_10_degree : mclaren_10.degree = 14 := rfl

/-- C57, Stroud S3 14-1. -/
theorem C57_s3_stroud_14_1 : s3_stroud_14_1.ApproxRel 3 (Spec.ball 3) 5e-16 ∧ s3_stroud_14_1.degree = 14 := by
  refine ⟨?_, rfl⟩
  have hb := ballPow_linOnMono (n := 3) (by norm_num) (a := 0) (by norm_num)
  have hm := ballPow_mono (n := 3) (by norm_num) (a := 0) (by norm_num)
  rw [← ball_eq_ballPow] at hb hm
  have h := approx_radial (by norm_num) hb (ball_nonneg 3) hm (L := radial_s3_14) (c := 3) (K := 2) (δ := 4.9e-16)
    (deg := 14) mc_data_length C57_u3_mclaren_10 ?_ (by norm_num) ?_
    (N := radial_s3_14.flatMap fun p => mc_data.map fun q => (p.2 * q.1 * 3, q.2.map fun x => p.1 * x))
    (by
      congr 1
      funext p
      exact List.map_congr_left fun q _ => by rw [show p.2 * q.1 * 3 = 3 * p.2 * q.1 by ring])
  · exact approxRel_le h (ball_nonneg 3) (by norm_num)
  · intro k hk
    have : k ≤ 7 := by omega
    simp only [radial_s3_14, ballRho, List.map_cons, List.map_nil, List.sum_cons, List.sum_nil]
    interval_cases k <;> (rw [abs_le]; constructor <;> norm_num)
  · intro k hk
    simp only [radial_s3_14, List.map_cons, List.map_nil, List.sum_cons, List.sum_nil]
    interval_cases k <;> (rw [abs_le]; constructor <;> norm_num)

theorem sqrt_pi_near : -1e-18 ≤ 4 / √Real.pi - 2.2567583341910251478 ∧
    4 / √Real.pi - 2.2567583341910251478 ≤ 1e-18 := by
  have h1 := Real.pi_gt_d20
  have h2 := Real.pi_lt_d20
  have hp := Real.sqrt_pos.2 Real.pi_pos
  have l : 1.77245385090551602729 ≤ √Real.pi := Real.le_sqrt_of_sq_le (by norm_num; linarith)
  have u : √Real.pi ≤ 1.77245385090551602731 := by
    rw [Real.sqrt_le_left (by norm_num)]
    norm_num
    linarith
  constructor
  · rw [le_sub_iff_add_le, le_div_iff₀ hp]
    nlinarith
  · rw [sub_le_iff_le_add, div_le_iff₀ hp]
    nlinarith

theorem gamma_half (k : ℕ) : enr2Rho 3 (2 * (k + 1)) = (2 * k + 3) / 2 * enr2Rho 3 (2 * k) := by
  simp only [enr2Rho]
  rw [show (((3 : ℕ) : ℝ) + (2 * (k + 1) : ℕ)) / 2 = (((3 : ℕ) : ℝ) + (2 * k : ℕ)) / 2 + 1 by push_cast; ring,
    Real.Gamma_add_one (by positivity)]
  push_cast
  ring

/-- C57, Stroud E3r2 14-1. -/
theorem C57_e3r2_stroud_14_1 : e3r2_stroud_14_1.ApproxRel 3 (Spec.enr2 3) 4.2e-11 ∧
    e3r2_stroud_14_1.degree = 14 := by
  refine ⟨?_, rfl⟩
  have hp : √Real.pi ≠ 0 := (Real.sqrt_pos.2 Real.pi_pos).ne'
  obtain ⟨l, u⟩ := sqrt_pi_near
  have h := approx_radial (by norm_num) (enr2_linOnMono 3) (enr2_nonneg 3) (enr2_radMom (n := 3) (by norm_num))
    (L := radial_e3r2_14) (c := 4 / √Real.pi) (K := 20000) (δ := 4.1e-11)
    (deg := 14) mc_data_length C57_u3_mclaren_10 ?_ (by norm_num) ?_
    (N := radial_e3r2_14.flatMap fun p => mc_data.map fun q =>
      (p.2 * (q.1 / (√Real.pi / 4)), q.2.map fun x => p.1 * x))
    (by
      congr 1
      funext p
      exact List.map_congr_left fun q _ => by
        rw [show p.2 * (q.1 / (√Real.pi / 4)) = 4 / √Real.pi * p.2 * q.1 by field_simp])
  · exact approxRel_le h (enr2_nonneg 3) (by norm_num)
  · have r0 : enr2Rho 3 (2 * 0) = 1 := by
      simp only [enr2Rho]
      rw [mul_zero, Nat.cast_zero, add_zero, div_self (Real.Gamma_pos_of_pos (by norm_num)).ne']
    have r1 := gamma_half 0
    have r2 := gamma_half 1
    have r3 := gamma_half 2
    have r4 := gamma_half 3
    have r5 := gamma_half 4
    have r6 := gamma_half 5
    have r7 := gamma_half 6
    intro k hk
    have : k ≤ 7 := by omega
    generalize 4 / √Real.pi = c at *
    rw [r0] at r1
    norm_num only at r1
    rw [r1] at r2
    norm_num only at r2
    rw [r2] at r3
    norm_num only at r3
    rw [r3] at r4
    norm_num only at r4
    rw [r4] at r5
    norm_num only at r5
    rw [r5] at r6
    norm_num only at r6
    rw [r6] at r7
    norm_num only at r7
    simp only [radial_e3r2_14, List.map_cons, List.map_nil, List.sum_cons, List.sum_nil]
    interval_cases k <;> norm_num only [r0, r1, r2, r3, r4, r5, r6, r7] <;> rw [abs_le] <;>
      constructor <;> linarith
  · intro k hk
    generalize 4 / √Real.pi = c at *
    simp only [radial_e3r2_14, List.map_cons, List.map_nil, List.sum_cons, List.sum_nil]
    interval_cases k <;> norm_num only <;> rw [abs_le] <;> constructor <;> linarith

/-- The rule on the ball for `x^8 z^6`, of the highest degree. -/
example : |Spec.ball 3 (fun _ => 1) * dot 3 s3_stroud_14_1.weights s3_stroud_14_1.points (mono ![8, 0, 6]) -
    Spec.ball 3 (mono ![8, 0, 6])| ≤ Spec.ball 3 (fun _ => 1) * 5e-16 :=
  approxUpTo_mono C57_s3_stroud_14_1.1.2 _ (by rw [C57_s3_stroud_14_1.2]; decide)

end Quadpy
