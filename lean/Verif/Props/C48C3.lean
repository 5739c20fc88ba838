import Verif.Model.FixedC3
import Verif.Lemmas.FixedRules

/-!
# C48: closed-form rules on the cube

Each theorem says that the rule integrates all polynomials up to the degree it reports exactly over
the cube [-1, 1]^3, its weights relative to the volume, and states that degree.
-/

namespace Quadpy
open Finset FixedC3

/-- One rule made of sign-symmetric orbits. -/
local macro "c3_rule " "[" es:Lean.Parser.Tactic.simpLemma,* "]" : tactic => `(tactic| (
  refine ⟨ExactOnCube_of_rel (space_exact cube3_even (by simp [spaceKeys]) ?_), rfl⟩
  space_fixed [$es,*]))

/-- C48, Albrecht and Collatz. -/
theorem C48_c3_albrecht_collatz : albrecht_collatz.ExactOnCube 3 ∧ albrecht_collatz.degree = 3 := by
  c3_rule []

/-- C48, the midpoint rule. -/
theorem C48_c3_midpoint : FixedC3.midpoint.ExactOnCube 3 ∧ FixedC3.midpoint.degree = 1 := by
  c3_rule []

/-- C48, the rule with the vertices. -/
theorem C48_c3_vertex : FixedC3.vertex.ExactOnCube 3 ∧ FixedC3.vertex.degree = 1 := by
  c3_rule []

/-- C48, the rule with the midpoints of the faces (hammer_stroud_1_3, tyler_1). -/
theorem C48_c3_face_midpoint : face_midpoint.ExactOnCube 3 ∧ face_midpoint.degree = 3 := by
  c3_rule []

/-- C48, Hammer and Stroud 2-3. -/
theorem C48_c3_hammer_stroud_2_3 : hammer_stroud_2_3.ExactOnCube 3 ∧ hammer_stroud_2_3.degree = 5 := by
  have e1 := sqrt_sq_of (x := 3 / 5) (by norm_num)
  c3_rule [e1]

/-- C48, Hammer and Stroud 4-3. -/
theorem C48_c3_hammer_stroud_4_3 : hammer_stroud_4_3.ExactOnCube 3 ∧ hammer_stroud_4_3.degree = 5 := by
  have e1 := sqrt_sq_of (x := 19 / 30) (by norm_num)
  have e2 := sqrt_sq_of (x := 19 / 33) (by norm_num)
  c3_rule [e1, e2]

theorem div_cube_eq {x y k : ℝ} (h : x * y = 1) : k / x ^ 3 = k * y ^ 3 := by
  rw [eq_inv_of_mul_eq_one_right h, inv_pow, div_eq_mul_inv]

/-- C48, Hammer and Stroud 5-3a. -/
theorem C48_c3_hammer_stroud_5_3a :
    (hammer_stroud_5_3 1).ExactOnCube 3 ∧ (hammer_stroud_5_3 1).degree = 7 := by
  have hs : √(165 : ℝ) ^ 2 = 165 := Real.sq_sqrt (by norm_num)
  have h0 := Real.sqrt_nonneg (165 : ℝ)
  have h1 : √(165 : ℝ) ≤ 13 := by nlinarith
  have e1 := sqrt_sq_of (x := (33 - 1 * √165) / 28) (by linarith)
  have e2 := sqrt_sq_of (x := (30 + 1 * √165) / 35) (by linarith)
  have e3 := sqrt_sq_of (x := (195 - 1 * 4 * √165) / 337) (by linarith)
  have b1 : 176 / ((33 - 1 * √165) / 28) ^ 3 = 176 * ((33 + √165) / 33) ^ 3 :=
    div_cube_eq (by linear_combination -hs / 924)
  have b2 : 8 / ((30 + 1 * √165) / 35) ^ 3 = 8 * ((30 - √165) / 21) ^ 3 :=
    div_cube_eq (by linear_combination -hs / 735)
  have b3 : 8 / ((195 - 1 * 4 * √165) / 337) ^ 3 = 8 * ((195 + 4 * √165) / 105) ^ 3 :=
    div_cube_eq (by linear_combination -16 / 35385 * hs)
  unfold hammer_stroud_5_3
  dsimp only
  rw [b1, b2, b3]
  clear b1 b2 b3
  generalize √(165 : ℝ) = s at *
  c3_rule [e1, e2, e3]

/-- C48, Hammer and Stroud 5-3b. -/
theorem C48_c3_hammer_stroud_5_3b :
    (hammer_stroud_5_3 (-1)).ExactOnCube 3 ∧ (hammer_stroud_5_3 (-1)).degree = 7 := by
  have hs : √(165 : ℝ) ^ 2 = 165 := Real.sq_sqrt (by norm_num)
  have h0 := Real.sqrt_nonneg (165 : ℝ)
  have h1 : √(165 : ℝ) ≤ 13 := by nlinarith
  have e1 := sqrt_sq_of (x := (33 - (-1) * √165) / 28) (by linarith)
  have e2 := sqrt_sq_of (x := (30 + (-1) * √165) / 35) (by linarith)
  have e3 := sqrt_sq_of (x := (195 - (-1) * 4 * √165) / 337) (by linarith)
  have b1 : 176 / ((33 - (-1) * √165) / 28) ^ 3 = 176 * ((33 - √165) / 33) ^ 3 :=
    div_cube_eq (by linear_combination -hs / 924)
  have b2 : 8 / ((30 + (-1) * √165) / 35) ^ 3 = 8 * ((30 + √165) / 21) ^ 3 :=
    div_cube_eq (by linear_combination -hs / 735)
  have b3 : 8 / ((195 - (-1) * 4 * √165) / 337) ^ 3 = 8 * ((195 - 4 * √165) / 105) ^ 3 :=
    div_cube_eq (by linear_combination -16 / 35385 * hs)
  unfold hammer_stroud_5_3
  dsimp only
  rw [b1, b2, b3]
  clear b1 b2 b3
  generalize √(165 : ℝ) = s at *
  c3_rule [e1, e2, e3]

/-- C48, Mustard, Lyness and Blatt 1. -/
theorem C48_c3_mustard_lyness_blatt_1 :
    mustard_lyness_blatt_1.ExactOnCube 3 ∧ mustard_lyness_blatt_1.degree = 3 := by c3_rule []

/-- C48, Mustard, Lyness and Blatt 2. -/
theorem C48_c3_mustard_lyness_blatt_2 :
    mustard_lyness_blatt_2.ExactOnCube 3 ∧ mustard_lyness_blatt_2.degree = 3 := by c3_rule []

/-- C48, Mustard, Lyness and Blatt 3. -/
theorem C48_c3_mustard_lyness_blatt_3 :
    mustard_lyness_blatt_3.ExactOnCube 3 ∧ mustard_lyness_blatt_3.degree = 3 := by c3_rule []

/-- C48, Mustard, Lyness and Blatt 4. -/
theorem C48_c3_mustard_lyness_blatt_4 :
    mustard_lyness_blatt_4.ExactOnCube 3 ∧ mustard_lyness_blatt_4.degree = 5 := by c3_rule []

/-- C48, Mustard, Lyness and Blatt 5. -/
theorem C48_c3_mustard_lyness_blatt_5 :
    mustard_lyness_blatt_5.ExactOnCube 3 ∧ mustard_lyness_blatt_5.degree = 5 := by c3_rule []

/-- C48, Mustard, Lyness and Blatt 6. -/
theorem C48_c3_mustard_lyness_blatt_6 :
    mustard_lyness_blatt_6.ExactOnCube 3 ∧ mustard_lyness_blatt_6.degree = 5 := by c3_rule []

/-- C48, Mustard, Lyness and Blatt 7. -/
theorem C48_c3_mustard_lyness_blatt_7 :
    mustard_lyness_blatt_7.ExactOnCube 3 ∧ mustard_lyness_blatt_7.degree = 5 := by c3_rule []

/-- C48, Sadowsky. -/
theorem C48_c3_sadowsky : sadowsky.ExactOnCube 3 ∧ sadowsky.degree = 5 := by
  have e1 := sqrt_sq_of (x := 5 / 8) (by norm_num)
  c3_rule [e1]

/-- C48, Tyler 2. -/
theorem C48_c3_tyler_2 : FixedC3.tyler_2.ExactOnCube 3 ∧ FixedC3.tyler_2.degree = 5 := by c3_rule []

/-- C48, product Gauss 3. -/
theorem C48_c3_stroud_c3_3_2 : stroud_c3_3_2.ExactOnCube 3 ∧ stroud_c3_3_2.degree = 3 := by
  have e1 := sqrt_sq_of (x := 1 / 3) (by norm_num)
  c3_rule [e1]

theorem osum_rss_pm (r s : ℝ) (a b c : ℕ) : osum 3 (orbit 3 .symm_rss_pm [r, s]) (mono ![a, b, c]) =
    (1 + (-1) ^ (a + b + c)) * (r ^ a * s ^ (b + c) + r ^ b * s ^ (a + c) + r ^ c * s ^ (a + b)) := by
  simp only [osum, orbit, List.map_cons, List.map_nil, List.sum_cons, List.sum_nil, mono_three,
    Matrix.cons_val_zero, Matrix.cons_val_one, Matrix.cons_val]
  rw [neg_pow r a, neg_pow r b, neg_pow r c, neg_pow s a, neg_pow s b, neg_pow s c]
  ring

theorem stroud_1967_weight {s t : ℝ} (hs : s ^ 2 = 19) (ht : t ^ 2 = 71440 + 6802 * s) (h1 : s < 4.359)
    (h2 : 4.3588 < s) (t1 : t < 317.96) (t2 : 317.94 < t) :
    133225 / (260072 - 1520 * s + (133 - 37 * s) * t) = 10 / 19 - (5035 - 1415 * s) * t / 19290396 ∧
    133225 / (260072 - 1520 * s - (133 - 37 * s) * t) =
      10 / 19 + (5035 - 1415 * s) * t / 19290396 := by
  have a1 : 0 < (37 * s - 133) * t := mul_pos (by linarith) (by linarith)
  have a2 : (37 * s - 133) * t < 29 * 317.96 := mul_lt_mul (by linarith) (by linarith)
    (by linarith) (by norm_num)
  constructor
  · rw [div_eq_iff (by linarith)]; quad_comb [ht, hs]
  · rw [div_eq_iff (by linarith)]; quad_comb [ht, hs]

theorem stroud_1967_prod {s t : ℝ} (hs : s ^ 2 = 19) (ht : t ^ 2 = 71440 + 6802 * s) (h1 : s < 4.359)
    (h2 : 4.3588 < s) (t1 : t < 317.96) (t2 : 317.94 < t) :
    √((1919 - 148 * s + 4 * t) / 3285) * √((1121 + 74 * s - 2 * t) / 3285) =
      (418 + 61 * s - (2 - s) * t) / 3285 ∧
    √((1919 - 148 * s - 4 * t) / 3285) * √((1121 + 74 * s + 2 * t) / 3285) =
      (- 418 - 61 * s - (2 - s) * t) / 3285 := by
  have pl : 0 ≤ (1919 - 148 * s + 4 * t) / 3285 := by linarith
  have pg : 0 ≤ (1919 - 148 * s - 4 * t) / 3285 := by linarith
  have px : 0 ≤ (1121 + 74 * s - 2 * t) / 3285 := by linarith
  have pm : 0 ≤ (1121 + 74 * s + 2 * t) / 3285 := by linarith
  have a1 : 0 ≤ (s - 2) * t := (mul_pos (by linarith) (by linarith)).le
  have a2 : 2.3588 * 317.94 ≤ (s - 2) * t := mul_le_mul (by linarith) (by linarith)
    (by linarith) (by linarith)
  constructor
  · rw [← Real.sqrt_mul pl, Real.sqrt_eq_iff_mul_self_eq (mul_nonneg pl px) (by linarith)]
    quad_comb [ht, hs]
  · rw [← Real.sqrt_mul pg, Real.sqrt_eq_iff_mul_self_eq (mul_nonneg pg pm) (by linarith)]
    quad_comb [ht, hs]

/-- C48, Stroud 1967. -/
theorem C48_c3_stroud_1967 : FixedC3.stroud_1967.ExactOnCube 3 ∧ FixedC3.stroud_1967.degree = 5 := by
  refine ⟨ExactOnCube_of_rel ?_, rfl⟩
  have hs : √(19 : ℝ) ^ 2 = 19 := Real.sq_sqrt (by norm_num)
  have h0 := Real.sqrt_nonneg (19 : ℝ)
  unfold FixedC3.stroud_1967
  dsimp only
  generalize √(19 : ℝ) = s at *
  have h1 : s < 4.359 := by nlinarith
  have h2 : 4.3588 < s := by nlinarith
  have ht : √(71440 + 6802 * s) ^ 2 = 71440 + 6802 * s := Real.sq_sqrt (by linarith)
  have t0 := Real.sqrt_nonneg (71440 + 6802 * s)
  generalize √(71440 + 6802 * s) = t at *
  have t1 : t < 317.96 := by nlinarith
  have t2 : 317.94 < t := by nlinarith
  have pl : 0 ≤ (1919 - 148 * s + 4 * t) / 3285 := by linarith
  have pg : 0 ≤ (1919 - 148 * s - 4 * t) / 3285 := by linarith
  have px : 0 ≤ (1121 + 74 * s - 2 * t) / 3285 := by linarith
  have pm : 0 ≤ (1121 + 74 * s + 2 * t) / 3285 := by linarith
  have el := sqrt_sq_of pl
  have eg := sqrt_sq_of pg
  have ex := sqrt_sq_of px
  have em := sqrt_sq_of pm
  obtain ⟨elx, egm⟩ := stroud_1967_prod hs ht h1 h2 t1 t2
  generalize √((1919 - 148 * s + 4 * t) / 3285) = l at *
  generalize √((1919 - 148 * s - 4 * t) / 3285) = g at *
  generalize √((1121 + 74 * s - 2 * t) / 3285) = x at *
  generalize √((1121 + 74 * s + 2 * t) / 3285) = m at *
  obtain ⟨hB, hC⟩ := stroud_1967_weight hs ht h1 h2 t1 t2
  rw [hB, hC]
  clear * - hs ht el eg ex em elx egm
  refine sym_exact3 cube3_even ?_ ?_
  · simp [SymEntry.Regular, SymKey.Accepts, SymKey.arities, orbit]
  · intro a b c habc
    simp only [symSum, List.map_cons, List.map_nil, List.zipWith_cons_cons, List.zipWith_nil_left,
      List.sum_cons, List.sum_nil, osum_rss_pm]
    rcases Nat.even_or_odd (a + b + c) with hev | hod
    · have ha : a ≤ 5 := by omega
      have hb : b ≤ 5 := by omega
      have hc : c ≤ 5 := by omega
      rw [hev.neg_one_pow]
      simp only [osum, orbit, List.map_cons, List.map_nil, List.sum_cons, List.sum_nil, mono_three,
        Matrix.cons_val_zero, Matrix.cons_val_one, Matrix.cons_val, List.replicate]
      interval_cases a <;> interval_cases b <;> interval_cases c <;> first
      | (exfalso; omega)
      | (exfalso; revert hev; decide)
      | skip
      all_goals
        try conv_rhs => norm_num [Nat.odd_iff]
        quad_comb [el, eg, ex, em, elx, egm, ht, hs]
    · have ho : Odd a ∨ Odd b ∨ Odd c := by
        by_contra h
        simp only [not_or, Nat.not_odd_iff_even] at h
        exact (Nat.not_even_iff_odd.2 hod) ((h.1.add h.2.1).add h.2.2)
      rw [hod.neg_one_pow, if_pos ho]
      simp only [osum, orbit, List.map_cons, List.map_nil, List.sum_cons, List.sum_nil, mono_three,
        Matrix.cons_val_zero, Matrix.cons_val_one, Matrix.cons_val, List.replicate]
      rw [← pow_add, ← pow_add, zero_pow hod.pos.ne']
      ring

end Quadpy
