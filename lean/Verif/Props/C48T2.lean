import Verif.Model.FixedT
import Verif.Lemmas.FixedSimplex
import Verif.Props.C48S2Roots

/-!
# C48: closed-form rules on the triangle

Each theorem says that the rule integrates all polynomials up to the degree it reports exactly over
the triangle, in barycentric coordinates and with weights relative to the area, and states that
degree.
-/

namespace Quadpy
open Finset FixedT2

/-- C48, centroid. -/
theorem C48_t2_centroid :
    centroid.ExactOnSimplex 2 ∧ centroid.degree = 1 := by
  tri_sym []

/-- C48, vertex. -/
theorem C48_t2_vertex :
    vertex.ExactOnSimplex 2 ∧ vertex.degree = 1 := by
  tri_sym []

/-- C48, seven_point. -/
theorem C48_t2_seven_point :
    seven_point.ExactOnSimplex 2 ∧ seven_point.degree = 3 := by
  tri_sym []

/-- C48, albrecht_collatz. -/
theorem C48_t2_albrecht_collatz :
    albrecht_collatz.ExactOnSimplex 2 ∧ albrecht_collatz.degree = 3 := by
  tri_sym []

/-- C48, hammer_marlowe_stroud_2. -/
theorem C48_t2_hammer_marlowe_stroud_2 :
    hammer_marlowe_stroud_2.ExactOnSimplex 2 ∧ hammer_marlowe_stroud_2.degree = 2 := by
  tri_sym []

/-- C48, hammer_marlowe_stroud_3. -/
theorem C48_t2_hammer_marlowe_stroud_3 :
    hammer_marlowe_stroud_3.ExactOnSimplex 2 ∧ hammer_marlowe_stroud_3.degree = 2 := by
  tri_sym []

/-- C48, hammer_marlowe_stroud_4. -/
theorem C48_t2_hammer_marlowe_stroud_4 :
    hammer_marlowe_stroud_4.ExactOnSimplex 2 ∧ hammer_marlowe_stroud_4.degree = 3 := by
  tri_sym []

/-- C48, hammer_marlowe_stroud_5. -/
theorem C48_t2_hammer_marlowe_stroud_5 :
    hammer_marlowe_stroud_5.ExactOnSimplex 2 ∧ hammer_marlowe_stroud_5.degree = 5 := by
  have hs := sqrt_sq_of (x := 15) (by norm_num)
  unfold hammer_marlowe_stroud_5
  dsimp only
  generalize √15 = s at *
  tri_sym []

/-- C48, hillion_04. -/
theorem C48_t2_hillion_04 :
    hillion_04.ExactOnSimplex 2 ∧ hillion_04.degree = 2 := by
  have hs := sqrt_sq_of (x := 3) (by norm_num)
  unfold hillion_04
  dsimp only
  generalize √3 = s at *
  tri_fixed []

/-- C48, hillion_05. -/
theorem C48_t2_hillion_05 :
    hillion_05.ExactOnSimplex 2 ∧ hillion_05.degree = 2 := by
  have hs := sqrt_sq_of (x := 3) (by norm_num)
  unfold hillion_05
  dsimp only
  generalize √3 = s at *
  tri_fixed []

/-- C48, hillion_08. -/
theorem C48_t2_hillion_08 :
    hillion_08.ExactOnSimplex 2 ∧ hillion_08.degree = 3 := by
  have hs := sqrt_sq_of (x := 46) (by norm_num)
  unfold hillion_08
  dsimp only
  generalize √46 = s at *
  tri_fixed []

/-- C48, hillion_10. -/
theorem C48_t2_hillion_10 :
    hillion_10.ExactOnSimplex 2 ∧ hillion_10.degree = 3 := by
  have hs := sqrt_sq_of (x := 14) (by norm_num)
  unfold hillion_10
  dsimp only
  generalize √14 = s at *
  tri_fixed []

/-- C48, liu_vinokur_04. -/
theorem C48_t2_liu_vinokur_04 :
    liu_vinokur_04.ExactOnSimplex 2 ∧ liu_vinokur_04.degree = 2 := by
  tri_sym []

/-- C48, liu_vinokur_06. -/
theorem C48_t2_liu_vinokur_06 :
    liu_vinokur_06.ExactOnSimplex 2 ∧ liu_vinokur_06.degree = 3 := by
  have hs := sqrt_sq_of (x := 21) (by norm_num)
  unfold liu_vinokur_06
  dsimp only
  generalize √21 = s at *
  tri_sym []

/-- C48, liu_vinokur_09. -/
theorem C48_t2_liu_vinokur_09 :
    liu_vinokur_09.ExactOnSimplex 2 ∧ liu_vinokur_09.degree = 4 := by
  tri_sym []

/-- C48, liu_vinokur_10. -/
theorem C48_t2_liu_vinokur_10 :
    liu_vinokur_10.ExactOnSimplex 2 ∧ liu_vinokur_10.degree = 4 := by
  have hs := sqrt_sq_of (x := 13) (by norm_num)
  unfold liu_vinokur_10
  dsimp only
  generalize √13 = s at *
  tri_sym []

/-- C48, liu_vinokur_11. -/
theorem C48_t2_liu_vinokur_11 :
    liu_vinokur_11.ExactOnSimplex 2 ∧ liu_vinokur_11.degree = 4 := by
  have hs := sqrt_sq_of (x := 3) (by norm_num)
  unfold liu_vinokur_11
  dsimp only
  generalize √3 = s at *
  tri_sym []

/-- C48, liu_vinokur_13. -/
theorem C48_t2_liu_vinokur_13 :
    liu_vinokur_13.ExactOnSimplex 2 ∧ liu_vinokur_13.degree = 5 := by
  tri_sym []

/-- C48, walkington_p5. -/
theorem C48_t2_walkington_p5 :
    walkington_p5.ExactOnSimplex 2 ∧ walkington_p5.degree = 5 := by
  have hs := sqrt_sq_of (x := 15) (by norm_num)
  unfold walkington_p5
  dsimp only
  generalize √15 = s at *
  tri_sym []

/-- C48, lyness_jespersen_06. -/
theorem C48_t2_lyness_jespersen_06 :
    lyness_jespersen_06.ExactOnSimplex 2 ∧ lyness_jespersen_06.degree = 4 := by
  have hs := sqrt_sq_of (x := 3) (by norm_num)
  unfold lyness_jespersen_06
  dsimp only
  generalize √3 = s at *
  tri_sym []

/-- C48, lyness_jespersen_07. -/
theorem C48_t2_lyness_jespersen_07 :
    lyness_jespersen_07.ExactOnSimplex 2 ∧ lyness_jespersen_07.degree = 4 := by
  have hs := sqrt_sq_of (x := 13) (by norm_num)
  unfold lyness_jespersen_07
  generalize √13 = s at *
  tri_sym []

/-- C48, lyness_jespersen_08. -/
theorem C48_t2_lyness_jespersen_08 :
    lyness_jespersen_08.ExactOnSimplex 2 ∧ lyness_jespersen_08.degree = 5 := by
  have hs := sqrt_sq_of (x := 15) (by norm_num)
  unfold lyness_jespersen_08
  dsimp only
  generalize √15 = s at *
  tri_sym []

/-- C48, lyness_jespersen_11. -/
theorem C48_t2_lyness_jespersen_11 :
    lyness_jespersen_11.ExactOnSimplex 2 ∧ lyness_jespersen_11.degree = 6 := by
  have hs := sqrt_sq_of (x := 6) (by norm_num)
  unfold lyness_jespersen_11
  dsimp only
  generalize √6 = s at *
  tri_sym []

/-- C48, hillion_06. -/
theorem C48_t2_hillion_06 : hillion_06.ExactOnSimplex 2 ∧ hillion_06.degree = 2 := by
  have hs := sqrt_sq_of (x := 3) (by norm_num)
  have h0 : √3 ≤ 2 := by nlinarith [Real.sqrt_nonneg 3]
  have e1 := sqrt_sq_of (x := 2 + √3) (by positivity)
  have e2 := sqrt_sq_of (x := 2 - √3) (by linarith)
  have e3 : √(2 + √3) * √(2 - √3) = 1 := by
    rw [← Real.sqrt_mul (by positivity), Real.sqrt_eq_one]; linear_combination -hs
  unfold hillion_06
  dsimp only
  generalize √(2 + √3) = u at *
  generalize √(2 - √3) = v at *
  generalize √3 = s at *
  tri_fixed []

/-- C48, hillion_07. -/
theorem C48_t2_hillion_07 : hillion_07.ExactOnSimplex 2 ∧ hillion_07.degree = 3 := by
  have hs := sqrt_sq_of (x := 2) (by norm_num)
  have hq := sqrt_sq_of (x := 6) (by norm_num)
  have hq0 : √6 ≠ 0 := by positivity
  have h0 : 1 ≤ √2 := by nlinarith [Real.sqrt_nonneg 2]
  have e1 : √(6 * (3 + 2 * √2)) = √6 * (1 + √2) := by
    rw [Real.sqrt_mul (by norm_num), show 3 + 2 * √2 = (1 + √2) ^ 2 by linear_combination -hs,
      Real.sqrt_sq (by positivity)]
  have e2 : √(6 * (3 - 2 * √2)) = √6 * (√2 - 1) := by
    rw [Real.sqrt_mul (by norm_num), show 3 - 2 * √2 = (√2 - 1) ^ 2 by linear_combination -hs,
      Real.sqrt_sq (by linarith)]
  unfold hillion_07
  dsimp only
  rw [e1, e2]
  clear e1 e2 h0
  generalize √2 = s at *
  generalize √6 = q at *
  have f1 : (2 - 3 * ((6 + s - q * (1 + s)) / 20 + (6 - s + q * (s - 1)) / 20)) / 6 /
      ((6 + s + q * (1 + s)) / 20 + (6 - s - q * (s - 1)) / 20 - (6 + s - q * (1 + s)) / 20 -
        (6 - s + q * (s - 1)) / 20) = 1 / 4 + q / 36 := by
    rw [show (6 + s + q * (1 + s)) / 20 + (6 - s - q * (s - 1)) / 20 - (6 + s - q * (1 + s)) / 20 -
        (6 - s + q * (s - 1)) / 20 = q / 5 by ring]
    field_simp
    linear_combination -480 * hq
  have f2 : (2 - 3 * ((6 + s + q * (1 + s)) / 20 + (6 - s - q * (s - 1)) / 20)) / 6 /
      ((6 + s - q * (1 + s)) / 20 + (6 - s + q * (s - 1)) / 20 - (6 + s + q * (1 + s)) / 20 -
        (6 - s - q * (s - 1)) / 20) = 1 / 4 - q / 36 := by
    rw [show (6 + s - q * (1 + s)) / 20 + (6 - s + q * (s - 1)) / 20 - (6 + s + q * (1 + s)) / 20 -
        (6 - s - q * (s - 1)) / 20 = -q / 5 by ring]
    field_simp
    linear_combination 480 * hq
  rw [f1, f2]
  clear f1 f2 hq0
  tri_fixed []

/-- Two orbits of type d3_aa. -/
theorem two_d3_aa {w1 w2 a1 a2 : ℝ} (m0 : w1 + w2 = 1 / 3) (m2 : w1 * a1 ^ 2 + w2 * a2 ^ 2 = 1 / 12)
    (m3 : w1 * a1 ^ 3 + w2 * a2 ^ 3 = 1 / 30) (m4 : w1 * a1 ^ 4 + w2 * a2 ^ 4 = 1 / 30) :
    let S := schemeOfSym 2 [⟨.d3_aa, [w1, w2], [[(1 - a1) / 3], [(1 - a2) / 3]]⟩] 4
    S.ExactOnSimplex 2 ∧ S.degree = 4 := by
  tri_sym []

/-- C48, liu_vinokur_08. -/
theorem C48_t2_liu_vinokur_08 : liu_vinokur_08.ExactOnSimplex 2 ∧ liu_vinokur_08.degree = 4 := by
  have hs := sqrt_sq_of (x := 10) (by norm_num)
  have h0 : √10 ≤ 4 := by nlinarith [Real.sqrt_nonneg 10]
  have h1 : 3 ≤ √10 := by nlinarith [Real.sqrt_nonneg 10]
  have ht := sqrt_sq_of (x := 950 - 220 * √10) (by linarith)
  have ht0 : √(950 - 220 * √10) ≠ 0 := (Real.sqrt_pos.2 (by linarith)).ne'
  unfold liu_vinokur_08
  dsimp only
  generalize √(950 - 220 * √10) = t at *
  generalize √10 = s at *
  obtain ⟨a1, h1'⟩ : ∃ a, a = (-10 + 5 * s + t) / 30 := ⟨_, rfl⟩
  obtain ⟨a2, h2'⟩ : ∃ a, a = (-10 + 5 * s - t) / 30 := ⟨_, rfl⟩
  rw [← h1', ← h2']
  have hp : a1 + a2 = (s - 2) / 3 := by rw [h1', h2']; ring
  have hq : a1 * a2 = (2 * s - 10) / 15 := by rw [h1', h2']; linear_combination hs / 36 - ht / 900
  have hd : a2 - a1 ≠ 0 := by
    rw [h1', h2']; intro h; apply ht0; linear_combination -15 * h
  have hq0 : a1 * a2 ≠ 0 := by rw [hq]; intro h; linarith
  have n1 : a1 ≠ 0 := left_ne_zero_of_mul hq0
  have n2 : a2 ≠ 0 := right_ne_zero_of_mul hq0
  have hd' : a1 - a2 = -(a2 - a1) := by ring
  have m2 : (5 * a2 - 2) / (60 * a1 ^ 2 * (a2 - a1)) * a1 ^ 2 +
      (5 * a1 - 2) / (60 * a2 ^ 2 * (a1 - a2)) * a2 ^ 2 = 1 / 12 := by
    rw [hd']; field_simp; ring
  have m3 : (5 * a2 - 2) / (60 * a1 ^ 2 * (a2 - a1)) * a1 ^ 3 +
      (5 * a1 - 2) / (60 * a2 ^ 2 * (a1 - a2)) * a2 ^ 3 = 1 / 30 := by
    rw [hd']; field_simp; ring
  have m0 : (5 * a2 - 2) / (60 * a1 ^ 2 * (a2 - a1)) +
      (5 * a1 - 2) / (60 * a2 ^ 2 * (a1 - a2)) = 1 / 3 := by
    have : (5 * a2 - 2) / (60 * a1 ^ 2 * (a2 - a1)) + (5 * a1 - 2) / (60 * a2 ^ 2 * (a1 - a2)) =
        (5 * ((a1 + a2) ^ 2 - a1 * a2) - 2 * (a1 + a2)) / (60 * (a1 * a2) ^ 2) := by
      rw [hd']; field_simp; ring
    rw [this, hq, hp, div_eq_iff (by rw [← hq]; positivity)]
    linear_combination hs * (1 / 5)
  generalize (5 * a2 - 2) / (60 * a1 ^ 2 * (a2 - a1)) = w1 at *
  generalize (5 * a1 - 2) / (60 * a2 ^ 2 * (a1 - a2)) = w2 at *
  refine two_d3_aa m0 m2 m3 ?_
  linear_combination (a1 + a2) * m3 - a1 * a2 * m2 + 1 / 30 * hp - 1 / 12 * hq

/-- C48, strang_fix_cowper_04: for the three roots of the polynomial, in any order. -/
theorem C48_t2_strang_fix_cowper_04 (roots : Fin 3 → ℝ)
    (h : ∀ x : ℝ, -1 + 15 * x - 60 * x ^ 2 + 60 * x ^ 3 =
      60 * ((x - roots 0) * (x - roots 1) * (x - roots 2))) :
    (strang_fix_cowper_04 roots).ExactOnSimplex 2 ∧ (strang_fix_cowper_04 roots).degree = 3 := by
  have h0 := h 0
  have h1 := h 1
  have h2 := h (-1)
  unfold strang_fix_cowper_04
  generalize roots 0 = x at *
  generalize roots 1 = y at *
  generalize roots 2 = z at *
  clear h
  have e1 : x * y * z = 1 / 60 := by linarith
  have e2 : x + y + z = 1 := by linarith
  have e3 : x * y + y * z + z * x = 1 / 4 := by linarith
  obtain rfl : x = 1 - y - z := by linarith
  clear h0 h1 h2 e2
  tri_sym []

/-- The polynomial of strang_fix_cowper_04 has three roots, so the theorem above speaks about
something. -/
example : ∃ roots : Fin 3 → ℝ, (strang_fix_cowper_04 roots).ExactOnSimplex 2 := by
  obtain ⟨r, hr, -⟩ := exists_roots3 60 (-60) 15 (-1) 0 (15 / 100) (5 / 10) 1
    (by norm_num) (by norm_num) (by norm_num) (by norm_num) (by norm_num) (by norm_num)
  exact ⟨r, (C48_t2_strang_fix_cowper_04 r fun x => by have := hr x; linear_combination this).1⟩

end Quadpy
