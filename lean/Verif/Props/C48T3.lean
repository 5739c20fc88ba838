import Verif.Model.FixedT
import Verif.Lemmas.FixedSimplex

/-!
# C48: closed-form rules on the tetrahedron

Each theorem says that the rule integrates all polynomials up to the degree it reports exactly over
the tetrahedron, in barycentric coordinates and with weights relative to the volume, and states that
degree.
-/

namespace Quadpy
open Finset FixedT3

/-- C48, liu_vinokur_01. -/
theorem C48_t3_liu_vinokur_01 :
    liu_vinokur_01.ExactOnSimplex 3 ∧ liu_vinokur_01.degree = 1 := by
  tet_fixed []

/-- C48, liu_vinokur_02. -/
theorem C48_t3_liu_vinokur_02 :
    liu_vinokur_02.ExactOnSimplex 3 ∧ liu_vinokur_02.degree = 1 := by
  tet_fixed []

/-- C48, liu_vinokur_03. -/
theorem C48_t3_liu_vinokur_03 :
    liu_vinokur_03.ExactOnSimplex 3 ∧ liu_vinokur_03.degree = 2 := by
  have hs := sqrt_sq_of (x := 5) (by norm_num)
  unfold liu_vinokur_03
  generalize √5 = s at *
  tet_fixed []

/-- C48, hammer_marlowe_stroud_3. -/
theorem C48_t3_hammer_marlowe_stroud_3 :
    hammer_marlowe_stroud_3.ExactOnSimplex 3 ∧ hammer_marlowe_stroud_3.degree = 3 := by
  tet_fixed []

/-- C48, liu_vinokur_04. -/
theorem C48_t3_liu_vinokur_04 :
    liu_vinokur_04.ExactOnSimplex 3 ∧ liu_vinokur_04.degree = 2 := by
  tet_fixed []

/-- C48, liu_vinokur_05. -/
theorem C48_t3_liu_vinokur_05 :
    liu_vinokur_05.ExactOnSimplex 3 ∧ liu_vinokur_05.degree = 3 := by
  tet_fixed []

/-- C48, liu_vinokur_06. -/
theorem C48_t3_liu_vinokur_06 :
    liu_vinokur_06.ExactOnSimplex 3 ∧ liu_vinokur_06.degree = 3 := by
  tet_fixed []

/-- C48, liu_vinokur_07. -/
theorem C48_t3_liu_vinokur_07 :
    liu_vinokur_07.ExactOnSimplex 3 ∧ liu_vinokur_07.degree = 4 := by
  have hs := sqrt_sq_of (x := 70) (by norm_num)
  unfold liu_vinokur_07
  dsimp only
  generalize √70 = s at *
  tet_fixed []

/-- C48, liu_vinokur_09. -/
theorem C48_t3_liu_vinokur_09 :
    liu_vinokur_09.ExactOnSimplex 3 ∧ liu_vinokur_09.degree = 4 := by
  tet_fixed []

/-- C48, liu_vinokur_10. -/
theorem C48_t3_liu_vinokur_10 :
    liu_vinokur_10.ExactOnSimplex 3 ∧ liu_vinokur_10.degree = 4 := by
  have hs := sqrt_sq_of (x := 2) (by norm_num)
  unfold liu_vinokur_10
  dsimp only
  generalize √2 = s at *
  tet_fixed []

/-- C48, liu_vinokur_11. -/
theorem C48_t3_liu_vinokur_11 :
    liu_vinokur_11.ExactOnSimplex 3 ∧ liu_vinokur_11.degree = 4 := by
  have hs := sqrt_sq_of (x := 2) (by norm_num)
  unfold liu_vinokur_11
  generalize √2 = s at *
  tet_fixed []

/-- C48, liu_vinokur_13. -/
theorem C48_t3_liu_vinokur_13 :
    liu_vinokur_13.ExactOnSimplex 3 ∧ liu_vinokur_13.degree = 5 := by
  have hs := sqrt_sq_of (x := 13) (by norm_num)
  unfold liu_vinokur_13
  generalize √13 = s at *
  tet_fixed []

/-- C48, liu_vinokur_14. -/
theorem C48_t3_liu_vinokur_14 :
    liu_vinokur_14.ExactOnSimplex 3 ∧ liu_vinokur_14.degree = 5 := by
  tet_fixed []

/-- C48, keast_4. -/
theorem C48_t3_keast_4 :
    keast_4.ExactOnSimplex 3 ∧ keast_4.degree = 4 := by
  have hs := sqrt_sq_of (x := (5 / 14)) (by norm_num)
  unfold keast_4
  generalize √(5 / 14) = s at *
  tet_fixed []

/-- C48, keast_6. -/
theorem C48_t3_keast_6 :
    keast_6.ExactOnSimplex 3 ∧ keast_6.degree = 5 := by
  have hs := sqrt_sq_of (x := 91) (by norm_num)
  unfold keast_6
  generalize √91 = s at *
  tet_fixed []

/-- C48, hammer_marlowe_stroud_1. -/
theorem C48_t3_hammer_marlowe_stroud_1 :
    hammer_marlowe_stroud_1.ExactOnSimplex 3 ∧ hammer_marlowe_stroud_1.degree = 2 := by
  have hs : (1 / √5) ^ 2 = 1 / 5 := by rw [div_pow, sqrt_sq_of (by norm_num)]; norm_num
  unfold hammer_marlowe_stroud_1
  dsimp only
  generalize 1 / √5 = s at *
  tet_fixed []

/-- C48, hammer_marlowe_stroud_2. -/
theorem C48_t3_hammer_marlowe_stroud_2 :
    hammer_marlowe_stroud_2.ExactOnSimplex 3 ∧ hammer_marlowe_stroud_2.degree = 2 := by
  have hs : (-1 / √5) ^ 2 = 1 / 5 := by rw [div_pow, sqrt_sq_of (by norm_num)]; norm_num
  unfold hammer_marlowe_stroud_2
  dsimp only
  generalize -1 / √5 = s at *
  tet_fixed []

/-- Two orbits of type s31 and one of type s22, degree 4. -/
theorem two_s31_s22_4 {w1 w2 a1 a2 v r : ℝ} (m0 : 4 * (w1 + w2) + 6 * v = 1)
    (m2 : w1 * a1 ^ 2 + w2 * a2 ^ 2 = 1 / 20 - v * r ^ 2 / 2)
    (m3 : w1 * a1 ^ 3 + w2 * a2 ^ 3 = 1 / 60) (m4 : w1 * a1 ^ 4 + w2 * a2 ^ 4 = 1 / 84)
    (m4' : v * r ^ 4 = 2 / 105) :
    let S := schemeOfSym 3 [⟨.s31, [w1, w2], [[(1 - a1) / 4], [(1 - a2) / 4]]⟩,
      ⟨.s22, [v], [[(1 - r) / 4]]⟩] 4
    S.ExactOnSimplex 3 ∧ S.degree = 4 := by
  refine ⟨tet_sym_exact (by simp [tetKeys, SymEntry.Regular, SymKey.Accepts, SymKey.arities]) ?_, rfl⟩
  have n0 : w1 = 1 / 4 - 3 / 2 * v - w2 := by linear_combination m0 / 4
  have n2 : w1 * a1 ^ 2 = 1 / 20 - v * r ^ 2 / 2 - w2 * a2 ^ 2 := by linear_combination m2
  have n3 : w1 * a1 ^ 3 = 1 / 60 - w2 * a2 ^ 3 := by linear_combination m3
  have n4 : w1 * a1 ^ 4 = 1 / 84 - w2 * a2 ^ 4 := by linear_combination m4
  intro a b c h1 h2 habc
  simp only [symSum, List.map_cons, List.map_nil, List.zipWith_cons_cons, List.zipWith_nil_left,
    List.sum_cons, List.sum_nil, osum, bary4_coord, orbit_s31, orbit_s22]
  have ha : a ≤ 1 := by omega
  have hb : b ≤ 2 := by omega
  have hc : c ≤ 4 := by omega
  interval_cases a <;> interval_cases b <;> interval_cases c <;> first
    | (exfalso; omega)
    | ((conv_rhs => norm_num [Nat.factorial])
       quad_comb [n4, n3, n2, m4', n0])

/-- Two orbits of type s31 and one of type s22, degree 5. -/
theorem two_s31_s22_5 {w1 w2 a1 a2 v r : ℝ} (m0 : 4 * (w1 + w2) + 6 * v = 1)
    (m2 : w1 * a1 ^ 2 + w2 * a2 ^ 2 = 1 / 20 - v * r ^ 2 / 2)
    (m3 : w1 * a1 ^ 3 + w2 * a2 ^ 3 = 1 / 60) (m4 : w1 * a1 ^ 4 + w2 * a2 ^ 4 = 1 / 84)
    (m5 : w1 * a1 ^ 5 + w2 * a2 ^ 5 = 1 / 140)
    (m4' : v * r ^ 4 = 2 / 105) :
    let S := schemeOfSym 3 [⟨.s31, [w1, w2], [[(1 - a1) / 4], [(1 - a2) / 4]]⟩,
      ⟨.s22, [v], [[(1 - r) / 4]]⟩] 5
    S.ExactOnSimplex 3 ∧ S.degree = 5 := by
  refine ⟨tet_sym_exact (by simp [tetKeys, SymEntry.Regular, SymKey.Accepts, SymKey.arities]) ?_, rfl⟩
  have n0 : w1 = 1 / 4 - 3 / 2 * v - w2 := by linear_combination m0 / 4
  have n2 : w1 * a1 ^ 2 = 1 / 20 - v * r ^ 2 / 2 - w2 * a2 ^ 2 := by linear_combination m2
  have n3 : w1 * a1 ^ 3 = 1 / 60 - w2 * a2 ^ 3 := by linear_combination m3
  have n4 : w1 * a1 ^ 4 = 1 / 84 - w2 * a2 ^ 4 := by linear_combination m4
  have n5 : w1 * a1 ^ 5 = 1 / 140 - w2 * a2 ^ 5 := by linear_combination m5
  intro a b c h1 h2 habc
  simp only [symSum, List.map_cons, List.map_nil, List.zipWith_cons_cons, List.zipWith_nil_left,
    List.sum_cons, List.sum_nil, osum, bary4_coord, orbit_s31, orbit_s22]
  have ha : a ≤ 1 := by omega
  have hb : b ≤ 2 := by omega
  have hc : c ≤ 5 := by omega
  interval_cases a <;> interval_cases b <;> interval_cases c <;> first
    | (exfalso; omega)
    | ((conv_rhs => norm_num [Nat.factorial])
       quad_comb [n5, n4, n3, n2, m4', n0])

/-- The weights of liu_vinokur_08 and liu_vinokur_12. -/
theorem lv_weights {k a1 a2 : ℝ} (n : a1 * a2 ≠ 0) (hd : a2 - a1 ≠ 0) :
    let w1 := (k * a2 - 7) / (420 * a1 ^ 2 * (a2 - a1))
    let w2 := (k * a1 - 7) / (420 * a2 ^ 2 * (a1 - a2))
    w1 * a1 ^ 2 + w2 * a2 ^ 2 = k / 420 ∧ w1 * a1 ^ 3 + w2 * a2 ^ 3 = 1 / 60 ∧
      w1 + w2 = (k * ((a1 + a2) ^ 2 - a1 * a2) - 7 * (a1 + a2)) / (420 * (a1 * a2) ^ 2) := by
  have n1 : a1 ≠ 0 := left_ne_zero_of_mul n
  have n2 : a2 ≠ 0 := right_ne_zero_of_mul n
  have hd' : a1 - a2 = -(a2 - a1) := by ring
  intro w1 w2
  simp only [w1, w2]
  rw [hd']
  refine ⟨?_, ?_, ?_⟩
  · field_simp; ring
  · field_simp; ring
  · field_simp; ring

/-- C48, liu_vinokur_08. -/
theorem C48_t3_liu_vinokur_08 : liu_vinokur_08.ExactOnSimplex 3 ∧ liu_vinokur_08.degree = 4 := by
  have hs := sqrt_sq_of (x := 11) (by norm_num)
  have h0 : √11 ≤ 3.35 := by nlinarith [Real.sqrt_nonneg 11]
  have h1 : 3 ≤ √11 := by nlinarith [Real.sqrt_nonneg 11]
  have ht := sqrt_sq_of (x := 65944 - 19446 * √11) (by linarith)
  have ht0 : √(65944 - 19446 * √11) ≠ 0 := (Real.sqrt_pos.2 (by linarith)).ne'
  unfold liu_vinokur_08
  dsimp only
  generalize √(65944 - 19446 * √11) = t at *
  generalize √11 = s at *
  obtain ⟨a1, h1'⟩ : ∃ a, a = (t + 51 * s - 154) / 89 := ⟨_, rfl⟩
  obtain ⟨a2, h2'⟩ : ∃ a, a = (-t + 51 * s - 154) / 89 := ⟨_, rfl⟩
  rw [← h1', ← h2']
  have hp : a1 + a2 = (102 * s - 308) / 89 := by rw [h1', h2']; ring
  have hq : a1 * a2 = (42 * s - 153) / 89 := by
    rw [h1', h2']; linear_combination hs * (2601 / 7921) - ht / 7921
  have hd : a2 - a1 ≠ 0 := by
    rw [h1', h2']; intro h; apply ht0; linear_combination -89 / 2 * h
  have hq0 : a1 * a2 ≠ 0 := by rw [hq]; intro h; linarith
  obtain ⟨m2, m3, m0⟩ := lv_weights (k := 17) hq0 hd
  rw [hp, hq] at m0
  rw [eq_div_iff (by rw [← hq]; positivity)] at m0
  generalize (17 * a2 - 7) / (420 * a1 ^ 2 * (a2 - a1)) = w1 at *
  generalize (17 * a1 - 7) / (420 * a2 ^ 2 * (a1 - a2)) = w2 at *
  have hq1 : 420 * ((42 * s - 153) / 89) ^ 2 ≠ 0 := by rw [← hq]; positivity
  have m0' : w1 + w2 = 31 / 140 := by
    refine mul_right_cancel₀ hq1 ?_
    rw [m0]
    linear_combination hs * (12816 / 7921)
  have := two_s31_s22_4 (w1 := w1) (w2 := w2) (a1 := a1) (a2 := a2) (v := 2 / 105) (r := 1)
    (by linear_combination 4 * m0') (by linear_combination m2) m3
    (by linear_combination (a1 + a2) * m3 - a1 * a2 * m2 + 1 / 60 * hp - 17 / 420 * hq) (by norm_num)
  simpa using this

/-- C48, liu_vinokur_12. -/
theorem C48_t3_liu_vinokur_12 : liu_vinokur_12.ExactOnSimplex 3 ∧ liu_vinokur_12.degree = 5 := by
  have hs := sqrt_sq_of (x := 79) (by norm_num)
  have hs1 : √79 ≤ 9 := by nlinarith [Real.sqrt_nonneg 79]
  have hs0 := Real.sqrt_nonneg 79
  have hk := Real.cos_arccos (x := 67 * √79 / 24964) (by linarith) (by linarith)
  have hx : 4 * Real.cos ((Real.arccos (67 * √79 / 24964) + 2 * Real.pi) / 3) ^ 3 -
      3 * Real.cos ((Real.arccos (67 * √79 / 24964) + 2 * Real.pi) / 3) = 67 * √79 / 24964 := by
    rw [← Real.cos_three_mul, mul_div_cancel₀ _ (by norm_num), Real.cos_add_two_pi, hk]
  have hx1 : Real.cos ((Real.arccos (67 * √79 / 24964) + 2 * Real.pi) / 3) ≤ 0 := by
    have := Real.arccos_nonneg (67 * √79 / 24964)
    have := Real.arccos_le_pi (67 * √79 / 24964)
    have := Real.pi_pos
    exact Real.cos_nonpos_of_pi_div_two_le_of_le (by linarith) (by linarith)
  have hx2 := Real.neg_one_le_cos ((Real.arccos (67 * √79 / 24964) + 2 * Real.pi) / 3)
  unfold liu_vinokur_12
  dsimp only
  generalize Real.cos ((Real.arccos (67 * √79 / 24964) + 2 * Real.pi) / 3) = x at *
  generalize √79 = s at *
  obtain ⟨l, hl⟩ : ∃ l, l = 4 / 27 * (4 * s * x + 71) := ⟨_, rfl⟩
  rw [← hl]
  have hl0 : 0 < l := by rw [hl]; nlinarith
  have hl1 : l < 11 := by rw [hl]; nlinarith
  have hcub : (27 * l / 4 - 71) ^ 3 - 948 * (27 * l / 4 - 71) - 268 = 0 := by
    rw [show 27 * l / 4 - 71 = 4 * s * x by rw [hl]; ring]
    linear_combination 16 * s ^ 3 * hx + (64 * x^3 * s - 64 * x^3 * s + 48 * s * x + 268 / 6241 * (s ^ 2 + 79)) * hs
  have ht := sqrt_sq_of (x := 9 * l ^ 2 - 248 * l + 1680) (by nlinarith)
  have ht0 : √(9 * l ^ 2 - 248 * l + 1680) ≠ 0 := (Real.sqrt_pos.2 (by nlinarith)).ne'
  have hr : (2 / √l) ^ 2 = 4 / l := by rw [div_pow, sqrt_sq_of hl0.le]; norm_num
  generalize √(9 * l ^ 2 - 248 * l + 1680) = t at *
  generalize 2 / √l = r at *
  have hm : 112 - 10 * l ≠ 0 := by linarith
  obtain ⟨a1, h1'⟩ : ∃ a, a = (t + 28 - 3 * l) / (112 - 10 * l) := ⟨_, rfl⟩
  obtain ⟨a2, h2'⟩ : ∃ a, a = (-t + 28 - 3 * l) / (112 - 10 * l) := ⟨_, rfl⟩
  rw [← h1', ← h2']
  have hp : a1 + a2 = (56 - 6 * l) / (112 - 10 * l) := by rw [h1', h2']; ring
  have hq : a1 * a2 = -8 / (112 - 10 * l) := by
    rw [h1', h2', div_mul_div_comm, div_eq_div_iff (by positivity) hm]
    linear_combination -(112 - 10 * l) * ht
  have hd : a2 - a1 ≠ 0 := by
    rw [h1', h2', ← sub_div]
    refine div_ne_zero ?_ hm
    intro h; apply ht0; linear_combination -1 / 2 * h
  have hq0 : a1 * a2 ≠ 0 := by rw [hq]; exact div_ne_zero (by norm_num) hm
  obtain ⟨m2, m3, m0⟩ := lv_weights (k := 21 - l) hq0 hd
  rw [hp, hq] at m0
  generalize ((21 - l) * a2 - 7) / (420 * a1 ^ 2 * (a2 - a1)) = w1 at *
  generalize ((21 - l) * a1 - 7) / (420 * a2 ^ 2 * (a1 - a2)) = w2 at *
  have m0' : w1 + w2 = 1 / 4 - l ^ 2 / 560 := by
    rw [m0]
    clear * - hm hcub
    grind
  have m4 : w1 * a1 ^ 4 + w2 * a2 ^ 4 = 1 / 84 := by
    have e : w1 * a1 ^ 4 + w2 * a2 ^ 4 = (a1 + a2) * (1 / 60) - a1 * a2 * ((21 - l) / 420) := by
      linear_combination (a1 + a2) * m3 - a1 * a2 * m2
    rw [e, hp, hq]; clear * - hm; grind
  have m5 : w1 * a1 ^ 5 + w2 * a2 ^ 5 = 1 / 140 := by
    have e : w1 * a1 ^ 5 + w2 * a2 ^ 5 = (a1 + a2) * (1 / 84) - a1 * a2 * (1 / 60) := by
      linear_combination (a1 + a2) * m4 - a1 * a2 * m3
    rw [e, hp, hq]; clear * - hm; grind
  refine two_s31_s22_5 (by linear_combination 4 * m0') ?_ m3 m4 m5 ?_
  · rw [m2, hr]; field_simp; ring
  · rw [show r ^ 4 = (r ^ 2) ^ 2 by ring, hr]; field_simp; ring

end Quadpy
