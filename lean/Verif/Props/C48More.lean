import Verif.Model.FixedMore
import Verif.Lemmas.FixedRules
import Verif.Lemmas.FixedSimplex
import Verif.Props.C34
import Verif.Lemmas.Moments9

/-!
# C48: further closed-form rules, and what is wrong with Cohen-Gismalla 2

Each theorem says that the rule integrates all polynomials up to the degree it reports exactly over
its domain, its weights relative to the volume, and states that degree.
-/

namespace Quadpy
open Finset FixedMore

/-- C48, Schmid 2. -/
theorem C48_c2_schmid_2 : schmid_2.ExactOnCube 2 ∧ schmid_2.degree = 2 := by
  refine ⟨ExactOnCube_of_rel ?_, rfl⟩
  have e1 := sqrt_sq_of (x := 1 / 3) (by norm_num)
  have e2 := sqrt_sq_of (x := 2 / 3) (by norm_num)
  unfold schmid_2
  generalize √(1 / 3 : ℝ) = u at *
  generalize √(2 / 3 : ℝ) = v at *
  refine sym_exact2 square_even (by simp [SymEntry.Regular, SymKey.Accepts, SymKey.arities, orbit]) ?_
  plane_any []

/-- C48, Schmid 4. -/
theorem C48_c2_schmid_4 : schmid_4.ExactOnCube 2 ∧ schmid_4.degree = 4 := by
  refine ⟨ExactOnCube_of_rel ?_, rfl⟩
  have e1 := sqrt_sq_of (x := 3) (by norm_num)
  have e2 := sqrt_sq_of (x := 5) (by norm_num)
  have e3 := sqrt_sq_of (x := 29) (by norm_num)
  unfold schmid_4
  rw [show (15 : ℝ) = 3 * 5 by norm_num, show (87 : ℝ) = 3 * 29 by norm_num,
    Real.sqrt_mul (by norm_num), Real.sqrt_mul (by norm_num)]
  generalize √(3 : ℝ) = u at *
  generalize √(5 : ℝ) = v at *
  generalize √(29 : ℝ) = w at *
  refine sym_exact2 square_even (by simp [SymEntry.Regular, SymKey.Accepts, SymKey.arities, orbit]) ?_
  plane_any []

/-- C48, Sarma and Stroud: the rule is defined and of degree 7. -/
theorem C48_c3_sarma_stroud : ∃ S, sarma_stroud = some S ∧ S.degree = 7 ∧ S.ExactOnCube 3 := by
  obtain ⟨S, hS⟩ := C34_defined 1.0329785305 (by norm_num) (by norm_num [LowDim.hwOf])
    (by norm_num [LowDim.hwOf]) (by norm_num [LowDim.hwOf]) (by norm_num [LowDim.hwOf])
    (by norm_num [LowDim.hwOf]) (by norm_num [LowDim.hwOf])
  exact ⟨S, hS, C34_hammer_wymore _ S hS⟩

/-- C48, dunavant_01. -/
theorem C48_t2_dunavant_01 : dunavant_01.ExactOnSimplex 2 ∧ dunavant_01.degree = 1 := by tri_sym []

/-- C48, dunavant_02. -/
theorem C48_t2_dunavant_02 : dunavant_02.ExactOnSimplex 2 ∧ dunavant_02.degree = 2 := by tri_sym []

/-- C48, dunavant_03. -/
theorem C48_t2_dunavant_03 : dunavant_03.ExactOnSimplex 2 ∧ dunavant_03.degree = 3 := by tri_sym []

/-- C48, laursen_gellert_02a. -/
theorem C48_t2_laursen_gellert_02a :
    laursen_gellert_02a.ExactOnSimplex 2 ∧ laursen_gellert_02a.degree = 2 := by tri_sym []

/-- C48, laursen_gellert_02b. -/
theorem C48_t2_laursen_gellert_02b :
    laursen_gellert_02b.ExactOnSimplex 2 ∧ laursen_gellert_02b.degree = 2 := by tri_sym []

/-- C48, taylor_wingate_bos_1. -/
theorem C48_t2_taylor_wingate_bos_1 :
    taylor_wingate_bos_1.ExactOnSimplex 2 ∧ taylor_wingate_bos_1.degree = 2 := by tri_sym []

/-- C48, williams_shunn_jameson_1. -/
theorem C48_t2_williams_shunn_jameson_1 :
    williams_shunn_jameson_1.ExactOnSimplex 2 ∧ williams_shunn_jameson_1.degree = 1 := by tri_sym []

/-- C48, williams_shunn_jameson_2. -/
theorem C48_t2_williams_shunn_jameson_2 :
    williams_shunn_jameson_2.ExactOnSimplex 2 ∧ williams_shunn_jameson_2.degree = 2 := by tri_sym []

/-- C48, witherden_vincent_01. -/
theorem C48_t3_witherden_vincent_01 :
    witherden_vincent_01.ExactOnSimplex 3 ∧ witherden_vincent_01.degree = 1 := by tet_fixed []

/-- C48, witherden_vincent_02. -/
theorem C48_t3_witherden_vincent_02 :
    witherden_vincent_02.ExactOnSimplex 3 ∧ witherden_vincent_02.degree = 2 := by
  have hs := sqrt_sq_of (x := 5) (by norm_num)
  unfold witherden_vincent_02
  generalize √5 = s at *
  tet_fixed []

/-- C48, yu_2. -/
theorem C48_t3_yu_2 : yu_2.ExactOnSimplex 3 ∧ yu_2.degree = 2 := by
  have hs := sqrt_sq_of (x := 5) (by norm_num)
  unfold yu_2
  generalize √5 = s at *
  tet_fixed []

/-- C48, yu_3. -/
theorem C48_t3_yu_3 : yu_3.ExactOnSimplex 3 ∧ yu_3.degree = 3 := by tet_fixed []

/-! ### Cohen-Gismalla 2

The code reports degree 1 and carries the comment that the rule should have degree 7 for symmetric
integrands and that "something is fishy". Two things are: `g1` and `h1` are computed from the weights
`B`, `C` after these have been divided by 4 but the denominator 2 has not been adapted (it has to be 8),
and the fourth point is `(r, s)` instead of `(s, r)`. -/

theorem cg_order {k : ℝ} (hk : k = 2 ∨ k = 8) :
    0 ≤ (cgOf k).g1 ^ 2 - (cgOf k).g2 ∧ 0 ≤ (cgOf k).g2 ∧ 0 ≤ (cgOf k).g1 ∧
      0 ≤ (cgOf k).h1 ^ 2 - (cgOf k).h2 ∧ 0 ≤ (cgOf k).h2 ∧ 0 ≤ (cgOf k).h1 := by
  rcases hk with rfl | rfl <;> norm_num [cgOf]

theorem root_pair {g1 g2 : ℝ} (h : 0 ≤ g1 ^ 2 - g2) (h2 : 0 ≤ g2) (h1 : 0 ≤ g1) :
    √(g1 + √(g1 ^ 2 - g2)) ^ 2 + √(g1 - √(g1 ^ 2 - g2)) ^ 2 = 2 * g1 ∧
      √(g1 + √(g1 ^ 2 - g2)) ^ 2 * √(g1 - √(g1 ^ 2 - g2)) ^ 2 = g2 ∧
      g1 ≤ √(g1 + √(g1 ^ 2 - g2)) ^ 2 := by
  have e := Real.sq_sqrt h
  have e0 := Real.sqrt_nonneg (g1 ^ 2 - g2)
  generalize √(g1 ^ 2 - g2) = t at *
  have ht : t ≤ g1 := by nlinarith
  rw [Real.sq_sqrt (by linarith), Real.sq_sqrt (by linarith)]
  exact ⟨by ring, by linear_combination -e, by linarith⟩

/-- C48, Cohen-Gismalla 2: the rule has the degree 1 which it reports. -/
theorem C48_c2_cohen_gismalla_2 : cohen_gismalla_2.ExactOnCube 2 ∧ cohen_gismalla_2.degree = 1 := by
  refine ⟨ExactOnCube_of_rel ?_, rfl⟩
  have h : (cgOf 2).A = 1 - 4 * (cgOf 2).B - 4 * (cgOf 2).C := rfl
  unfold cohen_gismalla_2
  dsimp only
  generalize (cgOf 2).u = u
  generalize (cgOf 2).v = v
  generalize (cgOf 2).r = r
  generalize (cgOf 2).s = s
  generalize (cgOf 2).A = A at *
  subst h
  refine sym_exact2 square_even (by simp [SymEntry.Regular, SymKey.Accepts, SymKey.arities, orbit]) ?_
  plane_any []

/-- C48, Cohen-Gismalla 2: the degree is not 2; the rule gives more than twice the integral of y². -/
theorem C48_c2_cohen_gismalla_2_not_two :
    2 * Spec.cube 2 (fun x => x 1 ^ 2) <
      4 * dot 2 cohen_gismalla_2.weights cohen_gismalla_2.points fun x => x 1 ^ 2 := by
  have e : Spec.cube 2 (fun x => x 1 ^ 2) = 4 / 3 := by
    have h := square_even.even ![0, 1]
    have h1 := McNameeStenger.cube_one 2
    have e : (fun x : Fin 2 → ℝ => x 1 ^ 2) = mono fun i => 2 * (![0, 1] : Fin 2 → ℕ) i := by
      funext x
      simp [mono, Fin.prod_univ_two]
    rw [e, h, h1]
    norm_num
  rw [e]
  have hr : ∀ e ∈ ([⟨.zero, [(cgOf 2).A], [[]]⟩, ⟨.c2, [(cgOf 2).B, (cgOf 2).B, (cgOf 2).C, (cgOf 2).C],
      [[(cgOf 2).u, -(cgOf 2).v], [(cgOf 2).v, (cgOf 2).u], [(cgOf 2).r, -(cgOf 2).s],
        [(cgOf 2).r, (cgOf 2).s]]⟩] : List SymEntry), e.Regular := by
    simp [SymEntry.Regular, SymKey.Accepts, SymKey.arities]
  have hd := expand_dot 2 2 _ hr (fun x => x 1 ^ 2)
  have : dot 2 cohen_gismalla_2.weights cohen_gismalla_2.points (fun x => x 1 ^ 2) = _ := hd
  rw [this]
  obtain ⟨a1, a2, a3, a4, a5, a6⟩ := cg_order (k := 2) (Or.inl rfl)
  have h3 : (cgOf 2).h1 ≤ (cgOf 2).s ^ 2 := (root_pair a4 a5 a6).2.2
  have h4 : (0 : ℝ) ≤ (cgOf 2).B := by norm_num [cgOf]
  have h5 : (2 / 3 : ℝ) < 4 * (cgOf 2).C * (cgOf 2).h1 := by norm_num [cgOf]
  have h6 : (0 : ℝ) < (cgOf 2).C := by norm_num [cgOf]
  simp [symSum, orbit, osum, toVec]
  nlinarith [mul_nonneg h4 (sq_nonneg (cgOf 2).u), mul_nonneg h4 (sq_nonneg (cgOf 2).v)]

/-- The rule with the two corrections. -/
noncomputable def cohen_gismalla_2_fixed : Scheme :=
  let d := cgOf 8
  schemeOfSym 2 [⟨.zero, [d.A], [[]]⟩,
    ⟨.c2, [d.B, d.B, d.C, d.C], [[d.u, -d.v], [d.v, d.u], [d.r, -d.s], [d.s, d.r]]⟩] 3

/-- The moments of even degree of a rule made of four pairs. -/
theorem cg_moments : let d := cgOf 8
    d.A + 4 * d.B + 4 * d.C = 1 ∧ 4 * d.B * d.g1 + 4 * d.C * d.h1 = 1 / 3 ∧
    2 * d.B * (4 * d.g1 ^ 2 - 2 * d.g2) + 2 * d.C * (4 * d.h1 ^ 2 - 2 * d.h2) = 1 / 5 ∧
    4 * d.B * d.g2 + 4 * d.C * d.h2 = 1 / 9 ∧
    2 * d.B * (8 * d.g1 ^ 3 - 6 * d.g1 * d.g2) + 2 * d.C * (8 * d.h1 ^ 3 - 6 * d.h1 * d.h2) = 1 / 7 ∧
    4 * d.B * d.g1 * d.g2 + 4 * d.C * d.h1 * d.h2 = 1 / 15 := by
  norm_num [cgOf]

/-- C48, Cohen-Gismalla 2 with the two corrections has degree 3. -/
theorem C48_c2_cohen_gismalla_2_fixed : cohen_gismalla_2_fixed.ExactOnCube 2 := by
  refine ExactOnCube_of_rel ?_
  obtain ⟨m0, m2, -⟩ := cg_moments
  obtain ⟨a1, a2, a3, a4, a5, a6⟩ := cg_order (k := 8) (Or.inr rfl)
  have e1 : (cgOf 8).u ^ 2 + (cgOf 8).v ^ 2 = 2 * (cgOf 8).g1 := (root_pair a1 a2 a3).1
  have e2 : (cgOf 8).s ^ 2 + (cgOf 8).r ^ 2 = 2 * (cgOf 8).h1 := (root_pair a4 a5 a6).1
  unfold cohen_gismalla_2_fixed
  dsimp only
  generalize (cgOf 8).u = u at *
  generalize (cgOf 8).v = v at *
  generalize (cgOf 8).r = r at *
  generalize (cgOf 8).s = s at *
  generalize cgOf 8 = d at *
  refine sym_exact2 square_even (by simp [SymEntry.Regular, SymKey.Accepts, SymKey.arities, orbit]) ?_
  plane_any []

/-- C48, Cohen-Gismalla 2 with the two corrections integrates every monomial of degree at most 7 which
is even in both variables, the claim of the article quoted in the code. -/
theorem C48_c2_cohen_gismalla_2_fixed_even (a b : ℕ) (hab : 2 * a + 2 * b ≤ 7) :
    4 * dot 2 cohen_gismalla_2_fixed.weights cohen_gismalla_2_fixed.points
      (fun x => x 0 ^ (2 * a) * x 1 ^ (2 * b)) = Spec.cube 2 fun x => x 0 ^ (2 * a) * x 1 ^ (2 * b) := by
  have h := square_even.even ![a, b]
  have h1 := McNameeStenger.cube_one 2
  have e : (fun x : Fin 2 → ℝ => x 0 ^ (2 * a) * x 1 ^ (2 * b)) =
      mono fun i => 2 * (![a, b] : Fin 2 → ℕ) i := by
    funext x
    simp [mono, Fin.prod_univ_two]
  rw [e, h, h1, ← e]
  have hr : ∀ e ∈ ([⟨.zero, [(cgOf 8).A], [[]]⟩, ⟨.c2, [(cgOf 8).B, (cgOf 8).B, (cgOf 8).C, (cgOf 8).C],
      [[(cgOf 8).u, -(cgOf 8).v], [(cgOf 8).v, (cgOf 8).u], [(cgOf 8).r, -(cgOf 8).s],
        [(cgOf 8).s, (cgOf 8).r]]⟩] : List SymEntry), e.Regular := by
    simp [SymEntry.Regular, SymKey.Accepts, SymKey.arities]
  have hd : dot 2 cohen_gismalla_2_fixed.weights cohen_gismalla_2_fixed.points
    (fun x => x 0 ^ (2 * a) * x 1 ^ (2 * b)) = _ := expand_dot 2 2 _ hr _
  rw [hd]
  obtain ⟨m0, m2, m4, m22, m6, m42⟩ := cg_moments
  obtain ⟨a1, a2, a3, a4, a5, a6⟩ := cg_order (k := 8) (Or.inr rfl)
  obtain ⟨e1, e2, -⟩ := root_pair a1 a2 a3
  obtain ⟨e3, e4, -⟩ := root_pair a4 a5 a6
  change (cgOf 8).u ^ 2 + (cgOf 8).v ^ 2 = _ at e1
  change (cgOf 8).u ^ 2 * (cgOf 8).v ^ 2 = _ at e2
  change (cgOf 8).s ^ 2 + (cgOf 8).r ^ 2 = _ at e3
  change (cgOf 8).s ^ 2 * (cgOf 8).r ^ 2 = _ at e4
  clear hd hr e h h1 a1 a2 a3 a4 a5 a6
  generalize (cgOf 8).u = u at *
  generalize (cgOf 8).v = v at *
  generalize (cgOf 8).r = r at *
  generalize (cgOf 8).s = s at *
  generalize cgOf 8 = d at *
  have f1 : u ^ 4 + v ^ 4 = 4 * d.g1 ^ 2 - 2 * d.g2 := by
    linear_combination (u ^ 2 + v ^ 2 + 2 * d.g1) * e1 - 2 * e2
  have f2 : s ^ 4 + r ^ 4 = 4 * d.h1 ^ 2 - 2 * d.h2 := by
    linear_combination (s ^ 2 + r ^ 2 + 2 * d.h1) * e3 - 2 * e4
  have f3 : u ^ 6 + v ^ 6 = 8 * d.g1 ^ 3 - 6 * d.g1 * d.g2 := by
    linear_combination (u ^ 4 + v ^ 4 - u ^ 2 * v ^ 2) * e1 + 2 * d.g1 * f1 - 2 * d.g1 * e2
  have f4 : s ^ 6 + r ^ 6 = 8 * d.h1 ^ 3 - 6 * d.h1 * d.h2 := by
    linear_combination (s ^ 4 + r ^ 4 - s ^ 2 * r ^ 2) * e3 + 2 * d.h1 * f2 - 2 * d.h1 * e4
  have f5 : u ^ 4 * v ^ 2 + u ^ 2 * v ^ 4 = 2 * d.g1 * d.g2 := by
    linear_combination u ^ 2 * v ^ 2 * e1 + 2 * d.g1 * e2
  have f6 : s ^ 4 * r ^ 2 + s ^ 2 * r ^ 4 = 2 * d.h1 * d.h2 := by
    linear_combination s ^ 2 * r ^ 2 * e3 + 2 * d.h1 * e4
  have ha : a ≤ 3 := by omega
  have hb : b ≤ 3 := by omega
  simp only [symSum, List.map_cons, List.map_nil, List.zipWith_cons_cons, List.zipWith_nil_left,
    List.sum_cons, List.sum_nil, osum, orbit, List.replicate, toVec]
  interval_cases a <;> interval_cases b <;> first
    | (exfalso; omega)
    | (norm_num; linear_combination m0)
    | (norm_num; linear_combination 4 * m2 + 8 * d.B * e1 + 8 * d.C * e3)
    | (norm_num; linear_combination 4 * m4 + 8 * d.B * f1 + 8 * d.C * f2)
    | (norm_num; linear_combination 4 * m22 + 16 * d.B * e2 + 16 * d.C * e4)
    | (norm_num; linear_combination 4 * m6 + 8 * d.B * f3 + 8 * d.C * f4)
    | (norm_num; linear_combination 4 * m42 + 8 * d.B * f5 + 8 * d.C * f6)

end Quadpy
