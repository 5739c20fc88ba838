import Verif.Model.LowDim
import Verif.Lemmas.LowDim

/-!
C33: the rules on the square with a parameter keep their degree for every parameter.
-/

namespace Quadpy
open Finset LowDim

/-- C33: `franke_1(lmbda)` returns a scheme for every `lmbda` strictly between `-9/5` and `9/4`, and
every scheme it returns has degree 5. -/
theorem C33_franke_1 (lmbda : ℝ) :
    (-(9 / 5) < lmbda → lmbda < 9 / 4 → ∃ S, franke_1 lmbda = some S) ∧
    ∀ S, franke_1 lmbda = some S → S.degree = 5 ∧ S.ExactOnCube 2 := by
  constructor
  · intro h1 h2
    unfold franke_1
    rw [if_pos ⟨h1.le, h2.le⟩, if_neg (by rintro (h | h) <;> linarith)]
    rw [sqrtO_some (by linarith), sqrtO_some (by linarith), sqrtO_some (by norm_num)]
    exact ⟨_, rfl⟩
  · intro S hS
    unfold franke_1 at hS
    split_ifs at hS with h1 h2
    push Not at h2
    obtain ⟨h2, h3⟩ := h2
    have h2' : 9 + lmbda * 5 ≠ 0 := by rwa [mul_comm]
    have h3' : 9 - lmbda * 4 ≠ 0 := by rwa [mul_comm]
    have h4 : 0 ≤ (9 + 5 * lmbda) / 15 := by linarith
    have h5 : 0 ≤ (9 - 4 * lmbda) / 15 := by linarith
    have h6 : (0 : ℝ) ≤ 3 / 5 := by norm_num
    rw [sqrtO_some h4, sqrtO_some h5, sqrtO_some h6] at hS
    obtain rfl := Option.some.inj hS
    refine ⟨rfl, ExactOnCube_of_rel (plane_exact square_even ?_ fun p q hpq => ?_)⟩
    · simp [planeKeys, SymEntry.Regular, SymKey.Accepts, SymKey.arities]
    · simp only [evenSum2, List.map_cons, List.map_nil, List.zipWith_cons_cons, List.zipWith_nil_left,
        List.sum_cons, List.sum_nil, keyMom2, Real.sq_sqrt h4, Real.sq_sqrt h5, Real.sq_sqrt h6,
        Matrix.cons_val_zero, Matrix.cons_val_one]
      have hp : p ≤ 2 := by omega
      have hq : q ≤ 2 := by omega
      interval_cases p <;> interval_cases q <;> first
        | (exfalso; omega)
        | (norm_num; field_simp; ring)

/-- C33: the guard of `franke_1` admits the end points, but no scheme can be built there. -/
theorem C33_franke_1_endpoints : franke_1 (-(9 / 5)) = none ∧ franke_1 (9 / 4) = none := by
  unfold franke_1; norm_num

/-- C33: `waldron(r, alpha)` returns a scheme whenever `r^2 > 1/3`, and every scheme it returns has
degree 3. -/
theorem C33_waldron (r alpha : ℝ) :
    (1 / 3 < r ^ 2 → ∃ S, waldron r alpha = some S) ∧
    ∀ S, waldron r alpha = some S → S.degree = 3 ∧ S.ExactOnCube 2 := by
  constructor
  · intro h
    unfold waldron
    rw [if_pos h.le, if_neg (by intro h'; linarith)]
    exact ⟨_, rfl⟩
  · intro S hS
    unfold waldron at hS
    split_ifs at hS with h1 h2
    obtain rfl := Option.some.inj hS
    have h3 : 0 ≤ 3 * r ^ 2 - 1 := by linarith
    have hr : r ≠ 0 := by rintro rfl; norm_num at h1
    have hR : (r / Real.sqrt (3 * r ^ 2 - 1)) ^ 2 = r ^ 2 / (3 * r ^ 2 - 1) := by
      rw [div_pow, Real.sq_sqrt h3]
    have hcs := Real.sin_sq_add_cos_sq alpha
    refine ⟨rfl, ExactOnCube_of_rel ?_⟩
    refine exactRel_of_moments (M := cubeMom) _ (cube_linOnMono 2) (fun α => ?_) ?_ fun α hα => ?_
    · rw [one_eq_mono, cube_mono, cube_mono, cubeMom_zero, mul_one]
    · refine ⟨rfl, by simp [schemeOfSym, expandSymmetries, entryPoints, entryWeights, orbit], ?_⟩
      simp [schemeOfSym, expandSymmetries, entryPoints, orbit, List.range_succ]
    · have e : cubeMom α = m1 (α 0) * m1 (α 1) := by rw [cubeMom, Fin.prod_univ_two]
      simp only [schemeOfSym] at hα ⊢
      rw [Fin.sum_univ_two] at hα
      rw [e, expand_dot 2 2 _ (by simp [SymEntry.Regular, SymKey.Accepts])]
      simp only [symSum, osum, orbit, List.map_cons, List.map_nil, List.zipWith_cons_cons,
        List.zipWith_nil_left, List.sum_cons, List.sum_nil, mono_two, Real.cos_add_pi_div_two,
        Real.sin_add_pi_div_two, hR]
      generalize Real.sin alpha = s at *
      generalize Real.cos alpha = c at *
      generalize r / Real.sqrt (3 * r ^ 2 - 1) = R at *
      have hR0 : R ≠ 0 := by
        rintro rfl
        have : r ^ 2 / (3 * r ^ 2 - 1) = 0 := by rw [← hR]; norm_num
        rcases div_eq_zero_iff.1 this with h | h
        · exact hr (pow_eq_zero_iff (by norm_num) |>.1 h)
        · exact h2 h
      rw [← hR]
      have hR2 : R ^ 2 * (3 * r ^ 2 - 1) = r ^ 2 := by rw [hR, div_mul_cancel₀ _ h2]
      generalize α 0 = p at *
      generalize α 1 = q at *
      have hp : p ≤ 3 := by omega
      have hq : q ≤ 3 := by omega
      have m0 : m1 0 = 1 := by norm_num [m1]
      have m_1 : m1 1 = 0 := by norm_num [m1]
      have m2 : m1 2 = 1 / 3 := by norm_num [m1]
      have m3 : m1 3 = 0 := by rw [m1, if_neg (by decide)]
      interval_cases p <;> interval_cases q <;> first
        | (exfalso; omega)
        | (simp only [m0, m_1, m2, m3]; ring1)
        | (simp only [m0, m_1, m2, m3]; field_simp; ring1)
        | (simp only [m0, m_1, m2, m3]; field_simp; linear_combination (-2) * hR2)
        | (simp only [m0, m_1, m2, m3]; field_simp; linear_combination 6 * r ^ 2 * R ^ 2 * hcs)

/-- C33: the guard of `waldron` admits `r^2 = 1/3`, where the second radius is infinite. -/
theorem C33_waldron_endpoint (r alpha : ℝ) (h : r ^ 2 = 1 / 3) : waldron r alpha = none := by
  unfold waldron; rw [h]; norm_num

/-! Concrete cases: `lmbda = 1` and the rule with radius 1 turned by an eighth. -/

example : ∃ S, franke_1 1 = some S ∧ Spec.ExactUpTo 5
    (fun f => 2 ^ 2 * dot 2 S.weights S.points f) (Spec.cube 2) := by
  obtain ⟨S, hS⟩ := (C33_franke_1 1).1 (by norm_num) (by norm_num)
  obtain ⟨h5, h⟩ := (C33_franke_1 1).2 S hS
  exact ⟨S, hS, h5 ▸ h.2⟩

example : ∃ S, waldron 1 (Real.pi / 4) = some S ∧ S.ExactOnCube 2 := by
  obtain ⟨S, hS⟩ := (C33_waldron 1 (Real.pi / 4)).1 (by norm_num)
  exact ⟨S, hS, ((C33_waldron 1 _).2 S hS).2⟩

end Quadpy
