/-
C26: the schemes for the weight `exp(-|x|)` on `ℝ^n` integrate every polynomial up to their stated
degree exactly, for every dimension `n`.
-/
import Verif.Lemmas.Rel
import Verif.Model.Enr

namespace Quadpy
open Enr

theorem C26_stroudSecrest2 (n : ℕ) (hn : 1 ≤ n) :
    ∃ S, Enr.stroudSecrest2 n = some S ∧ S.degree = 3 ∧ S.ExactOnEnr n := by
  have hn0 : (n : ℝ) ≠ 0 := by positivity
  obtain ⟨L, hL⟩ := fsd_some hn (√((n : ℝ) * (n + 1)))
  have hl := fsd1_len hL
  refine ⟨_, by simp only [Enr.stroudSecrest2, hL, Option.bind_eq_bind, Option.bind_some]; rfl,
    rfl, ?_⟩
  refine rel_schemeOf (enr_relMom hn) (by norm_num) [gFsd _ _ L] rfl
    (ok_cons (gFsd_ok _ hL) (ok_nil n)) ?_
  refine ⟨?_, fun _ _ => ?_, by omega, by omega, by omega, by omega, by omega⟩
  all_goals rel_simp; rw [hl]
  · field_simp
  · rw [Real.sq_sqrt (by positivity)]; field_simp

theorem C26_stroudSecrest3 (n : ℕ) (hn : 1 ≤ n) :
    (Enr.stroudSecrest3 n).degree = 3 ∧ (Enr.stroudSecrest3 n).ExactOnEnr n := by
  have h0 : √((n : ℝ) + 1) ≠ 0 := by positivity
  refine ⟨rfl, ?_⟩
  rw [Enr.stroudSecrest3, pm_replicate n h0]
  refine rel_schemeOf (enr_relMom hn) (by norm_num) [gA n _ _] rfl
    (ok_cons (gA_ok _ _ _) (ok_nil n)) ?_
  refine ⟨?_, fun _ _ => ?_, by omega, by omega, by omega, by omega, by omega⟩
  · rel_simp; field_simp
  · rel_simp; rw [Real.sq_sqrt (by positivity)]; field_simp

theorem C26_stroudSecrest4 (n : ℕ) (hn : 2 ≤ n) :
    ∃ S, Enr.stroudSecrest4 n = some S ∧ S.degree = 5 ∧ S.ExactOnEnr n := by
  have p1 : (0 : ℝ) ≤ ((n : ℝ) + 2) * (n + 3) := by positivity
  have p2 : (0 : ℝ) ≤ ((n : ℝ) + 2) * (n + 3) / 2 := by positivity
  obtain ⟨L1, h1⟩ := fsd_some (show 1 ≤ n by omega) (√(((n : ℝ) + 2) * (n + 3)))
  obtain ⟨L2, h2⟩ := fsd_some hn (√(((n : ℝ) + 2) * (n + 3) / 2))
  have l1 := fsd1_len h1
  have l2 := fsd2_len h2
  have hn0 : (n : ℝ) ≠ 0 := by positivity
  refine ⟨_, by simp only [Enr.stroudSecrest4, h1, h2, Option.bind_eq_bind, Option.bind_some]; rfl,
    rfl, ?_⟩
  refine rel_schemeOf (enr_relMom (by omega)) (by norm_num)
    [gZ n _, gFsd _ _ L1, gFsd _ _ L2] rfl
    (ok_cons (gZ_ok _ _) (ok_cons (gFsd_ok _ h1) (ok_cons (gFsd_ok _ h2) (ok_nil n)))) ?_
  refine ⟨?_, fun _ _ => ?_, fun _ _ => ?_, fun _ _ => ?_, by omega, by omega, by omega⟩
  all_goals rel_simp; rw [l1, l2]
  all_goals try simp only [sqrt_pow4 p1, sqrt_pow4 p2, Real.sq_sqrt p1, Real.sq_sqrt p2]
  all_goals field_simp; ring

theorem C26_stroudEnr54 (n : ℕ) (hn : 1 ≤ n) :
    ∃ S, stroudEnr54 n = some S ∧ S.degree = 5 ∧ S.ExactOnEnr n := by
  have hn2 : (1 : ℝ) ≤ n := by exact_mod_cast hn
  have hn0 : (n : ℝ) ≠ 0 := by positivity
  obtain ⟨q, hq, hq0⟩ : ∃ q : ℝ, q = √(2 * (n + 2)) ∧ 0 ≤ q := ⟨_, rfl, Real.sqrt_nonneg _⟩
  have hqq : q ^ 2 = 2 * (n + 2) := by rw [hq, Real.sq_sqrt (by positivity)]
  have hq1 : q ≤ n + 2 := by nlinarith
  have hs : 0 ≤ ((n + 2) * (n + 3) - (n + 3) * q) / n := by
    refine div_nonneg ?_ (by positivity)
    nlinarith
  have hr : 0 ≤ ((n + 2) * (n + 3) + (n - 1) * (n + 3) * q) / n := by
    refine div_nonneg ?_ (by positivity)
    have : 0 ≤ ((n : ℝ) - 1) * (n + 3) * q := by
      have : (0 : ℝ) ≤ n - 1 := by linarith
      positivity
    positivity
  have q4 := sqrt_pow4 hr
  have q2 := Real.sq_sqrt hr
  have s4 := sqrt_pow4 hs
  have s2 := Real.sq_sqrt hs
  obtain ⟨L, hL⟩ := fsd_some2 (show 1 + (n - 1) ≤ n by omega)
    (√(((n + 2) * (n + 3) + (n - 1) * (n + 3) * q) / n)) (√(((n + 2) * (n + 3) - (n + 3) * q) / n))
  have hl := fsd1n_len (by omega) hL
  refine ⟨_, by
    simp only [stroudEnr54, ← hq, sqrtO_some hr, sqrtO_some hs, hL, Option.bind_eq_bind,
      Option.bind_some]
    rfl, rfl, ?_⟩
  refine rel_schemeOf (enr_relMom hn) (by norm_num) [gZ n _, gFsd _ _ L] rfl
    (ok_cons (gZ_ok _ _) (ok_cons (gFsd_ok _ hL) (ok_nil n))) ?_
  refine ⟨?_, fun _ _ => ?_, fun _ _ => ?_, fun _ _ => ?_, by omega, by omega, by omega⟩
  all_goals rel_simp; rw [hl]
  all_goals try simp only [q2, s2, q4, s4, cast_pred hn]
  · field_simp; ring
  · field_simp; ring
  · field_simp
    linear_combination (n - 1 : ℝ) * n * (n + 1) * (n + 3) ^ 2 * hqq
  · field_simp
    linear_combination -(n - 1 : ℝ) * n * (n + 1) * (n + 3) ^ 2 * hqq

/-- A concrete case: the second mixed moment in three dimensions. -/
example : ∃ S, Enr.stroudSecrest4 3 = some S ∧
    Spec.enr 3 (fun _ => 1) * dot 3 S.weights S.points (fun x => x 0 ^ 2 * x 1 ^ 2) =
      Spec.enr 3 (fun x => x 0 ^ 2 * x 1 ^ 2) := by
  obtain ⟨S, h, hd, hS⟩ := C26_stroudSecrest4 3 (by norm_num)
  refine ⟨S, h, ?_⟩
  have := hS.2 (MvPolynomial.X 0 ^ 2 * MvPolynomial.X 1 ^ 2)
    ((MvPolynomial.totalDegree_mul _ _).trans (by
      rw [hd, MvPolynomial.totalDegree_X_pow, MvPolynomial.totalDegree_X_pow]; norm_num))
  simpa using this

end Quadpy
