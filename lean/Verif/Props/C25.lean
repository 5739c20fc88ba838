import Verif.Lemmas.Rel
import Verif.Model.Un

/-!
C25: the claimed degree of the n-sphere schemes holds in every dimension.

`ExactOnSphere` (Spec/Schemes.lean): well-shaped, and `area * sum_i w_i p(x_i)` is the surface
integral of `p` over the unit sphere of `ℝ^n` for every polynomial of total degree at most
`S.degree`.  Every theorem also says that the constructor succeeds and which degree it claims.
-/

namespace Quadpy
open Un

theorem C25_stroudUn31 (n : ℕ) (hn : 1 ≤ n) :
    ∃ S, stroudUn31 n = some S ∧ S.degree = 3 ∧ S.ExactOnSphere n := by
  obtain ⟨L, hL⟩ := fsd_some hn (1 : ℝ)
  have hl := fsd1_len hL
  have hn0 : (n : ℝ) ≠ 0 := by positivity
  refine ⟨_, by simp [stroudUn31, hL]; rfl, rfl, ?_⟩
  refine rel_schemeOf (sphere_relMom hn) (by norm_num) [gFsd _ _ L] rfl
    (ok_cons (gFsd_ok _ hL) (ok_nil n)) ?_
  refine ⟨?_, fun _ _ => ?_, by omega, by omega, by omega, by omega, by omega⟩
  all_goals rel_simp; rw [hl]; field_simp

theorem C25_stroudUn32 (n : ℕ) (hn : 1 ≤ n) :
    (stroudUn32 n).degree = 3 ∧ (stroudUn32 n).ExactOnSphere n := by
  have hn0 : (n : ℝ) ≠ 0 := by positivity
  have h0 : √(1 / (n : ℝ)) ≠ 0 := by positivity
  refine ⟨rfl, ?_⟩
  rw [stroudUn32, pm_replicate n h0]
  refine rel_schemeOf (sphere_relMom hn) (by norm_num) [gA n _ _] rfl
    (ok_cons (gA_ok _ _ _) (ok_nil n)) ?_
  refine ⟨?_, fun _ _ => ?_, by omega, by omega, by omega, by omega, by omega⟩
  · rel_simp; field_simp
  · rel_simp; rw [Real.sq_sqrt (by positivity)]; field_simp

theorem C25_stroudUn51 (n : ℕ) (hn : 2 ≤ n) :
    ∃ S, stroudUn51 n = some S ∧ S.degree = 5 ∧ S.ExactOnSphere n := by
  obtain ⟨L1, h1⟩ := fsd_some (show 1 ≤ n by omega) (1 : ℝ)
  obtain ⟨L2, h2⟩ := fsd_some hn √(1 / 2)
  have l1 := fsd1_len h1
  have l2 := fsd2_len h2
  have hn0 : (n : ℝ) ≠ 0 := by positivity
  have q4 := sqrt_pow4 (x := 1 / 2) (by norm_num)
  have q2 := Real.sq_sqrt (x := 1 / 2) (by norm_num)
  refine ⟨_, by simp only [stroudUn51, h1, h2]; rfl, rfl, ?_⟩
  refine rel_schemeOf (sphere_relMom (by omega)) (by norm_num) [gFsd _ _ L1, gFsd _ _ L2] rfl
    (ok_cons (gFsd_ok _ h1) (ok_cons (gFsd_ok _ h2) (ok_nil n))) ?_
  refine ⟨?_, fun _ _ => ?_, fun _ _ => ?_, fun _ _ => ?_, by omega, by omega, by omega⟩
  all_goals rel_simp; rw [l1, l2]; try rw [q2]
  all_goals try rw [q4]
  all_goals field_simp; ring

theorem C25_stroudUn52 (n : ℕ) (hn : 1 ≤ n) :
    ∃ S, stroudUn52 n = some S ∧ S.degree = 5 ∧ S.ExactOnSphere n := by
  obtain ⟨L1, h1⟩ := fsd_some hn (1 : ℝ)
  have l1 := fsd1_len h1
  have hn0 : (n : ℝ) ≠ 0 := by positivity
  have h0 : √(1 / (n : ℝ)) ≠ 0 := by positivity
  have q4 := sqrt_pow4 (x := 1 / (n : ℝ)) (by positivity)
  have q2 := Real.sq_sqrt (x := 1 / (n : ℝ)) (by positivity)
  refine ⟨_, by simp only [stroudUn52, h1, pm_replicate n h0]; rfl, rfl, ?_⟩
  refine rel_schemeOf (sphere_relMom hn) (by norm_num) [gFsd _ _ L1, gA n _ _] rfl
    (ok_cons (gFsd_ok _ h1) (ok_cons (gA_ok _ _ _) (ok_nil n))) ?_
  refine ⟨?_, fun _ _ => ?_, fun _ _ => ?_, fun _ _ => ?_, by omega, by omega, by omega⟩
  all_goals rel_simp; rw [l1]; try rw [q2]
  all_goals try rw [q4]
  all_goals field_simp; ring

theorem C25_stroudUn54 (n : ℕ) (hn : 1 ≤ n) :
    ∃ S, stroudUn54 n = some S ∧ S.degree = 5 ∧ S.ExactOnSphere n := by
  have hn1 : (1 : ℝ) ≤ n := by exact_mod_cast hn
  have hn0 : (n : ℝ) ≠ 0 := by positivity
  obtain ⟨q, hq, hq0⟩ : ∃ q : ℝ, q = √(2 * (n + 2)) ∧ 0 ≤ q := ⟨_, rfl, Real.sqrt_nonneg _⟩
  have hqq : q ^ 2 = 2 * (n + 2) := by rw [hq, Real.sq_sqrt (by positivity)]
  have hq2 : 2 ≤ q := by nlinarith
  have hs : 0 ≤ (n + 2 - q) / n / (n + 2) := by
    refine div_nonneg (div_nonneg ?_ (by positivity)) (by positivity)
    nlinarith
  have hr : 0 ≤ (n + 2 + (n - 1) * q) / n / (n + 2) := by
    refine div_nonneg (div_nonneg ?_ (by positivity)) (by positivity)
    have : 0 ≤ ((n : ℝ) - 1) * q := mul_nonneg (by linarith) hq0
    linarith
  obtain ⟨L, hL⟩ := fsd_some2 (show 1 + (n - 1) ≤ n by omega)
    (√((n + 2 + (n - 1) * q) / n / (n + 2))) (√((n + 2 - q) / n / (n + 2)))
  have hl := fsd1n_len hn hL
  have q4 := sqrt_pow4 hr
  have q2 := Real.sq_sqrt hr
  have s4 := sqrt_pow4 hs
  have s2 := Real.sq_sqrt hs
  refine ⟨_, by
    simp only [stroudUn54, ← hq, sqrtO_some hr, sqrtO_some hs, hL, Option.bind_eq_bind,
      Option.bind_some]
    rfl, rfl, ?_⟩
  refine rel_schemeOf (sphere_relMom hn) (by norm_num) [gFsd _ _ L] rfl
    (ok_cons (gFsd_ok _ hL) (ok_nil n)) ?_
  refine ⟨?_, fun _ _ => ?_, fun _ _ => ?_, fun _ _ => ?_, by omega, by omega, by omega⟩
  · rel_simp; rw [hl]; field_simp
  · rel_simp; rw [hl, q2, s2, cast_pred hn]; field_simp; ring
  · rel_simp; rw [hl, q4, s4, cast_pred hn]; field_simp
    linear_combination (n - 1 : ℝ) * n * hqq
  · rel_simp; rw [hl, q2, s2, q4, s4, cast_pred hn]; field_simp
    linear_combination -(n - 1 : ℝ) * n * hqq

theorem C25_stroudUn72 (n : ℕ) (hn : 1 ≤ n) :
    ∃ S, stroudUn72 n = some S ∧ S.degree = 7 ∧ S.ExactOnSphere n := by
  have hn0 : (n : ℝ) ≠ 0 := by positivity
  have h0 : √(1 / (n : ℝ)) ≠ 0 := by positivity
  obtain ⟨L, hL⟩ := fsd_some2 (show 1 + (n - 1) ≤ n by omega)
    (√(5 / ((n : ℝ) + 4))) (√(1 / ((n : ℝ) + 4)))
  have hl := fsd1n_len hn hL
  have p1 : (0 : ℝ) ≤ 1 / n := by positivity
  have p2 : (0 : ℝ) ≤ 5 / (n + 4) := by positivity
  have p3 : (0 : ℝ) ≤ 1 / (n + 4) := by positivity
  have c := cast_pred hn
  refine ⟨_, by
    simp only [stroudUn72, hL, pm_replicate n h0, Option.bind_eq_bind, Option.bind_some]
    rfl, rfl, ?_⟩
  refine rel_schemeOf (sphere_relMom hn) (by norm_num) [gA n _ _, gFsd _ _ L] rfl
    (ok_cons (gA_ok _ _ _) (ok_cons (gFsd_ok _ hL) (ok_nil n))) ?_
  refine ⟨?_, fun _ _ => ?_, fun _ _ => ?_, fun _ _ => ?_, fun _ _ => ?_, fun _ _ => ?_,
    fun _ _ => ?_⟩
  all_goals rel_simp; rw [hl]
  all_goals try simp only [sqrt_pow4 p1, sqrt_pow4 p2, sqrt_pow4 p3, sqrt_pow6 p1, sqrt_pow6 p2,
    sqrt_pow6 p3, Real.sq_sqrt p1, Real.sq_sqrt p2, Real.sq_sqrt p3, c]
  all_goals field_simp; ring

theorem C25_stroud1967 (n : ℕ) (hn : 2 ≤ n) :
    ∃ S, stroud1967 n = some S ∧ S.degree = 7 ∧ S.ExactOnSphere n := by
  have hn0 : (n : ℝ) ≠ 0 := by positivity
  have h0 : √(1 / (n : ℝ)) ≠ 0 := by positivity
  obtain ⟨L1, h1⟩ := fsd_some (show 1 ≤ n by omega) (1 : ℝ)
  obtain ⟨L2, h2⟩ := fsd_some hn √(1 / 2)
  have l1 := fsd1_len h1
  have l2 := fsd2_len h2
  have p1 : (0 : ℝ) ≤ 1 / n := by positivity
  have p2 : (0 : ℝ) ≤ 1 / 2 := by positivity
  refine ⟨_, by simp only [stroud1967, h1, h2, pm_replicate n h0]; rfl, rfl, ?_⟩
  refine rel_schemeOf (sphere_relMom (by omega)) (by norm_num)
    [gFsd _ _ L1, gA n _ _, gFsd _ _ L2] rfl
    (ok_cons (gFsd_ok _ h1) (ok_cons (gA_ok _ _ _) (ok_cons (gFsd_ok _ h2) (ok_nil n)))) ?_
  refine ⟨?_, fun _ _ => ?_, fun _ _ => ?_, fun _ _ => ?_, fun _ _ => ?_, fun _ _ => ?_,
    fun _ _ => ?_⟩
  all_goals rel_simp; rw [l1, l2]
  all_goals try simp only [sqrt_pow4 p1, sqrt_pow4 p2, sqrt_pow6 p1, sqrt_pow6 p2,
    Real.sq_sqrt p1, Real.sq_sqrt p2]
  all_goals field_simp; ring

/-- A concrete case: the second mixed moment in three dimensions. -/
example : ∃ S, stroudUn54 3 = some S ∧
    Spec.sphere 3 (fun _ => 1) * dot 3 S.weights S.points (fun x => x 0 ^ 2 * x 1 ^ 2) =
      Spec.sphere 3 (fun x => x 0 ^ 2 * x 1 ^ 2) := by
  obtain ⟨S, h, hd, hS⟩ := C25_stroudUn54 3 (by norm_num)
  refine ⟨S, h, ?_⟩
  have := hS.2 (MvPolynomial.X 0 ^ 2 * MvPolynomial.X 1 ^ 2)
    ((MvPolynomial.totalDegree_mul _ _).trans (by
      rw [hd, MvPolynomial.totalDegree_X_pow, MvPolynomial.totalDegree_X_pow]; norm_num))
  simpa using this

end Quadpy
