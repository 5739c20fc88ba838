/-
C27: the schemes for the Gaussian weight `exp(-|x|^2)` on `ℝ^n` integrate every polynomial up to
their stated degree exactly, for every dimension `n`.
-/
import Verif.Lemmas.Rel
import Verif.Model.Enr2

namespace Quadpy
open Enr2

theorem C27_stroudSecrest2 (n : ℕ) (hn : 1 ≤ n) :
    ∃ S, Enr2.stroudSecrest2 n = some S ∧ S.degree = 3 ∧ S.ExactOnEnr2 n := by
  have hn0 : (n : ℝ) ≠ 0 := by positivity
  obtain ⟨L, hL⟩ := fsd_some hn (√((n : ℝ) / 2))
  have hl := fsd1_len hL
  refine ⟨_, by simp only [Enr2.stroudSecrest2, hL, Option.bind_eq_bind, Option.bind_some]; rfl,
    rfl, ?_⟩
  refine rel_schemeOf (enr2_relMom n) (by norm_num) [gFsd _ _ L] rfl
    (ok_cons (gFsd_ok _ hL) (ok_nil n)) ?_
  refine ⟨?_, fun _ _ => ?_, by omega, by omega, by omega, by omega, by omega⟩
  all_goals rel_simp; rw [hl]
  · field_simp
  · rw [Real.sq_sqrt (by positivity)]; field_simp

theorem C27_stroudSecrest3 (n : ℕ) :
    (Enr2.stroudSecrest3 n).degree = 3 ∧ (Enr2.stroudSecrest3 n).ExactOnEnr2 n := by
  have h0 : √(1 / 2 : ℝ) ≠ 0 := by positivity
  refine ⟨rfl, ?_⟩
  rw [Enr2.stroudSecrest3, pm_replicate n h0]
  refine rel_schemeOf (enr2_relMom n) (by norm_num) [gA n _ _] rfl
    (ok_cons (gA_ok _ _ _) (ok_nil n)) ?_
  refine ⟨?_, fun _ _ => ?_, by omega, by omega, by omega, by omega, by omega⟩
  · rel_simp; field_simp
  · rel_simp; rw [Real.sq_sqrt (by positivity)]; field_simp

theorem C27_stroudSecrest4 (n : ℕ) (hn : 2 ≤ n) :
    ∃ S, Enr2.stroudSecrest4 n = some S ∧ S.degree = 5 ∧ S.ExactOnEnr2 n := by
  have p1 : (0 : ℝ) ≤ ((n : ℝ) + 2) / 2 := by positivity
  have p2 : (0 : ℝ) ≤ ((n : ℝ) + 2) / 4 := by positivity
  obtain ⟨L1, h1⟩ := fsd_some (show 1 ≤ n by omega) (√(((n : ℝ) + 2) / 2))
  obtain ⟨L2, h2⟩ := fsd_some hn (√(((n : ℝ) + 2) / 4))
  have l1 := fsd1_len h1
  have l2 := fsd2_len h2
  have hn0 : (n : ℝ) ≠ 0 := by positivity
  refine ⟨_, by simp only [Enr2.stroudSecrest4, h1, h2, Option.bind_eq_bind, Option.bind_some]; rfl,
    rfl, ?_⟩
  refine rel_schemeOf (enr2_relMom n) (by norm_num) [gZ n _, gFsd _ _ L1, gFsd _ _ L2] rfl
    (ok_cons (gZ_ok _ _) (ok_cons (gFsd_ok _ h1) (ok_cons (gFsd_ok _ h2) (ok_nil n)))) ?_
  refine ⟨?_, fun _ _ => ?_, fun _ _ => ?_, fun _ _ => ?_, by omega, by omega, by omega⟩
  all_goals rel_simp; rw [l1, l2]
  all_goals try simp only [sqrt_pow4 p1, sqrt_pow4 p2, Real.sq_sqrt p1, Real.sq_sqrt p2]
  all_goals field_simp; ring

theorem C27_phillips (n : ℕ) (hn : 2 ≤ n) :
    ∃ S, phillips n = some S ∧ S.degree = 5 ∧ S.ExactOnEnr2 n := by
  have p1 : (0 : ℝ) ≤ 3 / 2 := by positivity
  obtain ⟨L1, h1⟩ := fsd_some (show 1 ≤ n by omega) (√(3 / 2))
  obtain ⟨L2, h2⟩ := fsd_some hn (√(3 / 2))
  have l1 := fsd1_len h1
  have l2 := fsd2_len h2
  have hn0 : (n : ℝ) ≠ 0 := by positivity
  refine ⟨_, by simp only [phillips, h1, h2, Option.bind_eq_bind, Option.bind_some]; rfl,
    rfl, ?_⟩
  refine rel_schemeOf (enr2_relMom n) (by norm_num) [gZ n _, gFsd _ _ L1, gFsd _ _ L2] rfl
    (ok_cons (gZ_ok _ _) (ok_cons (gFsd_ok _ h1) (ok_cons (gFsd_ok _ h2) (ok_nil n)))) ?_
  refine ⟨?_, fun _ _ => ?_, fun _ _ => ?_, fun _ _ => ?_, by omega, by omega, by omega⟩
  all_goals rel_simp; rw [l1, l2]
  all_goals try simp only [sqrt_pow4 p1, Real.sq_sqrt p1]
  all_goals field_simp; ring

theorem C27_stroudEnr2_53 (n : ℕ) (hn : 3 ≤ n) :
    ∃ S, stroudEnr2_53 n = some S ∧ S.degree = 5 ∧ S.ExactOnEnr2 n := by
  have r3 : (3 : ℝ) ≤ n := by exact_mod_cast hn
  have hm : (0 : ℝ) < n - 2 := by linarith
  have p1 : (0 : ℝ) ≤ ((n : ℝ) + 2) / 4 := by positivity
  have p2 : (0 : ℝ) ≤ ((n : ℝ) + 2) / (2 * (n - 2)) := by positivity
  obtain ⟨L1, h1⟩ := fsd_some (show 1 ≤ n by omega) (√(((n : ℝ) + 2) / 4))
  have l1 := fsd1_len h1
  have hn0 : (n : ℝ) ≠ 0 := by positivity
  have h0 : √(((n : ℝ) + 2) / (2 * (n - 2))) ≠ 0 := by positivity
  have hg : guard (2 < n) = some () := if_pos (by omega)
  refine ⟨_, by simp only [stroudEnr2_53, hg, h1, pm_replicate n h0, Option.bind_eq_bind,
    Option.bind_some]; rfl, rfl, ?_⟩
  refine rel_schemeOf (enr2_relMom n) (by norm_num) [gFsd _ _ L1, gA n _ _] rfl
    (ok_cons (gFsd_ok _ h1) (ok_cons (gA_ok _ _ _) (ok_nil n))) ?_
  refine ⟨?_, fun _ _ => ?_, fun _ _ => ?_, fun _ _ => ?_, by omega, by omega, by omega⟩
  all_goals rel_simp; rw [l1]
  all_goals try simp only [sqrt_pow4 p1, sqrt_pow4 p2, Real.sq_sqrt p1, Real.sq_sqrt p2]
  all_goals field_simp; ring

/-- `stroud_enr2_5_5a` for every `n`, `stroud_enr2_5_5b` for the `n` for which its points are real. -/
theorem C27_stroud55 (n : ℕ) (variantA : Bool) (hn : 2 ≤ n) (h2 : variantA = false → n = 2) :
    ∃ S, stroud55 n variantA = some S ∧ S.degree = 5 ∧ S.ExactOnEnr2 n := by
  have hn2 : (2 : ℝ) ≤ n := by exact_mod_cast hn
  have hn0 : (n : ℝ) ≠ 0 := by positivity
  obtain ⟨q, hq, hq0⟩ : ∃ q : ℝ, q = √(2 * (n + 2)) ∧ 0 ≤ q := ⟨_, rfl, Real.sqrt_nonneg _⟩
  have hqq : q ^ 2 = 2 * (n + 2) := by rw [hq, Real.sq_sqrt (by positivity)]
  obtain ⟨t, ht⟩ : ∃ t : ℝ, t = if variantA then 1 else -1 := ⟨_, rfl⟩
  have htt : t ^ 2 = 1 := by rw [ht]; split_ifs <;> norm_num
  have hs : 0 ≤ (n + 2 - t * q) / (2 * n) := by
    refine div_nonneg ?_ (by positivity)
    rw [ht]; split_ifs <;> nlinarith
  have hr : 0 ≤ (n + 2 + t * (n - 1) * q) / (2 * n) := by
    refine div_nonneg ?_ (by positivity)
    have : 0 ≤ ((n : ℝ) - 1) * q := mul_nonneg (by linarith) hq0
    rw [ht]; split_ifs with h
    · nlinarith
    · have := h2 (by simpa using h)
      subst this
      push_cast at *
      nlinarith
  obtain ⟨c, hc⟩ : ∃ c : ℝ, c = t * q := ⟨_, rfl⟩
  have hcc : c ^ 2 = 2 * (n + 2) := by rw [hc, mul_pow, htt, one_mul, hqq]
  have q4 := sqrt_pow4 hr
  have q2 := Real.sq_sqrt hr
  have s4 := sqrt_pow4 hs
  have s2 := Real.sq_sqrt hs
  obtain ⟨L, hL⟩ := fsd_some2 (show 1 + (n - 1) ≤ n by omega)
    (√((n + 2 + t * (n - 1) * q) / (2 * n))) (√((n + 2 - t * q) / (2 * n)))
  have hl := fsd1n_len (by omega) hL
  refine ⟨_, by
    simp only [stroud55, ← ht, ← hq, sqrtO_some hr, sqrtO_some hs, hL, Option.bind_eq_bind,
      Option.bind_some]
    rfl, rfl, ?_⟩
  refine rel_schemeOf (enr2_relMom n) (by norm_num) [gZ n _, gFsd _ _ L] rfl
    (ok_cons (gZ_ok _ _) (ok_cons (gFsd_ok _ hL) (ok_nil n))) ?_
  refine ⟨?_, fun _ _ => ?_, fun _ _ => ?_, fun _ _ => ?_, by omega, by omega, by omega⟩
  all_goals rel_simp; rw [hl]
  all_goals try simp only [q2, s2, q4, s4, cast_pred (show 1 ≤ n by omega)]
  · field_simp; ring
  · field_simp; ring
  · field_simp
    rw [hc] at hcc
    linear_combination 4 * (n - 1 : ℝ) * n * hcc
  · field_simp
    rw [hc] at hcc
    linear_combination -4 * (n - 1 : ℝ) * n * hcc

theorem C27_stroudEnr2_56 (n : ℕ) (hn : 5 ≤ n) :
    ∃ S, stroudEnr2_56 n = some S ∧ S.degree = 5 ∧ S.ExactOnEnr2 n := by
  have hn5 : (5 : ℝ) ≤ n := by exact_mod_cast hn
  have hn0 : (n : ℝ) ≠ 0 := by positivity
  obtain ⟨q, hq, hq0⟩ : ∃ q : ℝ, q = √(2 * (n + 1)) ∧ 0 ≤ q := ⟨_, rfl, Real.sqrt_nonneg _⟩
  have hqq : q ^ 2 = 2 * (n + 1) := by rw [hq, Real.sq_sqrt (by positivity)]
  obtain ⟨k, hk, hk0⟩ : ∃ k : ℝ, k = √2 ∧ 0 ≤ k := ⟨_, rfl, Real.sqrt_nonneg _⟩
  have hkk : k ^ 2 = 2 := by rw [hk, Real.sq_sqrt (by positivity)]
  have hk1 : k < 3 / 2 := by nlinarith
  have hs : 0 ≤ (n - k - q) / (2 * n) := by
    refine div_nonneg ?_ (by positivity)
    have : q ≤ n - 3 / 2 := by
      apply abs_le_of_sq_le_sq' _ (by linarith) |>.2
      nlinarith
    linarith
  have hr : 0 ≤ (n - k + (n - 1) * q) / (2 * n) := by
    refine div_nonneg ?_ (by positivity)
    have : 0 ≤ ((n : ℝ) - 1) * q := mul_nonneg (by linarith) hq0
    linarith
  have pt : 0 ≤ (1 + k) / 2 := by positivity
  have h0 : √((1 + k) / 2) ≠ 0 := by positivity
  obtain ⟨L, hL⟩ := fsd_some2 (show 1 + (n - 1) ≤ n by omega)
    (√((n - k + (n - 1) * q) / (2 * n))) (√((n - k - q) / (2 * n)))
  have hl := fsd1n_len (by omega) hL
  have hg : guard (5 ≤ n) = some () := if_pos hn
  refine ⟨_, by
    simp only [stroudEnr2_56, hg, ← hk, ← hq, sqrtO_some hr, sqrtO_some hs, hL, pm_replicate n h0,
      Option.bind_eq_bind, Option.bind_some]
    rfl, rfl, ?_⟩
  refine rel_schemeOf (enr2_relMom n) (by norm_num) [gFsd _ _ L, gA n _ _] rfl
    (ok_cons (gFsd_ok _ hL) (ok_cons (gA_ok _ _ _) (ok_nil n))) ?_
  refine ⟨?_, fun _ _ => ?_, fun _ _ => ?_, fun _ _ => ?_, by omega, by omega, by omega⟩
  all_goals rel_simp; rw [hl]
  all_goals try simp only [sqrt_pow4 hr, sqrt_pow4 hs, Real.sq_sqrt hr,
    Real.sq_sqrt hs, sqrt_pow4 pt, Real.sq_sqrt pt, cast_pred (show 1 ≤ n by omega)]
  · field_simp
  · field_simp; ring
  · field_simp
    linear_combination 4 * (n - 1 : ℝ) * n * hqq + 4 * (n + n ^ 2 : ℝ) * hkk
  · field_simp
    linear_combination -4 * (n - 1 : ℝ) * n * hqq + 4 * (n ^ 3 - n : ℝ) * hkk

theorem mu_zero : mu 0 = 1 := by simp [mu]
theorem mu_two : mu 2 = 1 / 2 := by simp [mu]; norm_num
theorem mu_four : mu 4 = 3 / 4 := by simp [mu]; norm_num
theorem mu_six : mu 6 = 15 / 8 := by simp [mu]; norm_num

theorem C27_coolsHaegemans1 (n : ℕ) (delta2 : ℝ) (hd : 1 / 2 ≤ delta2) :
    ∃ S, Enr2.coolsHaegemans1 n delta2 = some S ∧ S.degree = 3 ∧ S.ExactOnEnr2 n := by
  have hp : 0 < delta2 := by linarith
  have h0 : √delta2 ≠ 0 := by positivity
  refine ⟨_, by
    simp only [Enr2.coolsHaegemans1, if_pos hd, pm_replicate n h0, mu_zero, mu_two, one_zpow]; rfl,
    rfl, ?_⟩
  refine rel_schemeOf (enr2_relMom n) (by norm_num) [gZ n _, gA n _ _] rfl
    (ok_cons (gZ_ok _ _) (ok_cons (gA_ok _ _ _) (ok_nil n))) ?_
  refine ⟨?_, fun _ _ => ?_, by omega, by omega, by omega, by omega, by omega⟩
  all_goals rel_simp
  all_goals try simp only [Real.sq_sqrt hp.le]
  · field_simp; ring
  · field_simp; ring

theorem gener1_eq_enr2 {delta2 : ℝ} (hd : 1 / 2 < delta2) :
    gener1 delta2 = some (2 * delta2 / (2 * delta2 - 1)) := by
  have h0 : delta2 ≠ 0 := by linarith
  have h1 : 2 * delta2 - 1 ≠ 0 := by linarith
  have hb : (1 / 2 - (1 / 2) ^ 2 / 1 ^ 1 * 1 / delta2 : ℝ) = (2 * delta2 - 1) / (4 * delta2) := by
    field_simp; ring
  simp only [gener1, mu_zero, mu_two, mu_four, hb]
  rw [if_neg (by positivity)]
  congr 1
  field_simp; ring

theorem gener2_eq {delta2 : ℝ} (hd : 1 / 2 < delta2) (h3 : 2 * delta2 - 3 ≠ 0) :
    gener2 delta2 = some (2 * delta2 / (2 * delta2 - 1),
      4 * delta2 * (4 * delta2 - 3) / ((2 * delta2 - 1) * (2 * delta2 - 3))) := by
  have h0 : delta2 ≠ 0 := by linarith
  have h1 : 2 * delta2 - 1 ≠ 0 := by linarith
  have hb : (1 * (3 / 4) + -(2 * delta2 / (2 * delta2 - 1)) * (1 / 2) -
      (1 / 2) ^ 3 / 1 ^ 2 * (1 - 2 * delta2 / (2 * delta2 - 1) / delta2) / delta2 : ℝ) =
      (2 * delta2 - 3) / (8 * delta2) := by
    field_simp; ring
  simp only [gener2, gener1_eq_enr2 hd, Option.bind_eq_bind, Option.bind_some, mu_zero, mu_two, mu_four,
    mu_six, hb]
  rw [if_neg (by positivity)]
  congr 2
  field_simp; ring

theorem C27_coolsHaegemans2 (n : ℕ) (hn : 1 ≤ n) (delta2 : ℝ) (hd : 1 / 2 < delta2)
    (hu : 2 < n → delta2 ≤ (n + 2) / (2 * n - 4)) :
    ∃ S, Enr2.coolsHaegemans2 n delta2 = some S ∧ S.degree = 5 ∧ S.ExactOnEnr2 n := by
  have hp : 0 < delta2 := by linarith
  have hq : 0 < 2 * delta2 - 1 := by linarith
  have h0 : √delta2 ≠ 0 := by positivity
  have hn0 : (n : ℝ) ≠ 0 := by positivity
  have hl : 0 ≤ 2 * delta2 / (2 * delta2 - 1) := by positivity
  obtain ⟨L, hL⟩ := fsd_some hn (√(2 * delta2 / (2 * delta2 - 1)))
  have l1 := fsd1_len hL
  refine ⟨_, by
    simp only [Enr2.coolsHaegemans2, if_pos (show 1 ≤ n ∧ 1 / 2 ≤ delta2 ∧ _ from ⟨hn, hd.le, hu⟩),
      gener1_eq_enr2 hd, sqrtO_some hl, hL, pm_replicate n h0, mu_zero, mu_two, one_zpow,
      Option.bind_eq_bind, Option.bind_some]
    rfl, rfl, ?_⟩
  refine rel_schemeOf (enr2_relMom n) (by norm_num) [gZ n _, gFsd _ _ L, gA n _ _] rfl
    (ok_cons (gZ_ok _ _) (ok_cons (gFsd_ok _ hL) (ok_cons (gA_ok _ _ _) (ok_nil n)))) ?_
  refine ⟨?_, fun _ _ => ?_, fun _ _ => ?_, fun _ _ => ?_, by omega, by omega, by omega⟩
  all_goals rel_simp; rw [l1]
  all_goals try simp only [Real.sq_sqrt hp.le, sqrt_pow4 hp.le, Real.sq_sqrt hl, sqrt_pow4 hl]
  all_goals field_simp; ring

/-- At the end `delta2 = 1/2` of the range that the assertion allows, the constructor does not
return: `_gener` divides by zero. -/
theorem C27_coolsHaegemans2_half (n : ℕ) : Enr2.coolsHaegemans2 n (1 / 2) = none := by
  have : gener1 (1 / 2) = none := by
    simp only [gener1, mu_zero, mu_two, mu_four]
    rw [if_pos (by norm_num)]
  unfold Enr2.coolsHaegemans2
  split_ifs
  · rw [this]; rfl
  · rfl

/-- `cools_haegemans_3(n, delta2)`, for the `delta2` for which its points are real; the default is
`2/3`. -/
theorem C27_coolsHaegemans3 (n : ℕ) (hn : 2 ≤ n) (delta2 : ℝ)
    (hd : 1 / 2 < delta2 ∧ delta2 < 3 / 4 ∨ 3 / 2 < delta2) :
    ∃ S, Enr2.coolsHaegemans3 n delta2 = some S ∧ S.degree = 7 ∧ S.ExactOnEnr2 n := by
  have hp : 0 < delta2 := by rcases hd with h | h <;> linarith
  have hd' : 1 / 2 < delta2 := by rcases hd with h | h <;> linarith
  have hq : 0 < 2 * delta2 - 1 := by linarith
  have h3 : 2 * delta2 - 3 ≠ 0 := by
    rcases hd with h | h
    · exact (by linarith : 2 * delta2 - 3 < 0).ne
    · exact (by linarith : 0 < 2 * delta2 - 3).ne'
  have h4 : 4 * delta2 - 3 ≠ 0 := by
    rcases hd with h | h
    · exact (by linarith : 4 * delta2 - 3 < 0).ne
    · exact (by linarith : 0 < 4 * delta2 - 3).ne'
  have h0 : √delta2 ≠ 0 := by positivity
  have hn0 : (n : ℝ) ≠ 0 := by positivity
  have hl : 0 ≤ 2 * delta2 / (2 * delta2 - 1) := by positivity
  have hk : 0 ≤ 4 * delta2 * (4 * delta2 - 3) / ((2 * delta2 - 1) * (2 * delta2 - 3)) := by
    rw [mul_div_mul_comm]
    refine mul_nonneg (by positivity) ?_
    rcases hd with h | h
    · exact div_nonneg_of_nonpos (by linarith) (by linarith)
    · exact div_nonneg (by linarith) (by linarith)
  obtain ⟨L1, h1⟩ := fsd_some (show 1 ≤ n by omega) (√(2 * delta2 / (2 * delta2 - 1)))
  obtain ⟨L2, h2⟩ := fsd_some (show 1 ≤ n by omega)
    (√(4 * delta2 * (4 * delta2 - 3) / ((2 * delta2 - 1) * (2 * delta2 - 3))))
  obtain ⟨L11, h11⟩ := fsd_some hn (√(2 * delta2 / (2 * delta2 - 1)))
  have l1 := fsd1_len h1
  have l2 := fsd1_len h2
  have l11 := fsd2_len h11
  have g1 : guard (2 ≤ n) = some () := if_pos hn
  have g2 : guard (delta2 ≠ 0 ∧ 4 * delta2 - 3 ≠ 0) = some () := if_pos ⟨hp.ne', h4⟩
  refine ⟨_, by
    simp only [Enr2.coolsHaegemans3, g1, g2, gener2_eq hd' h3, sqrtO_some hl, sqrtO_some hk,
      sqrtO_some hp.le, h1, h2, h11, pm_replicate n h0, mu_zero, mu_two, one_zpow,
      Option.bind_eq_bind, Option.bind_some]
    rfl, rfl, ?_⟩
  refine rel_schemeOf (enr2_relMom n) (by norm_num)
    [gZ n _, gFsd _ _ L1, gFsd _ _ L2, gFsd _ _ L11, gA n _ _] rfl
    (ok_cons (gZ_ok _ _) (ok_cons (gFsd_ok _ h1) (ok_cons (gFsd_ok _ h2) (ok_cons (gFsd_ok _ h11)
      (ok_cons (gA_ok _ _ _) (ok_nil n)))))) ?_
  refine ⟨?_, fun _ _ => ?_, fun _ _ => ?_, fun _ _ => ?_, fun _ _ => ?_, fun _ _ => ?_,
    fun _ _ => ?_⟩
  all_goals rel_simp; rw [l1, l2, l11]
  all_goals try simp only [Real.sq_sqrt hp.le, sqrt_pow4 hp.le, Real.sq_sqrt hl, sqrt_pow4 hl,
    Real.sq_sqrt hk, sqrt_pow4 hk, sqrt_pow6 hp.le, sqrt_pow6 hl, sqrt_pow6 hk]
  all_goals
    clear * - hq h3 h4 hp hn0
    generalize (n : ℝ) = m at *
    have hq' := hq.ne'
    have h2n : (2 : ℝ) ^ n ≠ 0 := by positivity
    generalize (2 : ℝ) ^ n = P at *
    have hp' := hp.ne'
    obtain ⟨u, hu⟩ : ∃ u, u = 2 * delta2 - 1 := ⟨_, rfl⟩
    obtain ⟨v, hv⟩ : ∃ v, v = 2 * delta2 - 3 := ⟨_, rfl⟩
    obtain ⟨k, hk⟩ : ∃ k, k = 4 * delta2 - 3 := ⟨_, rfl⟩
    simp only [← hu, ← hv, ← hk] at hq' h3 h4 ⊢
    field_simp
    subst hu hv hk
    ring

/-- `stroud_1967_7_2a` and `stroud_1967_7_2b`, for the `n` they accept. -/
theorem C27_stroud1967_7_2 (n : ℕ) (variantA : Bool)
    (hn : n ∈ if variantA then [2, 3, 4, 6, 7] else [3, 4]) :
    ∃ S, stroud1967_7_2 n variantA = some S ∧ S.degree = 7 ∧ S.ExactOnEnr2 n := by
  have h2 : 2 ≤ n := by
    split_ifs at hn <;> simp at hn <;> omega
  have hn7 : n ≤ 7 := by split_ifs at hn <;> simp at hn <;> omega
  have hn5 : n ≠ 5 := by split_ifs at hn <;> simp at hn <;> omega
  have hb : variantA = false → n = 3 ∨ n = 4 := by rintro rfl; simpa using hn
  have r2 : (2 : ℝ) ≤ n := by exact_mod_cast h2
  have r7 : (n : ℝ) ≤ 7 := by exact_mod_cast hn7
  have hn0 : (n : ℝ) ≠ 0 := by positivity
  have h8 : (0 : ℝ) < 8 - n := by linarith
  have h5 : (5 - n : ℝ) ≠ 0 := by
    intro h
    have : (5 - n : ℤ) = 0 := by exact_mod_cast h
    omega
  have h38 : (3 * n - 8 : ℝ) ≠ 0 := by
    intro h
    have : (3 * n - 8 : ℤ) = 0 := by exact_mod_cast h
    omega
  obtain ⟨t, ht⟩ : ∃ t : ℝ, t = if variantA then 1 else -1 := ⟨_, rfl⟩
  have htt : t ^ 2 = 1 := by rw [ht]; split_ifs <;> norm_num
  have hA : (0 : ℝ) ≤ 3 * (8 - n) := by positivity
  obtain ⟨a, ha, ha0⟩ : ∃ a : ℝ, a = √(3 * (8 - n)) ∧ 0 ≤ a := ⟨_, rfl, Real.sqrt_nonneg _⟩
  have haa : a ^ 2 = 3 * (8 - n) := by rw [ha, Real.sq_sqrt hA]
  obtain ⟨c, hc⟩ : ∃ c : ℝ, c = t * a := ⟨_, rfl⟩
  have hcc : c ^ 2 = 3 * (8 - n) := by rw [hc, mul_pow, htt, one_mul, haa]
  have s1 : (0 : ℝ) < 3 * (8 - n) + (n - 2) * c := by
    rw [hc, ht]; split_ifs with h
    · have : 0 ≤ ((n : ℝ) - 2) * a := mul_nonneg (by linarith) ha0
      nlinarith
    · rcases hb (by simpa using h) with rfl | rfl <;> push_cast at * <;> nlinarith
  have s2 : (0 : ℝ) < 3 * n + 2 * c := by
    rw [hc, ht]; split_ifs with h
    · nlinarith
    · rcases hb (by simpa using h) with rfl | rfl <;> push_cast at * <;> nlinarith
  have s3 : (0 : ℝ) < 6 - c := by nlinarith
  obtain ⟨x, hx⟩ : ∃ x : ℝ, x = 2 * (3 * (8 - n) + (n - 2) * c) / (3 * (8 - n) * (n + 4)) :=
    ⟨_, rfl⟩
  obtain ⟨y, hy⟩ : ∃ y : ℝ, y = 2 * (3 * n + 2 * c) / (3 * (n + 4)) := ⟨_, rfl⟩
  obtain ⟨w, hw⟩ : ∃ w : ℝ, w = 2 * (6 - c) / (3 * (n + 4)) := ⟨_, rfl⟩
  have hx0 : 0 < x := by rw [hx]; positivity
  have hy0 : 0 < y := by rw [hy]; positivity
  have hw0 : 0 < w := by rw [hw]; positivity
  have er : (3 * (8 - n) - t * (n - 2) * a) / 2 / (5 - n) = x⁻¹ := by
    rw [hx, inv_div, div_div, div_eq_div_iff (mul_ne_zero two_ne_zero h5) (by positivity)]
    rw [hc] at hcc ⊢
    linear_combination (-2 * ((n : ℝ) - 2) ^ 2) * hcc
  have es : (3 * n - t * 2 * a) / 2 / (3 * n - 8) = y⁻¹ := by
    rw [hy, inv_div, div_div, div_eq_div_iff (mul_ne_zero two_ne_zero h38) (by positivity)]
    rw [hc] at hcc ⊢
    linear_combination (-8 : ℝ) * hcc
  have et : (6 + t * a) / 2 = w⁻¹ := by
    rw [hw, inv_div, div_eq_div_iff two_ne_zero (by positivity)]
    rw [hc] at hcc ⊢
    linear_combination (-2 : ℝ) * hcc
  have e4 : 2 * (8 - n) * x + y + 2 * (n - 1) * w = 6 := by
    rw [hx, hy, hw]; field_simp; ring
  have e22 : y + 2 * w = 2 := by rw [hy, hw]; field_simp; ring
  have e2 : 2 * (8 - n) * x ^ 2 + y ^ 2 + 2 * (n - 1) * w ^ 2 = 4 := by
    rw [hx, hy, hw]; field_simp
    linear_combination (8 * (n - 2) ^ 2 + 16 * (8 - n) + 8 * (n - 1) * (8 - n) : ℝ) * hcc
  obtain ⟨L1, h1⟩ := fsd_some (show 1 ≤ n by omega) (√x⁻¹)
  obtain ⟨L2, h2⟩ := fsd_some (show 2 ≤ n by omega) (√w⁻¹)
  have l1 := fsd1_len h1
  have l2 := fsd2_len h2
  have px : 0 ≤ x⁻¹ := by positivity
  have py : 0 ≤ y⁻¹ := by positivity
  have pw : 0 ≤ w⁻¹ := by positivity
  have h0 : √y⁻¹ ≠ 0 := by positivity
  have hg : guard (n ∈ if variantA then [2, 3, 4, 6, 7] else [3, 4]) = some () := if_pos hn
  refine ⟨_, by
    simp only [stroud1967_7_2, hg, ← ht, sqrtO_some hA, ← ha, er, es, et, sqrtO_some px,
      sqrtO_some py, sqrtO_some pw, h1, h2, pm_replicate n h0, Option.bind_eq_bind,
      Option.bind_some]
    rfl, rfl, ?_⟩
  refine rel_schemeOf (enr2_relMom n) (by norm_num)
    [gZ n _, gFsd _ _ L1, gA n _ _, gFsd _ _ L2] rfl
    (ok_cons (gZ_ok _ _) (ok_cons (gFsd_ok _ h1) (ok_cons (gA_ok _ _ _)
      (ok_cons (gFsd_ok _ h2) (ok_nil n))))) ?_
  refine ⟨?_, fun _ _ => ?_, fun _ _ => ?_, fun _ _ => ?_, fun _ _ => ?_, fun _ _ => ?_,
    fun _ _ => ?_⟩
  all_goals rel_simp; rw [l1, l2]
  all_goals try simp only [sqrt_pow4 px, sqrt_pow4 py, sqrt_pow4 pw, Real.sq_sqrt px,
    Real.sq_sqrt py, Real.sq_sqrt pw, sqrt_pow6 px, sqrt_pow6 py, sqrt_pow6 pw]
  · field_simp; ring
  · field_simp; linear_combination (256 * 2 ^ n * n : ℝ) * e2
  · field_simp; linear_combination (512 * 2 ^ n * n : ℝ) * e4
  · field_simp; linear_combination (512 * 2 ^ n * (n * (n - 1)) : ℝ) * e22
  · field_simp; ring
  · field_simp; ring
  · field_simp; ring

/-- A concrete case: the second mixed moment in three dimensions. -/
example : ∃ S, phillips 3 = some S ∧
    Spec.enr2 3 (fun _ => 1) * dot 3 S.weights S.points (fun x => x 0 ^ 2 * x 1 ^ 2) =
      Spec.enr2 3 (fun x => x 0 ^ 2 * x 1 ^ 2) := by
  obtain ⟨S, h, hd, hS⟩ := C27_phillips 3 (by norm_num)
  refine ⟨S, h, ?_⟩
  have := hS.2 (MvPolynomial.X 0 ^ 2 * MvPolynomial.X 1 ^ 2)
    ((MvPolynomial.totalDegree_mul _ _).trans (by
      rw [hd, MvPolynomial.totalDegree_X_pow, MvPolynomial.totalDegree_X_pow]; norm_num))
  simpa using this

end Quadpy
