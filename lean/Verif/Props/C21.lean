import Verif.Lemmas.CubeExact
import Mathlib.Tactic.FieldSimp
import Mathlib.Tactic.Positivity

/-!
C21: the claimed degree of the n-cube schemes holds in every dimension.

`ExactOnCube` (Spec/Schemes.lean): well-shaped, and `2^n * sum_i w_i p(x_i)` is the Lebesgue integral
of `p` over `[-1, 1]^n` for every real polynomial `p` in `n` variables of total degree at most
`S.degree`.  For a constructor with assertions the theorem is about every scheme it returns.
-/

namespace Quadpy
open Cn

/-- Unfold the moment conditions of a list of groups. -/
macro "grp_simp" : tactic => `(tactic| (
  simp only [gsum, List.map_cons, List.map_nil, List.sum_cons, List.sum_nil, gZ_len, gA0_len, gA_len,
    gFs11_len, gFsd_L]
  simp only [gZ, gA0, gA, gFs11, gFsd, List.map_cons, List.map_nil, List.sum_cons, List.sum_nil]))

theorem C21_stroudCn11 (n : ℕ) : (stroudCn11 n).ExactOnCube n := by
  have h : stroudCn11 n = schemeOf n [(1, z n)] 1 := by simp [stroudCn11, schemeOf, untangle, z]
  rw [h]
  refine cube_schemeOf (by norm_num) [gZ n 1] rfl (ok_cons (gZ_ok _ _) (ok_nil n)) ?_
  refine ⟨?_, by omega, by omega, by omega, by omega, by omega, by omega⟩
  grp_simp; norm_num

theorem schemeOf_single (n d : ℕ) (w : ℝ) (L : List (List ℝ)) (k : ℕ) (hk : L.length = k) :
    (⟨n, List.replicate k w, L, d⟩ : Scheme) = schemeOf n [(w, L)] d := by
  simp [schemeOf, untangle, hk]

theorem schemeOf_scale (n d : ℕ) (c : ℝ) (data : List (ℝ × List (List ℝ))) :
    (⟨n, (untangle data).2.map (· * c), (untangle data).1, d⟩ : Scheme) =
      schemeOf n (data.map fun g => (g.1 * c, g.2)) d := by
  simp [schemeOf, untangle, List.map_flatten, Function.comp_def]

theorem C21_stroudCn12 (n : ℕ) : (stroudCn12 n).ExactOnCube n := by
  rw [stroudCn12, pm_replicate n one_ne_zero, schemeOf_single _ _ _ _ _ (length_orbit_a n 1)]
  refine cube_schemeOf (by norm_num) [gA n _ 1] rfl (ok_cons (gA_ok _ _ _) (ok_nil n)) ?_
  refine ⟨?_, by omega, by omega, by omega, by omega, by omega, by omega⟩
  grp_simp; field_simp; norm_num

theorem C21_stroudCn32 (n : ℕ) (S : Scheme) (h : stroudCn32 n = some S) : S.ExactOnCube n := by
  simp only [stroudCn32, Option.pure_def, Option.bind_eq_bind, Option.bind_eq_some_iff,
    Option.some.injEq] at h
  obtain ⟨L, hL, rfl⟩ := h
  have hl := fsd1_len hL
  have hl' : L.length = 2 * n := by exact_mod_cast hl
  rw [schemeOf_single _ _ _ _ _ hl']
  have hn : 1 ≤ n := by simpa using (fsd_eq_some hL).1
  have hn0 : (n : ℝ) ≠ 0 := by positivity
  refine cube_schemeOf (by norm_num) [gFsd _ _ L] rfl (ok_cons (gFsd_ok _ hL) (ok_nil n)) ?_
  refine ⟨?_, fun _ _ => ?_, by omega, by omega, by omega, by omega, by omega⟩
  · grp_simp; rw [hl]; field_simp; norm_num
  · grp_simp; rw [hl, Real.sq_sqrt (by positivity)]; field_simp; norm_num

theorem C21_stroudCn34 (n : ℕ) : (stroudCn34 n).ExactOnCube n := by
  have h3 : (√3 / 3 : ℝ) ≠ 0 := by positivity
  rw [stroudCn34, pm_replicate n h3, schemeOf_single _ _ _ _ _ (length_orbit_a n _)]
  refine cube_schemeOf (by norm_num) [gA n _ _] rfl (ok_cons (gA_ok _ _ _) (ok_nil n)) ?_
  refine ⟨?_, fun _ _ => ?_, by omega, by omega, by omega, by omega, by omega⟩
  · grp_simp; field_simp; norm_num
  · grp_simp; rw [div_pow, Real.sq_sqrt (by norm_num)]; field_simp; norm_num

theorem C21_ewing (n : ℕ) : (ewing n).ExactOnCube n := by
  refine cube_schemeOfSym (by norm_num) [(.zero, _, _), (.a, _, _)] rfl
    [gZ n _, gA n _ _] rfl (ok_cons (gZ_ok _ _) (ok_cons (gA_ok _ _ _) (ok_nil n))) ?_
  refine ⟨?_, fun _ _ => ?_, by omega, by omega, by omega, by omega, by omega⟩
  · grp_simp; field_simp; norm_num
  · grp_simp; field_simp; norm_num

theorem C21_tyler (n : ℕ) : (tyler n).ExactOnCube n := by
  refine cube_schemeOfSym (by norm_num) [(.zero, _, _), (.a0, _, _)] rfl
    [gZ n _, gA0 n _ _] rfl (ok_cons (gZ_ok _ _) (ok_cons (gA0_ok _ _ _) (ok_nil n))) ?_
  refine ⟨?_, fun _ _ => ?_, by omega, by omega, by omega, by omega, by omega⟩
  · grp_simp; field_simp; ring
  · grp_simp; field_simp; ring

theorem C21_hammerStroud1n (n : ℕ) (hn : 1 ≤ n) : (hammerStroud1n n).ExactOnCube n := by
  have hn0 : (n : ℝ) ≠ 0 := by positivity
  refine cube_schemeOfSym (by norm_num) [(.a0, _, _)] rfl
    [gA0 n _ _] rfl (ok_cons (gA0_ok _ _ _) (ok_nil n)) ?_
  refine ⟨?_, fun _ _ => ?_, by omega, by omega, by omega, by omega, by omega⟩
  · grp_simp; field_simp; ring
  · grp_simp; rw [Real.sq_sqrt (by positivity)]; field_simp; ring

theorem C21_hammerStroud2n (n : ℕ) (S : Scheme) (h : hammerStroud2n n = some S) :
    S.ExactOnCube n := by
  simp only [hammerStroud2n, Option.pure_def, Option.bind_eq_bind, Option.bind_eq_some_iff,
    Option.some.injEq] at h
  obtain ⟨L1, h1, L2, h2, rfl⟩ := h
  have l1 := fsd1_len h1
  have l2 := fsd2_len h2
  have q4 := sqrt_pow4 (x := 3 / 5) (by norm_num)
  have q2 := Real.sq_sqrt (x := 3 / 5) (by norm_num)
  refine cube_schemeOf (by norm_num) [gZ n _, gFsd _ _ L1, gFsd _ _ L2] rfl
    (ok_cons (gZ_ok _ _) (ok_cons (gFsd_ok _ h1) (ok_cons (gFsd_ok _ h2) (ok_nil n)))) ?_
  refine ⟨?_, fun _ _ => ?_, fun _ _ => ?_, fun _ _ => ?_, by omega, by omega, by omega⟩
  all_goals grp_simp; rw [l1, l2]; try rw [q2]
  all_goals try rw [q4]
  all_goals push_cast; ring

theorem C21_mustardLynessBlatt (n : ℕ) : (mustardLynessBlatt n).ExactOnCube n := by
  have q4 := sqrt_pow4 (x := 2 / 5) (by norm_num)
  have q2 := Real.sq_sqrt (x := 2 / 5) (by norm_num)
  refine cube_schemeOfSym (by norm_num) [(.zero, _, _), (.a0, _, _), (.a, _, _)] rfl
    [gZ n _, gA0 n _ _, gA n _ _] rfl
    (ok_cons (gZ_ok _ _) (ok_cons (gA0_ok _ _ _) (ok_cons (gA_ok _ _ _) (ok_nil n)))) ?_
  refine ⟨?_, fun _ _ => ?_, fun _ _ => ?_, fun _ _ => ?_, by omega, by omega, by omega⟩
  all_goals grp_simp; try rw [q2]
  all_goals try rw [q4]
  all_goals field_simp; ring

theorem C21_stroud1966a (n : ℕ) (hn : 1 ≤ n) : (stroud1966a n).ExactOnCube n := by
  have hn1 : (1 : ℝ) ≤ n := by exact_mod_cast hn
  have hp : (0 : ℝ) < 15 * n - 12 := by linarith
  have hp' : (0 : ℝ) < 5 * n - 4 := by linarith
  have e : (15 * n - 12 : ℝ) = 3 * (5 * n - 4) := by ring
  have q4 := sqrt_pow4 (x := (5 * n + 4) / 30) (by positivity)
  have q2 := Real.sq_sqrt (x := (5 * n + 4) / 30) (by positivity)
  have s4 := sqrt_pow4 (x := (5 * n + 4) / (15 * n - 12)) (by positivity)
  have s2 := Real.sq_sqrt (x := (5 * n + 4) / (15 * n - 12)) (by positivity)
  refine cube_schemeOfSym (by norm_num) [(.a0, _, _), (.a, _, _)] rfl
    [gA0 n _ _, gA n _ _] rfl
    (ok_cons (gA0_ok _ _ _) (ok_cons (gA_ok _ _ _) (ok_nil n))) ?_
  refine ⟨?_, fun _ _ => ?_, fun _ _ => ?_, fun _ _ => ?_, by omega, by omega, by omega⟩
  all_goals grp_simp; try rw [q2, s2]
  all_goals try rw [q4, s4]
  all_goals try rw [e]
  all_goals field_simp; ring

theorem C21_stroud1966c (n : ℕ) (hn : 1 ≤ n) : (stroud1966c n).ExactOnCube n := by
  have hn1 : (1 : ℝ) ≤ n := by exact_mod_cast hn
  have hn0 : (n : ℝ) ≠ 0 := by positivity
  obtain ⟨q, hq, hq0⟩ : ∃ q : ℝ, q = √(5 * n + 4) ∧ 0 ≤ q := ⟨_, rfl, Real.sqrt_nonneg _⟩
  have hqq : q ^ 2 = 5 * n + 4 := by rw [hq, Real.sq_sqrt (by positivity)]
  have hq2 : 2 ≤ q := by nlinarith
  have hs : 0 ≤ (5 * n + 4 - 2 * q) / (15 * n) := by
    apply div_nonneg _ (by positivity)
    rw [← hqq]; nlinarith
  have hr : 0 ≤ (5 * n + 4 + 2 * (n - 1) * q) / (15 * n) := by
    apply div_nonneg _ (by positivity)
    have : 0 ≤ ((n : ℝ) - 1) * q := mul_nonneg (by linarith) hq0
    nlinarith
  have q4 := sqrt_pow4 hr
  have q2 := Real.sq_sqrt hr
  have s4 := sqrt_pow4 hs
  have s2 := Real.sq_sqrt hs
  unfold stroud1966c
  rw [← hq]
  refine cube_schemeOf (by norm_num) [gZ n _, gFs11 n _ _ _] rfl
    (ok_cons (gZ_ok _ _) (ok_cons (gFs11_ok _ _ _ _) (ok_nil n))) ?_
  have hq5 : (5 * n + 4 : ℝ) ≠ 0 := by positivity
  refine ⟨?_, fun _ _ => ?_, fun _ _ => ?_, fun _ _ => ?_, by omega, by omega, by omega⟩
  · grp_simp; field_simp; ring
  · grp_simp; rw [q2, s2]; field_simp; ring
  · grp_simp; rw [q4, s4]; field_simp
    linear_combination (100 * (n : ℝ) * (n - 1)) * hqq
  · grp_simp; rw [q4, s4, q2, s2]; field_simp
    linear_combination (-180 * (n : ℝ) * (n - 1)) * hqq

theorem C21_stroud1966d (n : ℕ) (hn : 1 ≤ n) (S : Scheme) (h : stroud1966d n = some S) :
    S.ExactOnCube n := by
  have hn1 : (1 : ℝ) ≤ n := by exact_mod_cast hn
  have hn0 : (n : ℝ) ≠ 0 := by positivity
  simp only [stroud1966d, Option.pure_def, Option.bind_eq_bind, Option.bind_eq_some_iff,
    Option.some.injEq] at h
  obtain ⟨s, hs, rfl⟩ := h
  obtain ⟨v, hv, hv0⟩ : ∃ v : ℝ, v = √5 ∧ 0 ≤ v := ⟨_, rfl, Real.sqrt_nonneg _⟩
  obtain ⟨q, hq, hq0⟩ : ∃ q : ℝ, q = √(5 * n + 5) ∧ 0 ≤ q := ⟨_, rfl, Real.sqrt_nonneg _⟩
  have hvv : v ^ 2 = 5 := by rw [hv, Real.sq_sqrt (by positivity)]
  have hqq : q ^ 2 = 5 * n + 5 := by rw [hq, Real.sq_sqrt (by positivity)]
  rw [← hv, ← hq] at hs ⊢
  have hv5 : v ≤ 5 / 2 := by nlinarith
  have hr : 0 ≤ (5 * n - 2 * v + 2 * (n - 1) * q) / (15 * n) := by
    apply div_nonneg _ (by positivity)
    have : 0 ≤ ((n : ℝ) - 1) * q := mul_nonneg (by linarith) hq0
    nlinarith
  have ht : 0 ≤ (5 + 2 * v) / 15 := by positivity
  have q4 := sqrt_pow4 hr
  have q2 := Real.sq_sqrt hr
  have t4 := sqrt_pow4 ht
  have t2 := Real.sq_sqrt ht
  have ht0 : √((5 + 2 * v) / 15) ≠ 0 := by positivity
  -- `s` only matters through `(n - 1) s^2` and `(n - 1) s^4`
  have s2 : (n - 1) * s ^ 2 = (n - 1) * ((5 * n - 2 * v - 2 * q) / (15 * n)) ∧
      (n - 1) * s ^ 4 = (n - 1) * ((5 * n - 2 * v - 2 * q) / (15 * n)) ^ 2 := by
    split_ifs at hs with h1
    · subst h1; simp
    · obtain ⟨h0, rfl⟩ := sqrtO_eq_some hs
      rw [Real.sq_sqrt h0, sqrt_pow4 h0]
      exact ⟨rfl, rfl⟩
  obtain ⟨s2, s4⟩ := s2
  rw [pm_replicate n ht0]
  refine cube_schemeOf (by norm_num) [gFs11 n _ _ s, gA n _ _] rfl
    (ok_cons (gFs11_ok _ _ _ _) (ok_cons (gA_ok _ _ _) (ok_nil n))) ?_
  have hn2 : (n + 1 : ℝ) ≠ 0 := by positivity
  refine ⟨?_, fun _ _ => ?_, fun _ _ => ?_, fun _ _ => ?_, by omega, by omega, by omega⟩
  · grp_simp; field_simp; ring
  · grp_simp; rw [q2, s2, t2]; field_simp; ring
  · grp_simp; rw [q4, s4, t4]; field_simp
    linear_combination (20 * (n : ℝ) * (n + 1)) * hvv + (20 * (n : ℝ) * (n - 1)) * hqq
  · grp_simp; rw [q4, s4, t4, q2, s2, t2]; field_simp
    linear_combination (36 * (n : ℝ) * (n ^ 2 - 1)) * hvv - (36 * (n : ℝ) * (n - 1)) * hqq

theorem stroud1966d_isSome (n : ℕ) (hn : 3 ≤ n) : (stroud1966d n).isSome := by
  have hn3 : (3 : ℝ) ≤ n := by exact_mod_cast hn
  have h : (0 : ℝ) ≤ (5 * n - 2 * √5 - 2 * √(5 * n + 5)) / (15 * n) := by
    apply div_nonneg _ (by positivity)
    have h1 : √5 ≤ 9 / 4 := by rw [Real.sqrt_le_left (by norm_num)]; norm_num
    have h2 : √(5 * n + 5) ≤ 3 / 2 * n := by
      rw [Real.sqrt_le_left (by positivity)]; nlinarith
    linarith
  simp [stroud1966d, sqrtO, h, show n ≠ 1 by omega]

example : ∃ S, stroud1966d 3 = some S := Option.isSome_iff_exists.1 (stroud1966d_isSome 3 le_rfl)

theorem C21_coolsHaegemans1 (n : ℕ) (delta2 : ℝ) (S : Scheme)
    (h : coolsHaegemans1 n delta2 = some S) : S.ExactOnCube n := by
  unfold coolsHaegemans1 at h
  split_ifs at h with hd
  simp only [Option.some.injEq] at h
  subst h
  have h0 : 0 < delta2 := by linarith
  have q2 := Real.sq_sqrt h0.le
  refine cube_schemeOfSym (by norm_num) [(.zero, _, _), (.a, _, _)] rfl
    [gZ n _, gA n _ _] rfl (ok_cons (gZ_ok _ _) (ok_cons (gA_ok _ _ _) (ok_nil n))) ?_
  refine ⟨?_, fun _ _ => ?_, by omega, by omega, by omega, by omega, by omega⟩
  · grp_simp; field_simp; ring
  · grp_simp; rw [q2]; field_simp; ring

theorem gener1_eq (delta2 : ℝ) (h0 : delta2 ≠ 0) (h3 : 3 * delta2 - 1 ≠ 0) :
    gener1 delta2 = 4 * delta2 / (5 * (3 * delta2 - 1)) := by
  have e : (1 / 3 : ℝ) - 1 / 9 / delta2 = (3 * delta2 - 1) / (9 * delta2) := by
    field_simp; ring
  simp only [gener1, mu]
  norm_num at e ⊢
  rw [e]
  field_simp
  norm_num

/-- C21, `cools_haegemans_2` with the default `delta2 = 1`.  For other values of `delta2` the claim is
false, see `C21_coolsHaegemans2_wrong`. -/
theorem C21_coolsHaegemans2_partial (n : ℕ) (S : Scheme)
    (h : coolsHaegemans2 n 1 = some S) : S.ExactOnCube n := by
  simp only [coolsHaegemans2, Option.pure_def, Option.bind_eq_bind, Option.bind_eq_some_iff,
    Option.some.injEq] at h
  obtain ⟨l, hl, d, hd, rfl⟩ := h
  obtain ⟨hl0, rfl⟩ := sqrtO_eq_some hl
  obtain ⟨hd0, rfl⟩ := sqrtO_eq_some hd
  rw [gener1_eq 1 (by norm_num) (by norm_num)] at *
  have l2 := Real.sq_sqrt hl0
  have l4 := sqrt_pow4 hl0
  have q2 := Real.sq_sqrt hd0
  have q4 := sqrt_pow4 hd0
  refine cube_schemeOfSym (by norm_num) [(.zero, _, _), (.a0, _, _), (.a, _, _)] rfl
    [gZ n _, gA0 n _ _, gA n _ _] rfl
    (ok_cons (gZ_ok _ _) (ok_cons (gA0_ok _ _ _) (ok_cons (gA_ok _ _ _) (ok_nil n)))) ?_
  refine ⟨?_, fun _ _ => ?_, fun _ _ => ?_, fun _ _ => ?_, by omega, by omega, by omega⟩
  · grp_simp; field_simp; ring
  · grp_simp; rw [l2, q2]; field_simp; ring
  · grp_simp; rw [l4, q4]; field_simp; ring
  · grp_simp; rw [l4, q4, l2, q2]; field_simp; ring

/-- `cools_haegemans_2` is wrong for every other `delta2`: already the constant function is not
integrated exactly (the weights do not sum to one; the denominator of `w1` in
cn/_cools_haegemans.py:51 should be `72 * delta2 ** 2`). -/
theorem C21_coolsHaegemans2_wrong (n : ℕ) (hn : 1 ≤ n) (delta2 : ℝ) (h0 : 1 / 3 < delta2)
    (h1 : delta2 ≠ 1) : ∃ S, coolsHaegemans2 n delta2 = some S ∧ ¬ S.ExactOnCube n ∧
      2 ^ n * dot n S.weights S.points (fun _ => 1) ≠ Spec.cube n (fun _ => 1) := by
  have h3 : 0 < 3 * delta2 - 1 := by linarith
  have hd : 0 < delta2 := by linarith
  have hg := gener1_eq delta2 hd.ne' h3.ne'
  have hg0 : 0 ≤ gener1 delta2 := by rw [hg]; positivity
  have main : ∃ S, coolsHaegemans2 n delta2 = some S ∧
      2 ^ n * dot n S.weights S.points (fun _ => 1) ≠ Spec.cube n (fun _ => 1) := by
    refine ⟨_, by
      simp only [coolsHaegemans2, sqrtO, hg0, hd.le, if_true, Option.bind_eq_bind,
        Option.bind_some, Option.pure_def]
      rfl, ?_⟩
    have e := schemeOfSym_eq n 5 [(.zero, -(15 * delta2 * n - 12 * delta2 - 5 * n - 4) *
        (3 * delta2 - 1) / (36 * delta2 ^ 2), []),
      (.a0, 5 * (3 * delta2 - 1) ^ 2 / (72 * delta2), [√(gener1 delta2)]),
      (.a, (1 / 3) ^ 2 / (2 ^ n * delta2 ^ 2), [√delta2])]
    simp only [List.map_cons, List.map_nil] at e
    rw [e]
    have hgr := untangle_groups n [gZ n (-(15 * delta2 * n - 12 * delta2 - 5 * n - 4) *
        (3 * delta2 - 1) / (36 * delta2 ^ 2)), gA0 n (5 * (3 * delta2 - 1) ^ 2 / (72 * delta2))
        (√(gener1 delta2)), gA n ((1 / 3) ^ 2 / (2 ^ n * delta2 ^ 2)) (√delta2)] _ rfl (mono 0)
    have hm : (mono (0 : Fin n → ℕ)) = fun _ => (1 : ℝ) := funext mono_zero
    have hc := cube_mono (0 : Fin n → ℕ)
    rw [cubeMom_zero, hm] at hc
    rw [hc]
    intro hcon
    have h2 : (2 : ℝ) ^ n ≠ 0 := by positivity
    have hcon := mul_left_cancel₀ h2 hcon
    rw [← hm] at hcon
    simp only [schemeOf] at hcon
    have hcon := hgr.symm.trans hcon
    simp only [osum_mono_zero, List.map_cons, List.map_nil, List.sum_cons, List.sum_nil, gZ_len,
      gA0_len, gA_len] at hcon
    simp only [gZ, gA0, gA] at hcon
    field_simp at hcon
    have hn0 : (n : ℝ) ≠ 0 := by positivity
    have : (n : ℝ) * (delta2 - 1) * (3 * delta2 - 1) ^ 2 = 0 := by linear_combination hcon / 3240
    have hd1 : delta2 - 1 ≠ 0 := sub_ne_zero.2 h1
    exact (mul_ne_zero (mul_ne_zero hn0 hd1) (pow_ne_zero 2 h3.ne')) this
  obtain ⟨S, hS, hne⟩ := main
  refine ⟨S, hS, fun hex => hne ?_, hne⟩
  have := hex.2 (MvPolynomial.C 1) (by simp)
  simpa using this

example : ∃ S, coolsHaegemans2 3 1 = some S := by
  have h : 0 ≤ gener1 1 := by rw [gener1_eq 1 (by norm_num) (by norm_num)]; norm_num
  simp [coolsHaegemans2, sqrtO, h]

theorem dobrodeev_alpha (n : ℕ) : (0 : ℝ) < 35 * n * (5 * n - 33) + 2114 ∧
    (0 : ℝ) < 35 * n * (5 * n - 33) + 2600 ∧ (35 * n * (5 * n - 33) + 1790 : ℝ) ≠ 0 := by
  refine ⟨by nlinarith [sq_nonneg ((n : ℝ) - 3.3)], by nlinarith [sq_nonneg ((n : ℝ) - 3.3)], ?_⟩
  intro h
  have h' : (35 * n * (5 * n - 33) + 1790 : ℤ) = 0 := by exact_mod_cast h
  have : (35 * (n * (5 * n - 33)) : ℤ) = -1790 := by linarith
  omega

theorem C21_dobrodeev1970 (n : ℕ) (S : Scheme) (h : dobrodeev1970 n = some S) :
    S.ExactOnCube n := by
  unfold dobrodeev1970 at h
  split_ifs at h with hn
  simp only [Option.pure_def, Option.bind_eq_bind, Option.bind_eq_some_iff,
    Option.some.injEq] at h
  obtain ⟨c, hc, La, ha, Lb, hb, Lc, hc', Ld, hd, rfl⟩ := h
  obtain ⟨hc0, rfl⟩ := sqrtO_eq_some hc
  obtain ⟨p1, p2, p3⟩ := dobrodeev_alpha n
  have la := fsd3_len ha
  have lb := fsd2_len hb
  have lc := fsd1_len hc'
  have ld := fsd1_len hd
  have a2 := Real.sq_sqrt (x := 3 / 5) (by norm_num)
  have a4 := sqrt_pow4 (x := 3 / 5) (by norm_num)
  have a6 := sqrt_pow6 (x := 3 / 5) (by norm_num)
  have c2 := Real.sq_sqrt hc0
  have c4 := sqrt_pow4 hc0
  have c6 := sqrt_pow6 hc0
  have e := schemeOf_scale n 7 (125 / 729) [((1 / 8 : ℝ), La), ((19 - 5 * n) / 20, Lb),
    ((35 * n * (5 * n - 33) + 2114) ^ 3 / (700 * (35 * n * (5 * n - 33) + 1790) *
      (35 * n * (5 * n - 33) + 2600)), Lc),
    (729 / 1750 * ((35 * n * (5 * n - 33) + 2114) / (35 * n * (5 * n - 33) + 2600)), Ld),
    ((n * (n - 1) * (n - 47 / 10)) / 3 - 2 * n * ((35 * n * (5 * n - 33) + 2114) ^ 3 /
      (700 * (35 * n * (5 * n - 33) + 1790) * (35 * n * (5 * n - 33) + 2600)) +
      729 / 1750 * ((35 * n * (5 * n - 33) + 2114) / (35 * n * (5 * n - 33) + 2600))) + 729 / 125,
      z n)]
  rw [e]
  refine cube_schemeOf (by norm_num)
    [gFsd _ _ La, gFsd _ _ Lb, gFsd _ _ Lc, gFsd _ _ Ld, gZ n _] rfl
    (ok_cons (gFsd_ok _ ha) (ok_cons (gFsd_ok _ hb) (ok_cons (gFsd_ok _ hc')
      (ok_cons (gFsd_ok _ hd) (ok_cons (gZ_ok _ _) (ok_nil n)))))) ?_
  have d1 := p1.ne'
  have d2 := p2.ne'
  clear e hc hc0
  have hcp : (35 * n * (5 * n - 33) : ℝ) = 175 * n ^ 2 - 1155 * n := by ring
  generalize (35 * n * (5 * n - 33) : ℝ) = al at *
  have hal := hcp
  refine ⟨?_, fun _ _ => ?_, fun _ _ => ?_, fun _ _ => ?_, fun _ _ => ?_, fun _ _ => ?_,
    fun _ _ => ?_⟩
  all_goals grp_simp; rw [la, lb, lc, ld]
  · field_simp; ring
  · rw [a2, c2]; field_simp; rw [hal]; ring
  · rw [a4, c4]; field_simp; rw [hal]; ring
  · rw [a4, c4, a2, c2]; field_simp; rw [hal]; ring
  · rw [a6, c6]; field_simp; rw [hal]; ring
  · rw [a6, c6, a4, c4, a2, c2]; field_simp; rw [hal]; ring
  · rw [a6, c6, a4, c4, a2, c2]; field_simp; rw [hal]; ring

/-- `dobrodeev_1970` is built for every `n ≥ 5` ... -/
theorem dobrodeev1970_isSome (n : ℕ) (hn : 5 ≤ n) : (dobrodeev1970 n).isSome := by
  have hn5 : (5 : ℝ) ≤ n := by exact_mod_cast hn
  obtain ⟨p1, p2, p3⟩ := dobrodeev_alpha n
  have h : (0 : ℝ) ≤ 3 / 5 * ((35 * n * (5 * n - 33) + 1790) / (35 * n * (5 * n - 33) + 2114)) := by
    have : (0 : ℝ) ≤ 35 * n * (5 * n - 33) + 1790 := by nlinarith
    positivity
  simp [dobrodeev1970, sqrtO, h, fsd, show 3 ≤ n by omega, show 2 ≤ n by omega, show 1 ≤ n by omega]

/-- ... and fails for `n = 3, 4`, which the assertion (and its message) let through. -/
theorem C21_dobrodeev1970_fails : dobrodeev1970 3 = none ∧ dobrodeev1970 4 = none := by
  constructor <;> · simp [dobrodeev1970, sqrtO]; norm_num

/-- The number of points and the power sums of the groups of `phillips`. -/
theorem phillips_par {n : ℕ} {p2 q r : ℝ} (h : phillipsPar n = some (p2, q, r)) :
    0 < p2 ∧ p2 ≠ 1 ∧ 0 < q ∧ 0 < r ∧ 2 ≤ n ∧
    ((n = 2 ∧ p2 = 14 / 3 ∧ q = 5 / 3) ∨ (n = 3 ∧ p2 = 14 / 5 ∧ q = 5 / 2 ∧ r = 1) ∨
      (n = 4 ∧ p2 = 112 / 11 ∧ q = 5 ∧ r = 2) ∨
      (q = 5 / 3 ∧ r = 5 / 3 ∧ ((25 * n ^ 2 - 165 * n + 302) * 21 - 972 : ℝ) ≠ 0 ∧
        p2 = 35 * (25 * n ^ 2 - 165 * n + 302) / (((25 * n ^ 2 - 165 * n + 302) * 21 - 972 : ℝ)))) := by
  unfold phillipsPar at h
  split_ifs at h with h2 h3 h4 h5
  · simp only [Option.some.injEq, Prod.mk.injEq] at h
    obtain ⟨rfl, rfl, rfl⟩ := h
    norm_num [h2]
  · simp only [Option.some.injEq, Prod.mk.injEq] at h
    obtain ⟨rfl, rfl, rfl⟩ := h
    norm_num [h3]
  · simp only [Option.some.injEq, Prod.mk.injEq] at h
    obtain ⟨rfl, rfl, rfl⟩ := h
    norm_num [h4]
  · simp only [Option.some.injEq, Prod.mk.injEq] at h
    obtain ⟨rfl, rfl, rfl⟩ := h
    have hn5 : (5 : ℝ) ≤ n := by exact_mod_cast h5
    have hE : (102 : ℝ) ≤ 25 * n ^ 2 - 165 * n + 302 := by nlinarith
    have hD : (0 : ℝ) < (25 * n ^ 2 - 165 * n + 302) * 21 - 972 := by linarith
    have e : 1 / (3 / 5 - 1 / (35 * ((25 * n ^ 2 - 165 * n + 302) / 972)) : ℝ) =
        35 * (25 * n ^ 2 - 165 * n + 302) / ((25 * n ^ 2 - 165 * n + 302) * 21 - 972) := by
      generalize (25 * n ^ 2 - 165 * n + 302 : ℝ) = E at *
      have hE0 : E ≠ 0 := by linarith
      have : (3 / 5 - 1 / (35 * (E / 972)) : ℝ) = (E * 21 - 972) / (35 * E) := by
        field_simp
        ring
      rw [this, one_div_div]
    have hpos : 0 < 35 * (25 * n ^ 2 - 165 * n + 302) / ((25 * n ^ 2 - 165 * n + 302) * 21 - 972 : ℝ) := by
      apply div_pos _ hD
      linarith
    refine ⟨by rw [e]; exact hpos, ?_, by norm_num, by norm_num, by omega,
      Or.inr (Or.inr (Or.inr ⟨rfl, rfl, hD.ne', e⟩))⟩
    rw [e]
    intro h
    rw [div_eq_one_iff_eq hD.ne'] at h
    linarith

theorem inv_sqrt_pow {x : ℝ} (h : 0 < x) : (1 / √x) ^ 2 = 1 / x ∧ (1 / √x) ^ 4 = 1 / x ^ 2 ∧
    (1 / √x) ^ 6 = 1 / x ^ 3 := by
  refine ⟨?_, ?_, ?_⟩
  · rw [div_pow, Real.sq_sqrt h.le, one_pow]
  · rw [div_pow, sqrt_pow4 h.le, one_pow]
  · rw [div_pow, sqrt_pow6 h.le, one_pow]

theorem C21_phillips (n : ℕ) (S : Scheme) (h : phillips n = some S) : S.ExactOnCube n := by
  simp only [phillips, Option.pure_def, Option.bind_eq_bind, Option.bind_eq_some_iff] at h
  obtain ⟨⟨p2, q, r⟩, hp, L1, h1, L2, h2, L3, h3, h⟩ := h
  obtain ⟨hp0, hp1, hq, hr, hn2, hpar⟩ := phillips_par hp
  have hn : (2 : ℝ) ≤ n := by exact_mod_cast hn2
  have l1 := fsd1_len h1
  have l2 := fsd1_len h2
  have l3 := fsd2_len h3
  obtain ⟨u2, u4, u6⟩ := inv_sqrt_pow (x := 1) one_pos
  obtain ⟨v2, v4, v6⟩ := inv_sqrt_pow hp0
  obtain ⟨w2, w4, w6⟩ := inv_sqrt_pow hq
  obtain ⟨r2, r4, r6⟩ := inv_sqrt_pow hr
  have hs1 : (1 - p2) ≠ 0 := sub_ne_zero.2 hp1.symm
  have hs2 : (p2 - 1) ≠ 0 := sub_ne_zero.2 hp1
  have hn1 : (n - 1 : ℝ) ≠ 0 := by linarith
  have hc2 : (n.choose 2 : ℝ) = n * (n - 1) / 2 := Nat.cast_choose_two ℝ n
  split_ifs at h with h23
  · simp only [Option.bind_eq_some_iff, Option.some.injEq] at h
    obtain ⟨L4, h4, rfl⟩ := h
    have hn3 : (3 : ℝ) ≤ n := by exact_mod_cast h23
    have hn2' : (n - 2 : ℝ) ≠ 0 := by linarith
    have l4 := fsd3_len h4
    have hc3 : (n.choose 3 : ℝ) = n * (n - 1) * (n - 2) / 6 := by
      obtain ⟨m, rfl⟩ : ∃ m, n = m + 2 := ⟨n - 2, by omega⟩
      have : ((m + 2).choose 3 : ℝ) * 3 = (m + 2).choose 2 * m := by
        exact_mod_cast Nat.choose_succ_right_eq (m + 2) 2
      rw [hc2] at this
      push_cast at *
      linarith
    have hc2' : ((n - 1).choose 2 : ℝ) = (n - 1) * (n - 2) / 2 := by
      rw [Nat.cast_choose_two, Nat.cast_sub (by omega)]; push_cast; ring
    refine cube_schemeOf (by norm_num) [gZ n _, gFsd _ _ L1, gFsd _ _ L2, gFsd _ _ L3, gFsd _ _ L4] rfl
      (ok_cons (gZ_ok _ _) (ok_cons (gFsd_ok _ h1) (ok_cons (gFsd_ok _ h2) (ok_cons (gFsd_ok _ h3)
        (ok_cons (gFsd_ok _ h4) (ok_nil n)))))) ?_
    refine ⟨?_, fun _ _ => ?_, fun _ _ => ?_, fun _ _ => ?_, fun _ _ => ?_, fun _ _ => ?_,
      fun _ _ => ?_⟩
    all_goals grp_simp; rw [l1, l2, l3, l4]; simp only [u2, u4, u6, v2, v4, v6, w2, w4, w6, r2, r4, r6, hc2,
      hc3, hc2']
    · push_cast; ring
    · have k : ((23 - 5 * n) / 180 - (n - 1) * (19 - 5 * n) / 270 * q / 2 -
          (35 * n ^ 2 - 231 * n + 466) / 3780 * p2) / (1 - p2) / (1 / 1 ^ 3) * (2 * (n : ℝ)) * (1 / 1) +
          ((23 - 5 * n) / 180 - (n - 1) * (19 - 5 * n) / 270 * q / 2 -
          (35 * n ^ 2 - 231 * n + 466) / 3780 * 1) / (p2 - 1) / (1 / p2 ^ 3) * (2 * n) * (1 / p2) =
          2 * n * (((23 - 5 * n) / 180 - (n - 1) * (19 - 5 * n) / 270 * q / 2) * (1 + p2) -
            (35 * n ^ 2 - 231 * n + 466) / 3780 * p2) := by
        have : (1 - p2) = -(p2 - 1) := by ring
        rw [this, div_neg]
        field_simp
        ring
      have kq : (n - 1) * (19 - 5 * n) / 270 / (2 * (n - 1) * (1 / q ^ 3)) * (2 * n * (n - 1)) *
          (2 * (1 / q)) = 2 * n * (n - 1) * (19 - 5 * n) / 270 * q ^ 2 := by
        field_simp
      have kr : (n - 1) * (n - 2) / 108 / (4 * ((n - 1) * (n - 2) / 2) * (1 / r ^ 3)) *
          (4 / 3 * n * (n - 1) * (n - 2)) * (3 * (1 / r)) =
          2 * n * (n - 1) * (n - 2) / 108 * r ^ 2 := by
        field_simp
      have rest : 2 * n * (((23 - 5 * n) / 180 - (n - 1) * (19 - 5 * n) / 270 * q / 2) * (1 + p2) -
            (35 * n ^ 2 - 231 * n + 466) / 3780 * p2) + 2 * n * (n - 1) * (19 - 5 * n) / 270 * q ^ 2 +
            2 * n * (n - 1) * (n - 2) / 108 * r ^ 2 = (n : ℝ) * (1 / 3) := by
        rcases hpar with ⟨rfl, _⟩ | ⟨rfl, rfl, rfl, rfl⟩ | ⟨rfl, rfl, rfl, rfl⟩ | ⟨rfl, rfl, hD, hp⟩
        · omega
        · norm_num
        · norm_num
        · have hp' := (eq_div_iff hD).1 hp
          linear_combination (2 * (n : ℝ) / 85050) * hp'
      push_cast
      linear_combination k + kq + kr + rest
    all_goals
      rcases hpar with ⟨rfl, _⟩ | ⟨rfl, rfl, rfl, rfl⟩ | ⟨rfl, rfl, rfl, rfl⟩ | ⟨rfl, rfl, hD, hp⟩
      · omega
      · push_cast; field_simp; norm_num
      · push_cast; field_simp; norm_num
      · have : (1 - p2) = -(p2 - 1) := by ring
        rw [this, div_neg]
        field_simp
        ring
  · have hn2 : n = 2 := by omega
    subst hn2
    simp only [Option.some.injEq] at h
    subst h
    simp only [phillipsPar, if_true, Option.some.injEq, Prod.mk.injEq] at hp
    obtain ⟨rfl, rfl, rfl⟩ := hp
    refine cube_schemeOf (by norm_num) [gZ 2 _, gFsd _ _ L1, gFsd _ _ L2, gFsd _ _ L3] rfl
      (ok_cons (gZ_ok _ _) (ok_cons (gFsd_ok _ h1) (ok_cons (gFsd_ok _ h2) (ok_cons (gFsd_ok _ h3)
        (ok_nil 2))))) ?_
    refine ⟨?_, fun _ _ => ?_, fun _ _ => ?_, fun _ _ => ?_, fun _ _ => ?_, fun _ _ => ?_,
      fun _ h => absurd h (by norm_num)⟩
    all_goals grp_simp; rw [l1, l2, l3]; simp only [u2, u4, u6, v2, v4, v6, w2, w4, w6, hc2]
    all_goals push_cast; norm_num

/-- `phillips` is built for every `n ≥ 2`. -/
theorem phillips_isSome (n : ℕ) (hn : 2 ≤ n) : (phillips n).isSome := by
  rcases Nat.lt_or_ge n 5 with h | h
  · interval_cases n <;> simp [phillips, phillipsPar, fsd]
  · simp [phillips, phillipsPar, fsd, show n ≠ 2 by omega, show n ≠ 3 by omega,
      show n ≠ 4 by omega, h, show 1 ≤ n by omega, show 2 ≤ n by omega, show 2 < n by omega,
      show 3 ≤ n by omega]

end Quadpy
