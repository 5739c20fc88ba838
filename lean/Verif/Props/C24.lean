import Verif.Lemmas.Rel
import Verif.Model.Sn
import Verif.Props.C21

/-!
C24: the claimed degree of the n-ball schemes holds in every dimension.

`ExactOnBall` (Spec/Schemes.lean): well-shaped, and `volume * sum_i w_i p(x_i)` is the Lebesgue
integral of `p` over the unit ball of `ℝ^n` for every polynomial of total degree at most `S.degree`.
Every theorem also says that the constructor succeeds and which degree it claims.
-/

namespace Quadpy
open Sn

/-- With the parameter `alpha`, the rule is exact for the weight `|x|^alpha`. -/
theorem C24_hammerStroud11n (n : ℕ) (hn : 1 ≤ n) (alpha : ℝ) (ha : -(n : ℝ) < alpha) :
    ∃ S, hammerStroud11n n alpha = some S ∧ S.degree = 3 ∧ S.ExactRel n (Spec.ballPow n alpha) := by
  have hp : 0 < n + alpha := by linarith
  have hr : 0 ≤ (n + alpha) / (n + alpha + 2) := by positivity
  obtain ⟨L, hL⟩ := fsd_some hn (√((n + alpha) / (n + alpha + 2)))
  have hl := fsd1_len hL
  have hn0 : (n : ℝ) ≠ 0 := by positivity
  refine ⟨_, by
    simp only [hammerStroud11n, sqrtO_some hr, hL, Option.bind_eq_bind, Option.bind_some]; rfl,
    rfl, ?_⟩
  refine rel_schemeOf (ballPow_relMom hn ha) (by norm_num) [gFsd _ _ L] rfl
    (ok_cons (gFsd_ok _ hL) (ok_nil n)) ?_
  refine ⟨?_, fun _ _ => ?_, by omega, by omega, by omega, by omega, by omega⟩
  · rel_simp; rw [hl]; field_simp
  · rel_simp; rw [hl, Real.sq_sqrt hr]; field_simp

/-- With the parameter `alpha`, the rule is exact for the weight `|x|^alpha`. -/
theorem C24_hammerStroud12n (n : ℕ) (hn : 2 ≤ n) (alpha : ℝ) (ha : -(n : ℝ) < alpha) :
    ∃ S, hammerStroud12n n alpha = some S ∧ S.degree = 5 ∧ S.ExactRel n (Spec.ballPow n alpha) := by
  have hp : 0 < n + alpha := by linarith
  have hr : 0 ≤ 3 * (n + alpha + 2) / ((n + 2) * (n + alpha + 4)) := by positivity
  obtain ⟨L1, h1⟩ := fsd_some (show 1 ≤ n by omega) (√(3 * (n + alpha + 2) / ((n + 2) * (n + alpha + 4))))
  obtain ⟨L2, h2⟩ := fsd_some hn (√(3 * (n + alpha + 2) / ((n + 2) * (n + alpha + 4))))
  have l1 := fsd1_len h1
  have l2 := fsd2_len h2
  have hn0 : (n : ℝ) ≠ 0 := by positivity
  refine ⟨_, by
    simp only [hammerStroud12n, sqrtO_some hr, h1, h2, Option.bind_eq_bind, Option.bind_some]; rfl,
    rfl, ?_⟩
  refine rel_schemeOf (ballPow_relMom (by omega) ha) (by norm_num) [gZ n _, gFsd _ _ L1, gFsd _ _ L2]
    rfl (ok_cons (gZ_ok _ _) (ok_cons (gFsd_ok _ h1) (ok_cons (gFsd_ok _ h2) (ok_nil n)))) ?_
  generalize n + alpha = y at *
  refine ⟨?_, fun _ _ => ?_, fun _ _ => ?_, fun _ _ => ?_, by omega, by omega, by omega⟩
  all_goals rel_simp; rw [l1, l2]
  all_goals try simp only [sqrt_pow4 hr, Real.sq_sqrt hr]
  all_goals field_simp; ring

theorem ballPow_zero_rel {n : ℕ} {S : Scheme} (h : S.ExactRel n (Spec.ballPow n 0)) :
    S.ExactOnBall n := by
  rw [Scheme.ExactOnBall, ball_eq_ballPow]; exact h

/-- `stroud_sn_3_1(n)` is `hammer_stroud_11n(n, 0)` (sn/_stroud.py:33-34). -/
theorem C24_stroudSn31 (n : ℕ) (hn : 1 ≤ n) :
    ∃ S, hammerStroud11n n 0 = some S ∧ S.degree = 3 ∧ S.ExactOnBall n := by
  obtain ⟨S, h1, h2, h3⟩ := C24_hammerStroud11n n hn 0 (by simp; omega)
  exact ⟨S, h1, h2, ballPow_zero_rel h3⟩

/-- `stroud_sn_5_2(n)` is `hammer_stroud_12n(n, 0)` (sn/_stroud.py:49-50). -/
theorem C24_stroudSn52 (n : ℕ) (hn : 2 ≤ n) :
    ∃ S, hammerStroud12n n 0 = some S ∧ S.degree = 5 ∧ S.ExactOnBall n := by
  obtain ⟨S, h1, h2, h3⟩ := C24_hammerStroud12n n hn 0 (by simp; omega)
  exact ⟨S, h1, h2, ballPow_zero_rel h3⟩

theorem C24_stroudSn32 (n : ℕ) (hn : 1 ≤ n) :
    (stroudSn32 n).degree = 3 ∧ (stroudSn32 n).ExactOnBall n := by
  have h0 : √(1 / ((n : ℝ) + 2)) ≠ 0 := by positivity
  refine ⟨rfl, ?_⟩
  rw [stroudSn32, pm_replicate n h0]
  refine rel_schemeOf (ball_relMom hn) (by norm_num) [gA n _ _] rfl
    (ok_cons (gA_ok _ _ _) (ok_nil n)) ?_
  refine ⟨?_, fun _ _ => ?_, by omega, by omega, by omega, by omega, by omega⟩
  · rel_simp; field_simp
  · rel_simp; rw [Real.sq_sqrt (by positivity)]; field_simp

theorem C24_stroud1966a (n : ℕ) (hn : 2 ≤ n) :
    ∃ S, stroud1966a n = some S ∧ S.degree = 5 ∧ S.ExactOnBall n := by
  have hn2 : (2 : ℝ) ≤ n := by exact_mod_cast hn
  have hn0 : (n : ℝ) ≠ 0 := by positivity
  obtain ⟨a, ha, ha0⟩ : ∃ a : ℝ, a = √(2 * (n + 4)) ∧ 0 ≤ a := ⟨_, rfl, Real.sqrt_nonneg _⟩
  have haa : a ^ 2 = 2 * (n + 4) := by rw [ha, Real.sq_sqrt (by positivity)]
  have hd : (0 : ℝ) < n ^ 2 + 2 * n - 4 := by nlinarith
  have ha2 : 2 < a := by nlinarith
  have hlt : a < n + 4 := by nlinarith
  -- the reciprocals of the squared radii
  obtain ⟨x, hx⟩ : ∃ x : ℝ, x = (n + 4 + a) / (n + 2) := ⟨_, rfl⟩
  obtain ⟨y, hy⟩ : ∃ y : ℝ, y = (n * (n + 4) - 2 * a) / (n + 2) := ⟨_, rfl⟩
  have hx0 : 0 < x := by rw [hx]; positivity
  have hy0 : 0 < y := by rw [hy]; apply div_pos _ (by positivity); nlinarith
  have er : (n + 4 - a) / (n + 4) = x⁻¹ := by
    rw [hx, inv_div, div_eq_div_iff (by positivity) (by positivity)]
    linear_combination -haa
  have es : (n * (n + 4) + 2 * a) / (n ^ 2 + 2 * n - 4) / (n + 4) = y⁻¹ := by
    have h1 : (n * (n + 4) - 2 * a : ℝ) ≠ 0 := by
      intro h; rw [hy, h, zero_div] at hy0; exact lt_irrefl _ hy0
    rw [hy, inv_div, div_div, div_eq_div_iff (by positivity) h1]
    linear_combination (-4 : ℝ) * haa
  obtain ⟨L, hL⟩ := fsd_some (show 1 ≤ n by omega) (√x⁻¹)
  have hl := fsd1_len hL
  have px : 0 ≤ x⁻¹ := by positivity
  have py : 0 ≤ y⁻¹ := by positivity
  have h0 : √y⁻¹ ≠ 0 := by positivity
  refine ⟨_, by
    simp only [stroud1966a, ← ha, er, es, sqrtO_some px, sqrtO_some py, hL, pm_replicate n h0,
      Option.bind_eq_bind, Option.bind_some]
    rfl, rfl, ?_⟩
  refine rel_schemeOf (ball_relMom (by omega)) (by norm_num) [gFsd _ _ L, gA n _ _] rfl
    (ok_cons (gFsd_ok _ hL) (ok_cons (gA_ok _ _ _) (ok_nil n))) ?_
  have e1 : 2 * x + y = n + 4 := by rw [hx, hy]; field_simp; ring
  have e2 : 2 * n * x ^ 2 + y ^ 2 = (n + 2) * (n + 4) := by
    rw [hx, hy]; field_simp; linear_combination (2 * n + 4) * haa
  refine ⟨?_, fun _ _ => ?_, fun _ _ => ?_, fun _ _ => ?_, by omega, by omega, by omega⟩
  all_goals rel_simp; rw [hl]
  all_goals try simp only [sqrt_pow4 px, sqrt_pow4 py, Real.sq_sqrt px, Real.sq_sqrt py]
  · field_simp; linear_combination e2
  · field_simp; linear_combination e1
  · field_simp; ring
  · field_simp; ring

theorem C24_stroud1966c (n : ℕ) (hn : 1 ≤ n) :
    ∃ S, stroud1966c n = some S ∧ S.degree = 5 ∧ S.ExactOnBall n := by
  have hn1 : (1 : ℝ) ≤ n := by exact_mod_cast hn
  have hn0 : (n : ℝ) ≠ 0 := by positivity
  obtain ⟨q, hq, hq0⟩ : ∃ q : ℝ, q = √(2 * (n + 2)) ∧ 0 ≤ q := ⟨_, rfl, Real.sqrt_nonneg _⟩
  have hqq : q ^ 2 = 2 * (n + 2) := by rw [hq, Real.sq_sqrt (by positivity)]
  have hs : 0 ≤ (n + 2 - q) / (n * (n + 4)) := div_nonneg (by nlinarith) (by positivity)
  have hr : 0 ≤ (n + 2 + (n - 1) * q) / (n * (n + 4)) := by
    refine div_nonneg ?_ (by positivity)
    have : 0 ≤ ((n : ℝ) - 1) * q := mul_nonneg (by linarith) hq0
    linarith
  have q4 := sqrt_pow4 hr
  have q2 := Real.sq_sqrt hr
  have s4 := sqrt_pow4 hs
  have s2 := Real.sq_sqrt hs
  refine ⟨_, by
    simp only [stroud1966c, ← hq, sqrtO_some hr, sqrtO_some hs, Option.bind_eq_bind,
      Option.bind_some]
    rfl, rfl, ?_⟩
  refine rel_schemeOf (ball_relMom hn) (by norm_num) [gZ n _, gComb n _ _ _] rfl
    (ok_cons (gZ_ok _ _) (ok_cons (gComb_ok hn _ _ _) (ok_nil n))) ?_
  refine ⟨?_, fun _ _ => ?_, fun _ _ => ?_, fun _ _ => ?_, by omega, by omega, by omega⟩
  all_goals rel_simp; rw [gComb_len hn]; simp only [gComb, q2, s2, q4, s4, cast_pred hn]
  · field_simp; ring
  · field_simp; ring
  · field_simp
    linear_combination (n - 1 : ℝ) * n * hqq
  · field_simp
    linear_combination -(n - 1 : ℝ) * n * hqq

theorem C24_stroud1966d (n : ℕ) (hn : 1 ≤ n) :
    ∃ S, stroud1966d n = some S ∧ S.degree = 5 ∧ S.ExactOnBall n := by
  have hn1 : (1 : ℝ) ≤ n := by exact_mod_cast hn
  have hn0 : (n : ℝ) ≠ 0 := by positivity
  obtain ⟨v, hv, hv0⟩ : ∃ v : ℝ, v = √(n + 4) ∧ 0 ≤ v := ⟨_, rfl, Real.sqrt_nonneg _⟩
  have hvv : v ^ 2 = n + 4 := by rw [hv, Real.sq_sqrt (by positivity)]
  obtain ⟨b, hb, hb0⟩ : ∃ b : ℝ, b = √(2 * (n + 1) * (n + 2) * (n + 4)) ∧ 0 ≤ b :=
    ⟨_, rfl, Real.sqrt_nonneg _⟩
  have hbb : b ^ 2 = 2 * (n + 1) * (n + 2) * (n + 4) := by rw [hb, Real.sq_sqrt (by positivity)]
  have hv2 : 2 < v := by nlinarith
  have hs : 0 ≤ (n * (n + 4) + 2 * v - b) / (n * (n + 2) * (n + 4)) := by
    refine div_nonneg ?_ (by positivity)
    have : b ≤ n * (n + 4) + 2 * v := by
      apply abs_le_of_sq_le_sq' _ (by positivity) |>.2
      rw [hbb]
      rcases Nat.lt_or_ge n 2 with h | h
      · have : n = 1 := by omega
        subst this
        push_cast at *
        nlinarith
      · have h2 : (2 : ℝ) ≤ n := by exact_mod_cast h
        nlinarith [mul_nonneg (mul_nonneg (by linarith : (0:ℝ) ≤ n - 2) (by linarith : (0:ℝ) ≤ n)) (by linarith : (0:ℝ) ≤ n + 4), mul_pos (by linarith : (0:ℝ) < n) (by linarith : (0:ℝ) < v)]
    linarith
  have hr : 0 ≤ (n * (n + 4) + 2 * v + (n - 1) * b) / (n * (n + 2) * (n + 4)) := by
    refine div_nonneg ?_ (by positivity)
    have : 0 ≤ ((n : ℝ) - 1) * b := mul_nonneg (by linarith) hb0
    positivity
  have ht : 0 < (n + 4 - 2 * v) / ((n + 2) * (n + 4)) := div_pos (by nlinarith) (by positivity)
  have h0 : √((n + 4 - 2 * v) / ((n + 2) * (n + 4))) ≠ 0 := (Real.sqrt_pos.2 ht).ne'
  have q4 := sqrt_pow4 hr
  have q2 := Real.sq_sqrt hr
  have s4 := sqrt_pow4 hs
  have s2 := Real.sq_sqrt hs
  have t4 := sqrt_pow4 ht.le
  have t2 := Real.sq_sqrt ht.le
  refine ⟨_, by
    simp only [stroud1966d, ← hv, ← hb, sqrtO_some hr, sqrtO_some hs, sqrtO_some ht.le,
      pm_replicate n h0, Option.bind_eq_bind, Option.bind_some]
    rfl, rfl, ?_⟩
  refine rel_schemeOf (ball_relMom hn) (by norm_num) [gComb n _ _ _, gA n _ _] rfl
    (ok_cons (gComb_ok hn _ _ _) (ok_cons (gA_ok _ _ _) (ok_nil n))) ?_
  refine ⟨?_, fun _ _ => ?_, fun _ _ => ?_, fun _ _ => ?_, by omega, by omega, by omega⟩
  all_goals rel_simp; rw [gComb_len hn]; simp only [gComb, q2, s2, q4, s4, t2, t4, cast_pred hn]
  · field_simp
  · field_simp; ring
  · field_simp
    linear_combination (n - 1 : ℝ) * n * hbb + 4 * n * (n + 1) * hvv
  · field_simp
    linear_combination -(n - 1 : ℝ) * n * hbb + 4 * n * (n + 1) * (n - 1) * hvv

theorem C24_dobrodeev1970 (n : ℕ) (hn : 3 ≤ n) :
    ∃ S, dobrodeev1970 n = some S ∧ S.degree = 7 ∧ S.ExactOnBall n := by
  have hn0 : (n : ℝ) ≠ 0 := by positivity
  have p : (0 : ℝ) ≤ 3 / (n + 6) := by positivity
  obtain ⟨L3, h3⟩ := fsd_some hn (√(3 / (n + 6)))
  obtain ⟨L2, h2⟩ := fsd_some (show 2 ≤ n by omega) (√(3 / (n + 6)))
  obtain ⟨L1, h1⟩ := fsd_some (show 1 ≤ n by omega) (√(3 / (n + 6)))
  obtain ⟨L0, h0⟩ := fsd_some (show 1 ≤ n by omega) (1 : ℝ)
  refine ⟨_, by
    simp only [dobrodeev1970, h0, h1, h2, h3, Option.bind_eq_bind, Option.bind_some]; rfl, rfl, ?_⟩
  simp only [div_eq_mul_inv _ (27 * ((n : ℝ) + 2) * (n + 4) / (n + 6) ^ 2)]
  rw [schemeOf_scale]
  refine rel_schemeOf (ball_relMom (by omega)) (by norm_num)
    [gFsd _ _ L3, gFsd _ _ L2, gFsd _ _ L1, gFsd _ _ L0, gZ n _] rfl
    (ok_cons (gFsd_ok _ h3) (ok_cons (gFsd_ok _ h2) (ok_cons (gFsd_ok _ h1)
      (ok_cons (gFsd_ok _ h0) (ok_cons (gZ_ok _ _) (ok_nil n)))))) ?_
  have e : (n ^ 2 + 12 * n + 36 : ℝ) = (n + 6) ^ 2 := by ring
  refine ⟨?_, fun _ _ => ?_, fun _ _ => ?_, fun _ _ => ?_, fun _ _ => ?_, fun _ _ => ?_,
    fun _ _ => ?_⟩
  all_goals rel_simp; rw [fsd1_len h0, fsd1_len h1, fsd2_len h2, fsd3_len h3]
  all_goals simp only [sqrt_pow4 p, sqrt_pow6 p, Real.sq_sqrt p, e]
  all_goals field_simp; ring

/-- The algebra of `_stroud_1967_7_ab`: `t = 1` is variant a, `t = -1` variant b. -/
theorem stroud1967_7ab_aux (n : ℕ) (variantA : Bool) (h3 : 3 ≤ n)
    (h7 : n ≤ if variantA then 7 else 6) :
    ∃ S, stroud1967_7ab n variantA = some S ∧ S.degree = 7 ∧ S.ExactOnBall n := by
  have hn7 : n ≤ 7 := by split_ifs at h7 <;> omega
  have r3 : (3 : ℝ) ≤ n := by exact_mod_cast h3
  have r7 : (n : ℝ) ≤ 7 := by exact_mod_cast hn7
  have hn0 : (n : ℝ) ≠ 0 := by positivity
  have h8 : (0 : ℝ) < 8 - n := by linarith
  have h34 : (34 - 5 * n : ℝ) ≠ 0 := by
    intro h
    have : (34 - 5 * n : ℤ) = 0 := by exact_mod_cast h
    omega
  obtain ⟨t, ht⟩ : ∃ t : ℝ, t = if variantA then 1 else -1 := ⟨_, rfl⟩
  have htt : t ^ 2 = 1 := by rw [ht]; split_ifs <;> norm_num
  have hA : (0 : ℝ) ≤ 6 * (n + 6) * (8 - n) := by positivity
  obtain ⟨a, ha, ha0⟩ : ∃ a : ℝ, a = √(6 * (n + 6) * (8 - n)) ∧ 0 ≤ a :=
    ⟨_, rfl, Real.sqrt_nonneg _⟩
  have haa : a ^ 2 = 6 * (n + 6) * (8 - n) := by rw [ha, Real.sq_sqrt hA]
  obtain ⟨c, hc⟩ : ∃ c : ℝ, c = t * a := ⟨_, rfl⟩
  have hcc : c ^ 2 = 6 * (n + 6) * (8 - n) := by rw [hc, mul_pow, htt, one_mul, haa]
  have hd : (0 : ℝ) < 3 * n ^ 2 + 6 * n - 16 := by nlinarith
  -- signs
  have s1 : (0 : ℝ) < 3 * (n + 6) * (8 - n) + (n - 2) * c := by
    rcases Bool.eq_false_or_eq_true variantA with hv | hv
    · have : c = a := by rw [hc, ht, hv]; simp
      rw [this]
      have : 0 ≤ ((n : ℝ) - 2) * a := mul_nonneg (by linarith) ha0
      positivity
    · have hn6 : n ≤ 6 := by simpa [hv] using h7
      have r6 : (n : ℝ) ≤ 6 := by exact_mod_cast hn6
      have : c = -a := by rw [hc, ht, hv]; simp
      have h := abs_lt_of_sq_lt_sq' (a := (n - 2) * a) (b := 3 * (n + 6) * (8 - n)) (by
        rw [mul_pow, haa]
        have e : (3 * (n + 6) * (8 - n)) ^ 2 - (n - 2) ^ 2 * (6 * (n + 6) * (8 - n)) =
          (3 * (n + 6) * (8 - n)) * ((34 - 5 * n) * (n + 4) : ℝ) := by ring
        have : (0 : ℝ) < (3 * (n + 6) * (8 - n)) * ((34 - 5 * n) * (n + 4)) := by
          have : (0 : ℝ) < 34 - 5 * n := by linarith
          positivity
        linarith) (by positivity)
      rw [this]; linarith [h.2]
  have hca : |c| = a := by
    rw [hc, abs_mul, abs_of_nonneg ha0, ht]; split_ifs <;> simp
  have s2 : (0 : ℝ) < 3 * n * (n + 6) + 2 * c := by
    have h := abs_lt_of_sq_lt_sq' (a := 2 * c) (b := 3 * n * (n + 6)) (by
      rw [mul_pow, hcc]
      have e : (3 * n * (n + 6)) ^ 2 - 2 ^ 2 * (6 * (n + 6) * (8 - n)) =
        3 * (n + 6) * ((3 * n ^ 2 + 6 * n - 16) * (n + 4) : ℝ) := by ring
      have : (0 : ℝ) < 3 * (n + 6) * ((3 * n ^ 2 + 6 * n - 16) * (n + 4)) := by positivity
      linarith) (by positivity)
    linarith [h.1]
  have s3 : (0 : ℝ) < 6 * (n + 6) - c := by
    have h := abs_lt_of_sq_lt_sq' (a := c) (b := 6 * (n + 6)) (by rw [hcc]; nlinarith) (by positivity)
    linarith [h.2]
  obtain ⟨x, hx⟩ : ∃ x : ℝ, x = (3 * (n + 6) * (8 - n) + (n - 2) * c) / (3 * (8 - n) * (n + 4)) :=
    ⟨_, rfl⟩
  obtain ⟨y, hy⟩ : ∃ y : ℝ, y = (3 * n * (n + 6) + 2 * c) / (3 * (n + 4)) := ⟨_, rfl⟩
  obtain ⟨w, hw⟩ : ∃ w : ℝ, w = (6 * (n + 6) - c) / (3 * (n + 4)) := ⟨_, rfl⟩
  have hx0 : 0 < x := by rw [hx]; positivity
  have hy0 : 0 < y := by rw [hy]; positivity
  have hw0 : 0 < w := by rw [hw]; positivity
  have er : (3 * (n + 6) * (8 - n) - t * (n - 2) * a) / ((n + 6) * (34 - 5 * n)) = x⁻¹ := by
    rw [hx, inv_div, div_eq_div_iff (mul_ne_zero (by positivity) h34) s1.ne']
    rw [hc] at hcc ⊢
    linear_combination (-((n : ℝ) - 2) ^ 2) * hcc
  have es : (3 * n * (n + 6) - t * 2 * a) / ((n + 6) * (3 * n ^ 2 + 6 * n - 16)) = y⁻¹ := by
    rw [hy, inv_div, div_eq_div_iff (by positivity) s2.ne']
    rw [hc] at hcc ⊢
    linear_combination (-4 : ℝ) * hcc
  have et : (6 * (n + 6) + t * a) / (14 * (n + 6)) = w⁻¹ := by
    rw [hw, inv_div, div_eq_div_iff (by positivity) s3.ne']
    rw [hc] at hcc ⊢
    linear_combination (-1 : ℝ) * hcc
  have e4 : 2 * (8 - n) * x + y + 2 * (n - 1) * w = 3 * (n + 6) := by
    rw [hx, hy, hw]; field_simp; ring
  have e22 : y + 2 * w = n + 6 := by rw [hy, hw]; field_simp; ring
  have e2 : 2 * (8 - n) * x ^ 2 + y ^ 2 + 2 * (n - 1) * w ^ 2 = (n + 4) * (n + 6) := by
    rw [hx, hy, hw]; field_simp
    linear_combination (2 * (n - 2) ^ 2 + 4 * (8 - n) + 2 * (n - 1) * (8 - n) : ℝ) * hcc
  obtain ⟨L1, h1⟩ := fsd_some (show 1 ≤ n by omega) (√x⁻¹)
  obtain ⟨L2, h2⟩ := fsd_some (show 2 ≤ n by omega) (√w⁻¹)
  have l1 := fsd1_len h1
  have l2 := fsd2_len h2
  have px : 0 ≤ x⁻¹ := by positivity
  have py : 0 ≤ y⁻¹ := by positivity
  have pw : 0 ≤ w⁻¹ := by positivity
  have h0 : √y⁻¹ ≠ 0 := by positivity
  have hg : guard (3 ≤ n ∧ n ≤ if variantA then 7 else 6) = some () := if_pos ⟨h3, h7⟩
  refine ⟨_, by
    simp only [stroud1967_7ab, hg, ← ht, sqrtO_some hA, ← ha, er, es, et, sqrtO_some px,
      sqrtO_some py, sqrtO_some pw, h1, h2, pm_replicate n h0, Option.bind_eq_bind,
      Option.bind_some]
    rfl, rfl, ?_⟩
  refine rel_schemeOf (ball_relMom (by omega)) (by norm_num)
    [gZ n _, gFsd _ _ L1, gA n _ _, gFsd _ _ L2] rfl
    (ok_cons (gZ_ok _ _) (ok_cons (gFsd_ok _ h1) (ok_cons (gA_ok _ _ _)
      (ok_cons (gFsd_ok _ h2) (ok_nil n))))) ?_
  refine ⟨?_, fun _ _ => ?_, fun _ _ => ?_, fun _ _ => ?_, fun _ _ => ?_, fun _ _ => ?_,
    fun _ _ => ?_⟩
  all_goals rel_simp; rw [l1, l2]
  all_goals try simp only [sqrt_pow4 px, sqrt_pow4 py, sqrt_pow4 pw, Real.sq_sqrt px,
    Real.sq_sqrt py, Real.sq_sqrt pw, sqrt_pow6 px, sqrt_pow6 py, sqrt_pow6 pw]
  · field_simp; ring
  · field_simp; linear_combination (n : ℝ) * e2
  · field_simp; linear_combination (n : ℝ) * e4
  · field_simp; linear_combination (n * (n - 1) : ℝ) * e22
  · field_simp; ring
  · field_simp; ring
  · field_simp; ring

theorem C24_stroud1967_7a (n : ℕ) (h3 : 3 ≤ n) (h7 : n ≤ 7) :
    ∃ S, stroud1967_7ab n true = some S ∧ S.degree = 7 ∧ S.ExactOnBall n :=
  stroud1967_7ab_aux n true h3 (by simpa using h7)

theorem C24_stroud1967_7b (n : ℕ) (h3 : 3 ≤ n) (h6 : n ≤ 6) :
    ∃ S, stroud1967_7ab n false = some S ∧ S.degree = 7 ∧ S.ExactOnBall n :=
  stroud1967_7ab_aux n false h3 (by simpa using h6)

/-- A concrete case: the second mixed moment in three dimensions. -/
example : ∃ S, stroud1966c 3 = some S ∧
    Spec.ball 3 (fun _ => 1) * dot 3 S.weights S.points (fun x => x 0 ^ 2 * x 1 ^ 2) =
      Spec.ball 3 (fun x => x 0 ^ 2 * x 1 ^ 2) := by
  obtain ⟨S, h, hd, hS⟩ := C24_stroud1966c 3 (by norm_num)
  refine ⟨S, h, ?_⟩
  have := hS.2 (MvPolynomial.X 0 ^ 2 * MvPolynomial.X 1 ^ 2)
    ((MvPolynomial.totalDegree_mul _ _).trans (by
      rw [hd, MvPolynomial.totalDegree_X_pow, MvPolynomial.totalDegree_X_pow]; norm_num))
  simpa using this

end Quadpy
