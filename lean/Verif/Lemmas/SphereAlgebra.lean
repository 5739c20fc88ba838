/-
The algebra behind un/_stroud_1969.py: the linear system for the weights of the five groups of points,
written in the centred quantities `S_k = ∑ Ω_i ρ_i^(k+2)` and `T_k = ∑ Ω_i σ_i^(k+2)`, has exactly one
solution, and that solution also integrates `x^4 y^4` and `x^6 y^4`.
-/
import Mathlib.Tactic.LinearCombination
import Mathlib.Tactic.FieldSimp
import Mathlib.Tactic.Ring
import Mathlib.Tactic.Linarith
import Mathlib.Tactic.Positivity
import Mathlib.Data.Real.Basic

namespace Quadpy
namespace St69

/-- The centred system: rows 4, 6, 8, 10 and the recurrences that `ρ`, `σ` impose. -/
structure Sys (n c S0 S1 S2 S3 T0 T1 T2 T3 : ℝ) : Prop where
  r2 : (n - 1) / n * S0 + 2 * (n - 2) / n * T0 = c * (2 * (n - 1) / (n * (n + 2)))
  r3 : (n - 1) * (n - 2) / n ^ 2 * S1 + 2 * (n - 2) * (n - 4) / n ^ 2 * T1 =
    c * (8 * (n - 1) * (n - 2) / (n ^ 2 * (n + 2) * (n + 4)))
  r4 : (n - 1) * (n ^ 2 - 3 * n + 3) / n ^ 3 * S2 + 2 * (n - 2) * (n ^ 2 - 6 * n + 12) / n ^ 3 * T2 =
    c * ((60 * n ^ 3 - 216 * n ^ 2 + 300 * n - 144) / (n ^ 3 * (n + 2) * (n + 4) * (n + 6)))
  r5 : (n - 1) * (n - 2) * (n ^ 2 - 2 * n + 2) / n ^ 4 * S3 +
      2 * (n - 2) * (n - 4) * (n ^ 2 - 4 * n + 8) / n ^ 4 * T3 =
    c * ((544 * n ^ 4 - 2560 * n ^ 3 + 4640 * n ^ 2 - 4160 * n + 1536) /
      (n ^ 4 * (n + 2) * (n + 4) * (n + 6) * (n + 8)))
  s2 : (n ^ 2 + 12 * n - 12) * S2 = 12 * (n - 2) * S1 + 12 * S0
  s3 : (n ^ 2 + 12 * n - 12) * S3 = 12 * (n - 2) * S2 + 12 * S1
  t2 : (n ^ 2 + 24 * n - 48) * T2 = 12 * (n - 4) * T1 + 12 * T0
  t3 : (n ^ 2 + 24 * n - 48) * T3 = 12 * (n - 4) * T2 + 12 * T1

/-- The homogeneous system has only the zero solution. -/
theorem Sys.unique {n S0 S1 S2 S3 T0 T1 T2 T3 : ℝ} (hn : 5 ≤ n)
    (h : Sys n 0 S0 S1 S2 S3 T0 T1 T2 T3) :
    S0 = 0 ∧ S1 = 0 ∧ S2 = 0 ∧ S3 = 0 ∧ T0 = 0 ∧ T1 = 0 ∧ T2 = 0 ∧ T3 = 0 := by
  obtain ⟨r2, r3, r4, r5, s2, s3, t2, t3⟩ := h
  rw [zero_mul] at r2 r3 r4 r5
  have hn0 : n ≠ 0 := by linarith
  have hn1 : n - 1 ≠ 0 := by linarith
  have hn2 : n - 2 ≠ 0 := by linarith
  have hn3 : n - 3 ≠ 0 := by linarith
  have hn4 : n - 4 ≠ 0 := by linarith
  have hN : n ^ 2 + 12 * n - 12 ≠ 0 := by nlinarith
  have hK : n ^ 2 + 24 * n - 48 ≠ 0 := by nlinarith
  have a2 : (n - 1) * S0 + 2 * (n - 2) * T0 = 0 := by
    field_simp at r2; linear_combination r2
  have a3 : (n - 1) * S1 + 2 * (n - 4) * T1 = 0 := by
    apply mul_left_cancel₀ hn2
    field_simp at r3; linear_combination r3
  have a4 : (n - 1) * (n ^ 2 - 3 * n + 3) * S2 + 2 * (n - 2) * (n ^ 2 - 6 * n + 12) * T2 = 0 := by
    field_simp at r4; linear_combination r4
  have a5 : (n - 1) * (n ^ 2 - 2 * n + 2) * S3 + 2 * (n - 4) * (n ^ 2 - 4 * n + 8) * T3 = 0 := by
    apply mul_left_cancel₀ hn2
    field_simp at r5; linear_combination r5
  have hT2 : T2 = 0 := by
    have : (30 * n ^ 2 * (n - 3) * (n - 2)) * T2 = 0 := by
      linear_combination (-(n ^ 2 + 12 * n - 12)) * a4 + (n - 1) * (n ^ 2 - 3 * n + 3) * s2 +
        12 * (n ^ 2 - 3 * n + 3) * (a2 + (n - 2) * a3) + 2 * (n - 2) * (n ^ 2 - 3 * n + 3) * t2
    exact (mul_eq_zero.1 this).resolve_left
      (mul_ne_zero (mul_ne_zero (mul_ne_zero (by norm_num) (pow_ne_zero 2 hn0)) hn3) hn2)
  have hS2 : S2 = 0 := by
    have h3 : n ^ 2 - 3 * n + 3 ≠ 0 := by nlinarith
    have : ((n - 1) * (n ^ 2 - 3 * n + 3)) * S2 = 0 := by
      rw [hT2] at a4; linear_combination a4
    exact (mul_eq_zero.1 this).resolve_left (mul_ne_zero hn1 h3)
  subst hT2 hS2
  have hT3 : T3 = 0 := by
    have : (28 * n ^ 2 * (n - 3) * (n - 4)) * T3 = 0 := by
      linear_combination (-(n ^ 2 + 12 * n - 12)) * a5 + (n - 1) * (n ^ 2 - 2 * n + 2) * s3 +
        12 * (n ^ 2 - 2 * n + 2) * a3 + 2 * (n - 4) * (n ^ 2 - 2 * n + 2) * t3
    exact (mul_eq_zero.1 this).resolve_left
      (mul_ne_zero (mul_ne_zero (mul_ne_zero (by norm_num) (pow_ne_zero 2 hn0)) hn3) hn4)
  have hS3 : S3 = 0 := by
    have h3 : n ^ 2 - 2 * n + 2 ≠ 0 := by nlinarith
    have : ((n - 1) * (n ^ 2 - 2 * n + 2)) * S3 = 0 := by
      rw [hT3] at a5; linear_combination a5
    exact (mul_eq_zero.1 this).resolve_left (mul_ne_zero hn1 h3)
  subst hT3 hS3
  have hS1 : S1 = 0 := by linarith
  have hT1 : T1 = 0 := by linarith
  subst hS1 hT1
  exact ⟨by linarith, rfl, rfl, rfl, by linarith, rfl, rfl, rfl⟩

/-- A solution. -/
theorem Sys.particular {n : ℕ} :
    Sys n 1
      ((640 + 176 * n - 44 * n ^ 2 + 24 * n ^ 3 - 3 * n ^ 4) / ((n + 2) * (n + 4) * (n + 6) * (n + 8)))
      ((640 + 112 * n - 56 / 3 * n ^ 2 + 8 / 3 * n ^ 3) / ((n + 2) * (n + 4) * (n + 6) * (n + 8)))
      ((80 - 4 * n) / ((n + 2) * (n + 4) * (n + 6)))
      ((640 - 16 * n) / ((n + 2) * (n + 4) * (n + 6) * (n + 8)))
      ((-64 + 40 * n + 32 * n ^ 2 - 19 / 2 * n ^ 3 + 3 / 2 * n ^ 4) /
        ((n + 2) * (n + 4) * (n + 6) * (n + 8)))
      ((-32 + 24 * n + 28 / 3 * n ^ 2 - 4 / 3 * n ^ 3) / ((n + 2) * (n + 4) * (n + 6) * (n + 8)))
      ((2 * n - 2) / ((n + 2) * (n + 4) * (n + 6)))
      ((8 * n - 8) / ((n + 2) * (n + 4) * (n + 6) * (n + 8))) := by
  by_cases hn : n = 0
  · subst hn; constructor <;> norm_num
  have : (n : ℝ) ≠ 0 := by exact_mod_cast hn
  constructor <;> · field_simp; ring

theorem Sys.sub {n c S0 S1 S2 S3 T0 T1 T2 T3 U0 U1 U2 U3 V0 V1 V2 V3 : ℝ}
    (h : Sys n c S0 S1 S2 S3 T0 T1 T2 T3) (h' : Sys n c U0 U1 U2 U3 V0 V1 V2 V3) :
    Sys n 0 (S0 - U0) (S1 - U1) (S2 - U2) (S3 - U3) (T0 - V0) (T1 - V1) (T2 - V2) (T3 - V3) where
  r2 := by linear_combination h.r2 - h'.r2
  r3 := by linear_combination h.r3 - h'.r3
  r4 := by linear_combination h.r4 - h'.r4
  r5 := by linear_combination h.r5 - h'.r5
  s2 := by linear_combination h.s2 - h'.s2
  s3 := by linear_combination h.s3 - h'.s3
  t2 := by linear_combination h.t2 - h'.t2
  t3 := by linear_combination h.t3 - h'.t3

theorem Sys.smul {n c S0 S1 S2 S3 T0 T1 T2 T3 : ℝ} (a : ℝ)
    (h : Sys n c S0 S1 S2 S3 T0 T1 T2 T3) :
    Sys n (a * c) (a * S0) (a * S1) (a * S2) (a * S3) (a * T0) (a * T1) (a * T2) (a * T3) where
  r2 := by linear_combination a * h.r2
  r3 := by linear_combination a * h.r3
  r4 := by linear_combination a * h.r4
  r5 := by linear_combination a * h.r5
  s2 := by linear_combination a * h.s2
  s3 := by linear_combination a * h.s3
  t2 := by linear_combination a * h.t2
  t3 := by linear_combination a * h.t3

/-- The mixed moments, centred. -/
theorem Sys.mixed {n : ℕ} {c S0 S1 S2 S3 T0 T1 T2 T3 : ℝ} (hn : 5 ≤ n)
    (h : Sys n c S0 S1 S2 S3 T0 T1 T2 T3) :
    ((n - 1) / n) ^ 2 * S2 + (2 * (n - 2) / n) ^ 2 * T2 =
      c * ((4 * n ^ 3 + 48 * n ^ 2 - 100 * n + 48) / (n ^ 2 * (n + 2) * (n + 4) * (n + 6))) ∧
    (n - 1) / n * ((n - 1) * (n - 2) / n ^ 2) * S3 +
        2 * (n - 2) / n * (2 * (n - 2) * (n - 4) / n ^ 2) * T3 =
      c * ((16 * n ^ 4 + 416 * n ^ 3 - 1744 * n ^ 2 + 2080 * n - 768) /
        (n ^ 3 * (n + 2) * (n + 4) * (n + 6) * (n + 8))) := by
  have h5 : (5 : ℝ) ≤ n := by exact_mod_cast hn
  have hp := (Sys.particular (n := n)).smul c
  rw [mul_one] at hp
  obtain ⟨-, -, e2, e3, -, -, f2, f3⟩ := (h.sub hp).unique h5
  have hn0 : (n : ℝ) ≠ 0 := by linarith
  rw [sub_eq_zero.1 e2, sub_eq_zero.1 e3, sub_eq_zero.1 f2, sub_eq_zero.1 f3]
  constructor
  · field_simp; ring
  · field_simp; ring

end St69
end Quadpy
