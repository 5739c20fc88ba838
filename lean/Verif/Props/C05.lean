import Verif.Model.Scheme
import Mathlib.Analysis.SpecialFunctions.Gamma.BohrMollerup
import Mathlib.Analysis.SpecialFunctions.Gaussian.GaussianIntegral
import Mathlib.Data.Nat.Factorial.DoubleFactorial
import Mathlib.Tactic.FieldSimp

/-! C05: `gamma_n_2(n)` is `Γ(n/2)` for every `n ≥ 1`. -/

namespace Quadpy

/-- C05. -/
theorem C05_gamma_n_2 (n : ℕ) (hn : 1 ≤ n) : gammaN2 n = some (Real.Gamma ((n : ℝ) / 2)) := by
  unfold gammaN2
  rcases Nat.even_or_odd' n with ⟨k, rfl | rfl⟩
  · have h0 : k ≠ 0 := by omega
    have h1 : 2 * k / 2 = k := by omega
    rw [if_pos (by omega), h1, if_neg h0]
    congr 1
    obtain ⟨j, rfl⟩ := Nat.exists_eq_succ_of_ne_zero h0
    rw [show ((2 * (j.succ) : ℕ) : ℝ) / 2 = (j : ℝ) + 1 by push_cast; ring,
      Real.Gamma_nat_eq_factorial]
    rfl
  · have h1 : (2 * k + 1) / 2 = k := by omega
    rw [if_neg (by omega), h1]
    congr 1
    rw [show ((2 * k + 1 : ℕ) : ℝ) / 2 = (k : ℝ) + 1 / 2 by push_cast; ring,
      Real.Gamma_nat_add_half]
    have key : ∀ k : ℕ, ((2 * k).factorial : ℝ) =
        ((2 * k - 1).doubleFactorial : ℝ) * (2 ^ k * (k.factorial : ℝ)) := by
      intro k
      rcases Nat.eq_zero_or_pos k with rfl | hk
      · simp
      · have h2 := Nat.factorial_eq_mul_doubleFactorial (2 * k - 1)
        rw [show 2 * k - 1 + 1 = 2 * k by omega, Nat.doubleFactorial_two_mul] at h2
        rw [h2]; push_cast; ring
    rw [key]
    have h4 : (4 : ℝ) ^ k = 2 ^ k * 2 ^ k := by rw [← mul_pow]; norm_num
    rw [h4]
    field_simp

/-- C05, error branch: for `n = 0` the code calls `math.factorial(-1)` and raises. -/
theorem C05_gamma_n_2_zero : gammaN2 0 = none := by simp [gammaN2]

example : gammaN2 5 = some (3 / 4 * Real.sqrt Real.pi) := by
  simp [gammaN2, Nat.factorial]; ring_nf; simp

end Quadpy
