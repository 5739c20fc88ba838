import Verif.Props.C03
import Mathlib.RingTheory.PowerSeries.Derivative
import Mathlib.RingTheory.PowerSeries.WellKnown
import Mathlib.Algebra.Polynomial.Reverse
import Mathlib.Algebra.Polynomial.BigOperators
import Mathlib.Tactic.FieldSimp
import Mathlib.Tactic.LinearCombination

/-!
# The combinatorial identity behind the Grundmann-Möller rules

`eulerB b` is the Eulerian polynomial of type B: `∑ (2p+1)^b y^p = eulerB b / (1-y)^(b+1)`.
-/

namespace Quadpy.GM
open Finset Polynomial

/-- Type B Eulerian polynomials. -/
noncomputable def eulerB : ℕ → ℝ[X]
  | 0 => 1
  | b + 1 => (1 + C (2 * b + 1 : ℝ) * X) * eulerB b + C 2 * X * (1 - X) * derivative (eulerB b)

theorem eulerB_coeff_succ (b k : ℕ) : (eulerB (b + 1)).coeff (k + 1) =
    (2 * k + 3) * (eulerB b).coeff (k + 1) + (2 * b + 1 - 2 * k) * (eulerB b).coeff k := by
  have e : eulerB (b + 1) = eulerB b + C (2 * b + 1 : ℝ) * (X * eulerB b) +
      C 2 * (X * derivative (eulerB b)) - C 2 * (X * (X * derivative (eulerB b))) := by
    rw [eulerB]; ring
  rw [e]
  simp only [coeff_add, coeff_sub, coeff_C_mul, coeff_X_mul, coeff_derivative]
  cases k with
  | zero => simp; ring
  | succ k => rw [coeff_X_mul, coeff_derivative]; push_cast; ring

theorem eulerB_coeff_zero (b : ℕ) : (eulerB b).coeff 0 = 1 := by
  induction b with
  | zero => simp [eulerB]
  | succ b ih => simp [eulerB, mul_coeff_zero, ih]

theorem eulerB_coeff_gt (b k : ℕ) (h : b < k) : (eulerB b).coeff k = 0 := by
  induction b generalizing k with
  | zero => simp [eulerB, coeff_one, h.ne']
  | succ b ih =>
    obtain ⟨k, rfl⟩ : ∃ j, k = j + 1 := ⟨k - 1, by omega⟩
    rw [eulerB_coeff_succ, ih _ (by omega), ih _ (by omega)]
    simp

theorem eulerB_pal (b k : ℕ) (h : k ≤ b) : (eulerB b).coeff (b - k) = (eulerB b).coeff k := by
  induction b generalizing k with
  | zero =>
    obtain rfl : k = 0 := by omega
    rfl
  | succ b ih =>
    cases k with
    | zero =>
      rw [eulerB_coeff_zero, Nat.sub_zero, eulerB_coeff_succ, eulerB_coeff_gt b (b + 1) (by omega)]
      have := ih 0 (by omega)
      rw [Nat.sub_zero, eulerB_coeff_zero] at this
      rw [this]; ring
    | succ k =>
      rcases Nat.lt_or_ge k b with hk | hk
      · rw [show b + 1 - (k + 1) = (b - (k + 1)) + 1 by omega, eulerB_coeff_succ, eulerB_coeff_succ,
          show b - (k + 1) + 1 = b - k by omega, ih k (by omega), ih (k + 1) (by omega),
          Nat.cast_sub (by omega)]
        push_cast; ring
      · obtain rfl : k = b := by omega
        rw [Nat.sub_self, eulerB_coeff_zero, eulerB_coeff_succ, eulerB_coeff_gt k (k + 1) (by omega)]
        have := ih 0 (by omega)
        rw [Nat.sub_zero, eulerB_coeff_zero] at this
        rw [this]; ring

theorem eulerB_natDegree (b : ℕ) : (eulerB b).natDegree ≤ b :=
  natDegree_le_iff_coeff_eq_zero.2 fun _ h => eulerB_coeff_gt b _ h

theorem eulerB_reflect (b : ℕ) : reflect b (eulerB b) = eulerB b := by
  ext k
  rw [coeff_reflect]
  rcases le_or_gt k b with h | h
  · rw [revAt_le h, eulerB_pal b k h]
  · rw [revAt_eq_self_of_lt h]

theorem eulerB_eval (b : ℕ) : (eulerB b).eval 1 = 2 ^ b * b.factorial := by
  induction b with
  | zero => simp [eulerB]
  | succ b ih =>
    simp [eulerB, ih, Nat.factorial_succ]; ring

/-- `∑ (2p+1)^b y^p`. -/
noncomputable def oddSeries (b : ℕ) : PowerSeries ℝ := PowerSeries.mk fun p => (2 * p + 1 : ℝ) ^ b

theorem oddSeries_succ (b : ℕ) : oddSeries (b + 1) =
    oddSeries b + PowerSeries.C 2 * (PowerSeries.X * PowerSeries.derivative ℝ (oddSeries b)) := by
  ext p
  cases p with
  | zero => simp [oddSeries]
  | succ p =>
    simp only [oddSeries, PowerSeries.coeff_mk, map_add, PowerSeries.coeff_C_mul,
      PowerSeries.coeff_succ_X_mul, PowerSeries.coeff_derivative]
    push_cast; ring

theorem oddSeries_eq (b : ℕ) : (1 - PowerSeries.X) ^ (b + 1) * oddSeries b = (eulerB b : PowerSeries ℝ) := by
  induction b with
  | zero =>
    have : oddSeries 0 = PowerSeries.mk 1 := by ext; simp [oddSeries]
    rw [this, zero_add, pow_one, mul_comm, PowerSeries.mk_one_mul_one_sub_eq_one]
    simp [eulerB]
  | succ b ih =>
    have hd := congrArg (PowerSeries.derivative ℝ) ih
    rw [PowerSeries.derivative_coe, Derivation.leibniz, PowerSeries.derivative_pow] at hd
    simp only [map_sub, PowerSeries.derivative_X, PowerSeries.derivative_one, smul_eq_mul,
      Nat.add_sub_cancel] at hd
    rw [oddSeries_succ, eulerB]
    push_cast
    rw [← ih, ← hd]
    simp only [map_ofNat, map_add, map_mul, map_natCast, map_one]
    push_cast
    ring

variable {N : ℕ}

theorem prod_natDegree (β : Fin N → ℕ) (t : Finset (Fin N)) :
    (∏ j ∈ t, eulerB (β j)).natDegree ≤ ∑ j ∈ t, β j :=
  (natDegree_prod_le _ _).trans (sum_le_sum fun j _ => eulerB_natDegree (β j))

theorem prod_reflect (β : Fin N → ℕ) (t : Finset (Fin N)) :
    reflect (∑ j ∈ t, β j) (∏ j ∈ t, eulerB (β j)) = ∏ j ∈ t, eulerB (β j) := by
  induction t using Finset.induction_on with
  | empty => simp
  | insert a t ha ih =>
    rw [sum_insert ha, prod_insert ha, reflect_mul _ _ (eulerB_natDegree _) (prod_natDegree β t),
      eulerB_reflect, ih]

/-- The first half of the coefficients of a palindromic polynomial of odd degree. -/
theorem half_sum (Q : ℝ[X]) (s : ℕ) (hd : Q.natDegree ≤ 2 * s + 1) (hr : reflect (2 * s + 1) Q = Q) :
    2 * ∑ k ∈ range (s + 1), Q.coeff k = Q.eval 1 := by
  have hp : ∀ k ≤ 2 * s + 1, Q.coeff (2 * s + 1 - k) = Q.coeff k := by
    intro k hk
    conv_rhs => rw [← hr]
    rw [coeff_reflect, revAt_le hk]
  rw [eval_eq_sum_range' (Nat.lt_succ_of_le hd)]
  simp only [one_pow, mul_one]
  rw [show (2 * s + 1).succ = (s + 1) + (s + 1) by omega, Finset.sum_range_add (fun k => Q.coeff k) (s + 1) (s + 1), two_mul]
  congr 1
  rw [← sum_range_reflect (fun k => Q.coeff (s + 1 + k)) (s + 1)]
  refine sum_congr rfl fun k hk => ?_
  rw [mem_range] at hk
  rw [← hp k (by omega)]
  congr 1; omega

theorem coeff_mul_geom (Q : ℝ[X]) (s : ℕ) :
    PowerSeries.coeff s ((Q : PowerSeries ℝ) * PowerSeries.mk 1) = ∑ k ∈ range (s + 1), Q.coeff k := by
  rw [PowerSeries.coeff_mul, Nat.sum_antidiagonal_eq_sum_range_succ_mk]
  simp

theorem coeff_one_sub_pow (D i : ℕ) :
    PowerSeries.coeff i ((1 - PowerSeries.X : PowerSeries ℝ) ^ D) = (-1) ^ i * D.choose i := by
  have : (1 - PowerSeries.X : PowerSeries ℝ) ^ D = (((1 - X) ^ D : ℝ[X]) : PowerSeries ℝ) := by
    push_cast; rfl
  rw [this, Polynomial.coeff_coe]
  have e : (1 - X : ℝ[X]) ^ D = ((1 + X) ^ D).comp (C (-1) * X) := by simp [sub_eq_add_neg]
  rw [e, comp_C_mul_X_coeff, coeff_one_add_X_pow, mul_comm]

/-- The sum over all `p` with `|p| = m` of `∏ (2 p_j + 1)^(β_j)`. -/
noncomputable def oddSum (β : Fin N → ℕ) (m : ℕ) : ℝ :=
  PowerSeries.coeff m (∏ j, oddSeries (β j))

/-- The identity: `∑_i (-1)^i binom(D, i) oddSum (s - i) = 4^s ∏ β_j!` when `|β| = 2 s + 1` and
`D + 1 = ∑ (β_j + 1)`. -/
theorem identity (β : Fin N → ℕ) (s D : ℕ) (hβ : ∑ j, β j = 2 * s + 1)
    (hD : D + 1 = ∑ j, (β j + 1)) :
    ∑ i ∈ range (s + 1), (-1) ^ i * (D.choose i : ℝ) * oddSum β (s - i) =
      4 ^ s * ∏ j, ((β j).factorial : ℝ) := by
  have h1 : (1 - PowerSeries.X) ^ (D + 1) * ∏ j, oddSeries (β j) =
      ((∏ j, eulerB (β j) : ℝ[X]) : PowerSeries ℝ) := by
    rw [hD, ← prod_pow_eq_pow_sum, ← prod_mul_distrib]
    rw [← Polynomial.coeToPowerSeries.ringHom_apply, map_prod]
    exact prod_congr rfl fun j _ => oddSeries_eq (β j)
  have h2 : (1 - PowerSeries.X) ^ D * ∏ j, oddSeries (β j) =
      ((∏ j, eulerB (β j) : ℝ[X]) : PowerSeries ℝ) * PowerSeries.mk 1 := by
    rw [← h1]
    have := PowerSeries.mk_one_mul_one_sub_eq_one ℝ
    linear_combination -((1 - PowerSeries.X) ^ D * ∏ j, oddSeries (β j)) * this
  have h3 := congrArg (PowerSeries.coeff s) h2
  rw [coeff_mul_geom, PowerSeries.coeff_mul, Nat.sum_antidiagonal_eq_sum_range_succ_mk] at h3
  have h4 := half_sum (∏ j, eulerB (β j)) s (hβ ▸ prod_natDegree β univ)
    (by rw [← hβ]; exact prod_reflect β univ)
  rw [eval_prod] at h4
  simp only [eulerB_eval, prod_mul_distrib, prod_pow_eq_pow_sum, hβ] at h4
  rw [← h3] at h4
  simp only [coeff_one_sub_pow] at h4
  have h5 : (2 : ℝ) ^ (2 * s + 1) = 2 * 4 ^ s := by rw [pow_succ, pow_mul]; norm_num; ring
  rw [h5] at h4
  unfold oddSum
  linarith

end Quadpy.GM
