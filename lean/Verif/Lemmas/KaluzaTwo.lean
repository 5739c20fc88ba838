import Mathlib.RingTheory.PowerSeries.Basic
import Mathlib.Tactic.Linarith
import Mathlib.Tactic.Positivity
import Mathlib.Tactic.FieldSimp
import Mathlib.Analysis.SpecialFunctions.Pow.Real

/-!
# The differences of the coefficients of a reciprocal power series

Kaluza's theorem is about the signs of the coefficients of `1 / f`; here the signs of their differences are
needed: if the quotients of successive coefficients of `f` increase to 1 in such a way that their distances to 1
are logarithmically convex, then the coefficients of `1 / f` increase from the first one on.
-/

namespace Quadpy

open Finset

namespace Kaluza

variable {f r : ℕ → ℝ}

/-- The partial sums. -/
def psum (f : ℕ → ℝ) (k : ℕ) : ℝ := ∑ i ∈ range (k + 1), f i

/-- The convolution. -/
def conv (a b : ℕ → ℝ) (k : ℕ) : ℝ := ∑ i ∈ range (k + 1), a i * b (k - i)

/-- Backward differences. -/
def bdiff (a : ℕ → ℝ) : ℕ → ℝ
  | 0 => a 0
  | k + 1 => a (k + 1) - a k

theorem psum_succ (f : ℕ → ℝ) (k : ℕ) : psum f (k + 1) = psum f k + f (k + 1) := sum_range_succ _ _

theorem conv_coeff (a b : ℕ → ℝ) (k : ℕ) :
    conv a b k = PowerSeries.coeff k (PowerSeries.mk a * PowerSeries.mk b) := by
  rw [PowerSeries.coeff_mul, Nat.sum_antidiagonal_eq_sum_range_succ_mk]
  simp [conv]

theorem bdiff_mk (a : ℕ → ℝ) : PowerSeries.mk (bdiff a) = (1 - PowerSeries.X) * PowerSeries.mk a := by
  ext k
  rw [sub_mul, one_mul, map_sub]
  cases k with
  | zero => simp [bdiff]
  | succ k => rw [PowerSeries.coeff_succ_X_mul]; simp [bdiff]

theorem bdiff_psum (f : ℕ → ℝ) : bdiff (psum f) = f := by
  funext k
  cases k with
  | zero => simp [bdiff, psum]
  | succ k => simp [bdiff, psum_succ]

theorem conv_bdiff_psum (a f : ℕ → ℝ) (k : ℕ) : conv (bdiff a) (psum f) k = conv a f k := by
  have h := bdiff_mk (psum f)
  rw [bdiff_psum] at h
  rw [conv_coeff, conv_coeff, bdiff_mk, h]
  congr 1
  ring

theorem conv_bdiff (a f : ℕ → ℝ) (k : ℕ) : conv (bdiff a) f (k + 1) = conv a f (k + 1) - conv a f k := by
  rw [conv_coeff, conv_coeff, conv_coeff, bdiff_mk, sub_mul, one_mul, sub_mul, map_sub, mul_assoc,
    PowerSeries.coeff_succ_X_mul]

/-- What is assumed of the quotients. -/
structure Quot (r : ℕ → ℝ) : Prop where
  pos : ∀ k, 0 < r k
  lt_one : ∀ k, r k < 1
  mono : ∀ k, r k < r (k + 1)
  logConvex : ∀ k, (1 - r (k + 1)) ^ 2 ≤ (1 - r k) * (1 - r (k + 2))

/-- The slope of the line through two successive points `(f k / S k, f (k + 1) / S k)`. -/
noncomputable def slope (f r : ℕ → ℝ) (k : ℕ) : ℝ :=
  r k * (f (k + 1) + (1 - r (k + 1)) * psum f k) / (f (k + 1) + (1 - r k) * psum f k)

theorem slope_ineq {x y z A s : ℝ} (hz : 0 < z) (hzy : z < y) (hyx : y < x) (hx : x < 1) (hl : y ^ 2 ≤ x * z)
    (hA : 0 < A) (hs : 0 < s) :
    (1 - x) * (A + y * s) ^ 2 < (1 - y) * (A * (1 - y + z) + z * s) * (A + x * s) := by
  have hc : 2 * y ≤ x + z := by nlinarith [sq_nonneg (x - z), mul_pos (hz.trans hzy) hz]
  have h0 : 0 < y := hz.trans hzy
  have h1 : 0 < (x - y) - (y - z) + y * (y - z) := by nlinarith [mul_pos h0 (sub_pos.2 hzy)]
  have h2 : 0 ≤ x + z - 2 * y + x * y * (y - z) + z * (x - y) := by
    have := mul_pos (mul_pos (h0.trans hyx) h0) (sub_pos.2 hzy)
    have := mul_pos hz (sub_pos.2 hyx)
    linarith
  have h3 : 0 ≤ z * x - y ^ 2 + x * y * (y - z) := by
    have := mul_pos (mul_pos (h0.trans hyx) h0) (sub_pos.2 hzy)
    linarith [mul_comm x z]
  have e : (1 - y) * (A * (1 - y + z) + z * s) * (A + x * s) - (1 - x) * (A + y * s) ^ 2 =
      A ^ 2 * ((x - y) - (y - z) + y * (y - z)) +
      A * s * (x + z - 2 * y + x * y * (y - z) + z * (x - y)) + s ^ 2 * (z * x - y ^ 2 + x * y * (y - z)) := by
    ring
  have := mul_pos (pow_pos hA 2) h1
  have := mul_nonneg (mul_pos hA hs).le h2
  have := mul_nonneg (sq_nonneg s) h3
  linarith

section

variable (hr : Quot r) (h0 : f 0 = 1) (hf : ∀ k, f (k + 1) = r k * f k)

include hr h0 hf

theorem f_pos (k : ℕ) : 0 < f k := by
  induction k with
  | zero => rw [h0]; exact one_pos
  | succ k ih => rw [hf]; exact mul_pos (hr.pos k) ih

theorem psum_pos (k : ℕ) : 0 < psum f k := sum_pos (fun i _ => f_pos hr h0 hf i) ⟨0, by simp⟩

theorem den_pos (k : ℕ) : 0 < f (k + 1) + (1 - r k) * psum f k :=
  add_pos (f_pos hr h0 hf _) (mul_pos (sub_pos.2 (hr.lt_one k)) (psum_pos hr h0 hf k))

theorem slope_lt (k : ℕ) : slope f r k < slope f r (k + 1) := by
  have e1 : f (k + 1 + 1) + (1 - r (k + 1)) * psum f (k + 1) = f (k + 1) + (1 - r (k + 1)) * psum f k := by
    rw [psum_succ, hf (k + 1)]; ring
  have e2 : f (k + 1 + 1) + (1 - r (k + 1 + 1)) * psum f (k + 1) =
      f (k + 1) * (1 - (1 - r (k + 1)) + (1 - r (k + 2))) + (1 - r (k + 2)) * psum f k := by
    rw [psum_succ, hf (k + 1)]; ring
  have hd := den_pos hr h0 hf (k + 1)
  rw [slope, slope, div_lt_div_iff₀ (den_pos hr h0 hf k) hd, e1, e2]
  have := slope_ineq (x := 1 - r k) (y := 1 - r (k + 1)) (z := 1 - r (k + 2)) (sub_pos.2 (hr.lt_one _))
    (by have := hr.mono (k + 1); linarith) (by have := hr.mono k; linarith) (by have := hr.pos k; linarith)
    (hr.logConvex k) (f_pos hr h0 hf (k + 1)) (psum_pos hr h0 hf k)
  refine lt_of_eq_of_lt ?_ (this.trans_eq ?_) <;> ring

theorem slope_mono {i j : ℕ} (h : i < j) : slope f r i < slope f r j :=
  strictMono_nat_of_lt_succ (slope_lt hr h0 hf) h

theorem slope_eq (k : ℕ) : f (k + 1) * psum f (k + 1) - f (k + 2) * psum f k =
    slope f r k * (f k * psum f (k + 1) - f (k + 1) * psum f k) := by
  have hd := (den_pos hr h0 hf k).ne'
  have e : f k * psum f (k + 1) - f (k + 1) * psum f k = f k * (f (k + 1) + (1 - r k) * psum f k) := by
    rw [psum_succ, hf k]; ring
  rw [e, slope, div_mul_eq_mul_div, eq_div_iff hd, psum_succ, hf (k + 1), hf k]
  ring

/-- The coefficients of the reciprocal increase from the first one on, as far as they are coefficients of the
reciprocal. -/
theorem bdiff_pos {a : ℕ → ℝ} {M : ℕ} (ha0 : a 0 = 1) (ha : ∀ k, 0 < k → k ≤ M → conv a f k = 0) :
    ∀ k, 2 ≤ k → k ≤ M → 0 < bdiff a k := by
  intro k
  induction k using Nat.strong_induction_on with
  | _ k ih =>
  intro hk hkM
  obtain ⟨ν, rfl⟩ : ∃ ν, k = ν + 2 := ⟨k - 2, by omega⟩
  rcases Nat.eq_zero_or_pos ν with rfl | hν
  · have h1 := ha 1 one_pos (by omega)
    have h2 := ha 2 two_pos hkM
    simp only [conv, sum_range_succ, range_zero, sum_empty, ha0, h0] at h1 h2
    have hf2 : f 2 = r 1 * f 1 := hf 1
    have p1 := f_pos hr h0 hf 1
    have hlt := hr.lt_one 1
    have : f 2 < f 1 := by rw [hf2]; nlinarith
    simp only [bdiff]
    norm_num at h1 h2
    have e1 : a 1 = -f 1 := by linarith
    rw [e1] at h2 ⊢
    nlinarith
  · -- the line through the points `ν` and `ν + 1`
    set q := slope f r ν with hq
    set c := (f (ν + 2) - q * f (ν + 1)) / psum f (ν + 1) with hc
    set H : ℕ → ℝ := fun k => f (k + 1) - q * f k - c * psum f k with hH
    have hS := psum_pos hr h0 hf
    have hstep : ∀ k, H k * psum f (k + 1) = H (k + 1) * psum f k +
        (slope f r k - q) * (f k * psum f (k + 1) - f (k + 1) * psum f k) := fun k => by
      have := slope_eq hr h0 hf k
      simp only [hH]
      linear_combination this
    have hd : ∀ k, 0 < f k * psum f (k + 1) - f (k + 1) * psum f k := fun k => by
      have e : f k * psum f (k + 1) - f (k + 1) * psum f k = f k * (f (k + 1) + (1 - r k) * psum f k) := by
        rw [psum_succ, hf k]; ring
      rw [e]
      exact mul_pos (f_pos hr h0 hf k) (den_pos hr h0 hf k)
    have H1 : H (ν + 1) = 0 := by
      simp only [hH, hc]
      rw [div_mul_cancel₀ _ (hS _).ne']
      ring
    have H0 : H ν = 0 := by
      have := hstep ν
      rw [H1, ← hq, sub_self, zero_mul, zero_mul, add_zero] at this
      exact (mul_eq_zero.1 this).resolve_right (hS _).ne'
    have Hneg : ∀ d k, k + d + 1 = ν → H k < 0 := by
      intro d
      induction d with
      | zero =>
        intro k hk
        have h := hstep k
        rw [show k + 1 = ν by omega, H0, zero_mul, zero_add] at h
        have := mul_neg_of_neg_of_pos (sub_neg.2 (slope_mono hr h0 hf (show k < ν by omega))) (hd k)
        rw [show k + 1 = ν by omega] at this
        rw [← h] at this
        exact neg_of_mul_neg_left this (hS _).le
      | succ d ihd =>
        intro k hk
        have h := hstep k
        have h1 := ihd (k + 1) (by omega)
        have := mul_neg_of_neg_of_pos (sub_neg.2 (slope_mono hr h0 hf (show k < ν by omega))) (hd k)
        have := mul_neg_of_neg_of_pos h1 (hS k)
        have h3 : H k * psum f (k + 1) < 0 := by rw [h]; linarith
        exact neg_of_mul_neg_left h3 (hS _).le
    have e1 : conv (bdiff a) f (ν + 2) = 0 := by
      rw [conv_bdiff, ha _ (by omega) hkM, ha _ (by omega) (by omega), sub_zero]
    have e2 : conv (bdiff a) f (ν + 1) = 0 := by
      rw [conv_bdiff, ha _ (by omega) (by omega), ha _ (by omega) (by omega), sub_zero]
    have e3 : conv (bdiff a) (psum f) (ν + 1) = 0 := by
      rw [conv_bdiff_psum, ha _ (by omega) (by omega)]
    have key : bdiff a (ν + 2) = -∑ i ∈ range (ν + 2), bdiff a i * H (ν + 1 - i) := by
      have e1' : ∑ i ∈ range (ν + 2), bdiff a i * f (ν + 1 - i + 1) + bdiff a (ν + 2) = 0 := by
        rw [conv, sum_range_succ, Nat.sub_self, h0, mul_one] at e1
        rw [← e1]
        congr 1
        refine sum_congr rfl fun i hi => ?_
        have := mem_range.1 hi
        rw [show ν + 1 - i + 1 = ν + 2 - i by omega]
      have : ∑ i ∈ range (ν + 2), bdiff a i * H (ν + 1 - i) =
          ∑ i ∈ range (ν + 2), bdiff a i * f (ν + 1 - i + 1) - q * conv (bdiff a) f (ν + 1) -
            c * conv (bdiff a) (psum f) (ν + 1) := by
        simp only [conv, mul_sum, ← sum_sub_distrib, hH]
        exact sum_congr rfl fun i _ => by ring
      rw [this, e2, e3]
      linarith
    rw [key, sum_range_succ', sum_range_succ', Nat.sub_zero, H1, mul_zero, add_zero,
      show ν + 1 - (0 + 1) = ν by omega, H0, mul_zero, add_zero, Left.neg_pos_iff]
    refine sum_neg (fun i hi => ?_) ⟨0, by simpa using hν⟩
    have := mem_range.1 hi
    exact mul_neg_of_pos_of_neg (ih (i + 1 + 1) (by omega) (by omega) (by omega))
      (Hneg i _ (by omega))

end

end Kaluza

end Quadpy
