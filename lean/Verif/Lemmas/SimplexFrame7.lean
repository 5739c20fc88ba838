/-
Sums of even powers of `t_k`, `t_k + t_l`, `t_k + t_l + t_j` and `t_k + 3 t_l` over a family of numbers
`t_0, ..., t_{N-1}` whose sum is zero.
-/
import Verif.Lemmas.SimplexFrame

namespace Quadpy
open Finset
namespace Frame

variable {N : ℕ} {t : ℕ → ℝ}

/-- Power sums. -/
def P (N : ℕ) (t : ℕ → ℝ) (m : ℕ) : ℝ := ∑ k ∈ range N, t k ^ m

theorem shift2 (h1 : ∑ k ∈ range N, t k = 0) (c s : ℝ) :
    ∑ l ∈ range N, (s + c * t l) ^ 2 = N * s ^ 2 + c ^ 2 * P N t 2 := by
  have e : ∀ l ∈ range N, (s + c * t l) ^ 2 = s ^ 2 + (2 * s * c) * t l + c ^ 2 * t l ^ 2 := fun l _ => by
    ring
  rw [sum_congr rfl e]
  simp only [sum_add_distrib, ← mul_sum, h1, sum_const, card_range, nsmul_eq_mul, P]
  ring

theorem shift3 (h1 : ∑ k ∈ range N, t k = 0) (c s : ℝ) :
    ∑ l ∈ range N, (s + c * t l) ^ 3 = N * s ^ 3 + 3 * s * c ^ 2 * P N t 2 + c ^ 3 * P N t 3 := by
  have e : ∀ l ∈ range N, (s + c * t l) ^ 3 = s ^ 3 + (3 * s ^ 2 * c) * t l + (3 * s * c ^ 2) * t l ^ 2 +
      c ^ 3 * t l ^ 3 := fun l _ => by ring
  rw [sum_congr rfl e]
  simp only [sum_add_distrib, ← mul_sum, h1, sum_const, card_range, nsmul_eq_mul, P]
  ring

theorem shift4 (h1 : ∑ k ∈ range N, t k = 0) (c s : ℝ) :
    ∑ l ∈ range N, (s + c * t l) ^ 4 = N * s ^ 4 + 6 * s ^ 2 * c ^ 2 * P N t 2 +
      4 * s * c ^ 3 * P N t 3 + c ^ 4 * P N t 4 := by
  have e : ∀ l ∈ range N, (s + c * t l) ^ 4 = s ^ 4 + (4 * s ^ 3 * c) * t l +
      (6 * s ^ 2 * c ^ 2) * t l ^ 2 + (4 * s * c ^ 3) * t l ^ 3 + c ^ 4 * t l ^ 4 := fun l _ => by ring
  rw [sum_congr rfl e]
  simp only [sum_add_distrib, ← mul_sum, h1, sum_const, card_range, nsmul_eq_mul, P]
  ring

theorem shift6 (h1 : ∑ k ∈ range N, t k = 0) (c s : ℝ) :
    ∑ l ∈ range N, (s + c * t l) ^ 6 = N * s ^ 6 + 15 * s ^ 4 * c ^ 2 * P N t 2 +
      20 * s ^ 3 * c ^ 3 * P N t 3 + 15 * s ^ 2 * c ^ 4 * P N t 4 + 6 * s * c ^ 5 * P N t 5 +
      c ^ 6 * P N t 6 := by
  have e : ∀ l ∈ range N, (s + c * t l) ^ 6 = s ^ 6 + (6 * s ^ 5 * c) * t l +
      (15 * s ^ 4 * c ^ 2) * t l ^ 2 + (20 * s ^ 3 * c ^ 3) * t l ^ 3 + (15 * s ^ 2 * c ^ 4) * t l ^ 4 +
      (6 * s * c ^ 5) * t l ^ 5 + c ^ 6 * t l ^ 6 := fun l _ => by ring
  rw [sum_congr rfl e]
  simp only [sum_add_distrib, ← mul_sum, h1, sum_const, card_range, nsmul_eq_mul, P]
  ring

/-- Double sums over `a t_k + c t_l`. -/
theorem double2 (h1 : ∑ k ∈ range N, t k = 0) (a c : ℝ) :
    ∑ k ∈ range N, ∑ l ∈ range N, (a * t k + c * t l) ^ 2 = N * (a ^ 2 + c ^ 2) * P N t 2 := by
  simp only [shift2 h1]
  simp only [sum_add_distrib, mul_pow, ← mul_sum, ← sum_mul, sum_const, card_range, nsmul_eq_mul]
  simp only [P]
  ring

theorem double4 (h1 : ∑ k ∈ range N, t k = 0) (a c : ℝ) :
    ∑ k ∈ range N, ∑ l ∈ range N, (a * t k + c * t l) ^ 4 =
      N * (a ^ 4 + c ^ 4) * P N t 4 + 6 * a ^ 2 * c ^ 2 * P N t 2 ^ 2 := by
  have e : ∀ k ∈ range N, ∑ l ∈ range N, (a * t k + c * t l) ^ 4 =
      (N * a ^ 4) * t k ^ 4 + (6 * a ^ 2 * c ^ 2 * P N t 2) * t k ^ 2 + (4 * a * c ^ 3 * P N t 3) * t k +
        c ^ 4 * P N t 4 := fun k _ => by rw [shift4 h1]; ring
  rw [sum_congr rfl e]
  simp only [sum_add_distrib, ← mul_sum, h1, sum_const, card_range, nsmul_eq_mul]
  simp only [P]
  ring

theorem double6 (h1 : ∑ k ∈ range N, t k = 0) (a c : ℝ) :
    ∑ k ∈ range N, ∑ l ∈ range N, (a * t k + c * t l) ^ 6 =
      N * (a ^ 6 + c ^ 6) * P N t 6 + 15 * (a ^ 4 * c ^ 2 + a ^ 2 * c ^ 4) * P N t 2 * P N t 4 +
        20 * a ^ 3 * c ^ 3 * P N t 3 ^ 2 := by
  have e : ∀ k ∈ range N, ∑ l ∈ range N, (a * t k + c * t l) ^ 6 =
      (N * a ^ 6) * t k ^ 6 + (15 * a ^ 4 * c ^ 2 * P N t 2) * t k ^ 4 +
        (20 * a ^ 3 * c ^ 3 * P N t 3) * t k ^ 3 + (15 * a ^ 2 * c ^ 4 * P N t 4) * t k ^ 2 +
        (6 * a * c ^ 5 * P N t 5) * t k + c ^ 6 * P N t 6 := fun k _ => by rw [shift6 h1]; ring
  rw [sum_congr rfl e]
  simp only [sum_add_distrib, ← mul_sum, h1, sum_const, card_range, nsmul_eq_mul]
  simp only [P]
  ring

/-- Ordered triples in terms of all triples. -/
theorem sum_triples (m : ℕ) (g : ℕ → ℕ → ℕ → ℝ) (h12 : ∀ a b c, g a b c = g b a c)
    (h23 : ∀ a b c, g a b c = g a c b) :
    6 * ∑ k ∈ range m, ∑ l ∈ range k, ∑ j ∈ range l, g k l j =
      ∑ k ∈ range m, ∑ l ∈ range m, ∑ j ∈ range m, g k l j -
        3 * ∑ k ∈ range m, ∑ l ∈ range m, g k k l + 2 * ∑ k ∈ range m, g k k k := by
  induction m with
  | zero => simp
  | succ m ih =>
    have hp := sum_pairs m (g m) (h23 m)
    have e1 : ∑ k ∈ range m, ∑ l ∈ range m, g k l m = ∑ k ∈ range m, ∑ l ∈ range m, g m k l :=
      sum_congr rfl fun k _ => sum_congr rfl fun l _ => by rw [h23, h12]
    have e2 : ∑ k ∈ range m, ∑ l ∈ range m, g k m l = ∑ k ∈ range m, ∑ l ∈ range m, g m k l :=
      sum_congr rfl fun k _ => sum_congr rfl fun l _ => by rw [h12]
    have e3 : ∑ k ∈ range m, g k k m = ∑ k ∈ range m, g m k k :=
      sum_congr rfl fun k _ => by rw [h23, h12]
    have e4 : ∑ k ∈ range m, g m m k = ∑ k ∈ range m, g m k m :=
      sum_congr rfl fun k _ => by rw [h23]
    have e5 : ∑ k ∈ range m, g k m m = ∑ k ∈ range m, g m k m :=
      sum_congr rfl fun k _ => by rw [h12]
    simp only [sum_range_succ, sum_add_distrib]
    rw [mul_add, ih, e1, e2, e3, e4, e5]
    linarith

theorem sum4 {f g1 : ℕ → ℕ → ℝ} {a b c d D1 D2 D4 : ℝ}
    (e : ∀ k l, f k l = a * g1 k l ^ 4 + b * g1 k l ^ 2 + c * g1 k l + d)
    (d1 : ∑ k ∈ range N, ∑ l ∈ range N, g1 k l = D1)
    (d2 : ∑ k ∈ range N, ∑ l ∈ range N, g1 k l ^ 2 = D2)
    (d4 : ∑ k ∈ range N, ∑ l ∈ range N, g1 k l ^ 4 = D4) :
    ∑ k ∈ range N, ∑ l ∈ range N, f k l = a * D4 + b * D2 + c * D1 + N * (N * d) := by
  simp only [e, sum_add_distrib, ← mul_sum, d1, d2, d4, sum_const, card_range, nsmul_eq_mul]

theorem sum6 {f g1 : ℕ → ℕ → ℝ} {a b c d b' d' D1 D2 D3 D4 D6 : ℝ}
    (e : ∀ k l, f k l = a * g1 k l ^ 6 + b * g1 k l ^ 4 + b' * g1 k l ^ 3 + c * g1 k l ^ 2 + d' * g1 k l + d)
    (d1 : ∑ k ∈ range N, ∑ l ∈ range N, g1 k l = D1)
    (d2 : ∑ k ∈ range N, ∑ l ∈ range N, g1 k l ^ 2 = D2)
    (d3 : ∑ k ∈ range N, ∑ l ∈ range N, g1 k l ^ 3 = D3)
    (d4 : ∑ k ∈ range N, ∑ l ∈ range N, g1 k l ^ 4 = D4)
    (d6 : ∑ k ∈ range N, ∑ l ∈ range N, g1 k l ^ 6 = D6) :
    ∑ k ∈ range N, ∑ l ∈ range N, f k l =
      a * D6 + b * D4 + b' * D3 + c * D2 + d' * D1 + N * (N * d) := by
  simp only [e, sum_add_distrib, ← mul_sum, d1, d2, d3, d4, d6, sum_const, card_range, nsmul_eq_mul]

variable (h1 : ∑ k ∈ range N, t k = 0)
include h1

theorem pairs2 : 2 * ∑ k ∈ range N, ∑ l ∈ range k, (t k + t l) ^ 2 = (2 * N - 4) * P N t 2 := by
  have h := sum_pairs N (fun k l => (t k + t l) ^ 2) (fun _ _ => by ring)
  have d := double2 h1 1 1
  simp only [one_mul] at d
  have e2 : ∑ k ∈ range N, (t k + t k) ^ 2 = 4 * P N t 2 := by
    rw [P, mul_sum]; exact sum_congr rfl fun _ _ => by ring
  rw [h, d, e2]; ring

theorem pairs4 : 2 * ∑ k ∈ range N, ∑ l ∈ range k, (t k + t l) ^ 4 =
    (2 * N - 16) * P N t 4 + 6 * P N t 2 ^ 2 := by
  have h := sum_pairs N (fun k l => (t k + t l) ^ 4) (fun _ _ => by ring)
  have d := double4 h1 1 1
  simp only [one_mul] at d
  have e2 : ∑ k ∈ range N, (t k + t k) ^ 4 = 16 * P N t 4 := by
    rw [P, mul_sum]; exact sum_congr rfl fun _ _ => by ring
  rw [h, d, e2]; ring

theorem pairs6 : 2 * ∑ k ∈ range N, ∑ l ∈ range k, (t k + t l) ^ 6 =
    (2 * N - 64) * P N t 6 + 30 * P N t 2 * P N t 4 + 20 * P N t 3 ^ 2 := by
  have h := sum_pairs N (fun k l => (t k + t l) ^ 6) (fun _ _ => by ring)
  have d := double6 h1 1 1
  simp only [one_mul] at d
  have e2 : ∑ k ∈ range N, (t k + t k) ^ 6 = 64 * P N t 6 := by
    rw [P, mul_sum]; exact sum_congr rfl fun _ _ => by ring
  rw [h, d, e2]; ring

omit h1 in
/-- Both orders of a pair `t_k + 3 t_l`. -/
theorem quarter (m : ℕ) : ∑ k ∈ range N, ∑ l ∈ range k, (t k + 3 * t l) ^ m +
    ∑ k ∈ range N, ∑ l ∈ range k, (3 * t k + t l) ^ m =
      ∑ k ∈ range N, ∑ l ∈ range N, (1 * t k + 3 * t l) ^ m - 4 ^ m * P N t m := by
  have h := sum_pairs N (fun k l => (t k + 3 * t l) ^ m + (3 * t k + t l) ^ m) (fun k l => by
    rw [add_comm]; congr 2 <;> ring)
  have e1 : ∀ k l, (1 * t k + 3 * t l) = t k + 3 * t l := fun k l => by ring
  simp only [e1]
  have e2 : ∑ k ∈ range N, ((t k + 3 * t k) ^ m + (3 * t k + t k) ^ m) = 2 * (4 ^ m * P N t m) := by
    rw [P, mul_sum, mul_sum]
    refine sum_congr rfl fun k _ => ?_
    rw [show t k + 3 * t k = 4 * t k by ring, show 3 * t k + t k = 4 * t k by ring, mul_pow]; ring
  have e3 : ∑ k ∈ range N, ∑ l ∈ range N, (3 * t k + t l) ^ m =
      ∑ k ∈ range N, ∑ l ∈ range N, (t k + 3 * t l) ^ m := by
    rw [sum_comm]
    exact sum_congr rfl fun k _ => sum_congr rfl fun l _ => by rw [add_comm]
  simp only [sum_add_distrib] at h e2 ⊢
  rw [e2, e3] at h
  linarith

theorem quarter2 : ∑ k ∈ range N, ∑ l ∈ range k, (t k + 3 * t l) ^ 2 +
    ∑ k ∈ range N, ∑ l ∈ range k, (3 * t k + t l) ^ 2 = (10 * N - 16) * P N t 2 := by
  rw [quarter, double2 h1]; ring

theorem quarter4 : ∑ k ∈ range N, ∑ l ∈ range k, (t k + 3 * t l) ^ 4 +
    ∑ k ∈ range N, ∑ l ∈ range k, (3 * t k + t l) ^ 4 =
      (82 * N - 256) * P N t 4 + 54 * P N t 2 ^ 2 := by
  rw [quarter, double4 h1]; ring

theorem quarter6 : ∑ k ∈ range N, ∑ l ∈ range k, (t k + 3 * t l) ^ 6 +
    ∑ k ∈ range N, ∑ l ∈ range k, (3 * t k + t l) ^ 6 =
      (730 * N - 4096) * P N t 6 + 1350 * P N t 2 * P N t 4 + 540 * P N t 3 ^ 2 := by
  rw [quarter, double6 h1]; ring

theorem triples2 : 6 * ∑ k ∈ range N, ∑ l ∈ range k, ∑ j ∈ range l, (t k + t l + t j) ^ 2 =
    (3 * N ^ 2 - 15 * N + 18) * P N t 2 := by
  have h := sum_triples N (fun k l j => (t k + t l + t j) ^ 2) (fun _ _ _ => by ring) (fun _ _ _ => by ring)
  have e0 : ∀ k l j, t k + t l + t j = (t k + t l) + 1 * t j := fun _ _ _ => by ring
  have e1 : ∑ k ∈ range N, ∑ l ∈ range N, ∑ j ∈ range N, (t k + t l + t j) ^ 2 =
      3 * N ^ 2 * P N t 2 := by
    simp only [e0, shift2 h1]
    have d := double2 h1 1 1
    simp only [one_mul] at d
    simp only [sum_add_distrib, ← mul_sum, d, sum_const, card_range, nsmul_eq_mul]
    ring
  have e2 : ∑ k ∈ range N, ∑ l ∈ range N, (t k + t k + t l) ^ 2 = 5 * N * P N t 2 := by
    have d := double2 h1 2 1
    rw [show 5 * (N : ℝ) * P N t 2 = N * (2 ^ 2 + 1 ^ 2) * P N t 2 by ring, ← d]
    exact sum_congr rfl fun k _ => sum_congr rfl fun l _ => by ring
  have e3 : ∑ k ∈ range N, (t k + t k + t k) ^ 2 = 9 * P N t 2 := by
    rw [P, mul_sum]; exact sum_congr rfl fun _ _ => by ring
  rw [h, e1, e2, e3]; ring

theorem triples4 : 6 * ∑ k ∈ range N, ∑ l ∈ range k, ∑ j ∈ range l, (t k + t l + t j) ^ 4 =
    (3 * N ^ 2 - 51 * N + 162) * P N t 4 + (18 * N - 72) * P N t 2 ^ 2 := by
  have h := sum_triples N (fun k l j => (t k + t l + t j) ^ 4) (fun _ _ _ => by ring) (fun _ _ _ => by ring)
  have e0 : ∀ k l j, t k + t l + t j = (t k + t l) + 1 * t j := fun _ _ _ => by ring
  have d1 : ∑ k ∈ range N, ∑ l ∈ range N, (t k + t l) = 0 := by
    simp only [sum_add_distrib, h1, sum_const, card_range, nsmul_eq_mul, ← mul_sum]; ring
  have d2 := double2 h1 1 1
  have d4 := double4 h1 1 1
  simp only [one_mul] at d2 d4
  have e1 : ∑ k ∈ range N, ∑ l ∈ range N, ∑ j ∈ range N, (t k + t l + t j) ^ 4 =
      3 * N ^ 2 * P N t 4 + 18 * N * P N t 2 ^ 2 := by
    have e : ∀ k l, ∑ j ∈ range N, (t k + t l + t j) ^ 4 = N * (t k + t l) ^ 4 +
        (6 * P N t 2) * (t k + t l) ^ 2 + (4 * P N t 3) * (t k + t l) + P N t 4 := fun k l => by
      simp only [e0, shift4 h1]; ring
    rw [sum4 e d1 d2 d4]
    ring
  have e2 : ∑ k ∈ range N, ∑ l ∈ range N, (t k + t k + t l) ^ 4 =
      17 * N * P N t 4 + 24 * P N t 2 ^ 2 := by
    have d := double4 h1 2 1
    rw [show 17 * (N : ℝ) * P N t 4 + 24 * P N t 2 ^ 2 =
      N * (2 ^ 4 + 1 ^ 4) * P N t 4 + 6 * 2 ^ 2 * 1 ^ 2 * P N t 2 ^ 2 by ring, ← d]
    exact sum_congr rfl fun k _ => sum_congr rfl fun l _ => by ring
  have e3 : ∑ k ∈ range N, (t k + t k + t k) ^ 4 = 81 * P N t 4 := by
    rw [P, mul_sum]; exact sum_congr rfl fun _ _ => by ring
  rw [h, e1, e2, e3]; ring

theorem triples6 : 6 * ∑ k ∈ range N, ∑ l ∈ range k, ∑ j ∈ range l, (t k + t l + t j) ^ 6 =
    (3 * N ^ 2 - 195 * N + 1458) * P N t 6 + (90 * N - 900) * P N t 2 * P N t 4 +
      (60 * N - 480) * P N t 3 ^ 2 + 90 * P N t 2 ^ 3 := by
  have h := sum_triples N (fun k l j => (t k + t l + t j) ^ 6) (fun _ _ _ => by ring) (fun _ _ _ => by ring)
  have e0 : ∀ k l j, t k + t l + t j = (t k + t l) + 1 * t j := fun _ _ _ => by ring
  have d1 : ∑ k ∈ range N, ∑ l ∈ range N, (t k + t l) = 0 := by
    simp only [sum_add_distrib, h1, sum_const, card_range, nsmul_eq_mul, ← mul_sum]; ring
  have d2 := double2 h1 1 1
  have d4 := double4 h1 1 1
  have d6 := double6 h1 1 1
  have d3 : ∑ k ∈ range N, ∑ l ∈ range N, (t k + t l) ^ 3 = 2 * N * P N t 3 := by
    have e : ∀ k ∈ range N, ∑ l ∈ range N, (t k + t l) ^ 3 =
        N * t k ^ 3 + (3 * P N t 2) * t k + P N t 3 := fun k _ => by
      have := shift3 h1 1 (t k)
      simp only [one_mul] at this
      rw [this]; ring
    rw [sum_congr rfl e]
    simp only [sum_add_distrib, ← mul_sum, h1, sum_const, card_range, nsmul_eq_mul]
    simp only [P]
    ring
  simp only [one_mul] at d2 d4 d6
  have e1 : ∑ k ∈ range N, ∑ l ∈ range N, ∑ j ∈ range N, (t k + t l + t j) ^ 6 =
      3 * N ^ 2 * P N t 6 + 90 * N * P N t 2 * P N t 4 + 60 * N * P N t 3 ^ 2 + 90 * P N t 2 ^ 3 := by
    have e : ∀ k l, ∑ j ∈ range N, (t k + t l + t j) ^ 6 = N * (t k + t l) ^ 6 +
        (15 * P N t 2) * (t k + t l) ^ 4 + (20 * P N t 3) * (t k + t l) ^ 3 +
        (15 * P N t 4) * (t k + t l) ^ 2 + (6 * P N t 5) * (t k + t l) + P N t 6 := fun k l => by
      simp only [e0, shift6 h1]; ring
    rw [sum6 e d1 d2 d3 d4 d6]
    ring
  have e2 : ∑ k ∈ range N, ∑ l ∈ range N, (t k + t k + t l) ^ 6 =
      65 * N * P N t 6 + 300 * P N t 2 * P N t 4 + 160 * P N t 3 ^ 2 := by
    have d := double6 h1 2 1
    rw [show 65 * (N : ℝ) * P N t 6 + 300 * P N t 2 * P N t 4 + 160 * P N t 3 ^ 2 =
      N * (2 ^ 6 + 1 ^ 6) * P N t 6 + 15 * (2 ^ 4 * 1 ^ 2 + 2 ^ 2 * 1 ^ 4) * P N t 2 * P N t 4 +
        20 * 2 ^ 3 * 1 ^ 3 * P N t 3 ^ 2 by ring, ← d]
    exact sum_congr rfl fun k _ => sum_congr rfl fun l _ => by ring
  have e3 : ∑ k ∈ range N, (t k + t k + t k) ^ 6 = 729 * P N t 6 := by
    rw [P, mul_sum]; exact sum_congr rfl fun _ _ => by ring
  rw [h, e1, e2, e3]; ring

end Frame
end Quadpy
