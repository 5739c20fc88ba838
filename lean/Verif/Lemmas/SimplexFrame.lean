import Verif.Model.Enr
import Verif.Lemmas.PowerForm
import Verif.Props.C06
import Verif.Model.Enr2

/-! The rows of `get_nsimplex_points(n)` as a frame: sums of powers of their inner products with a
vector. -/

namespace Quadpy
open Finset

/-- Row `k` of the simplex. -/
noncomputable def sp (n k : ℕ) : Fin n → ℝ := toVec n (nsimplexRow n k)

theorem sp_apply (n k : ℕ) (a : Fin n) :
    sp n k a = if (a : ℕ) < k then -nsC n a else if (a : ℕ) = k then nsD n k else 0 :=
  nsimplexRow_getD n k a a.isLt

theorem sum_tail (b m : ℕ) (u v : ℝ) :
    ∑ r ∈ range (b + 1 + m), (if b < r then u else if b = r then v else 0) = v + m * u := by
  induction m with
  | zero =>
    rw [add_zero, sum_range_succ, sum_eq_zero]
    · simp
    · intro r hr
      have := mem_range.1 hr
      rw [if_neg (by omega), if_neg (by omega)]
  | succ m ih =>
    rw [← add_assoc, sum_range_succ, ih, if_pos (by omega)]
    push_cast; ring

theorem nsD_eq {n b : ℕ} (hb : b < n) : nsD n b = (n - b) * nsC n b := by
  have hb' : (b : ℝ) < n := by exact_mod_cast hb
  have h1 : (0 : ℝ) < n - b := by linarith
  have h0 : (0 : ℝ) < n := by linarith [Nat.cast_nonneg (α := ℝ) b]
  unfold nsD nsC
  rw [← Real.sqrt_sq h1.le, ← Real.sqrt_mul (by positivity), Real.sqrt_sq h1.le]
  congr 1
  field_simp

theorem sp_sum (n : ℕ) (a : Fin n) : ∑ k ∈ range (n + 1), sp n k a = 0 := by
  have ha := a.isLt
  have e : ∀ k ∈ range (n + 1), sp n k a =
      if (a : ℕ) < k then -nsC n a else if (a : ℕ) = k then nsD n a else 0 := fun k _ => by
    rw [sp_apply]; split_ifs with h1 h2 <;> simp_all
  rw [sum_congr rfl e]
  obtain ⟨m, hm⟩ : ∃ m, n = a + m := ⟨n - a, by omega⟩
  have h2 : (m : ℝ) = n - (a : ℕ) := by
    have := congrArg (Nat.cast : ℕ → ℝ) hm; push_cast at this; linarith
  rw [show n + 1 = (a : ℕ) + 1 + m by omega, sum_tail, nsD_eq ha, h2]; ring

theorem sp_gram_lt {n : ℕ} {a b : Fin n} (hab : a < b) :
    ∑ k ∈ range (n + 1), sp n k a * sp n k b = 0 := by
  have hb := b.isLt
  have hab' : (a : ℕ) < b := hab
  have e : ∀ k ∈ range (n + 1), sp n k a * sp n k b =
      -nsC n a * (if (b : ℕ) < k then -nsC n b else if (b : ℕ) = k then nsD n b else 0) := fun k _ => by
    rw [sp_apply, sp_apply]
    by_cases h1 : (b : ℕ) < k
    · rw [if_pos h1, if_pos h1, if_pos (by omega)]
    · by_cases h2 : (b : ℕ) = k
      · subst h2; simp [hab']
      · rw [if_neg h1, if_neg h2, if_neg h1, if_neg h2]; ring
  rw [sum_congr rfl e, ← mul_sum]
  obtain ⟨m, hm⟩ : ∃ m, n = b + m := ⟨n - b, by omega⟩
  have h2 : (m : ℝ) = n - (b : ℕ) := by
    have := congrArg (Nat.cast : ℕ → ℝ) hm; push_cast at this; linarith
  rw [show n + 1 = (b : ℕ) + 1 + m by omega, sum_tail, nsD_eq hb, h2]; ring

theorem sp_gram (n : ℕ) (a b : Fin n) :
    ∑ k ∈ range (n + 1), sp n k a * sp n k b = if a = b then ((n : ℝ) + 1) / n else 0 := by
  split_ifs with h
  · subst h
    have ha := a.isLt
    have e : ∀ k ∈ range (n + 1), sp n k a * sp n k a =
        if (a : ℕ) < k then nsC n a ^ 2 else if (a : ℕ) = k then nsD n a ^ 2 else 0 := fun k _ => by
      rw [sp_apply]
      by_cases h1 : (a : ℕ) < k
      · rw [if_pos h1, if_pos h1]; ring
      · by_cases h2 : (a : ℕ) = k
        · rw [if_neg h1, if_pos h2, if_neg h1, if_pos h2, h2]; ring
        · rw [if_neg h1, if_neg h2, if_neg h1, if_neg h2]; ring
    rw [sum_congr rfl e]
    obtain ⟨m, hm⟩ : ∃ m, n = a + m := ⟨n - a, by omega⟩
    have h2 : (m : ℝ) = n - (a : ℕ) := by
      have := congrArg (Nat.cast : ℕ → ℝ) hm; push_cast at this; linarith
    have hr' : ((a : ℕ) : ℝ) < n := by exact_mod_cast ha
    have h1 : (0 : ℝ) < (n : ℝ) - (a : ℕ) := by linarith
    have hn : (0 : ℝ) < n := lt_of_le_of_lt (Nat.cast_nonneg _) hr'
    rw [show n + 1 = (a : ℕ) + 1 + m by omega, sum_tail, nsD_eq ha, h2, nsC, mul_pow,
      Real.sq_sqrt (by positivity)]
    field_simp
  · rcases lt_or_gt_of_ne h with h' | h'
    · exact sp_gram_lt h'
    · rw [← sp_gram_lt h']; exact sum_congr rfl fun _ _ => mul_comm _ _

/-- Inner product of row `k` with `y`. -/
noncomputable def sy {n : ℕ} (y : Fin n → ℝ) (k : ℕ) : ℝ := ∑ i, sp n k i * y i

theorem sy_sum {n : ℕ} (y : Fin n → ℝ) : ∑ k ∈ range (n + 1), sy y k = 0 := by
  unfold sy
  rw [sum_comm]
  refine sum_eq_zero fun i _ => ?_
  rw [← sum_mul, sp_sum, zero_mul]

theorem sy_sq {n : ℕ} (y : Fin n → ℝ) :
    ∑ k ∈ range (n + 1), sy y k ^ 2 = ((n : ℝ) + 1) / n * ∑ i, y i ^ 2 := by
  have e : ∀ k, sy y k ^ 2 = ∑ i, ∑ j, (sp n k i * sp n k j) * (y i * y j) := fun k => by
    unfold sy
    rw [sq, sum_mul_sum]
    exact sum_congr rfl fun i _ => sum_congr rfl fun j _ => by ring
  simp only [e]
  rw [sum_comm, mul_sum]
  refine sum_congr rfl fun i _ => ?_
  rw [sum_comm]
  have : ∀ j, ∑ k ∈ range (n + 1), sp n k i * sp n k j * (y i * y j) =
      if i = j then ((n : ℝ) + 1) / n * y i ^ 2 else 0 := fun j => by
    rw [← sum_mul, sp_gram]
    split_ifs with h
    · subst h; ring
    · ring
  rw [sum_congr rfl fun j _ => this j, sum_ite_eq, if_pos (mem_univ _)]

theorem osum_range_map {n m : ℕ} (r : ℕ → List ℝ) (f : (Fin n → ℝ) → ℝ) :
    osum n ((List.range m).map r) f = ∑ k ∈ range m, f (toVec n (r k)) := by
  unfold osum
  rw [List.map_map, list_range_sum]; rfl

theorem toVec_smulRow {n : ℕ} (c : ℝ) (x : List ℝ) :
    toVec n (Un.smulRow c x) = fun i => c * toVec n x i := by
  funext i
  simp only [toVec, Un.smulRow]
  rw [List.getD_eq_getElem?_getD, List.getD_eq_getElem?_getD, List.getElem?_map]
  cases x[(i : ℕ)]? <;> simp

theorem dot_replicate {n : ℕ} (w : ℝ) (L : List (List ℝ)) (f : (Fin n → ℝ) → ℝ) :
    dot n (List.replicate L.length w) L f = w * osum n L f := by
  unfold dot osum
  induction L with
  | nil => simp
  | cons x L ih => simp only [List.length_cons, List.replicate_succ, List.zipWith_cons_cons,
      List.sum_cons, List.map_cons, ih]; ring

/-- The conditions for degree two of equal weights at `c` times the simplex. -/
theorem simplex_deg2 {n : ℕ} (hn : 1 ≤ n) {J : Spec.Functional n} {ρ : ℕ → ℝ}
    (hl : LinOnMono J) (hm : ∀ α, J (mono α) = J (fun _ => 1) * radMom ρ α) (S : Scheme) (c : ℝ)
    (hs : S.WellShaped n) (hd : S.degree = 2) (h0 : ρ 0 = 1) (hc : c ^ 2 = ρ 2)
    (hS : ∀ f, dot n S.weights S.points f =
      1 / (n + 1) * ∑ k ∈ range (n + 1), f (fun i => c * sp n k i)) :
    S.ExactRel n J := by
  have hn0 : (n : ℝ) ≠ 0 := by positivity
  have e : ∀ (y : Fin n → ℝ) (k : ℕ), ∑ i, c * sp n k i * y i = c * sy y k := fun y k => by
    unfold sy; rw [mul_sum]; exact sum_congr rfl fun i _ => by ring
  refine radial_exact_of_powers hn hl hm S hs ?_ ?_
  · intro k hk hkd y
    rw [hd] at hkd
    have : k = 1 := by rcases hk with ⟨m, rfl⟩; omega
    subst this
    rw [hS]
    simp only [e, pow_one, ← mul_sum, sy_sum]; ring
  · intro m hmd y
    rw [hd] at hmd
    have : m = 0 ∨ m = 1 := by omega
    rcases this with rfl | rfl
    · rw [hS]; simp [sphK, h0]; field_simp
    · rw [hS]
      simp only [e, mul_one, mul_pow, ← mul_sum, sy_sq, hc, sphK, prod_range_one]
      push_cast
      field_simp
      ring

theorem sum_pairs (m : ℕ) (g : ℕ → ℕ → ℝ) (hg : ∀ k l, g k l = g l k) :
    2 * ∑ k ∈ range m, ∑ l ∈ range k, g k l =
      ∑ k ∈ range m, ∑ l ∈ range m, g k l - ∑ k ∈ range m, g k k := by
  induction m with
  | zero => simp
  | succ m ih =>
    rw [sum_range_succ, mul_add, ih, sum_range_succ, sum_range_succ (fun k => g k k)]
    have : ∀ k ∈ range m, ∑ l ∈ range (m + 1), g k l = ∑ l ∈ range m, g k l + g m k := fun k _ => by
      rw [sum_range_succ, hg m k]
    rw [sum_congr rfl this, sum_add_distrib, sum_range_succ (fun l => g m l)]
    ring

theorem pairs_zero {n : ℕ} : ∑ k ∈ range (n + 1), ∑ _l ∈ range k, (1 : ℝ) = n * (n + 1) / 2 := by
  have := sum_pairs (n + 1) (fun _ _ => (1 : ℝ)) (fun _ _ => rfl)
  simp only [sum_const, card_range, nsmul_eq_mul, mul_one] at this ⊢
  push_cast at this
  linarith

theorem pairs_sq {n : ℕ} (y : Fin n → ℝ) :
    ∑ k ∈ range (n + 1), ∑ l ∈ range k, (sy y k + sy y l) ^ 2 =
      (n - 1) * ∑ k ∈ range (n + 1), sy y k ^ 2 := by
  have h := sum_pairs (n + 1) (fun k l => (sy y k + sy y l) ^ 2) (fun _ _ => by ring)
  have h1 := sy_sum y
  have e : ∀ k, ∑ l ∈ range (n + 1), (sy y k + sy y l) ^ 2 =
      (n + 1) * sy y k ^ 2 + ∑ l ∈ range (n + 1), sy y l ^ 2 := fun k => by
    have : ∀ l ∈ range (n + 1), (sy y k + sy y l) ^ 2 =
        sy y k ^ 2 + 2 * sy y k * sy y l + sy y l ^ 2 := fun _ _ => by ring
    rw [sum_congr rfl this, sum_add_distrib, sum_add_distrib, ← mul_sum, h1, sum_const, card_range,
      nsmul_eq_mul]
    push_cast; ring
  simp only [e] at h
  rw [sum_add_distrib, ← mul_sum, sum_const, card_range, nsmul_eq_mul] at h
  have e2 : ∑ k ∈ range (n + 1), (sy y k + sy y k) ^ 2 = 4 * ∑ k ∈ range (n + 1), sy y k ^ 2 := by
    rw [mul_sum]; exact sum_congr rfl fun _ _ => by ring
  rw [e2] at h
  push_cast at h
  linarith

theorem pairs_four {n : ℕ} (y : Fin n → ℝ) :
    ∑ k ∈ range (n + 1), ∑ l ∈ range k, (sy y k + sy y l) ^ 4 =
      (n - 7) * ∑ k ∈ range (n + 1), sy y k ^ 4 + 3 * (∑ k ∈ range (n + 1), sy y k ^ 2) ^ 2 := by
  have h := sum_pairs (n + 1) (fun k l => (sy y k + sy y l) ^ 4) (fun _ _ => by ring)
  have h1 := sy_sum y
  have e : ∀ k, ∑ l ∈ range (n + 1), (sy y k + sy y l) ^ 4 =
      (n + 1) * sy y k ^ 4 + 6 * (∑ l ∈ range (n + 1), sy y l ^ 2) * sy y k ^ 2 +
        4 * (∑ l ∈ range (n + 1), sy y l ^ 3) * sy y k +
        ∑ l ∈ range (n + 1), sy y l ^ 4 := fun k => by
    have : ∀ l ∈ range (n + 1), (sy y k + sy y l) ^ 4 =
        sy y k ^ 4 + 4 * sy y k ^ 3 * sy y l + 6 * sy y k ^ 2 * sy y l ^ 2 +
          4 * sy y k * sy y l ^ 3 + sy y l ^ 4 := fun _ _ => by ring
    rw [sum_congr rfl this]
    simp only [sum_add_distrib, ← mul_sum, h1, sum_const, card_range, nsmul_eq_mul]
    push_cast; ring
  simp only [e] at h
  simp only [sum_add_distrib, ← mul_sum, h1, sum_const, card_range, nsmul_eq_mul] at h
  have e2 : ∑ k ∈ range (n + 1), (sy y k + sy y k) ^ 4 = 16 * ∑ k ∈ range (n + 1), sy y k ^ 4 := by
    rw [mul_sum]; exact sum_congr rfl fun _ _ => by ring
  rw [e2] at h
  push_cast at h
  linarith

/-- The degree five rules on the simplex points and the projected edge midpoints, with their
negatives, scaled by `c`, and the origin. -/
theorem simplex_deg5 {n : ℕ} (hn : 2 ≤ n) {J : Spec.Functional n} {ρ : ℕ → ℝ}
    (hl : LinOnMono J) (hm : ∀ α, J (mono α) = J (fun _ => 1) * radMom ρ α) (S : Scheme)
    (p A B c : ℝ) (hs : S.WellShaped n) (hd : S.degree = 5) (h0 : ρ 0 = 1)
    (hS : ∀ f, dot n S.weights S.points f = p * f 0 +
      A * ∑ k ∈ range (n + 1), (f (fun i => c * sp n k i) + f (fun i => -c * sp n k i)) +
      B * ∑ k ∈ range (n + 1), ∑ l ∈ range k,
        (f (fun i => c * (√(n / (2 * (n - 1))) * (sp n k i + sp n l i))) +
          f (fun i => -c * (√(n / (2 * (n - 1))) * (sp n k i + sp n l i)))))
    (c0 : p + 2 * (n + 1) * A + n * (n + 1) * B = 1)
    (c2 : 2 * c ^ 2 * (A * (n + 1) / n + B * ((n + 1) / 2)) = ρ 2 / n)
    (c4 : A + B * (n ^ 2 / (4 * (n - 1) ^ 2)) * (n - 7) = 0)
    (c4' : 2 * c ^ 4 * (B * (n ^ 2 / (4 * (n - 1) ^ 2)) * 3 * ((n + 1) / n) ^ 2) =
      ρ 4 * 3 / (n * (n + 2))) :
    S.ExactRel n J := by
  have hn0 : (n : ℝ) ≠ 0 := by positivity
  have hn2 : (2 : ℝ) ≤ n := by exact_mod_cast hn
  have hn1 : (n : ℝ) - 1 ≠ 0 := by linarith
  have hr : (0 : ℝ) ≤ n / (2 * (n - 1)) := by apply div_nonneg <;> linarith
  have e : ∀ (c : ℝ) (y : Fin n → ℝ) (k : ℕ), ∑ i, c * sp n k i * y i = c * sy y k := fun c y k => by
    unfold sy; rw [mul_sum]; exact sum_congr rfl fun i _ => by ring
  have e' : ∀ (c : ℝ) (y : Fin n → ℝ) (k l : ℕ),
      ∑ i, c * (√(n / (2 * (n - 1))) * (sp n k i + sp n l i)) * y i =
        c * (√(n / (2 * (n - 1))) * (sy y k + sy y l)) := fun c y k l => by
    unfold sy; rw [← sum_add_distrib, mul_sum, mul_sum]; exact sum_congr rfl fun i _ => by ring
  have ez : ∀ y : Fin n → ℝ, ∑ i, (0 : Fin n → ℝ) i * y i = 0 := fun y => by simp
  refine radial_exact_of_powers (by omega) hl hm S hs ?_ ?_
  · intro k hk hkd y
    rw [hS]
    simp only [e, e', ez]
    rw [zero_pow hk.pos.ne']
    have z1 : ∀ a : ℝ, ∀ t : ℝ, (a * t) ^ k + (-a * t) ^ k = 0 := fun a t => by
      rw [neg_mul, hk.neg_pow]; ring
    simp only [z1, sum_const_zero]; ring
  · intro m hmd y
    rw [hd] at hmd
    have : m = 0 ∨ m = 1 ∨ m = 2 := by omega
    rcases this with rfl | rfl | rfl
    · rw [hS]
      simp only [mul_zero, pow_zero, sphK, prod_range_zero, h0, mul_one]
      have a1 : ∑ k ∈ range (n + 1), ((1 : ℝ) + 1) = 2 * (n + 1) := by simp; ring
      have a2 : ∑ k ∈ range (n + 1), ∑ _l ∈ range k, ((1 : ℝ) + 1) = n * (n + 1) := by
        have := pairs_zero (n := n)
        simp only [sum_add_distrib, this]; ring
      rw [a1, a2]
      linear_combination c0
    · rw [hS]
      simp only [e, e', ez]
      have a1 : ∀ k, (c * sy y k) ^ (2 * 1) + (-c * sy y k) ^ (2 * 1) = 2 * c ^ 2 * sy y k ^ 2 :=
        fun k => by ring
      have a2 : ∀ k l, (c * (√(n / (2 * (n - 1))) * (sy y k + sy y l))) ^ (2 * 1) +
          (-c * (√(n / (2 * (n - 1))) * (sy y k + sy y l))) ^ (2 * 1) =
            2 * c ^ 2 * (n / (2 * (n - 1))) * (sy y k + sy y l) ^ 2 := fun k l => by
        have := Real.sq_sqrt hr
        linear_combination (2 * c ^ 2 * (sy y k + sy y l) ^ 2) * this
      simp only [a1, a2, ← mul_sum, pairs_sq, sy_sq, sphK, prod_range_one]
      push_cast
      have h := c2
      field_simp at h ⊢
      linear_combination (n * ∑ i, y i ^ 2) * h
    · rw [hS]
      simp only [e, e', ez]
      have a1 : ∀ k, (c * sy y k) ^ (2 * 2) + (-c * sy y k) ^ (2 * 2) = 2 * c ^ 4 * sy y k ^ 4 :=
        fun k => by ring
      have a2 : ∀ k l, (c * (√(n / (2 * (n - 1))) * (sy y k + sy y l))) ^ (2 * 2) +
          (-c * (√(n / (2 * (n - 1))) * (sy y k + sy y l))) ^ (2 * 2) =
            2 * c ^ 4 * (n / (2 * (n - 1))) ^ 2 * (sy y k + sy y l) ^ 4 := fun k l => by
        have := sqrt_pow4 hr
        linear_combination (2 * c ^ 4 * (sy y k + sy y l) ^ 4) * this
      simp only [a1, a2, ← mul_sum, pairs_four, sy_sq, sphK, prod_range_succ, prod_range_zero]
      push_cast
      have h := c4
      have h' := c4'
      generalize ∑ k ∈ range (n + 1), sy y k ^ 4 = Q
      generalize ∑ i, y i ^ 2 = Y
      have e1 : B * (2 * c ^ 4 * ((n : ℝ) / (2 * (n - 1))) ^ 2 *
          ((n - 7) * Q + 3 * ((n + 1) / n * Y) ^ 2)) =
          2 * c ^ 4 * Q * (B * (n ^ 2 / (4 * (n - 1) ^ 2)) * (n - 7)) +
          Y ^ 2 * (2 * c ^ 4 * (B * (n ^ 2 / (4 * (n - 1) ^ 2)) * 3 * ((n + 1) / n) ^ 2)) := by
        field_simp; ring
      rw [e1, h']
      have e2 : ρ 4 * 3 / ((n : ℝ) * (n + 2)) = ρ 4 * 3 * (n : ℝ)⁻¹ * ((n : ℝ) + 2)⁻¹ := by
        rw [div_eq_mul_inv, mul_inv]; ring
      rw [e2]
      linear_combination (2 * c ^ 4 * Q) * h

theorem secrestRow_eq {n i : ℕ} (hi : i ≤ n) :
    secrestRow n i = Un.smulRow √(n : ℝ) (nsimplexRow n i) := by
  have key : ∀ k : ℕ, k < n → -√(((n : ℝ) + 1) / ((n + 1 - k) * (n - k))) =
      √(n : ℝ) * -√(((n : ℝ) + 1) / (n * (n - k + 1) * (n - k))) := fun k hk => by
    have hk' : (k : ℝ) < n := by exact_mod_cast hk
    have h1 : (0 : ℝ) < (n : ℝ) - k := by linarith
    have hn : (0 : ℝ) < n := lt_of_le_of_lt (Nat.cast_nonneg _) hk'
    rw [mul_neg, ← Real.sqrt_mul hn.le]
    congr 2
    rw [show (n : ℝ) + 1 - k = n - k + 1 by ring]
    field_simp
  unfold secrestRow nsimplexRow Un.smulRow
  by_cases h : i < n
  · have hk' : (i : ℝ) < n := by exact_mod_cast h
    have h1 : (0 : ℝ) < (n : ℝ) - i := by linarith
    have hn : (0 : ℝ) < n := lt_of_le_of_lt (Nat.cast_nonneg _) hk'
    rw [if_pos h, if_pos h, List.map_append, List.map_map, List.map_cons, List.map_replicate, mul_zero,
      List.append_assoc]
    congr 1
    · apply List.map_congr_left
      intro k hk
      exact key k (lt_of_lt_of_le (List.mem_range.1 hk) hi)
    · rw [List.singleton_append, ← Real.sqrt_mul hn.le]
      congr 2
      rw [show (n : ℝ) + 1 - i = n - i + 1 by ring]
      field_simp
  · have : i = n := by omega
    subst this
    rw [if_neg h, if_neg h, List.append_nil, List.map_map]
    apply List.map_congr_left
    intro k hk
    exact key k (List.mem_range.1 hk)

theorem secrest_deg2 {n : ℕ} (hn : 1 ≤ n) {J : Spec.Functional n} {ρ : ℕ → ℝ}
    (hl : LinOnMono J) (hm : ∀ α, J (mono α) = J (fun _ => 1) * radMom ρ α) (c : ℝ)
    (h0 : ρ 0 = 1) (hc : n * c ^ 2 = ρ 2) :
    (schemeOf n [((1 : ℝ) / (n + 1), (secrestSimplex n).map (Un.smulRow c))] 2).ExactRel n J := by
  have e : (secrestSimplex n).map (Un.smulRow c) =
      (List.range (n + 1)).map fun k => Un.smulRow c (Un.smulRow √(n : ℝ) (nsimplexRow n k)) := by
    unfold secrestSimplex
    rw [List.map_map]
    apply List.map_congr_left
    intro k hk
    have := List.mem_range.1 hk
    simp only [Function.comp]
    rw [secrestRow_eq (by omega)]
  rw [e]
  refine simplex_deg2 hn hl hm _ (c * √(n : ℝ)) (schemeOf_wellShaped n 2 _ ?_) rfl h0 ?_ ?_
  · simp only [List.mem_singleton]
    rintro g rfl x hx
    obtain ⟨k, hk, rfl⟩ := List.mem_map.1 hx
    have := List.mem_range.1 hk
    simp [Un.smulRow, nsimplexRow_length n k (by omega)]
  · rw [mul_pow, Real.sq_sqrt (by positivity), ← hc]; ring
  · intro f
    rw [dot_schemeOf]
    simp only [List.map_cons, List.map_nil, List.sum_cons, List.sum_nil, add_zero, osum_range_map,
      toVec_smulRow, sp, mul_assoc]

theorem edgePoints_length' (n : ℕ) (x : List ℝ) (hx : x ∈ Un.edgePoints n) : x.length = n := by
  simp only [Un.edgePoints, List.mem_flatMap, List.mem_map, List.mem_range] at hx
  obtain ⟨k, hk, l, hl, rfl⟩ := hx
  simp [Un.smulRow, Un.addRow, nsimplexRow_length n k (by omega), nsimplexRow_length n l (by omega)]

theorem nsimplex_length' (n : ℕ) (x : List ℝ) (hx : x ∈ getNsimplexPoints n) : x.length = n := by
  simp only [getNsimplexPoints, List.mem_map, List.mem_range] at hx
  obtain ⟨k, hk, rfl⟩ := hx
  exact nsimplexRow_length n k (by omega)

theorem toVec_addRow {n : ℕ} (x y : List ℝ) (h : x.length = y.length) :
    toVec n (Un.addRow x y) = fun i => toVec n x i + toVec n y i := by
  funext i
  simp only [toVec, Un.addRow, List.getD_eq_getElem?_getD, List.getElem?_zipWith]
  by_cases hi : (i : ℕ) < x.length
  · rw [List.getElem?_eq_getElem hi, List.getElem?_eq_getElem (h ▸ hi)]; simp
  · rw [List.getElem?_eq_none (by omega), List.getElem?_eq_none (by omega)]; simp

theorem osum_flatMap_range {n m : ℕ} (r : ℕ → List (List ℝ)) (f : (Fin n → ℝ) → ℝ) :
    osum n ((List.range m).flatMap r) f = ∑ k ∈ range m, osum n (r k) f := by
  unfold osum
  rw [← list_range_sum]
  induction List.range m with
  | nil => simp
  | cons a L ih => simp [ih]

theorem osum_edge {n : ℕ} (c : ℝ) (f : (Fin n → ℝ) → ℝ) :
    osum n ((Un.edgePoints n).map (Un.smulRow c)) f = ∑ k ∈ range (n + 1), ∑ l ∈ range k,
      f (fun i => c * (√(n / (2 * (n - 1))) * (sp n k i + sp n l i))) := by
  unfold Un.edgePoints
  rw [List.map_flatMap, osum_flatMap_range]
  refine sum_congr rfl fun k hk => ?_
  rw [List.map_map, osum_range_map]
  refine sum_congr rfl fun l hl => ?_
  have h1 := mem_range.1 hk
  have h2 := mem_range.1 hl
  simp only [Function.comp]
  rw [toVec_smulRow, toVec_smulRow, toVec_addRow _ _ (by
    rw [nsimplexRow_length n k (by omega), nsimplexRow_length n l (by omega)])]
  rfl

theorem osum_simplex {n : ℕ} (c : ℝ) (f : (Fin n → ℝ) → ℝ) :
    osum n ((getNsimplexPoints n).map (Un.smulRow c)) f =
      ∑ k ∈ range (n + 1), f (fun i => c * sp n k i) := by
  unfold getNsimplexPoints
  rw [List.map_map, osum_range_map]
  exact sum_congr rfl fun k _ => by simp only [Function.comp, toVec_smulRow]; rfl

theorem smulRow_one (x : List ℝ) : Un.smulRow 1 x = x := by simp [Un.smulRow]

end Quadpy
