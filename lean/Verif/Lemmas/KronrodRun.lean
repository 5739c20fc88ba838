import Verif.Lemmas.KronrodPoly
import Verif.Model.Kronrod

/-!
# What the arrays of `_r_kronrod` hold

Antidiagonals of a table of mixed moments.
-/

namespace Quadpy
namespace OneDim

open Spec Polynomial

section Run

theorem step2_a_even {n m : ℕ} (st : KState) (h : m % 2 = 0) : (kronrodStep2 n st m).a =
    Function.update st.a ((m + 1) / 2 + n + 1) (st.a ((m + 1) / 2) +
      ((kronrodStep2 n st m).t ((m - 1) / 2 - (m + 1 - n) + 1) - st.b ((m + 1) / 2 + n + 1) *
        (kronrodStep2 n st m).t ((m - 1) / 2 - (m + 1 - n) + 2)) /
        st.t ((m - 1) / 2 - (m + 1 - n) + 2)) := if_pos h

theorem step2_a_odd {n m : ℕ} (st : KState) (h : m % 2 ≠ 0) : (kronrodStep2 n st m).a = st.a := if_neg h

theorem step2_b_even {n m : ℕ} (st : KState) (h : m % 2 = 0) : (kronrodStep2 n st m).b = st.b := if_pos h

theorem step2_b_odd {n m : ℕ} (st : KState) (h : m % 2 ≠ 0) : (kronrodStep2 n st m).b =
    Function.update st.b ((m + 1) / 2 + n + 1)
      ((kronrodStep2 n st m).t ((m - 1) / 2 - (m + 1 - n) + 1) /
        (kronrodStep2 n st m).t ((m - 1) / 2 - (m + 1 - n) + 2)) := if_neg h

variable (N : ℕ) (a0 b0 : ℕ → ℝ)

/-- The state before the step `m` of the first loop, for `N + 1` Gauss points. -/
noncomputable def run1 (m : ℕ) : KState :=
  (List.range m).foldl (kronrodStep1 (N + 1)) (kronrodInit (N + 1) a0 b0)

/-- The state before the step `N + j` of the second loop. -/
noncomputable def run2 (j : ℕ) : KState :=
  (List.range' N j).foldl (kronrodStep2 (N + 1)) (kronrodShift (N + 1) (run1 N a0 b0 N))

theorem run1_succ (m : ℕ) : run1 N a0 b0 (m + 1) = kronrodStep1 (N + 1) (run1 N a0 b0 m) m := by
  rw [run1, List.range_succ, List.foldl_append]; rfl

theorem run2_succ (j : ℕ) :
    run2 N a0 b0 (j + 1) = kronrodStep2 (N + 1) (run2 N a0 b0 j) (N + j) := by
  rw [run2, List.range'_1_concat, List.foldl_append]; rfl

/-- The resulting coefficients. -/
noncomputable def outA : ℕ → ℝ := (rKronrod (N + 1) a0 b0).1

noncomputable def outB : ℕ → ℝ := (rKronrod (N + 1) a0 b0).2

theorem outB_eq : outB N a0 b0 = (run2 N a0 b0 N).b := rfl

theorem outA_eq : outA N a0 b0 = Function.update (run2 N a0 b0 N).a (2 * (N + 1))
    ((run2 N a0 b0 N).a N - (run2 N a0 b0 N).b (2 * (N + 1)) * (run2 N a0 b0 N).s 1 /
      (run2 N a0 b0 N).t 1) := rfl

theorem run1_ab (m : ℕ) : (run1 N a0 b0 m).a = (kronrodInit (N + 1) a0 b0).a ∧
    (run1 N a0 b0 m).b = (kronrodInit (N + 1) a0 b0).b := by
  induction m with
  | zero => exact ⟨rfl, rfl⟩
  | succ m ih => rw [run1_succ]; exact ih

/-! ### Coefficients that do not change any more -/

theorem run2_a_stable (j d i : ℕ) (hi : 2 * i < N + j + 2 * (N + 1 + 1)) :
    (run2 N a0 b0 (j + d)).a i = (run2 N a0 b0 j).a i := by
  induction d with
  | zero => rfl
  | succ d ih =>
    rw [← ih, ← Nat.add_assoc, run2_succ]
    by_cases h : (N + (j + d)) % 2 = 0
    · rw [step2_a_even _ h, Function.update_of_ne (by omega)]
    · rw [step2_a_odd _ h]

theorem run2_b_stable (j d i : ℕ) (hi : 2 * i < N + j + 1 + 2 * (N + 1 + 1)) :
    (run2 N a0 b0 (j + d)).b i = (run2 N a0 b0 j).b i := by
  induction d with
  | zero => rfl
  | succ d ih =>
    rw [← ih, ← Nat.add_assoc, run2_succ]
    by_cases h : (N + (j + d)) % 2 = 0
    · rw [step2_b_even _ h]
    · rw [step2_b_odd _ h, Function.update_of_ne (by omega)]

theorem outA_run2 {j i : ℕ} (hj : j ≤ N) (hi : 2 * i < N + j + 2 * (N + 1 + 1))
    (hN : i < 2 * (N + 1)) : (run2 N a0 b0 j).a i = outA N a0 b0 i := by
  rw [outA_eq, Function.update_of_ne (by omega)]
  have := run2_a_stable N a0 b0 j (N - j) i hi
  rw [show j + (N - j) = N by omega] at this
  exact this.symm

theorem outB_run2 {j i : ℕ} (hj : j ≤ N) (hi : 2 * i < N + j + 1 + 2 * (N + 1 + 1)) :
    (run2 N a0 b0 j).b i = outB N a0 b0 i := by
  rw [outB_eq]
  have := run2_b_stable N a0 b0 j (N - j) i hi
  rw [show j + (N - j) = N by omega] at this
  exact this.symm

theorem outA_run1 {m i : ℕ} (hi : 2 * i < N + 2 * (N + 1 + 1)) (hN : i < 2 * (N + 1)) :
    (run1 N a0 b0 m).a i = outA N a0 b0 i := by
  rw [← outA_run2 N a0 b0 (Nat.zero_le N) (by omega) hN, (run1_ab N a0 b0 m).1]
  change _ = (run1 N a0 b0 N).a i
  rw [(run1_ab N a0 b0 N).1]

theorem outB_run1 {m i : ℕ} (hi : 2 * i < N + 1 + 2 * (N + 1 + 1)) :
    (run1 N a0 b0 m).b i = outB N a0 b0 i := by
  rw [← outB_run2 N a0 b0 (Nat.zero_le N) (by omega), (run1_ab N a0 b0 m).2]
  change _ = (run1 N a0 b0 N).b i
  rw [(run1_ab N a0 b0 N).2]

/-! ### The first loop -/

theorem run1_zero (m : ℕ) : (∀ i, m + 2 < 2 * i → (run1 N a0 b0 m).t i = 0) ∧
    (∀ i, m + 1 < 2 * i → (run1 N a0 b0 m).s i = 0) ∧
    (run1 N a0 b0 m).t 0 = 0 ∧ (run1 N a0 b0 m).s 0 = 0 := by
  induction m with
  | zero =>
    refine ⟨fun i hi => ?_, fun i hi => rfl, rfl, rfl⟩
    exact if_neg (by omega)
  | succ m ih =>
    rw [run1_succ]
    refine ⟨fun i hi => ?_, fun i hi => ih.1 i (by omega), ?_, ih.2.2.1⟩
    · simp only [kronrodStep1]
      rw [if_neg (by omega)]
      exact ih.2.1 i (by omega)
    · simp only [kronrodStep1]
      rw [if_neg (by omega)]
      exact ih.2.2.2

theorem run1_step {m k : ℕ} (hk : 2 * k ≤ m + 1) : (run1 N a0 b0 (m + 1)).t (k + 1) =
    ((run1 N a0 b0 m).a (k + (N + 1) + 1) - (run1 N a0 b0 m).a (m - k)) * (run1 N a0 b0 m).t (k + 1) +
      (run1 N a0 b0 m).b (k + (N + 1) + 1) * (run1 N a0 b0 m).s k -
      (run1 N a0 b0 m).b (m - k) * (run1 N a0 b0 m).s (k + 1) + (run1 N a0 b0 (m + 1)).t (k + 2) := by
  have hz := (run1_zero N a0 b0 (m + 1)).1 (k + 2)
  rw [run1_succ] at hz ⊢
  by_cases h : 2 * (k + 1) ≤ m + 1
  · simp only [kronrodStep1]
    rw [if_pos (by omega), if_pos (by omega), Nat.add_sub_cancel,
      ← Finset.add_sum_Ioc_eq_sum_Icc (by omega)]
    congr 1
    refine Finset.sum_congr ?_ fun _ _ => rfl
    ext i; simp only [Finset.mem_Ioc, Finset.mem_Icc]; omega
  · rw [hz (by omega), add_zero]
    simp only [kronrodStep1]
    rw [if_pos (by omega), Nat.add_sub_cancel, show (m + 1) / 2 = k by omega, Finset.Icc_self,
      Finset.sum_singleton]

/-! ### The second loop -/

theorem run2_step_first {j : ℕ} (hj : j < N) : (run2 N a0 b0 (j + 1)).t 1 =
    -((run2 N a0 b0 j).a (j + (N + 1) + 1) - (run2 N a0 b0 j).a N) * (run2 N a0 b0 j).t 1 -
      (run2 N a0 b0 j).b (j + (N + 1) + 1) * (run2 N a0 b0 j).s 1 +
      (run2 N a0 b0 j).b N * (run2 N a0 b0 j).s 2 := by
  rw [run2_succ]
  simp only [kronrodStep2]
  rw [if_pos (by omega), show N + j + 1 - (N + 1) = j by omega]
  simp [show N + j - j = N by omega]

theorem run2_step {j k : ℕ} (hk : j < k) (hk1 : 2 * k + 1 ≤ N + j) :
    (run2 N a0 b0 (j + 1)).t (k - j + 1) = (run2 N a0 b0 (j + 1)).t (k - j) +
    (-((run2 N a0 b0 j).a (k + (N + 1) + 1) - (run2 N a0 b0 j).a (N + j - k)) *
        (run2 N a0 b0 j).t (k - j + 1) -
      (run2 N a0 b0 j).b (k + (N + 1) + 1) * (run2 N a0 b0 j).s (k - j + 1) +
      (run2 N a0 b0 j).b (N + j - k) * (run2 N a0 b0 j).s (k - j + 2)) := by
  rw [run2_succ]
  simp only [kronrodStep2]
  rw [if_pos (by omega), if_pos (by omega), show N + j + 1 - (N + 1) = j by omega,
    show j + (k - j + 1 - 1) = k - 1 + 1 by omega, show j + (k - j - 1) = k - 1 by omega,
    Finset.sum_Icc_succ_top (by omega), show k - 1 + 1 = k by omega]

theorem run2_rest {j i : ℕ} (hi : (N + j - 1) / 2 - j + 1 < i) :
    (run2 N a0 b0 (j + 1)).t i = (run2 N a0 b0 j).s i := by
  rw [run2_succ]
  simp only [kronrodStep2]
  rw [if_neg (by omega)]

/-! ### The table -/

/-- The mixed moment in the row `k` of the antidiagonal `d`. -/
noncomputable def anti (d k : ℕ) : ℝ :=
  if d ≤ N then (run1 N a0 b0 d).t (k + 1) else (run2 N a0 b0 (d - N)).t (k + 1 - (d - N))

theorem run2_t {j k : ℕ} (hk : j ≤ k) : (run2 N a0 b0 j).t (k - j + 1) = anti N a0 b0 (N + j) k := by
  rw [anti]
  rcases Nat.eq_zero_or_pos j with rfl | h
  · rw [if_pos (by omega)]; rfl
  · rw [if_neg (by omega), Nat.add_sub_cancel_left, show k + 1 - j = k - j + 1 by omega]

theorem run1_t {m k : ℕ} (hm : m ≤ N) : (run1 N a0 b0 m).t (k + 1) = anti N a0 b0 m k := by
  rw [anti, if_pos hm]

theorem run1_s {m k : ℕ} (hm : m + 1 ≤ N) : (run1 N a0 b0 (m + 1)).s (k + 1) = anti N a0 b0 m k := by
  rw [run1_succ, anti, if_pos (by omega)]; rfl

theorem run2_s {j k : ℕ} (hk : j ≤ k) (h1 : 2 * k + 1 ≤ N + j) :
    (run2 N a0 b0 j).s (k - j + 2) = anti N a0 b0 (N + j - 1) k := by
  cases j with
  | zero =>
    change (kronrodShift (N + 1) (run1 N a0 b0 N)).s (k + 2) = _
    simp only [kronrodShift]
    rw [if_pos (by omega), show k + 2 - 1 = k + 1 by omega]
    have := run1_s N a0 b0 (m := N - 1) (k := k) (by omega)
    rwa [show N - 1 + 1 = N by omega] at this
  | succ j =>
    have := run2_t N a0 b0 (j := j) (k := k) (by omega)
    rw [run2_succ]
    change (run2 N a0 b0 j).t _ = _
    rw [show k - (j + 1) + 2 = k - j + 1 by omega, this]
    rfl

theorem run2_s_one (j : ℕ) : (run2 N a0 b0 j).s 1 = if j = 0 then 0 else anti N a0 b0 (N + j - 1) (j - 1) := by
  cases j with
  | zero =>
    change (kronrodShift (N + 1) (run1 N a0 b0 N)).s 1 = _
    simp only [kronrodShift]
    rw [if_pos (by omega), if_pos trivial]
    exact (run1_zero N a0 b0 N).2.2.2
  | succ j =>
    have := run2_t N a0 b0 (j := j) (k := j) le_rfl
    rw [run2_succ, if_neg (by omega)]
    change (run2 N a0 b0 j).t _ = _
    rw [Nat.sub_self, zero_add] at this
    exact this

/-- The table of mixed moments. -/
noncomputable def table (k l : ℕ) : ℝ := if k ≤ l ∧ l ≤ N then anti N a0 b0 (k + l) k else 0

theorem table_eq {k l : ℕ} (h : k ≤ l) (hl : l ≤ N) : table N a0 b0 k l = anti N a0 b0 (k + l) k :=
  if_pos ⟨h, hl⟩

theorem table_below {k l : ℕ} (h : l < k) : table N a0 b0 k l = 0 := if_neg (by omega)

theorem table_right {k l : ℕ} (h : N < l) : table N a0 b0 k l = 0 := if_neg (by omega)

/-- In the first triangle the table needs no case distinction. -/
theorem table_first {k l : ℕ} (h : k + l ≤ N) : table N a0 b0 k l = anti N a0 b0 (k + l) k := by
  rcases Nat.lt_or_ge l k with hl | hl
  · rw [table_below N a0 b0 hl, anti, if_pos h, (run1_zero N a0 b0 (k + l)).1 _ (by omega)]
  · exact table_eq N a0 b0 hl (by omega)

theorem table_step_first {k l : ℕ} (h : k + l < N) (hkl : k ≤ l + 1) :
    table N a0 b0 (k + 1) l + outA N a0 b0 (k + (N + 1) + 1) * table N a0 b0 k l +
      (if k = 0 then 0 else outB N a0 b0 (k + (N + 1) + 1) * table N a0 b0 (k - 1) l) =
    table N a0 b0 k (l + 1) + outA N a0 b0 l * table N a0 b0 k l +
      (if l = 0 then 0 else outB N a0 b0 l * table N a0 b0 k (l - 1)) := by
  have hs := run1_step N a0 b0 (m := k + l) (k := k) (by omega)
  rw [show k + 2 = k + 1 + 1 by ring, run1_t N a0 b0 (by omega), run1_t N a0 b0 (by omega),
    run1_t N a0 b0 (by omega), Nat.add_sub_cancel_left,
    outA_run1 N a0 b0 (i := l) (by omega) (by omega),
    outB_run1 N a0 b0 (i := l) (by omega), outB_run1 N a0 b0 (i := k + (N + 1) + 1) (by omega)] at hs
  rw [table_first N a0 b0 (k := k + 1) (by omega), table_first N a0 b0 (k := k) (l := l) (by omega),
    table_first N a0 b0 (k := k) (l := l + 1) (by omega), show k + 1 + l = k + l + 1 by ring,
    show k + (l + 1) = k + l + 1 by ring]
  have e1 : (run1 N a0 b0 (k + l)).a (k + (N + 1) + 1) * anti N a0 b0 (k + l) k =
      outA N a0 b0 (k + (N + 1) + 1) * anti N a0 b0 (k + l) k := by
    rcases Nat.lt_or_ge l k with hl | hl
    · rw [anti, if_pos h.le, (run1_zero N a0 b0 (k + l)).1 _ (by omega), mul_zero, mul_zero]
    · rw [outA_run1 N a0 b0 (by omega) (by omega)]
  have e2 : (run1 N a0 b0 (k + l)).s k = if k = 0 then 0 else table N a0 b0 (k - 1) l := by
    split_ifs with h0
    · subst h0; exact (run1_zero N a0 b0 (0 + l)).2.2.2
    · obtain ⟨k, rfl⟩ := Nat.exists_eq_succ_of_ne_zero h0
      rw [Nat.succ_eq_add_one, show k + 1 + l = k + l + 1 by ring, run1_s N a0 b0 (by omega),
        Nat.add_sub_cancel, table_first N a0 b0 (by omega)]
  have e3 : (run1 N a0 b0 (k + l)).s (k + 1) = if l = 0 then 0 else table N a0 b0 k (l - 1) := by
    split_ifs with h0
    · subst h0; exact (run1_zero N a0 b0 (k + 0)).2.1 _ (by omega)
    · obtain ⟨l, rfl⟩ := Nat.exists_eq_succ_of_ne_zero h0
      rw [Nat.succ_eq_add_one, show k + (l + 1) = k + l + 1 by ring, run1_s N a0 b0 (by omega),
        Nat.add_sub_cancel, table_first N a0 b0 (by omega)]
  rw [e2, e3] at hs
  simp only [mul_ite, mul_zero] at hs
  linarith

theorem table_step_second {k l : ℕ} (h : N ≤ k + l) (hkl : k < l) (hl : l ≤ N) :
    table N a0 b0 (k + 1) l + outA N a0 b0 (k + (N + 1) + 1) * table N a0 b0 k l +
      (if k = 0 then 0 else outB N a0 b0 (k + (N + 1) + 1) * table N a0 b0 (k - 1) l) =
    table N a0 b0 k (l + 1) + outA N a0 b0 l * table N a0 b0 k l +
      (if l = 0 then 0 else outB N a0 b0 l * table N a0 b0 k (l - 1)) := by
  obtain ⟨j, hj⟩ := Nat.exists_eq_add_of_le h
  have hjN : j < N := by omega
  have hjk : j ≤ k := by omega
  have t1 := run2_t N a0 b0 (j := j) hjk
  have s1 := run2_s N a0 b0 (j := j) hjk (by omega)
  have ea : (run2 N a0 b0 j).a (k + (N + 1) + 1) = outA N a0 b0 (k + (N + 1) + 1) :=
    outA_run2 N a0 b0 hjN.le (by omega) (by omega)
  have eb : (run2 N a0 b0 j).b (k + (N + 1) + 1) = outB N a0 b0 (k + (N + 1) + 1) :=
    outB_run2 N a0 b0 hjN.le (by omega)
  have ea' : (run2 N a0 b0 j).a l = outA N a0 b0 l := outA_run2 N a0 b0 hjN.le (by omega) (by omega)
  have eb' : (run2 N a0 b0 j).b l = outB N a0 b0 l := outB_run2 N a0 b0 hjN.le (by omega)
  have hn := run2_t N a0 b0 (j := j + 1) (k := k + 1) (by omega)
  rw [show k + 1 - (j + 1) + 1 = k - j + 1 by omega] at hn
  rw [table_eq N a0 b0 (k := k + 1) hkl hl, table_eq N a0 b0 hkl.le hl, if_neg (show l ≠ 0 by omega),
    table_eq N a0 b0 (k := k) (l := l - 1) (by omega) (by omega),
    show k + 1 + l = N + (j + 1) by omega, hj, show k + (l - 1) = N + j - 1 by omega, ← hn, ← t1, ← s1]
  have s2 : (run2 N a0 b0 j).s (k - j + 1) = if k = 0 then 0 else table N a0 b0 (k - 1) l := by
    rcases hjk.lt_or_eq with hlt | rfl
    · rw [if_neg (by omega), table_eq N a0 b0 (by omega) hl]
      have := run2_s N a0 b0 (j := j) (k := k - 1) (by omega) (by omega)
      rw [show k - 1 - j + 2 = k - j + 1 by omega] at this
      rw [this, show k - 1 + l = N + j - 1 by omega]
    · rw [Nat.sub_self, zero_add, run2_s_one]
      split_ifs with h0
      · rfl
      · rw [table_eq N a0 b0 (by omega) hl, show j - 1 + l = N + j - 1 by omega]
  rcases hjk.lt_or_eq with hlt | rfl
  · have hs := run2_step N a0 b0 hlt (by omega)
    rw [show N + j - k = l by omega, ea, ea', eb, eb', s2] at hs
    have hn' := run2_t N a0 b0 (j := j + 1) (k := k) (by omega)
    rw [show k - (j + 1) + 1 = k - j by omega] at hn'
    rw [table_eq N a0 b0 (k := k) (l := l + 1) (by omega) (by omega), show k + (l + 1) = N + (j + 1) by omega,
      ← hn', hs]
    simp only [mul_ite, mul_zero]
    ring
  · have hs := run2_step_first N a0 b0 hjN
    have hlN : N = l := by omega
    subst hlN
    rw [Nat.sub_self, zero_add] at s2
    rw [Nat.sub_self]
    simp only [zero_add]
    rw [table_right N a0 b0 (l := N + 1) (by omega), hs, ea, ea', eb, eb', s2]
    simp only [mul_ite, mul_zero]
    ring

theorem table_step_diag {k : ℕ} (h : N ≤ 2 * k) (hk : k ≤ N) (h0 : table N a0 b0 k k ≠ 0) :
    outA N a0 b0 (k + (N + 1) + 1) * table N a0 b0 k k +
      (if k = 0 then 0 else outB N a0 b0 (k + (N + 1) + 1) * table N a0 b0 (k - 1) k) =
    table N a0 b0 k (k + 1) + outA N a0 b0 k * table N a0 b0 k k := by
  have et := table_eq N a0 b0 (le_refl k) hk
  rcases hk.lt_or_eq with hk | rfl
  · obtain ⟨j, hj⟩ := Nat.exists_eq_add_of_le h
    have h2 := run2_t N a0 b0 (j := j) (k := k) (by omega)
    have h3 := run2_t N a0 b0 (j := j + 1) (k := k) (by omega)
    have h4 := run2_rest N a0 b0 (j := j) (i := k - j + 1) (by omega)
    have h5 := run2_s N a0 b0 (j := j) (k := k - 1) (by omega) (by omega)
    have ea := outA_run2 N a0 b0 (j := j + 1) (i := k + (N + 1) + 1) (by omega) (by omega) (by omega)
    rw [run2_succ, step2_a_even _ (by omega), show (N + j + 1) / 2 = k by omega, Function.update_self,
      ← run2_succ, show (N + j - 1) / 2 - (N + j + 1 - (N + 1)) + 1 = k - j by omega,
      show (N + j - 1) / 2 - (N + j + 1 - (N + 1)) + 2 = k - j + 1 by omega, h4, h2,
      outA_run2 N a0 b0 (by omega) (by omega) (by omega), outB_run2 N a0 b0 (by omega) (by omega)] at ea
    rw [show k - 1 - j + 2 = k - j + 1 by omega] at h5
    rw [show k - (j + 1) + 1 = k - j by omega] at h3
    rw [h3, h5] at ea
    rw [if_neg (show k ≠ 0 by omega), table_eq N a0 b0 (k := k - 1) (by omega) (by omega),
      table_eq N a0 b0 (k := k) (l := k + 1) (by omega) (by omega)]
    rw [et] at h0 ⊢
    rw [show k + k = N + j by omega] at h0 ⊢
    rw [show k - 1 + k = N + j - 1 by omega, show k + (k + 1) = N + (j + 1) by omega, ← ea]
    field_simp
    ring
  · rw [table_right k a0 b0 (l := k + 1) (by omega), outA_eq, show k + (k + 1) + 1 = 2 * (k + 1) by ring,
      Function.update_self, Function.update_of_ne (by omega), run2_s_one, ← outB_eq]
    have h2 := run2_t k a0 b0 (j := k) le_rfl
    rw [Nat.sub_self, zero_add, ← et] at h2
    rw [h2]
    split_ifs with hz
    · field_simp; ring
    · rw [table_eq k a0 b0 (k := k - 1) (by omega) le_rfl, show k - 1 + k = k + k - 1 by omega]
      field_simp
      ring

theorem table_step_sub {k : ℕ} (hk0 : k ≠ 0) (h : N ≤ 2 * k - 1) (hk : k ≤ N)
    (h0 : table N a0 b0 (k - 1) (k - 1) ≠ 0) :
    outB N a0 b0 (k + (N + 1) + 1) * table N a0 b0 (k - 1) (k - 1) = table N a0 b0 k k := by
  obtain ⟨j, hj⟩ := Nat.exists_eq_add_of_le h
  have h3 := run2_t N a0 b0 (j := j + 1) (k := k) (by omega)
  have h4 := run2_rest N a0 b0 (j := j) (i := k - j + 1) (by omega)
  have h5 := run2_s N a0 b0 (j := j) (k := k - 1) (by omega) (by omega)
  have eb := outB_run2 N a0 b0 (j := j + 1) (i := k + (N + 1) + 1) (by omega) (by omega)
  rw [run2_succ, step2_b_odd _ (by omega), show (N + j + 1) / 2 = k by omega, Function.update_self,
    ← run2_succ, show (N + j - 1) / 2 - (N + j + 1 - (N + 1)) + 1 = k - j by omega,
    show (N + j - 1) / 2 - (N + j + 1 - (N + 1)) + 2 = k - j + 1 by omega, h4] at eb
  rw [show k - 1 - j + 2 = k - j + 1 by omega] at h5
  rw [show k - (j + 1) + 1 = k - j by omega] at h3
  rw [h3, h5] at eb
  rw [table_eq N a0 b0 (k := k - 1) le_rfl (by omega), show k - 1 + (k - 1) = N + j - 1 by omega] at h0 ⊢
  rw [table_eq N a0 b0 le_rfl hk, show k + k = N + (j + 1) by omega, ← eb]
  field_simp

/-- The diagonal has no zero when the computation divides by none. -/
theorem table_diag (hb : ∀ i ≤ N + 1 + (N + 1 + 1) / 2, N + 1 ≤ i → b0 i ≠ 0)
    (hr : KronrodRegular (N + 1) a0 b0) {k : ℕ} (hk : k ≤ N) : table N a0 b0 k k ≠ 0 := by
  induction k with
  | zero =>
    rw [table_eq N a0 b0 le_rfl hk, anti, if_pos (by omega)]
    change (if 1 = 1 then if N + 1 + 1 < kronrodLength (N + 1) then b0 (N + 1 + 1) else 0 else 0) ≠ 0
    rw [if_pos rfl, if_pos (by rw [kronrodLength]; omega)]
    exact hb _ (by omega) (by omega)
  | succ k ih =>
    have ih := ih (by omega)
    by_cases h1 : k + 1 + k < N
    · have := table_step_first N a0 b0 h1 (by omega)
      rw [table_below N a0 b0 (by omega), table_below N a0 b0 (k := k + 1) (l := k) (by omega),
        if_neg (by omega), Nat.add_sub_cancel] at this
      have e2 : (if k = 0 then 0 else outB N a0 b0 k * table N a0 b0 (k + 1) (k - 1)) = 0 := by
        split_ifs
        · rfl
        · rw [table_below N a0 b0 (by omega), mul_zero]
      rw [e2] at this
      have e3 : table N a0 b0 (k + 1) (k + 1) = outB N a0 b0 (k + 1 + (N + 1) + 1) * table N a0 b0 k k := by
        linarith
      rw [e3]
      refine mul_ne_zero ?_ ih
      rw [← outB_run1 N a0 b0 (m := 0) (by omega)]
      change (if _ < kronrodLength (N + 1) then b0 _ else 0) ≠ 0
      rw [if_pos (by rw [kronrodLength]; omega)]
      exact hb _ (by omega) (by omega)
    · rw [table_eq N a0 b0 le_rfl hk]
      obtain ⟨j, hj⟩ := Nat.exists_eq_add_of_le (show N ≤ k + 1 + (k + 1) by omega)
      have h2 := run2_t N a0 b0 (j := j) (k := k + 1) (by omega)
      rw [hj, ← h2]
      obtain ⟨r1, r2⟩ := hr
      rcases hk.lt_or_eq with hlt | heq
      · have := r1 j (by omega)
        change kronrodDivisor (N + 1) (run2 N a0 b0 j) (N + j) ≠ 0 at this
        simp only [kronrodDivisor] at this
        rwa [if_pos (by omega),
          show (N + j - 1) / 2 - (N + j + 1 - (N + 1)) + 2 = k + 1 - j + 1 by omega] at this
      · change (run2 N a0 b0 N).t 1 ≠ 0 at r2
        rwa [show j = N by omega, show k + 1 - N + 1 = 1 by omega]

theorem table_mixed (hb : ∀ i ≤ N + 1 + (N + 1 + 1) / 2, N + 1 ≤ i → b0 i ≠ 0)
    (hr : KronrodRegular (N + 1) a0 b0) :
    MixedTable (N + 1) (outA N a0 b0) (outB N a0 b0) (fun k => outA N a0 b0 (k + (N + 1) + 1))
      (fun k => outB N a0 b0 (k + (N + 1) + 1)) (table N a0 b0) := by
  have hd : ∀ k ≤ N, table N a0 b0 k k ≠ 0 := fun k hk => table_diag N a0 b0 hb hr hk
  refine ⟨fun k hk l hl => ?_, fun k _ => table_right N a0 b0 (by omega),
    fun k l h => table_below N a0 b0 h, fun k hk => hd k (by omega)⟩
  rcases Nat.lt_or_ge (l + 1) k with h1 | h1
  · rw [table_below N a0 b0 (k := k + 1) (by omega), table_below N a0 b0 (k := k) (by omega),
      table_below N a0 b0 (k := k) (by omega), if_neg (by omega), table_below N a0 b0 (by omega)]
    split_ifs
    · simp
    · rw [table_below N a0 b0 (by omega)]; simp
  · by_cases h2 : k + l < N
    · exact table_step_first N a0 b0 h2 h1
    rcases Nat.lt_or_ge k l with h3 | h3
    · exact table_step_second N a0 b0 (by omega) h3 (by omega)
    rcases Nat.lt_or_ge l k with h4 | h4
    · obtain rfl : k = l + 1 := by omega
      have := table_step_sub N a0 b0 (k := l + 1) (by omega) (by omega) (by omega) (hd _ (by omega))
      rw [Nat.add_sub_cancel] at this
      rw [table_below N a0 b0 (by omega), table_below N a0 b0 (k := l + 1) (l := l) (by omega),
        if_neg (by omega), Nat.add_sub_cancel, this]
      split_ifs
      · ring
      · rw [table_below N a0 b0 (l := l - 1) (by omega)]; ring
    · obtain rfl : k = l := by omega
      have := table_step_diag N a0 b0 (k := k) (by omega) (by omega) (hd _ (by omega))
      rw [table_below N a0 b0 (k := k + 1) (by omega), zero_add, this]
      split_ifs
      · ring
      · rw [table_below N a0 b0 (l := k - 1) (by omega)]; ring

end Run

end OneDim
end Quadpy
