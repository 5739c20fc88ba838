import Verif.Model.Scheme
import Mathlib.Algebra.BigOperators.Fin
import Mathlib.Data.List.GetD
import Mathlib.Algebra.BigOperators.Intervals
import Mathlib.Tactic.FieldSimp
import Mathlib.Tactic.Linarith
import Mathlib.Tactic.Positivity
import Mathlib.Tactic.Ring

/-! C06: `get_nsimplex_points(n)` is a regular simplex inscribed in the unit sphere. -/

namespace Quadpy
open Finset

/-- Entries below the diagonal. -/
noncomputable def nsC (n : ℕ) (i : ℕ) : ℝ :=
  Real.sqrt (((n : ℝ) + 1) / ((n : ℝ) * ((n : ℝ) - i + 1) * ((n : ℝ) - i)))

/-- Diagonal entries. -/
noncomputable def nsD (n : ℕ) (r : ℕ) : ℝ :=
  Real.sqrt ((((n : ℝ) + 1) * ((n : ℝ) - r)) / ((n : ℝ) * ((n : ℝ) - r + 1)))

theorem nsimplexRow_length (n r : ℕ) (hr : r ≤ n) : (nsimplexRow n r).length = n := by
  unfold nsimplexRow
  split_ifs with h
  · simp; omega
  · simp; omega

theorem nsimplexRow_getD (n r i : ℕ) (hi : i < n) : (nsimplexRow n r).getD i 0 =
    if i < r then -nsC n i else if i = r then nsD n r else 0 := by
  unfold nsimplexRow
  rcases Nat.lt_or_ge r n with h1 | h1
  all_goals rcases lt_trichotomy i r with h2 | h3 | h3
  all_goals try rw [if_pos h1]
  all_goals try rw [if_neg (not_lt.2 h1)]
  · rw [if_pos h2, List.getD_append _ _ _ _ (by simpa using h2)]
    simp [h2, nsC]
  · subst h3
    rw [if_neg (lt_irrefl _), if_pos rfl, List.getD_append_right _ _ _ _ (by simp)]
    simp [nsD]
  · rw [if_neg (by omega), if_neg (by omega), List.getD_append_right _ _ _ _ (by simp; omega)]
    obtain ⟨k, hk⟩ : ∃ k, i - r = k + 1 := ⟨i - r - 1, by omega⟩
    simp only [List.length_map, List.length_range, hk, List.getD_cons_succ]
    simp only [List.getD_eq_getElem?_getD, List.getElem?_replicate]
    split_ifs <;> rfl
  · rw [if_pos h2, List.append_nil]
    simp [h2, nsC]
  · omega
  · omega

/-- Telescoping sum. -/
theorem sum_nsC_sq (n r : ℕ) (hr : r ≤ n) (hn : 1 ≤ n) :
    ∑ i ∈ range r, nsC n i ^ 2 =
      ((n : ℝ) + 1) / n * (1 / ((n : ℝ) - r + 1) - 1 / ((n : ℝ) + 1)) := by
  have hn' : (1 : ℝ) ≤ n := by exact_mod_cast hn
  induction r with
  | zero => simp
  | succ r ih =>
    have hr' : (r : ℝ) + 1 ≤ n := by exact_mod_cast hr
    have h1 : (0 : ℝ) < (n : ℝ) - r := by linarith
    rw [sum_range_succ, ih (by omega), nsC, Real.sq_sqrt (by positivity)]
    push_cast
    have h2 : (n : ℝ) - (r + 1) + 1 = n - r := by ring
    rw [h2]
    field_simp
    ring

theorem nsD_sq (n r : ℕ) (hr : r ≤ n) (hn : 1 ≤ n) :
    nsD n r ^ 2 = (((n : ℝ) + 1) * ((n : ℝ) - r)) / ((n : ℝ) * ((n : ℝ) - r + 1)) := by
  have hr' : (r : ℝ) ≤ n := by exact_mod_cast hr
  have h1 : (0 : ℝ) ≤ (n : ℝ) - r := by linarith
  rw [nsD, Real.sq_sqrt (by positivity)]

theorem nsC_mul_nsD (n r : ℕ) (hr : r < n) :
    nsC n r * nsD n r = ((n : ℝ) + 1) / (n * ((n : ℝ) - r + 1)) := by
  have hr' : (r : ℝ) < n := by exact_mod_cast hr
  have h1 : (0 : ℝ) < (n : ℝ) - r := by linarith
  have hn : (0 : ℝ) < n := lt_of_le_of_lt (Nat.cast_nonneg r) hr'
  rw [nsC, nsD, ← Real.sqrt_mul (by positivity)]
  rw [show ((n : ℝ) + 1) / (n * (n - r + 1) * (n - r)) * ((n + 1) * (n - r) / (n * (n - r + 1))) =
    (((n : ℝ) + 1) / (n * ((n : ℝ) - r + 1))) ^ 2 by field_simp]
  exact Real.sqrt_sq (by positivity)

theorem sum_fin_ite (n r : ℕ) (hr : r ≤ n) (g : ℕ → ℝ) (d : ℝ) (hd : r = n → d = 0) :
    ∑ i : Fin n, (if i.val < r then g i else if i.val = r then d else 0) =
      ∑ i ∈ range r, g i + d := by
  rw [← Finset.sum_range (fun i => if i < r then g i else if i = r then d else 0)]
  rcases Nat.lt_or_ge r n with h | h
  · obtain ⟨k, rfl⟩ : ∃ k, n = (r + 1) + k := ⟨n - (r + 1), by omega⟩
    rw [Finset.sum_range_add]
    have h2 : ∑ x ∈ range k, (if r + 1 + x < r then g (r + 1 + x) else
        if r + 1 + x = r then d else 0) = 0 := by
      apply Finset.sum_eq_zero
      intro x _
      rw [if_neg (by omega), if_neg (by omega)]
    rw [h2, add_zero, Finset.sum_range_succ, if_neg (lt_irrefl r), if_pos rfl]
    congr 1
    apply Finset.sum_congr rfl
    intro i hi
    rw [if_pos (Finset.mem_range.1 hi)]
  · have : r = n := le_antisymm hr h
    subst this
    rw [hd rfl, add_zero]
    apply Finset.sum_congr rfl
    intro i hi
    rw [if_pos (Finset.mem_range.1 hi)]

theorem nsimplex_norm (n r : ℕ) (hn : 1 ≤ n) (hr : r ≤ n) :
    ∑ i : Fin n, toVec n (nsimplexRow n r) i ^ 2 = 1 := by
  have hn' : (1 : ℝ) ≤ n := by exact_mod_cast hn
  have hr' : (r : ℝ) ≤ n := by exact_mod_cast hr
  have h1 : (0 : ℝ) ≤ (n : ℝ) - r := by linarith
  have : ∀ i : Fin n, toVec n (nsimplexRow n r) i ^ 2 =
      if i.val < r then nsC n i ^ 2 else if i.val = r then nsD n r ^ 2 else 0 := by
    intro i
    rw [toVec, nsimplexRow_getD n r i i.isLt]
    split_ifs <;> ring
  rw [sum_congr rfl fun i _ => this i, sum_fin_ite n r hr (fun i => nsC n i ^ 2), sum_nsC_sq n r hr hn,
    nsD_sq n r hr hn]
  · field_simp
    ring
  · rintro rfl
    rw [nsD_sq r r le_rfl hn]; simp

theorem nsimplex_inner (n r s : ℕ) (hn : 1 ≤ n) (hrs : r < s) (hs : s ≤ n) :
    ∑ i : Fin n, toVec n (nsimplexRow n r) i * toVec n (nsimplexRow n s) i = -1 / n := by
  have hn' : (1 : ℝ) ≤ n := by exact_mod_cast hn
  have hr' : (r : ℝ) < n := by exact_mod_cast (lt_of_lt_of_le hrs hs)
  have h1 : (0 : ℝ) < (n : ℝ) - r := by linarith
  have : ∀ i : Fin n, toVec n (nsimplexRow n r) i * toVec n (nsimplexRow n s) i =
      if i.val < r then nsC n i ^ 2 else if i.val = r then -(nsC n r * nsD n r) else 0 := by
    intro i
    rw [toVec, toVec, nsimplexRow_getD n r i i.isLt, nsimplexRow_getD n s i i.isLt]
    rcases lt_trichotomy i.val r with h | h | h
    · rw [if_pos h, if_pos (by omega), if_pos h]; ring
    · rw [if_neg (by omega), if_pos h, if_pos (by omega), if_neg (by omega), if_pos h, h]; ring
    · rw [if_neg (by omega), if_neg (by omega), if_neg (by omega : ¬ i.val < r),
        if_neg (by omega : ¬ i.val = r)]; ring
  rw [sum_congr rfl fun i _ => this i, sum_fin_ite n r (by omega) (fun i => nsC n i ^ 2),
    sum_nsC_sq n r (by omega) hn, nsC_mul_nsD n r (by omega)]
  · field_simp
    ring
  · intro h; omega

/-- C06: shape, `n + 1` rows of length `n`. -/
theorem C06_shape (n : ℕ) : (getNsimplexPoints n).length = n + 1 ∧
    ∀ row ∈ getNsimplexPoints n, row.length = n := by
  refine ⟨by simp [getNsimplexPoints], ?_⟩
  intro row hrow
  obtain ⟨r, hr, rfl⟩ := List.mem_map.1 hrow
  exact nsimplexRow_length n r (Nat.lt_succ_iff.1 (List.mem_range.1 hr))

/-- C06: all rows have Euclidean norm 1, and any two different rows have inner product `-1/n`
(so all edges have equal length and the points are a regular simplex). -/
theorem C06_regular (n : ℕ) (hn : 1 ≤ n) (r s : Fin (getNsimplexPoints n).length) :
    ∑ i : Fin n, toVec n (getNsimplexPoints n)[r] i * toVec n (getNsimplexPoints n)[s] i =
      if r = s then (1 : ℝ) else -1 / n := by
  have hlen := (C06_shape n).1
  have hr : r.val ≤ n := by have := r.isLt; omega
  have hs : s.val ≤ n := by have := s.isLt; omega
  have e : ∀ r : Fin (getNsimplexPoints n).length, (getNsimplexPoints n)[r] = nsimplexRow n r := by
    intro r
    rw [Fin.getElem_fin]
    simp [getNsimplexPoints]
  rw [e r, e s]
  split_ifs with h
  · subst h
    rw [← nsimplex_norm n r hn hr]
    exact sum_congr rfl fun i _ => (sq _).symm
  · have h' : r.val ≠ s.val := fun e => h (Fin.ext e)
    rcases lt_or_gt_of_ne h' with hlt | hlt
    · exact nsimplex_inner n r s hn hlt hs
    · rw [← nsimplex_inner n s r hn hlt hr]
      exact sum_congr rfl fun i _ => mul_comm _ _

/-- C06: the rows sum to zero (the simplex is centred at the origin). -/
theorem C06_centred (n : ℕ) (hn : 1 ≤ n) (i : Fin n) :
    ((getNsimplexPoints n).map fun row => toVec n row i).sum = 0 := by
  set L := getNsimplexPoints n with hL
  have hlen : L.length = n + 1 := (C06_shape n).1
  have hsum : ∀ i, (L.map fun row => toVec n row i).sum = ∑ r : Fin L.length, toVec n L[r] i := by
    intro i
    rw [← List.sum_ofFn]
    congr 1
    exact List.ext_getElem (by simp) (by simp)
  have hn' : (n : ℝ) ≠ 0 := by positivity
  have hsq : ∑ i : Fin n, (∑ r : Fin L.length, toVec n L[r] i) ^ 2 = 0 := by
    have e1 : ∀ i : Fin n, (∑ r : Fin L.length, toVec n L[r] i) ^ 2 =
        ∑ r : Fin L.length, ∑ s : Fin L.length, toVec n L[r] i * toVec n L[s] i := by
      intro i; rw [sq, sum_mul_sum]
    rw [sum_congr rfl fun i _ => e1 i, sum_comm]
    have e2 : ∀ r : Fin L.length, ∑ i : Fin n, ∑ s : Fin L.length,
        toVec n L[r] i * toVec n L[s] i = 0 := by
      intro r
      rw [sum_comm]
      rw [sum_congr rfl fun s _ => C06_regular n hn r s]
      have : ∀ s : Fin L.length, (if r = s then (1 : ℝ) else -1 / n) =
          (if r = s then (1 + 1 / (n : ℝ)) else 0) - 1 / n := by
        intro s; split_ifs <;> ring
      rw [sum_congr rfl fun s _ => this s, sum_sub_distrib, sum_ite_eq, if_pos (mem_univ _),
        sum_const, card_univ, Fintype.card_fin, hlen]
      rw [nsmul_eq_mul]; push_cast; field_simp; ring
    exact sum_eq_zero fun r _ => e2 r
  rw [hsum i]
  have := (sum_eq_zero_iff_of_nonneg fun i _ => sq_nonneg _).1 hsq i (mem_univ i)
  exact pow_eq_zero_iff (two_ne_zero) |>.1 this

example : (getNsimplexPoints 2).length = 3 := (C06_shape 2).1

end Quadpy
