import Verif.Props.C72Chebyshev

/-!
# A run of Laurie's algorithm from its table

For a symmetric weight: a table of numbers that satisfies the recurrences of the algorithm and has no zero
on its diagonal is the table the algorithm computes.
-/

namespace Quadpy.OneDim

/-- `g` satisfies the recurrences of the mixed moments, with `β` as the off-diagonal coefficients. -/
structure KronrodCert (N : ℕ) (b0 β : ℕ → ℝ) (g : ℕ → ℕ → ℝ) : Prop where
  low : ∀ i, 0 < i → 2 * i < N + 1 + 2 * (N + 1 + 1) → β i = b0 i
  init : g 0 0 = b0 (N + 1 + 1)
  below : ∀ k l, l < k → l ≤ N → g k l = 0
  odd : ∀ k, k < N → g k (k + 1) = 0
  first : ∀ k l, k + l < N → k ≤ l + 1 → g (k + 1) l + (if k = 0 then 0 else β (k + (N + 1) + 1) * g (k - 1) l) =
    g k (l + 1) + (if l = 0 then 0 else β l * g k (l - 1))
  second : ∀ k l, N ≤ k + l → k < l → l ≤ N →
    g (k + 1) l + (if k = 0 then 0 else β (k + (N + 1) + 1) * g (k - 1) l) =
    (if l = N then 0 else g k (l + 1)) + (if l = 0 then 0 else β l * g k (l - 1))
  sub : ∀ k, k ≠ 0 → N ≤ 2 * k - 1 → k ≤ N → β (k + (N + 1) + 1) * g (k - 1) (k - 1) = g k k
  diag : ∀ k ≤ N, g k k ≠ 0

variable {N : ℕ} {b0 β : ℕ → ℝ} {g : ℕ → ℕ → ℝ} (H : KronrodCert N b0 β g)
include H

theorem KronrodCert.outB_low {i : ℕ} (h0 : 0 < i) (hi : 2 * i < N + 1 + 2 * (N + 1 + 1)) :
    outB N (fun _ => 0) b0 i = β i := by
  rw [← outB_run1 N _ b0 (m := 0) hi, H.low i h0 hi]
  change (if i < kronrodLength (N + 1) then b0 i else 0) = _
  rw [if_pos (by rw [kronrodLength]; omega)]

theorem KronrodCert.table (d : ℕ) : ∀ k l, k + l = d → k ≤ l → l ≤ N →
    table N (fun _ => 0) b0 k l = g k l := by
  induction d using Nat.strong_induction_on with
  | _ d ih =>
    have hT : ∀ k l, k + l < d → l ≤ N → OneDim.table N (fun _ => 0) b0 k l = g k l := fun k l h hl => by
      rcases Nat.lt_or_ge l k with hlt | hge
      · rw [table_below _ _ _ hlt, H.below k l hlt hl]
      · exact ih (k + l) h k l rfl hge hl
    cases d with
    | zero =>
      intro k l hkl _ _
      obtain rfl : k = 0 := by omega
      obtain rfl : l = 0 := by omega
      rw [table_eq N _ b0 le_rfl (by omega), anti, if_pos (by omega), H.init]
      change (if 1 = 1 then if N + 1 + 1 < kronrodLength (N + 1) then b0 (N + 1 + 1) else 0 else 0) = _
      rw [if_pos rfl, if_pos (by rw [kronrodLength]; omega)]
    | succ d =>
      by_cases hd : d < N
      · -- downwards from the diagonal
        have key : ∀ e k l, k + l = d → k ≤ l + 1 → l + 1 - k = e →
            OneDim.table N (fun _ => 0) b0 k (l + 1) = g k (l + 1) := by
          intro e
          induction e using Nat.strong_induction_on with
          | _ e ihe =>
            intro k l hkl hk he
            have hs := table_step_first N (fun _ => 0) b0 (k := k) (l := l) (by omega) hk
            have hnext : OneDim.table N (fun _ => 0) b0 (k + 1) l = g (k + 1) l := by
              rcases Nat.lt_or_ge l (k + 1) with h1 | h1
              · rw [table_below _ _ _ h1, H.below _ _ h1 (by omega)]
              · obtain ⟨l, rfl⟩ : ∃ l', l = l' + 1 := ⟨l - 1, by omega⟩
                exact ihe (e - 2) (by omega) (k + 1) l (by omega) (by omega) (by omega)
            have e3 : outA N (fun _ => 0) b0 (k + (N + 1) + 1) * OneDim.table N (fun _ => 0) b0 k l = 0 := by
              rcases Nat.lt_or_ge l k with h1 | h1
              · rw [table_below _ _ _ h1, mul_zero]
              · rw [const_outA_low N b0 (by omega) (by omega), zero_mul]
            rw [hnext, e3, const_outA_low N b0 (i := l) (by omega) (by omega), zero_mul, add_zero, add_zero]
              at hs
            have e1 : (if k = 0 then 0 else outB N (fun _ => 0) b0 (k + (N + 1) + 1) *
                OneDim.table N (fun _ => 0) b0 (k - 1) l) =
                if k = 0 then 0 else β (k + (N + 1) + 1) * g (k - 1) l := by
              by_cases h0 : k = 0
              · rw [if_pos h0, if_pos h0]
              · rw [if_neg h0, if_neg h0, H.outB_low (by omega) (by omega), hT _ _ (by omega) (by omega)]
            have e2 : (if l = 0 then 0 else outB N (fun _ => 0) b0 l *
                OneDim.table N (fun _ => 0) b0 k (l - 1)) = if l = 0 then 0 else β l * g k (l - 1) := by
              by_cases h0 : l = 0
              · rw [if_pos h0, if_pos h0]
              · rw [if_neg h0, if_neg h0, H.outB_low (by omega) (by omega), hT _ _ (by omega) (by omega)]
            rw [e1, e2, H.first k l (by omega) hk] at hs
            linarith
        intro k l hkl hk hl
        cases l with
        | zero => omega
        | succ l => exact key _ k l (by omega) hk rfl
      · -- upwards from the right boundary
        have key : ∀ k l, k + l = d → k < l → l ≤ N →
            OneDim.table N (fun _ => 0) b0 (k + 1) l = g (k + 1) l := by
          intro k
          induction k with
          | zero =>
            intro l hkl hk hl
            have hs := table_step_second N (fun _ => 0) b0 (k := 0) (l := l) (by omega) hk hl
            have hg := H.second 0 l (by omega) hk hl
            rw [table_right N _ b0 (l := l + 1) (by omega), const_outA_low N b0 (i := l) (by omega) (by omega),
              const_outA_low N b0 (i := 0 + (N + 1) + 1) (by omega) (by omega),
              zero_mul, if_pos rfl, if_neg (by omega), H.outB_low (by omega) (by omega),
              hT 0 (l - 1) (by omega) (by omega)] at hs
            rw [if_pos rfl, if_pos (by omega), if_neg (by omega)] at hg
            linarith
          | succ k ihk =>
            intro l hkl hk hl
            have hs := table_step_second N (fun _ => 0) b0 (k := k + 1) (l := l) (by omega) hk hl
            have hg := H.second (k + 1) l (by omega) hk hl
            have hprev : OneDim.table N (fun _ => 0) b0 (k + 1) (l + 1) =
                if l = N then 0 else g (k + 1) (l + 1) := by
              split_ifs with hlN
              · exact table_right N _ b0 (by omega)
              · exact ihk (l + 1) (by omega) (by omega) (by omega)
            -- the coefficients found so far
            have ho : outA N (fun _ => 0) b0 (k + 1 + (N + 1) + 1) = 0 := by
              by_cases hlow : 2 * (k + 1) < N
              · exact const_outA_low N b0 (by omega) (by omega)
              · have hne : OneDim.table N (fun _ => 0) b0 (k + 1) (k + 1) ≠ 0 := by
                  rw [hT _ _ (by omega) (by omega)]; exact H.diag _ (by omega)
                have hd := table_step_diag N (fun _ => 0) b0 (k := k + 1) (by omega) (by omega) hne
                have o1 := H.odd k (by omega)
                have o2 := H.odd (k + 1) (by omega)
                rw [if_neg (by omega), hT (k + 1 - 1) _ (by omega) (by omega), show k + 1 - 1 = k by omega, o1,
                  hT (k + 1) (k + 1 + 1) (by omega) (by omega), o2, mul_zero, add_zero, zero_add,
                  const_outA_low N b0 (i := k + 1) (by omega) (by omega), zero_mul] at hd
                exact (mul_eq_zero.1 hd).resolve_right hne
            have hb : outB N (fun _ => 0) b0 (k + 1 + (N + 1) + 1) = β (k + 1 + (N + 1) + 1) := by
              by_cases hlow : 2 * (k + 1) < N + 1
              · exact H.outB_low (by omega) (by omega)
              · have hne : OneDim.table N (fun _ => 0) b0 (k + 1 - 1) (k + 1 - 1) ≠ 0 := by
                  rw [hT _ _ (by omega) (by omega)]; exact H.diag _ (by omega)
                have hd := table_step_sub N (fun _ => 0) b0 (k := k + 1) (by omega) (by omega) (by omega) hne
                have hd2 := H.sub (k + 1) (by omega) (by omega) (by omega)
                rw [← hT (k + 1) _ (by omega) (by omega), ← hT (k + 1 - 1) _ (by omega) (by omega)] at hd2
                exact mul_right_cancel₀ hne (hd.trans hd2.symm)
            rw [hprev, ho, zero_mul, hb, const_outA_low N b0 (i := l) (by omega) (by omega), zero_mul,
              if_neg (by omega : k + 1 ≠ 0), if_neg (by omega : l ≠ 0), H.outB_low (by omega) (by omega),
              hT (k + 1 - 1) l (by omega) hl, hT (k + 1) (l - 1) (by omega) (by omega)] at hs
            rw [if_neg (by omega : k + 1 ≠ 0), if_neg (by omega : l ≠ 0)] at hg
            linarith
        intro k l hkl hk hl
        cases k with
        | zero => omega
        | succ k => exact key k l (by omega) (by omega) hl

theorem KronrodCert.table_ne {k : ℕ} (hk : k ≤ N) : OneDim.table N (fun _ => 0) b0 k k ≠ 0 := by
  rw [H.table _ k k rfl le_rfl hk]; exact H.diag k hk

/-- The algorithm divides by no zero. -/
theorem KronrodCert.regular : KronrodRegular (N + 1) (fun _ => 0) b0 := by
  refine ⟨fun j hj => ?_, ?_⟩
  · change kronrodDivisor (N + 1) (run2 N (fun _ => 0) b0 j) (N + j) ≠ 0
    have hj : j < N := by omega
    simp only [kronrodDivisor]
    split_ifs with h
    · have h2 := run2_t N (fun _ => 0) b0 (j := j) (k := (N + j) / 2) (by omega)
      rw [show (N + j - 1) / 2 - (N + j + 1 - (N + 1)) + 2 = (N + j) / 2 - j + 1 by omega, h2]
      have := H.table_ne (k := (N + j) / 2) (by omega)
      rwa [table_eq N _ b0 le_rfl (by omega), show (N + j) / 2 + (N + j) / 2 = N + j by omega] at this
    · rw [show kronrodStep2 (N + 1) (run2 N (fun _ => 0) b0 j) (N + j) = run2 N (fun _ => 0) b0 (j + 1) from
        (run2_succ N _ b0 j).symm, run2_rest N _ b0 (by omega)]
      have h5 := run2_s N (fun _ => 0) b0 (j := j) (k := (N + j - 1) / 2) (by omega) (by omega)
      rw [show (N + j - 1) / 2 - (N + j + 1 - (N + 1)) + 2 = (N + j - 1) / 2 - j + 2 by omega, h5]
      have := H.table_ne (k := (N + j - 1) / 2) (by omega)
      rwa [table_eq N _ b0 le_rfl (by omega),
        show (N + j - 1) / 2 + (N + j - 1) / 2 = N + j - 1 by omega] at this
  · change (run2 N (fun _ => 0) b0 N).t 1 ≠ 0
    have h2 := run2_t N (fun _ => 0) b0 (j := N) (k := N) le_rfl
    rw [Nat.sub_self, zero_add] at h2
    rw [h2, ← table_eq N _ b0 le_rfl le_rfl]
    exact H.table_ne le_rfl

/-- The off-diagonal coefficients are those of the table. -/
theorem KronrodCert.outB_eq {i : ℕ} (h0 : 0 < i) (hi : i ≤ 2 * (N + 1)) : outB N (fun _ => 0) b0 i = β i := by
  by_cases h : 2 * i < N + 1 + 2 * (N + 1 + 1)
  · exact H.outB_low h0 h
  · obtain ⟨k, rfl⟩ : ∃ k, i = k + (N + 1) + 1 := ⟨i - (N + 1) - 1, by omega⟩
    have hne := H.table_ne (k := k - 1) (by omega)
    have hs := table_step_sub N (fun _ => 0) b0 (k := k) (by omega) (by omega) (by omega) hne
    have hd2 := H.sub k (by omega) (by omega) (by omega)
    rw [← H.table _ k k rfl le_rfl (by omega), ← H.table _ (k - 1) (k - 1) rfl le_rfl (by omega)] at hd2
    exact mul_right_cancel₀ hne (hs.trans hd2.symm)

end Quadpy.OneDim
