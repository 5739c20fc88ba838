import Verif.Props.C72Chebyshev
import Verif.Props.C47

/-!
# C72 and C47 for the Chebyshev weight of the first kind

For `a = b = -1/2` all coefficients are known, the algorithm meets no zero for any `n`, and the result has
degree `4 n - 1` from `n = 2` on.
-/

namespace Quadpy

open OneDim Spec Polynomial

namespace OneDim

/-- The mixed moments for the coefficients `2 c, c, c, …`. -/
noncomputable def firstTable (N : ℕ) (c : ℝ) (k l : ℕ) : ℝ :=
  if k = l then (if k = N then 2 * c ^ (k + 1) else c ^ (k + 1)) else if l = k + 2 then -c ^ (k + 2) else 0

section First

variable (N : ℕ) (b0 : ℕ → ℝ) (c : ℝ)

theorem firstTable_diag {k : ℕ} (h : k ≠ N) : firstTable N c k k = c ^ (k + 1) := by
  rw [firstTable, if_pos rfl, if_neg h]

theorem firstTable_last : firstTable N c N N = 2 * c ^ (N + 1) := by
  rw [firstTable, if_pos rfl, if_pos rfl]

theorem firstTable_two {k l : ℕ} (h : l = k + 2) : firstTable N c k l = -c ^ (k + 2) := by
  rw [firstTable, if_neg (by omega), if_pos h]

theorem firstTable_zero {k l : ℕ} (h : l ≠ k) (h2 : l ≠ k + 2) : firstTable N c k l = 0 := by
  rw [firstTable, if_neg (by omega), if_neg h2]

variable (h1 : b0 1 = 2 * c) (hb : ∀ i, 1 < i → b0 i = c)
include h1 hb

theorem first_outB_low {i : ℕ} (h0 : 0 < i) (hi : 2 * i < N + 1 + 2 * (N + 1 + 1)) :
    outB N (fun _ => 0) b0 i = if i = 1 then 2 * c else c := by
  rw [← outB_run1 N _ b0 (m := 0) hi]
  change (if i < kronrodLength (N + 1) then b0 i else 0) = _
  rw [if_pos (by rw [kronrodLength]; omega)]
  split_ifs with h
  · rw [h, h1]
  · exact hb i (by omega)

theorem first_table (hN : 0 < N) (hc : c ≠ 0) (d : ℕ) : ∀ k l, k + l = d → k ≤ l → l ≤ N →
    table N (fun _ => 0) b0 k l = firstTable N c k l := by
  induction d using Nat.strong_induction_on with
  | _ d ih =>
    have hT : ∀ k l, k + l < d → l ≤ N →
        table N (fun _ => 0) b0 k l = firstTable N c k l := fun k l h hl => by
      rcases Nat.lt_or_ge l k with hlt | hge
      · rw [table_below _ _ _ hlt, firstTable_zero N c (by omega) (by omega)]
      · exact ih (k + l) h k l rfl hge hl
    cases d with
    | zero =>
      intro k l hkl _ _
      obtain rfl : k = 0 := by omega
      obtain rfl : l = 0 := by omega
      rw [table_eq N _ b0 le_rfl (by omega), anti, if_pos (by omega), firstTable_diag N c (by omega)]
      change (if 1 = 1 then if N + 1 + 1 < kronrodLength (N + 1) then b0 (N + 1 + 1) else 0 else 0) = _
      rw [if_pos rfl, if_pos (by rw [kronrodLength]; omega), hb _ (by omega), zero_add, pow_one]
    | succ d =>
      by_cases hd : d < N
      · -- downwards from the diagonal
        have key : ∀ e k l, k + l = d → k ≤ l + 1 → l + 1 - k = e →
            table N (fun _ => 0) b0 k (l + 1) = firstTable N c k (l + 1) := by
          intro e
          induction e using Nat.strong_induction_on with
          | _ e ihe =>
            intro k l hkl hk he
            have hs := table_step_first N (fun _ => 0) b0 (k := k) (l := l) (by omega) hk
            have hnext : table N (fun _ => 0) b0 (k + 1) l = firstTable N c (k + 1) l := by
              rcases Nat.lt_or_ge l (k + 1) with h1 | h1
              · rw [table_below _ _ _ h1, firstTable_zero N c (by omega) (by omega)]
              · obtain ⟨l, rfl⟩ : ∃ l', l = l' + 1 := ⟨l - 1, by omega⟩
                exact ihe (e - 2) (by omega) (k + 1) l (by omega) (by omega) (by omega)
            have e3 : outA N (fun _ => 0) b0 (k + (N + 1) + 1) * table N (fun _ => 0) b0 k l = 0 := by
              rcases Nat.lt_or_ge l k with h1 | h1
              · rw [table_below _ _ _ h1, mul_zero]
              · rw [const_outA_low N b0 (by omega) (by omega), zero_mul]
            rw [hnext, e3, const_outA_low N b0 (i := l) (by omega) (by omega), zero_mul, add_zero, add_zero,
              ] at hs
            have e1 : (if k = 0 then 0 else outB N (fun _ => 0) b0 (k + (N + 1) + 1) *
                table N (fun _ => 0) b0 (k - 1) l) = if k = 0 then 0 else c * firstTable N c (k - 1) l := by
              by_cases h0 : k = 0
              · rw [if_pos h0, if_pos h0]
              · rw [if_neg h0, if_neg h0, first_outB_low N b0 c h1 hb (by omega) (by omega), if_neg (by omega),
                  hT _ _ (by omega) (by omega)]
            have e2 : (if l = 0 then 0 else outB N (fun _ => 0) b0 l *
                table N (fun _ => 0) b0 k (l - 1)) =
                if l = 0 then 0 else (if l = 1 then 2 * c else c) * firstTable N c k (l - 1) := by
              by_cases h0 : l = 0
              · rw [if_pos h0, if_pos h0]
              · rw [if_neg h0, if_neg h0, first_outB_low N b0 c h1 hb (by omega) (by omega),
                  hT _ _ (by omega) (by omega)]
            rw [e1, e2] at hs
            by_cases c1 : k = l + 1
            · subst c1
              rw [firstTable_zero N c (k := l + 1 + 1) (by omega) (by omega), if_neg (by omega),
                show l + 1 - 1 = l by omega, firstTable_diag N c (k := l) (by omega)] at hs
              rw [firstTable_diag N c (by omega)]
              have e5 : (if l = 0 then 0 else (if l = 1 then 2 * c else c) * firstTable N c (l + 1) (l - 1)) =
                  0 := by
                split_ifs
                · rfl
                all_goals rw [firstTable_zero N c (by omega) (by omega), mul_zero]
              rw [e5] at hs
              rw [pow_succ]; linarith
            by_cases c2 : l = k + 1
            · subst c2
              rw [firstTable_diag N c (k := k + 1) (by omega), if_neg (by omega : k + 1 ≠ 0),
                show k + 1 - 1 = k by omega, firstTable_diag N c (k := k) (by omega)] at hs
              rw [firstTable_two N c (by omega)]
              cases k with
              | zero => 
                rw [if_pos rfl, if_pos (by omega)] at hs
                linear_combination -hs
              | succ k =>
                rw [if_neg (by omega), if_neg (by omega), show k + 1 - 1 = k by omega,
                  firstTable_two N c (k := k) (by omega)] at hs
                linear_combination -hs
            by_cases c3 : l = k + 3
            · subst c3
              rw [firstTable_two N c (k := k + 1) (by omega), if_neg (by omega : k + 3 ≠ 0),
                if_neg (by omega : k + 3 ≠ 1), show k + 3 - 1 = k + 2 by omega,
                firstTable_two N c (k := k) rfl] at hs
              rw [firstTable_zero N c (by omega) (by omega)]
              have e5 : (if k = 0 then 0 else c * firstTable N c (k - 1) (k + 3)) = 0 := by
                split_ifs
                · rfl
                rw [firstTable_zero N c (by omega) (by omega), mul_zero]
              rw [e5] at hs
              linear_combination -hs
            · rw [firstTable_zero N c (by omega) (by omega)]
              have e5 : (if k = 0 then 0 else c * firstTable N c (k - 1) l) = 0 := by
                split_ifs
                · rfl
                rw [firstTable_zero N c (by omega) (by omega), mul_zero]
              have e6 : (if l = 0 then 0 else (if l = 1 then 2 * c else c) * firstTable N c k (l - 1)) = 0 := by
                by_cases h0 : l = 0
                · rw [if_pos h0]
                rw [if_neg h0, firstTable_zero N c (by omega) (by omega), mul_zero]
              rw [e5, e6, firstTable_zero N c (by omega) (by omega)] at hs
              linarith
        intro k l hkl hk hl
        cases l with
        | zero => omega
        | succ l => exact key _ k l (by omega) hk rfl
      · -- upwards from the right boundary
        have key : ∀ k l, k + l = d → k < l → l ≤ N →
            table N (fun _ => 0) b0 (k + 1) l = firstTable N c (k + 1) l := by
          intro k
          induction k with
          | zero =>
            intro l hkl hk hl
            have hs := table_step_second N (fun _ => 0) b0 (k := 0) (l := l) (by omega) hk hl
            rw [table_right N _ b0 (l := l + 1) (by omega), const_outA_low N b0 (i := l) (by omega) (by omega),
              const_outA_low N b0 (i := 0 + (N + 1) + 1) (by omega) (by omega),
              zero_mul, if_pos rfl, if_neg (by omega), first_outB_low N b0 c h1 hb (by omega) (by omega),
              hT 0 (l - 1) (by omega) (by omega), add_zero, add_zero, zero_add, zero_add] at hs
            rw [hs]
            obtain rfl : l = N := by omega
            by_cases c1 : l = 1
            · subst c1
              rw [if_pos rfl, firstTable_diag _ c (by omega), firstTable_last]; ring
            rw [if_neg c1]
            by_cases c3 : l = 3
            · subst c3
              rw [firstTable_two _ c (by omega), firstTable_two _ c (by omega)]; ring
            · rw [firstTable_zero _ c (by omega) (by omega), firstTable_zero _ c (by omega) (by omega), mul_zero,
                add_zero]
          | succ k ihk =>
            intro l hkl hk hl
            have hs := table_step_second N (fun _ => 0) b0 (k := k + 1) (l := l) (by omega) hk hl
            have hprev : table N (fun _ => 0) b0 (k + 1) (l + 1) =
                if l = N then 0 else firstTable N c (k + 1) (l + 1) := by
              split_ifs with hlN
              · exact table_right N _ b0 (by omega)
              · exact ihk (l + 1) (by omega) (by omega) (by omega)
            -- the coefficients found so far
            have ea : outA N (fun _ => 0) b0 (k + 1 + (N + 1) + 1) * table N (fun _ => 0) b0 (k + 1) l = 0 := by
              rw [hT (k + 1) l (by omega) hl]
              by_cases c3 : l = k + 1 + 2
              · have ho : outA N (fun _ => 0) b0 (k + 1 + (N + 1) + 1) = 0 := by
                  by_cases hlow : 2 * (k + 1) < N
                  · exact const_outA_low N b0 (by omega) (by omega)
                  · have hd := table_step_diag N (fun _ => 0) b0 (k := k + 1) (by omega) (by omega)
                      (by rw [hT _ _ (by omega) (by omega), firstTable_diag N c (by omega)]
                          exact pow_ne_zero _ hc)
                    rw [if_neg (by omega), hT _ _ (by omega) (by omega), hT _ _ (by omega) (by omega),
                      hT _ _ (by omega) (by omega), firstTable_diag N c (by omega),
                      firstTable_zero N c (k := k + 1 - 1) (by omega) (by omega),
                      firstTable_zero N c (k := k + 1) (by omega) (by omega), mul_zero, add_zero, zero_add,
                      const_outA_low N b0 (i := k + 1) (by omega) (by omega), zero_mul] at hd
                    exact (mul_eq_zero.1 hd).resolve_right (pow_ne_zero _ hc)
                rw [ho, zero_mul]
              · rw [firstTable_zero N c (by omega) (by omega), mul_zero]
            have eb : outB N (fun _ => 0) b0 (k + 1 + (N + 1) + 1) * table N (fun _ => 0) b0 k l =
                c * firstTable N c k l := by
              rw [hT k l (by omega) hl]
              by_cases c3 : l = k + 2
              · have ho : outB N (fun _ => 0) b0 (k + 1 + (N + 1) + 1) = c := by
                  by_cases hlow : 2 * (k + 1) < N + 1
                  · rw [first_outB_low N b0 c h1 hb (by omega) (by omega), if_neg (by omega)]
                  · have hd := table_step_sub N (fun _ => 0) b0 (k := k + 1) (by omega) (by omega) (by omega)
                      (by rw [hT _ _ (by omega) (by omega), firstTable_diag N c (by omega)]
                          exact pow_ne_zero _ hc)
                    rw [hT _ _ (by omega) (by omega), hT _ _ (by omega) (by omega),
                      firstTable_diag N c (k := k + 1) (by omega), show k + 1 - 1 = k by omega,
                      firstTable_diag N c (k := k) (by omega)] at hd
                    exact mul_right_cancel₀ (pow_ne_zero (k + 1) hc) (hd.trans (by ring))
                rw [ho]
              · rw [firstTable_zero N c (by omega) (by omega), mul_zero, mul_zero]
            rw [hprev, ea, if_neg (by omega : k + 1 ≠ 0), show k + 1 - 1 = k by omega, eb,
              const_outA_low N b0 (i := l) (by omega) (by omega), zero_mul, if_neg (by omega : l ≠ 0),
              first_outB_low N b0 c h1 hb (i := l) (by omega) (by omega), if_neg (by omega : l ≠ 1),
              hT (k + 1) (l - 1) (by omega) (by omega)] at hs
            by_cases c2 : l = k + 2
            · subst c2
              rw [show k + 2 - 1 = k + 1 by omega, firstTable_diag N c (k := k + 1) (by omega),
                firstTable_two N c (k := k) rfl] at hs
              by_cases hN2 : k + 2 = N
              · rw [if_pos hN2] at hs
                subst hN2
                rw [firstTable_last]
                linear_combination hs
              · rw [if_neg hN2, firstTable_two N c (k := k + 1) (by omega)] at hs
                rw [firstTable_diag N c (by omega)]
                linear_combination hs
            have e5 : (if l = N then 0 else firstTable N c (k + 1) (l + 1)) = 0 := by
              split_ifs
              · rfl
              exact firstTable_zero N c (by omega) (by omega)
            rw [e5, firstTable_zero N c (k := k) (by omega) (by omega)] at hs
            by_cases c3 : l = k + 4
            · subst c3
              rw [firstTable_two N c (k := k + 1) (by omega)] at hs
              rw [firstTable_two N c (by omega)]
              linear_combination hs
            · rw [firstTable_zero N c (k := k + 1) (by omega) (by omega)] at hs
              rw [firstTable_zero N c (by omega) (by omega)]
              linear_combination hs
        intro k l hkl hk hl
        cases k with
        | zero => omega
        | succ k => exact key k l (by omega) (by omega) hl

theorem first_regular (hN : 0 < N) (hc : c ≠ 0) : KronrodRegular (N + 1) (fun _ => 0) b0 := by
  have hd : ∀ k ≤ N, table N (fun _ => 0) b0 k k ≠ 0 := fun k hk => by
    rw [first_table N b0 c h1 hb hN hc _ k k rfl le_rfl hk]
    by_cases h : k = N
    · rw [h, firstTable_last]
      exact mul_ne_zero two_ne_zero (pow_ne_zero _ hc)
    · rw [firstTable_diag N c h]
      exact pow_ne_zero _ hc
  refine ⟨fun j hj => ?_, ?_⟩
  · change kronrodDivisor (N + 1) (run2 N (fun _ => 0) b0 j) (N + j) ≠ 0
    have hj : j < N := by omega
    simp only [kronrodDivisor]
    split_ifs with h
    · have h2 := run2_t N (fun _ => 0) b0 (j := j) (k := (N + j) / 2) (by omega)
      rw [show (N + j - 1) / 2 - (N + j + 1 - (N + 1)) + 2 = (N + j) / 2 - j + 1 by omega, h2]
      have := hd ((N + j) / 2) (by omega)
      rwa [table_eq N _ b0 le_rfl (by omega), show (N + j) / 2 + (N + j) / 2 = N + j by omega] at this
    · rw [show kronrodStep2 (N + 1) (run2 N (fun _ => 0) b0 j) (N + j) = run2 N (fun _ => 0) b0 (j + 1) from
        (run2_succ N _ b0 j).symm, run2_rest N _ b0 (by omega)]
      have h5 := run2_s N (fun _ => 0) b0 (j := j) (k := (N + j - 1) / 2) (by omega) (by omega)
      rw [show (N + j - 1) / 2 - (N + j + 1 - (N + 1)) + 2 = (N + j - 1) / 2 - j + 2 by omega, h5]
      have := hd ((N + j - 1) / 2) (by omega)
      rwa [table_eq N _ b0 le_rfl (by omega),
        show (N + j - 1) / 2 + (N + j - 1) / 2 = N + j - 1 by omega] at this
  · change (run2 N (fun _ => 0) b0 N).t 1 ≠ 0
    have h2 := run2_t N (fun _ => 0) b0 (j := N) (k := N) le_rfl
    rw [Nat.sub_self, zero_add] at h2
    rw [h2, ← table_eq N _ b0 le_rfl le_rfl]
    exact hd N le_rfl

/-- The algorithm continues the coefficients and closes with `2 c`. -/
theorem first_out (hN : 0 < N) (hc : c ≠ 0) : (∀ i ≤ 2 * (N + 1), outA N (fun _ => 0) b0 i = 0) ∧
    ∀ i, 0 < i → i ≤ 2 * (N + 1) →
      outB N (fun _ => 0) b0 i = if i = 1 ∨ i = 2 * (N + 1) then 2 * c else c := by
  have hT : ∀ k l, k ≤ l → l ≤ N → table N (fun _ => 0) b0 k l = firstTable N c k l := fun k l h hl =>
    first_table N b0 c h1 hb hN hc _ k l rfl h hl
  have hd : ∀ k ≤ N, table N (fun _ => 0) b0 k k ≠ 0 := fun k hk => by
    rw [hT k k le_rfl hk]
    by_cases h : k = N
    · rw [h, firstTable_last]
      exact mul_ne_zero two_ne_zero (pow_ne_zero _ hc)
    · rw [firstTable_diag N c h]
      exact pow_ne_zero _ hc
  constructor
  · intro i hi
    by_cases h : 2 * i < N + 2 * (N + 1 + 1) ∧ i < 2 * (N + 1)
    · exact const_outA_low N b0 h.1 h.2
    · obtain ⟨k, rfl⟩ : ∃ k, i = k + (N + 1) + 1 := ⟨i - (N + 1) - 1, by omega⟩
      have hs := table_step_diag N (fun _ => 0) b0 (k := k) (by omega) (by omega) (hd k (by omega))
      have e1 : (if k = 0 then 0 else outB N (fun _ => 0) b0 (k + (N + 1) + 1) *
          table N (fun _ => 0) b0 (k - 1) k) = 0 := by
        split_ifs
        · rfl
        · rw [hT (k - 1) k (by omega) (by omega), firstTable_zero N c (by omega) (by omega), mul_zero]
      have e2 : table N (fun _ => 0) b0 k (k + 1) = 0 := by
        rcases Nat.lt_or_ge k N with h1 | h1
        · rw [hT k (k + 1) (by omega) (by omega), firstTable_zero N c (by omega) (by omega)]
        · exact table_right N _ b0 (by omega)
      rw [e1, e2, const_outA_low N b0 (i := k) (by omega) (by omega), add_zero, zero_add, zero_mul] at hs
      exact (mul_eq_zero.1 hs).resolve_right (hd k (by omega))
  · intro i h0 hi
    by_cases h : 2 * i < N + 1 + 2 * (N + 1 + 1)
    · rw [first_outB_low N b0 c h1 hb h0 h]
      by_cases hi1 : i = 1
      · rw [if_pos hi1, if_pos (Or.inl hi1)]
      · rw [if_neg hi1, if_neg (by omega)]
    · obtain ⟨k, rfl⟩ : ∃ k, i = k + (N + 1) + 1 := ⟨i - (N + 1) - 1, by omega⟩
      have hs := table_step_sub N (fun _ => 0) b0 (k := k) (by omega) (by omega) (by omega)
        (hd _ (by omega))
      rw [hT _ _ le_rfl (by omega), hT _ _ le_rfl (by omega), firstTable_diag N c (k := k - 1) (by omega),
        show k - 1 + 1 = k by omega] at hs
      refine mul_right_cancel₀ (pow_ne_zero k hc) (hs.trans ?_)
      by_cases hk : k = N
      · rw [if_pos (by omega), hk, firstTable_last]; ring
      · rw [if_neg (by omega), firstTable_diag N c hk]; ring

end First

/-- The polynomials of the coefficients `1/2, 1/4, 1/4, …` are the monic Chebyshev polynomials. -/
theorem first_recPoly_cos (θ : ℝ) {α β : ℕ → ℝ} {m : ℕ} (hα : ∀ k ≤ m, α k = 0)
    (h1 : β 1 = 1 / 2) (hβ : ∀ k, 1 < k → k ≤ m → β k = 1 / 4) : ∀ k ≤ m,
    (recPoly α β (k + 1)).eval (Real.cos θ) = (1 / 2) ^ k * Real.cos ((k + 1 : ℕ) * θ) := by
  intro k
  induction k using Nat.strong_induction_on with
  | _ k ih =>
    intro hk
    match k with
    | 0 => simp [recPoly, hα 0 (by omega)]
    | 1 =>
      simp only [recPoly, hα 0 (by omega), hα 1 (by omega), h1]
      have : Real.cos (((1 + 1 : ℕ) : ℝ) * θ) = 2 * Real.cos θ ^ 2 - 1 := by
        rw [← Real.cos_two_mul]; norm_num
      rw [this]
      simp
      ring
    | k + 2 =>
      have e1 := ih (k + 1) (by omega) (by omega)
      have e0 := ih k (by omega) (by omega)
      rw [recPoly, eval_sub, eval_mul, eval_mul, e1, e0, hα (k + 2) (by omega),
        hβ (k + 2) (by omega) (by omega)]
      have hc := Real.cos_add_cos ((k + 2 + 1 : ℕ) * θ) ((k + 1 : ℕ) * θ)
      rw [show (((k + 2 + 1 : ℕ) : ℝ) * θ + ((k + 1 : ℕ) : ℝ) * θ) / 2 = ((k + 1 + 1 : ℕ) : ℝ) * θ by
          push_cast; ring,
        show (((k + 2 + 1 : ℕ) : ℝ) * θ - ((k + 1 : ℕ) : ℝ) * θ) / 2 = θ by push_cast; ring] at hc
      simp only [eval_sub, eval_X, eval_C, sub_zero]
      linear_combination -(1 / 2 : ℝ) ^ (k + 2) * hc


end OneDim

/-- For the weight `1 / sqrt(1 - x^2)`, `gauss_kronrod(n, -1/2, -1/2)` never divides by zero from `n = 2`
on. The result has positive weights, its `2 n + 1` points are `cos(k π / (2 n))`, both ends included, and
its degree is `4 n - 1`. -/
theorem C72_chebyshev_first {n : ℕ} [NeZero n] (hn : 2 ≤ n) :
    KronrodRegular n (jacobiAlpha (-1 / 2) (-1 / 2))
      (Function.update (jacobiBeta (-1 / 2) (-1 / 2)) 0 (jacobiInt (-1 / 2) (-1 / 2))) ∧
    (∃ P W, GaussKronrod n (-1 / 2) (-1 / 2) P W) ∧
    ∀ P W, GaussKronrod n (-1 / 2) (-1 / 2) P W →
      P.length = 2 * n + 1 ∧ P.Pairwise (· < ·) ∧ (∀ k ≤ 2 * n, Real.cos (k * Real.pi / (2 * n)) ∈ P) ∧
      (∀ w ∈ W, 0 < w) ∧
      ExactL P W (4 * n - 1)
        (weightInt (Set.Ioo (-1) 1) fun x => (1 - x) ^ (-1 / 2 : ℝ) * (1 + x) ^ (-1 / 2 : ℝ)) ∧
      ¬ ExactL P W (4 * n)
        (weightInt (Set.Ioo (-1) 1) fun x => (1 - x) ^ (-1 / 2 : ℝ) * (1 + x) ^ (-1 / 2 : ℝ)) := by
  have ha : jacobiAlpha (-1 / 2) (-1 / 2) = fun _ => 0 := by
    funext k; cases k <;> simp [jacobiAlpha]
  have hb1 : jacobiBeta (-1 / 2) (-1 / 2) 1 = 1 / 2 := by norm_num [jacobiBeta]
  have hb : ∀ i, 1 < i → jacobiBeta (-1 / 2) (-1 / 2) i = 1 / 4 := by
    intro k hk
    match k with
    | k + 2 =>
      simp only [jacobiBeta]
      have hk : (0 : ℝ) ≤ k := Nat.cast_nonneg k
      push_cast
      rw [show 2 * ((k : ℝ) + 2) + -1 / 2 + -1 / 2 - 1 = 2 * (k + 1) by ring,
        show 2 * ((k : ℝ) + 2) + -1 / 2 + -1 / 2 + 1 = 2 * (k + 2) by ring,
        show 2 * ((k : ℝ) + 2) + -1 / 2 + -1 / 2 = 2 * (k + 1 + 1 / 2) by ring,
        div_eq_div_iff (by positivity) (by norm_num)]
      ring
  obtain ⟨N, rfl⟩ : ∃ N, n = N + 1 := ⟨n - 1, by omega⟩
  have hN : 0 < N := by omega
  set b0 := Function.update (jacobiBeta (-1 / 2) (-1 / 2)) 0 (jacobiInt (-1 / 2) (-1 / 2)) with hb0
  have h1 : b0 1 = 2 * (1 / 4) := by rw [hb0, Function.update_of_ne (by omega), hb1]; norm_num
  have hb' : ∀ i, 1 < i → b0 i = 1 / 4 := fun i hi => by
    rw [hb0, Function.update_of_ne (by omega), hb i hi]
  have hreg := first_regular N b0 (1 / 4) h1 hb' hN (by norm_num)
  have hout := first_out N b0 (1 / 4) h1 hb' hN (by norm_num)
  rw [← ha] at hreg hout
  set α := outA N (jacobiAlpha (-1 / 2) (-1 / 2)) b0 with hα
  set β := outB N (jacobiAlpha (-1 / 2) (-1 / 2)) b0 with hβ
  have hβpos : ∀ k, 0 < k → k < 2 * (N + 1) + 1 → 0 < β k := fun k h0 hk => by
    rw [hout.2 k h0 (by omega)]; split_ifs <;> norm_num
  have hβ1 : β 1 = 1 / 2 := by rw [hout.2 1 one_pos (by omega), if_pos (Or.inl rfl)]; norm_num
  have hβm : ∀ k, 1 < k → k < 2 * (N + 1) → β k = 1 / 4 := fun k h0 hk => by
    rw [hout.2 k (by omega) (by omega), if_neg (by omega)]
  have hβl : β (2 * (N + 1)) = 1 / 2 := by rw [hout.2 _ (by omega) le_rfl, if_pos (Or.inr rfl)]; norm_num
  obtain ⟨L, hL, hrec, hpos, hL1, hβ0⟩ := jacobi_functional (a := -1 / 2) (b := -1 / 2) (by norm_num) (by norm_num)
  have eL : (L : ℝ[X] → ℝ) = weightInt (Set.Ioo (-1) 1) fun x =>
    (1 - x) ^ (-1 / 2 : ℝ) * (1 + x) ^ (-1 / 2 : ℝ) := funext hL
  have hLpos : 0 < L 1 := hpos 1 one_ne_zero fun x _ => by simp
  have hcongr := recPoly_congr (α := jacobiAlpha (-1 / 2) (-1 / 2)) (β := jacobiBeta (-1 / 2) (-1 / 2))
    (α' := α) (β' := β) (2 * (N + 1)) (fun i hi => by rw [hout.1 i (by omega), ha]) fun i h0 hi => by
      by_cases hi1 : i = 1
      · rw [hi1, hb1, hβ1]
      · rw [hb i (by omega), hβm i (by omega) hi]
  refine ⟨hreg, schemeFromRc_exists _ α β _ fun k h0 hk => (hβpos k h0 hk).le, fun P W h => ?_⟩
  change SchemeFromRc (2 * (N + 1) + 1) α β (jacobiInt (-1 / 2) (-1 / 2)) P W at h
  rw [← hL1] at h
  rw [← eL]
  refine ⟨(schemeFromRc_length h).1, schemeFromRc_sorted hβpos h, fun k hk => ?_,
    schemeFromRc_pos hβpos hLpos h, ?_, fun he => ?_⟩
  · rw [schemeFromRc_roots hβpos h]
    set θ := (k : ℝ) * Real.pi / (2 * (N + 1 : ℕ)) with hθ
    have hcos := first_recPoly_cos θ (α := α) (β := β) (m := 2 * N + 1)
      (fun i hi => hout.1 i (by omega)) hβ1 (fun i h0 hi => hβm i h0 (by omega))
    have e1 := hcos (2 * N + 1) le_rfl
    have e0 := hcos (2 * N) (by omega)
    rw [show 2 * (N + 1) + 1 = 2 * N + 1 + 2 by ring, recPoly, eval_sub, eval_mul, eval_mul, e1, e0,
      hout.1 _ (by omega), show 2 * N + 1 + 1 = 2 * (N + 1) by ring, hβl]
    have hs : Real.sin (((2 * (N + 1) : ℕ) : ℝ) * θ) = 0 := by
      rw [hθ, show ((2 * (N + 1) : ℕ) : ℝ) * ((k : ℝ) * Real.pi / (2 * (N + 1 : ℕ))) = k * Real.pi by
        push_cast; field_simp]
      exact Real.sin_nat_mul_pi k
    have hc := Real.cos_sub (((2 * (N + 1) : ℕ) : ℝ) * θ) θ
    rw [hs, zero_mul, add_zero, show ((2 * (N + 1) : ℕ) : ℝ) * θ - θ = ((2 * N + 1 : ℕ) : ℝ) * θ by
      push_cast; ring] at hc
    simp only [eval_sub, eval_X, eval_C, sub_zero]
    rw [hc]; ring
  · have := schemeFromRc_exact L (m := 2 * (N + 1)) (by omega) (by omega) (fun i j hij hj => by
      rw [← hcongr i (by omega), ← hcongr j hj]
      exact hrec _ i j hij hj) h
    rwa [show 2 * (2 * (N + 1)) - 1 = 4 * (N + 1) - 1 by omega] at this
  · have hdeg : (recPoly α β (2 * (N + 1)) * recPoly α β (2 * (N + 1))).natDegree ≤ 4 * (N + 1) := by
      refine natDegree_mul_le.trans ?_
      rw [recPoly_natDegree]; omega
    have h2 := he.2 _ hdeg
    have hsq := recPoly_sqrt h.1 (α := α)
    rw [schemeFromRc_vdot h, ← hsq _ (by omega), corner_recPoly _ _ (by omega) (by omega), hsq _ (by omega),
      if_pos ⟨rfl, by omega⟩, ← hcongr _ le_rfl, recPoly_norm L (hrec (2 * (N + 1) + 1)) _ (by omega),
      mul_comm] at h2
    have h3 := mul_right_cancel₀ hLpos.ne' h2
    rw [show 2 * (N + 1) = 2 * N + 1 + 1 by ring, Finset.prod_range_succ, Finset.prod_range_succ _ (2 * N + 1),
      hb (2 * N + 1 + 1) (by omega), show 2 * N + 1 + 1 = 2 * (N + 1) by ring, hβl,
      Finset.prod_congr rfl (g := fun i => jacobiBeta (-1 / 2) (-1 / 2) (i + 1)) fun i hi => ?_] at h3
    · have hp : 0 < ∏ i ∈ Finset.range (2 * N + 1), jacobiBeta (-1 / 2) (-1 / 2) (i + 1) :=
        Finset.prod_pos fun i _ => hβ0 _ (by omega)
      rw [Real.sq_sqrt (by norm_num)] at h3
      nlinarith
    · rw [Finset.mem_range] at hi
      rw [Real.sq_sqrt (hβpos _ (by omega) (by omega)).le]
      by_cases hi1 : i = 0
      · rw [hi1, hb1]; exact hβ1
      · rw [hb _ (by omega), hβm _ (by omega) (by omega)]

/-- C47: for the Chebyshev weight of the first kind the claimed degree is right from `n = 4` on, and wrong
before. -/
theorem C47_chebyshev_first {n : ℕ} [NeZero n] {P W : List ℝ} (h : GaussKronrod n (-1 / 2) (-1 / 2) P W) :
    ExactL P W (kronrodDegree n)
      (weightInt (Set.Ioo (-1) 1) fun x => (1 - x) ^ (-1 / 2 : ℝ) * (1 + x) ^ (-1 / 2 : ℝ)) ↔ 4 ≤ n := by
  have hn : 0 < n := Nat.pos_of_ne_zero (NeZero.ne n)
  have hk : kronrodDegree n = 2 * kronrodLength n + 1 := rfl
  rw [kronrodLength] at hk
  constructor
  · intro he
    by_contra h4
    rcases Nat.lt_or_ge n 2 with h1 | h2
    · obtain rfl : n = 1 := by omega
      exact (C47_degree_refuted (a := -1 / 2) (b := -1 / 2) (by norm_num) (by norm_num)).2.2 P W h
        ⟨he.1, fun p hp => he.2 p (hp.trans (by omega))⟩
    · exact ((C72_chebyshev_first h2).2.2 P W h).2.2.2.2.2
        ⟨he.1, fun p hp => he.2 p (hp.trans (by omega))⟩
  · intro h4
    have he := ((C72_chebyshev_first (by omega)).2.2 P W h).2.2.2.2.1
    exact ⟨he.1, fun p hp => he.2 p (hp.trans (by omega))⟩

/-- C47: for the Chebyshev weight of the second kind the claimed degree is right from `n = 2` on, and wrong
before. -/
theorem C47_chebyshev_second {n : ℕ} [NeZero n] {P W : List ℝ} (h : GaussKronrod n (1 / 2) (1 / 2) P W) :
    ExactL P W (kronrodDegree n)
      (weightInt (Set.Ioo (-1) 1) fun x => (1 - x) ^ (1 / 2 : ℝ) * (1 + x) ^ (1 / 2 : ℝ)) ↔ 2 ≤ n := by
  have hn : 0 < n := Nat.pos_of_ne_zero (NeZero.ne n)
  have hk : kronrodDegree n = 2 * kronrodLength n + 1 := rfl
  rw [kronrodLength] at hk
  constructor
  · intro he
    by_contra h4
    obtain rfl : n = 1 := by omega
    exact (C47_degree_refuted (a := 1 / 2) (b := 1 / 2) (by norm_num) (by norm_num)).2.2 P W h
      ⟨he.1, fun p hp => he.2 p (hp.trans (by omega))⟩
  · intro h4
    have hj := C19_gauss_jacobi (2 * n + 1) (a := 1 / 2) (b := 1 / 2) (by norm_num) (by norm_num)
    have he := (hj.2 P W (((C72_chebyshev n).2.1 P W).1 h)).1
    exact ⟨he.1, fun p hp => he.2 p (hp.trans (by omega))⟩

/-- Seven points for `n = 3`: degree 11, the claim is 13. -/
example : ∃ P W, GaussKronrod 3 (-1 / 2) (-1 / 2) P W ∧ (1 : ℝ) ∈ P ∧ (1 / 2 : ℝ) ∈ P ∧
    kronrodDegree 3 = 13 ∧ ¬ ExactL P W 13
      (weightInt (Set.Ioo (-1) 1) fun x => (1 - x) ^ (-1 / 2 : ℝ) * (1 + x) ^ (-1 / 2 : ℝ)) := by
  have hc := C72_chebyshev_first (n := 3) (by omega)
  obtain ⟨P, W, h⟩ := hc.2.1
  refine ⟨P, W, h, ?_, ?_, rfl, fun he => ?_⟩
  · have := (hc.2.2 P W h).2.2.1 0 (by omega)
    simpa using this
  · have := (hc.2.2 P W h).2.2.1 2 (by omega)
    rwa [show ((2 : ℕ) : ℝ) * Real.pi / (2 * (3 : ℕ)) = Real.pi / 3 by push_cast; ring,
      Real.cos_pi_div_three] at this
  · exact absurd ((C47_chebyshev_first h).1 he) (by omega)

end Quadpy
