import Verif.Props.C72

/-!
# C72 for the Chebyshev weight of the second kind

For `a = b = 1/2` all coefficients are known, and the algorithm meets no zero for any `n`.
-/

namespace Quadpy

open OneDim Spec Polynomial

namespace OneDim

section Constant

variable (N : ℕ) (b0 : ℕ → ℝ) (c : ℝ) (hb : ∀ i, 0 < i → b0 i = c)
include hb

omit hb in
theorem const_outA_low {i : ℕ} (hi : 2 * i < N + 2 * (N + 1 + 1)) (hN : i < 2 * (N + 1)) :
    outA N (fun _ => 0) b0 i = 0 := by
  rw [← outA_run1 N _ b0 (m := 0) hi hN]
  change (if _ then (0 : ℝ) else 0) = 0
  simp

theorem const_outB_low {i : ℕ} (h0 : 0 < i) (hi : 2 * i < N + 1 + 2 * (N + 1 + 1)) :
    outB N (fun _ => 0) b0 i = c := by
  rw [← outB_run1 N _ b0 (m := 0) hi]
  change (if i < kronrodLength (N + 1) then b0 i else 0) = c
  rw [if_pos (by rw [kronrodLength]; omega), hb i h0]

/-- The table of mixed moments is diagonal. -/
theorem const_table (d : ℕ) : ∀ k l, k + l = d → k ≤ l → l ≤ N →
    table N (fun _ => 0) b0 k l = if k = l then c ^ (k + 1) else 0 := by
  induction d using Nat.strong_induction_on with
  | _ d ih =>
    have hT : ∀ k l, k + l < d → l ≤ N →
        table N (fun _ => 0) b0 k l = if k = l then c ^ (k + 1) else 0 := fun k l h hl => by
      rcases Nat.lt_or_ge l k with hlt | hge
      · rw [table_below _ _ _ hlt, if_neg (by omega)]
      · exact ih (k + l) h k l rfl hge hl
    cases d with
    | zero =>
      intro k l hkl _ _
      obtain rfl : k = 0 := by omega
      obtain rfl : l = 0 := by omega
      rw [table_eq N _ b0 le_rfl (by omega), anti, if_pos (by omega), if_pos rfl]
      change (if 1 = 1 then if N + 1 + 1 < kronrodLength (N + 1) then b0 (N + 1 + 1) else 0 else 0) = _
      rw [if_pos rfl, if_pos (by rw [kronrodLength]; omega), hb _ (by omega), zero_add, pow_one]
    | succ d =>
      by_cases hd : d < N
      · -- downwards from the diagonal
        have key : ∀ e k l, k + l = d → k ≤ l + 1 → l + 1 - k = e →
            table N (fun _ => 0) b0 k (l + 1) = if k = l + 1 then c ^ (k + 1) else 0 := by
          intro e
          induction e using Nat.strong_induction_on with
          | _ e ihe =>
            intro k l hkl hk he
            have hs := table_step_first N (fun _ => 0) b0 (k := k) (l := l) (by omega) hk
            have hnext : table N (fun _ => 0) b0 (k + 1) l = if k + 1 = l then c ^ (k + 2) else 0 := by
              rcases Nat.lt_or_ge l (k + 1) with h1 | h1
              · rw [table_below _ _ _ h1, if_neg (by omega)]
              · obtain ⟨l, rfl⟩ : ∃ l', l = l' + 1 := ⟨l - 1, by omega⟩
                exact ihe (e - 2) (by omega) (k + 1) l (by omega) (by omega) (by omega)
            rw [hnext, hT k l (by omega) (by omega), const_outA_low N b0 (i := l) (by omega) (by omega),
              zero_mul, add_zero] at hs
            have e1 : (if k = 0 then 0 else outB N (fun _ => 0) b0 (k + (N + 1) + 1) *
                table N (fun _ => 0) b0 (k - 1) l) = if k = l + 1 then c ^ (k + 1) else 0 := by
              by_cases h0 : k = 0
              · rw [if_pos h0, if_neg (by omega)]
              · rw [if_neg h0, const_outB_low N b0 c hb (by omega) (by omega), hT _ _ (by omega) (by omega)]
                by_cases h1 : k = l + 1
                · rw [if_pos (by omega), if_pos h1, show k - 1 + 1 = k by omega]; ring
                · rw [if_neg (by omega), if_neg h1, mul_zero]
            have e2 : (if l = 0 then 0 else outB N (fun _ => 0) b0 l *
                table N (fun _ => 0) b0 k (l - 1)) = if k + 1 = l then c ^ (k + 2) else 0 := by
              by_cases h0 : l = 0
              · rw [if_pos h0, if_neg (by omega)]
              · rw [if_neg h0, const_outB_low N b0 c hb (by omega) (by omega), hT _ _ (by omega) (by omega)]
                by_cases h1 : k + 1 = l
                · rw [if_pos (by omega), if_pos h1]; ring
                · rw [if_neg (by omega), if_neg h1, mul_zero]
            have e3 : outA N (fun _ => 0) b0 (k + (N + 1) + 1) * (if k = l then c ^ (k + 1) else 0) = 0 := by
              split_ifs with h1
              · rw [const_outA_low N b0 (by omega) (by omega), zero_mul]
              · rw [mul_zero]
            rw [e1, e2, e3] at hs
            linarith
        intro k l hkl hk hl
        cases l with
        | zero => omega
        | succ l => exact key _ k l (by omega) hk rfl
      · -- upwards from the right boundary
        have key : ∀ k l, k + l = d → k < l → l ≤ N →
            table N (fun _ => 0) b0 (k + 1) l = if k + 1 = l then c ^ (k + 2) else 0 := by
          intro k
          induction k with
          | zero =>
            intro l hkl hk hl
            have hs := table_step_second N (fun _ => 0) b0 (k := 0) (l := l) (by omega) hk hl
            rw [table_right N _ b0 (l := l + 1) (by omega), hT 0 l (by omega) hl, if_neg (by omega), if_pos rfl,
              if_neg (by omega), const_outB_low N b0 c hb (by omega) (by omega),
              hT 0 (l - 1) (by omega) (by omega)] at hs
            by_cases h1 : 0 + 1 = l
            · rw [if_pos (by omega)] at hs; rw [if_pos h1]
              linarith [show c ^ (0 + 2) = c * c ^ (0 + 1) by ring]
            · rw [if_neg (by omega)] at hs; rw [if_neg h1]; linarith
          | succ k ihk =>
            intro l hkl hk hl
            have hs := table_step_second N (fun _ => 0) b0 (k := k + 1) (l := l) (by omega) hk hl
            have hprev : table N (fun _ => 0) b0 (k + 1) (l + 1) = 0 := by
              rcases Nat.lt_or_ge l N with h1 | h1
              · rw [ihk (l + 1) (by omega) (by omega) (by omega), if_neg (by omega)]
              · exact table_right N _ b0 (by omega)
            rw [hprev, hT (k + 1) l (by omega) hl, if_neg (by omega), if_neg (by omega),
              hT (k + 1 - 1) l (by omega) hl, if_neg (by omega), if_neg (by omega),
              const_outB_low N b0 c hb (i := l) (by omega) (by omega),
              hT (k + 1) (l - 1) (by omega) (by omega)] at hs
            by_cases h1 : k + 1 + 1 = l
            · rw [if_pos (by omega)] at hs; rw [if_pos h1]
              linarith [show c ^ (k + 1 + 2) = c * c ^ (k + 1 + 1) by ring]
            · rw [if_neg (by omega)] at hs; rw [if_neg h1]; linarith
        intro k l hkl hk hl
        cases k with
        | zero => omega
        | succ k => exact key k l (by omega) (by omega) hl

theorem const_regular (hc : c ≠ 0) : KronrodRegular (N + 1) (fun _ => 0) b0 := by
  have hd : ∀ k ≤ N, table N (fun _ => 0) b0 k k ≠ 0 := fun k hk => by
    rw [const_table N b0 c hb _ k k rfl le_rfl hk, if_pos rfl]
    exact pow_ne_zero _ hc
  refine ⟨fun j hj => ?_, ?_⟩
  · change kronrodDivisor (N + 1) (run2 N (fun _ => 0) b0 j) (N + j) ≠ 0
    have hj : j < N := by omega
    simp only [kronrodDivisor]
    split_ifs with h
    · have h2 := run2_t N (fun _ => 0) b0 (j := j) (k := (N + j) / 2) (by omega)
      rw [show (N + j - 1) / 2 - (N + j + 1 - (N + 1)) + 2 = (N + j) / 2 - j + 1 by omega, h2]
      have := hd ((N + j) / 2) (by omega)
      rwa [table_eq N _ b0 le_rfl (by omega), show (N + j) / 2 + (N + j) / 2 = N + j by omega] at this
    · rw [show kronrodStep2 (N + 1) (run2 N (fun _ => 0) b0 j) (N + j) = run2 N (fun _ => 0) b0 (j + 1) from
        (run2_succ N _ b0 j).symm, run2_rest N _ b0 (by omega)]
      have h5 := run2_s N (fun _ => 0) b0 (j := j) (k := (N + j - 1) / 2) (by omega) (by omega)
      rw [show (N + j - 1) / 2 - (N + j + 1 - (N + 1)) + 2 = (N + j - 1) / 2 - j + 2 by omega, h5]
      have := hd ((N + j - 1) / 2) (by omega)
      rwa [table_eq N _ b0 le_rfl (by omega),
        show (N + j - 1) / 2 + (N + j - 1) / 2 = N + j - 1 by omega] at this
  · change (run2 N (fun _ => 0) b0 N).t 1 ≠ 0
    have h2 := run2_t N (fun _ => 0) b0 (j := N) (k := N) le_rfl
    rw [Nat.sub_self, zero_add] at h2
    rw [h2, ← table_eq N _ b0 le_rfl le_rfl]
    exact hd N le_rfl

/-- The algorithm continues constant coefficients. -/
theorem const_out (hc : c ≠ 0) : (∀ i ≤ 2 * (N + 1), outA N (fun _ => 0) b0 i = 0) ∧
    ∀ i, 0 < i → i ≤ 2 * (N + 1) → outB N (fun _ => 0) b0 i = c := by
  have hd : ∀ k ≤ N, table N (fun _ => 0) b0 k k = c ^ (k + 1) := fun k hk => by
    rw [const_table N b0 c hb _ k k rfl le_rfl hk, if_pos rfl]
  constructor
  · intro i hi
    by_cases h : 2 * i < N + 2 * (N + 1 + 1) ∧ i < 2 * (N + 1)
    · exact const_outA_low N b0 h.1 h.2
    · obtain ⟨k, rfl⟩ : ∃ k, i = k + (N + 1) + 1 := ⟨i - (N + 1) - 1, by omega⟩
      have hs := table_step_diag N (fun _ => 0) b0 (k := k) (by omega) (by omega)
        (by rw [hd k (by omega)]; exact pow_ne_zero _ hc)
      have e1 : (if k = 0 then 0 else outB N (fun _ => 0) b0 (k + (N + 1) + 1) *
          table N (fun _ => 0) b0 (k - 1) k) = 0 := by
        split_ifs
        · rfl
        · rw [const_table N b0 c hb _ (k - 1) k rfl (by omega) (by omega), if_neg (by omega), mul_zero]
      have e2 : table N (fun _ => 0) b0 k (k + 1) = 0 := by
        rcases Nat.lt_or_ge k N with h1 | h1
        · rw [const_table N b0 c hb _ k (k + 1) rfl (by omega) (by omega), if_neg (by omega)]
        · exact table_right N _ b0 (by omega)
      rw [e1, e2, hd k (by omega), const_outA_low N b0 (i := k) (by omega) (by omega)] at hs
      have := pow_ne_zero (k + 1) hc
      have h3 : outA N (fun _ => 0) b0 (k + (N + 1) + 1) * c ^ (k + 1) = 0 := by linarith
      exact (mul_eq_zero.1 h3).resolve_right this
  · intro i h0 hi
    by_cases h : 2 * i < N + 1 + 2 * (N + 1 + 1)
    · exact const_outB_low N b0 c hb h0 h
    · obtain ⟨k, rfl⟩ : ∃ k, i = k + (N + 1) + 1 := ⟨i - (N + 1) - 1, by omega⟩
      have hs := table_step_sub N (fun _ => 0) b0 (k := k) (by omega) (by omega) (by omega)
        (by rw [hd _ (by omega)]; exact pow_ne_zero _ hc)
      rw [hd _ (by omega), hd _ (by omega), show k - 1 + 1 = k by omega, pow_succ, mul_comm] at hs
      exact mul_left_cancel₀ (pow_ne_zero k hc) hs

end Constant

end OneDim

/-- For the weight `sqrt(1 - x^2)`, `gauss_kronrod(n, 1/2, 1/2)` never divides by zero and is the Gauss
rule with `2 n + 1` points of the same weight: it has a result for every `n`, of degree `4 n + 1`, and its
odd-numbered points are those of the Gauss rule with `n` points. -/
theorem C72_chebyshev (n : ℕ) [NeZero n] :
    KronrodRegular n (jacobiAlpha (1 / 2) (1 / 2))
      (Function.update (jacobiBeta (1 / 2) (1 / 2)) 0 (jacobiInt (1 / 2) (1 / 2))) ∧
    (∀ P W, GaussKronrod n (1 / 2) (1 / 2) P W ↔ GaussJacobi (2 * n + 1) (1 / 2) (1 / 2) P W) ∧
    ∃ P W Q V, GaussKronrod n (1 / 2) (1 / 2) P W ∧ GaussJacobi n (1 / 2) (1 / 2) Q V ∧
      Adaptive.odds P = Q ∧ ExactL P W (4 * n + 1)
        (weightInt (Set.Ioo (-1) 1) fun x => (1 - x) ^ (1 / 2 : ℝ) * (1 + x) ^ (1 / 2 : ℝ)) := by
  have ha : jacobiAlpha (1 / 2) (1 / 2) = fun _ => 0 := by
    funext k; cases k <;> simp [jacobiAlpha]
  have hb : ∀ i, 0 < i → jacobiBeta (1 / 2) (1 / 2) i = 1 / 4 := by
    intro k hk
    match k with
    | 1 => norm_num [jacobiBeta]
    | k + 2 =>
      simp only [jacobiBeta]
      have hk : (0 : ℝ) ≤ k := Nat.cast_nonneg k
      push_cast
      rw [show 2 * ((k : ℝ) + 2) + 1 / 2 + 1 / 2 - 1 = 2 * (k + 2) by ring,
        show 2 * ((k : ℝ) + 2) + 1 / 2 + 1 / 2 + 1 = 2 * (k + 3) by ring,
        show 2 * ((k : ℝ) + 2) + 1 / 2 + 1 / 2 = 2 * (k + 2 + 1 / 2) by ring,
        div_eq_div_iff (by positivity) (by norm_num)]
      ring
  have hb' : ∀ i, 0 < i → Function.update (jacobiBeta (1 / 2) (1 / 2)) 0 (jacobiInt (1 / 2) (1 / 2)) i =
      1 / 4 := fun i hi => by rw [Function.update_of_ne (by omega), hb i hi]
  have hn : 0 < n := Nat.pos_of_ne_zero (NeZero.ne n)
  obtain ⟨N, rfl⟩ : ∃ N, n = N + 1 := ⟨n - 1, by omega⟩
  have hreg := const_regular N _ _ hb' (by norm_num)
  have hout := const_out N _ _ hb' (by norm_num)
  rw [← ha] at hreg hout
  have hiff : ∀ P W, GaussKronrod (N + 1) (1 / 2) (1 / 2) P W ↔
      GaussJacobi (2 * (N + 1) + 1) (1 / 2) (1 / 2) P W := by
    intro P W
    have ht : tridiag (2 * (N + 1) + 1) (outA N (jacobiAlpha (1 / 2) (1 / 2))
        (Function.update (jacobiBeta (1 / 2) (1 / 2)) 0 (jacobiInt (1 / 2) (1 / 2))))
        (fun k => √(outB N (jacobiAlpha (1 / 2) (1 / 2))
        (Function.update (jacobiBeta (1 / 2) (1 / 2)) 0 (jacobiInt (1 / 2) (1 / 2))) k)) =
        tridiag (2 * (N + 1) + 1) (jacobiAlpha (1 / 2) (1 / 2))
          fun k => √(jacobiBeta (1 / 2) (1 / 2) k) := by
      ext i j
      simp only [tridiag, Matrix.of_apply]
      split_ifs with h1 h2 h3
      · rw [hout.1 _ (by omega), ha]
      · rw [hout.2 _ (by omega) (by omega), hb _ (by omega)]
      · rw [hout.2 _ (by omega) (by omega), hb _ (by omega)]
      · rfl
    change SchemeFromRc _ (outA N (jacobiAlpha (1 / 2) (1 / 2))
        (Function.update (jacobiBeta (1 / 2) (1 / 2)) 0 (jacobiInt (1 / 2) (1 / 2))))
        (outB N (jacobiAlpha (1 / 2) (1 / 2))
        (Function.update (jacobiBeta (1 / 2) (1 / 2)) 0 (jacobiInt (1 / 2) (1 / 2)))) _ _ _ ↔ _
    unfold GaussJacobi SchemeFromRc
    rw [ht]
    refine and_congr_left fun _ => forall_congr' fun k => forall_congr' fun hk => forall_congr' fun hk2 => ?_
    rw [hout.2 k hk (by omega), hb k hk]
  refine ⟨hreg, hiff, ?_⟩
  have hj := C19_gauss_jacobi (2 * (N + 1) + 1) (a := 1 / 2) (b := 1 / 2) (by norm_num) (by norm_num)
  obtain ⟨P, W, hP⟩ := hj.1
  obtain ⟨Q, V, hQ⟩ := (C19_gauss_jacobi (N + 1) (a := 1 / 2) (b := 1 / 2) (by norm_num) (by norm_num)).1
  have hK := (hiff P W).2 hP
  refine ⟨P, W, Q, V, hK, hQ, (C72_points (by norm_num) (by norm_num) hreg hK hQ).1, ?_⟩
  have := (hj.2 P W hP).1
  rwa [show 2 * (2 * (N + 1) + 1) - 1 = 4 * (N + 1) + 1 by omega] at this

end Quadpy
