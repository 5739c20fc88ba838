import Verif.Lemmas.AdaptiveLoop

/-!
# C44: the error estimate of one Gauss-Kronrod evaluation
-/

namespace Quadpy
namespace Adaptive

set_option linter.unusedSectionVars false

variable {δ ι : Type} [Fintype δ] [Fintype ι]

/-- Nonnegative Kronrod weights: `0 ≤ error_estimate ≤ I_tilde`. -/
theorem C44_bounds (G : GK) (hG : ∀ w ∈ G.gkW, 0 ≤ w) (f : (δ → ℝ) → ι → ℝ) (I : Ivl δ) (i : ι) :
    0 ≤ errEst G f I i ∧ errEst G f I i ≤ Itilde G f I i := by
  refine ⟨errEst_nonneg hG I i, ?_⟩
  have h := Itilde_nonneg (f := f) hG I i
  simp only [errEst]
  refine mul_le_of_le_one_left h ?_
  split_ifs
  · exact min_le_left _ _
  · exact le_rfl

/-- If the Gauss and the Kronrod value agree and `I_tilde` is not tiny, the estimate is zero. -/
theorem C44_zero (G : GK) (f : (δ → ℝ) → ι → ℝ) (I : Ivl δ) (i : ι)
    (hi : 1 / 10 ^ 15 < |Itilde G f I i|) (h : valKronrod G f I i = valGauss G f I i) :
    errEst G f I i = 0 := by
  simp only [errEst]
  rw [if_pos hi, h, sub_self, abs_zero, mul_zero, zero_div, Real.zero_rpow (by norm_num),
    min_eq_right (by norm_num), zero_mul]

/-- Conversely, an estimate of zero with `I_tilde` not tiny means that the two values agree: the
estimate does not hide a difference. -/
theorem C44_zero_iff (G : GK) (hG : ∀ w ∈ G.gkW, 0 ≤ w) (f : (δ → ℝ) → ι → ℝ) (I : Ivl δ) (i : ι)
    (hi : 1 / 10 ^ 15 < |Itilde G f I i|) :
    errEst G f I i = 0 ↔ valKronrod G f I i = valGauss G f I i := by
  refine ⟨fun h => ?_, C44_zero G f I i hi⟩
  have h0 := Itilde_nonneg (f := f) hG I i
  have hpos : 0 < Itilde G f I i := by
    rw [abs_of_nonneg h0] at hi
    exact lt_trans (by norm_num) hi
  simp only [errEst] at h
  rw [if_pos hi, mul_eq_zero, or_iff_left hpos.ne'] at h
  have h1 : (200 * |valKronrod G f I i - valGauss G f I i| / Itilde G f I i) ^ (3 / 2 : ℝ) ≤ 0 := by
    rcases min_choice 1
      ((200 * |valKronrod G f I i - valGauss G f I i| / Itilde G f I i) ^ (3 / 2 : ℝ)) with h2 | h2
    · rw [h2] at h; norm_num at h
    · rw [h2] at h; exact h.le
  by_contra hne
  have h3 : 0 < |valKronrod G f I i - valGauss G f I i| := abs_pos.2 (sub_ne_zero.2 hne)
  exact absurd h1 (not_le.2 (Real.rpow_pos_of_pos (by positivity) _))

/-- When the difference of the two values is at least `I_tilde / 200`, the estimate is `I_tilde`. -/
theorem C44_saturated (G : GK) (f : (δ → ℝ) → ι → ℝ) (I : Ivl δ) (i : ι)
    (h0 : 0 < Itilde G f I i) (hi : Itilde G f I i ≤ 200 * |valKronrod G f I i - valGauss G f I i|) :
    errEst G f I i = Itilde G f I i := by
  simp only [errEst]
  split_ifs
  · rw [min_eq_left, one_mul]
    exact Real.one_le_rpow ((one_le_div h0).2 hi) (by norm_num)
  · rw [one_mul]

/-- Nesting: entry `j` of the values the Gauss weights are applied to is the Kronrod value number
`2 j + 1`. -/
theorem C44_nesting {α : Type} (L : List α) (j : ℕ) : (odds L)[j]? = L[2 * j + 1]? := by
  induction L using odds.induct generalizing j with
  | case1 => simp [odds]
  | case2 => simp [odds]
  | case3 a b t ih =>
    cases j with
    | zero => simp [odds]
    | succ j =>
      rw [show 2 * (j + 1) + 1 = (2 * j + 1) + 2 by ring]
      simp [odds, ih]

/-- There are `k` of them among `2 k + 1` Kronrod values. -/
theorem C44_nesting_length {α : Type} (L : List α) (k : ℕ) (h : L.length = 2 * k + 1) :
    (odds L).length = k := by
  have : ∀ L : List α, (odds L).length = L.length / 2 := by
    intro L
    induction L using odds.induct with
    | case1 => simp [odds]
    | case2 => simp [odds]
    | case3 a b t ih => simp only [odds, List.length_cons, ih]; omega
  rw [this, h]; omega

/-- A case that meets the hypotheses: `|x|` on `[-1, 1]` with Simpson/midpoint has `I_tilde = 8/9`
and values `2/3` and `0`, so the estimate is saturated. -/
theorem C44_example : errEst (δ := Unit) (ι := Unit) ⟨[-1, 0, 1], [1 / 3, 4 / 3, 1 / 3], [2]⟩
    (fun x _ => |x ()|) (fun _ => -1, fun _ => 1) () = 8 / 9 := by
  have h1 : Itilde (δ := Unit) (ι := Unit) ⟨[-1, 0, 1], [1 / 3, 4 / 3, 1 / 3], [2]⟩
      (fun x _ => |x ()|) (fun _ => -1, fun _ => 1) () = 8 / 9 := by
    simp [Itilde, average, vdot, affine, len]
    norm_num [abs_of_pos, abs_of_neg]
  have h2 : valKronrod (δ := Unit) (ι := Unit) ⟨[-1, 0, 1], [1 / 3, 4 / 3, 1 / 3], [2]⟩
      (fun x _ => |x ()|) (fun _ => -1, fun _ => 1) () = 2 / 3 := by
    simp [valKronrod, average, vdot, affine, len]
    norm_num
  have h3 : valGauss (δ := Unit) (ι := Unit) ⟨[-1, 0, 1], [1 / 3, 4 / 3, 1 / 3], [2]⟩
      (fun x _ => |x ()|) (fun _ => -1, fun _ => 1) () = 0 := by
    simp [valGauss, vdot, affine, odds]
  rw [C44_saturated _ _ _ _ (by rw [h1]; norm_num) (by rw [h1, h2, h3]; norm_num [abs_of_pos]), h1]

end Adaptive
end Quadpy
