import Verif.Props.C72

/-!
# C47: the degree of `gauss_kronrod(2)`
-/

namespace Quadpy

open OneDim Spec Polynomial

/-- With two Legendre points the claimed degree 9 is wrong too: the rule exists, has degree 7
(`C47_exact`) and not 8, since the coefficient `1/3` computed for the last row is not the Legendre
coefficient `16/63`. -/
theorem C47_degree_two : (∃ P W, GaussKronrod 2 0 0 P W) ∧ kronrodDegree 2 = 9 ∧
    ∀ P W, GaussKronrod 2 0 0 P W → ExactC1 P W 7 ∧ ¬ ExactC1 P W 8 := by
  obtain ⟨L, hL, hrec, hpos, h1, hβ⟩ := jacobi_functional (a := 0) (b := 0) (by norm_num) (by norm_num)
  have eL : ∀ p : ℝ[X], ∫ x in (-1 : ℝ)..1, p.eval x = L p := fun p => by
    rw [hL, weightInt, intervalIntegral.integral_of_le (by norm_num),
      MeasureTheory.integral_Ioc_eq_integral_Ioo]
    simp
  have hpre := rKronrod_prefix (n := 2) two_pos (jacobiAlpha 0 0)
    (Function.update (jacobiBeta 0 0) 0 (jacobiInt 0 0))
  have hB4 : (rKronrod 2 (jacobiAlpha 0 0) (Function.update (jacobiBeta 0 0) 0 (jacobiInt 0 0))).2 4 =
      1 / 3 := by
    norm_num [rKronrod, kronrodStep2, kronrodShift, kronrodStep1, kronrodInit, kronrodLength,
      List.range_succ, jacobiAlpha, jacobiBeta, Function.update_apply, List.range']
  have hB : ∀ k, 0 < k → k < 4 → (rKronrod 2 (jacobiAlpha 0 0)
      (Function.update (jacobiBeta 0 0) 0 (jacobiInt 0 0))).2 k = jacobiBeta 0 0 k := fun k h0 hk => by
    rw [hpre.2 k (by rw [kronrodLength]; omega), Function.update_of_ne (by omega)]
  refine ⟨?_, rfl, fun P W h => ⟨?_, fun hx => ?_⟩⟩
  · refine schemeFromRc_exists _ _ _ _ fun k h0 hk => ?_
    rcases Nat.lt_or_ge k 4 with h4 | h4
    · rw [hB k h0 h4]; exact (hβ k h0).le
    · rw [show k = 4 by omega, hB4]; norm_num
  · obtain ⟨-, -, -, e⟩ := C47_exact (n := 2) two_pos (by norm_num) (by norm_num) h
    refine ⟨e.1, fun p hp => ?_⟩
    rw [e.2 p hp, eL, hL]
  · have hc := recPoly_congr (α := jacobiAlpha 0 0) (β := jacobiBeta 0 0) 4
      (fun i hi => (hpre.1 i (by omega)).symm) fun i h0 hi => (hB i h0 hi).symm
    set A := (rKronrod 2 (jacobiAlpha 0 0) (Function.update (jacobiBeta 0 0) 0 (jacobiInt 0 0))).1
    set B := (rKronrod 2 (jacobiAlpha 0 0) (Function.update (jacobiBeta 0 0) 0 (jacobiInt 0 0))).2
    have hsq := recPoly_sqrt h.1 (α := A)
    have e1 := hx.2 (recPoly A B 4 * recPoly A B 4) (by
      rw [(recPoly_monic A B 4).natDegree_mul (recPoly_monic A B 4), recPoly_natDegree])
    rw [eL, schemeFromRc_vdot h, ← hsq 4 (by omega), corner_recPoly _ _ (by omega) (by omega),
      if_pos ⟨rfl, by omega⟩, hsq 4 (by omega), ← hc 4 le_rfl, recPoly_norm L (hrec 5) 4 (by omega),
      Finset.prod_congr rfl fun i hi => Real.sq_sqrt (h.1 (i + 1) (by omega) (by simp at hi; omega)),
      h1] at e1
    have hi : jacobiInt 0 0 = 2 := by norm_num [jacobiInt]
    simp only [Finset.prod_range_succ, Finset.prod_range_zero, one_mul, zero_add, Nat.reduceAdd] at e1
    change _ * (B 1 * B 2 * B 3 * B 4) = _ at e1
    rw [hB 1 (by omega) (by omega), hB 2 (by omega) (by omega), hB 3 (by omega) (by omega), hB4, hi] at e1
    norm_num [jacobiBeta] at e1

end Quadpy
