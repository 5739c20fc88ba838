import Verif.Props.C11
import Verif.Props.C13
import Verif.Props.C15
import Verif.Props.C42
import Verif.Props.C48T2
import Verif.Props.C48C2
import Verif.Props.C22
import Verif.Props.C22Defined

/-!
# Concrete cases for C11, C22, C42 and C48
-/

namespace Quadpy
open MeasureTheory

/-- A triangle. -/
def caseT : Fin 3 → Fin 2 → ℝ := ![![0, 0], ![2, 0], ![1, 3]]

theorem caseT_vol : Tn.getVol caseT = 3 := by
  rw [Tn.C12_det, Matrix.det_fin_two]
  norm_num [Nat.factorial, Fin.succ, caseT]

/-- `x y²` -/
noncomputable def caseP : MvPolynomial (Fin 2) ℝ := MvPolynomial.X 0 * MvPolynomial.X 1 ^ 2

theorem caseP_degree : caseP.totalDegree ≤ 3 := by
  refine (MvPolynomial.totalDegree_mul _ _).trans ?_
  rw [MvPolynomial.totalDegree_X, MvPolynomial.totalDegree_X_pow]

theorem case_rule : Tn.integrate FixedT2.seven_point.weights FixedT2.seven_point.points
    (fun x => MvPolynomial.eval x caseP) caseT = 9 / 2 := by
  rw [Tn.integrate, caseT_vol]
  have hp : FixedT2.seven_point.points = [[1 / 3, 1 / 3, 1 / 3], [1, 0, 0], [0, 1, 0], [0, 0, 1],
      [1 / 2, 1 / 2, 0], [1 / 2, 0, 1 / 2], [0, 1 / 2, 1 / 2]] := by
    simp [FixedT2.seven_point, schemeOfSym, expandSymmetries, entryPoints, orbit, List.range_succ]
  have hw : FixedT2.seven_point.weights = [9 / 20, 1 / 20, 1 / 20, 1 / 20, 2 / 15, 2 / 15, 2 / 15] := by
    simp [FixedT2.seven_point, schemeOfSym, expandSymmetries, entryWeights, orbit, List.replicate]
  rw [hp, hw]
  simp [dot, toVec, caseP, caseT, Tn.transform, Fin.sum_univ_three]
  norm_num

/-- C11 and C48: the integral of `x y²` over the triangle, computed with `seven_point`. -/
example : ∫ x in convexHull ℝ (Set.range caseT), x 0 * x 1 ^ 2 = 9 / 2 := by
  rw [← case_rule, Tn.C11_exact C48_t2_seven_point.1 caseT caseP caseP_degree]
  simp [caseP]

/-- C11: the same with the vertices in another order. -/
example : Tn.integrate FixedT2.seven_point.weights FixedT2.seven_point.points
    (fun x => MvPolynomial.eval x caseP) (caseT ∘ Equiv.swap 0 2) = 9 / 2 := by
  rw [Tn.C11_perm C48_t2_seven_point.1 caseT _ caseP caseP_degree, case_rule]

/-- C42: the adaptive integration of `x y²` over the triangle, with two rules of degree 3, returns this value
and the error 0. -/
example : T2.integrateAdaptive ⟨FixedT2.seven_point.weights, FixedT2.seven_point.points,
      FixedT2.albrecht_collatz.weights, FixedT2.albrecht_collatz.points⟩
    (fun x (_ : Unit) => MvPolynomial.eval x caseP) [caseT] (1 / 10 ^ 10) none 0 =
      .returned (fun _ => 9 / 2) (fun _ => 0) := by
  have hT : AffineIndependent ℝ caseT := by
    by_contra h
    have := (Tn.C12_zero_iff caseT).2 h
    rw [caseT_vol] at this
    norm_num at this
  have hd : ∀ S : Scheme, S.degree = 3 → ∀ i : Unit, caseP.totalDegree ≤ S.degree :=
    fun S h _ => h ▸ caseP_degree
  obtain ⟨v, e, h⟩ := T2.C42_exact_returns C48_t2_seven_point.1 C48_t2_albrecht_collatz.1
    (fun _ : Unit => caseP) (hd _ C48_t2_seven_point.2) (hd _ C48_t2_albrecht_collatz.2) [caseT] (1 / 10 ^ 10)
    (by norm_num) (by simpa using hT) none 0
  have h2 := T2.C42_exact C48_t2_seven_point.1 C48_t2_albrecht_collatz.1
    (fun _ : Unit => caseP) (hd _ C48_t2_seven_point.2) (hd _ C48_t2_albrecht_collatz.2) [caseT] (1 / 10 ^ 10)
    none 0 v e h
  rw [h]
  have hv : v = fun _ => 9 / 2 := by
    funext i
    rw [(h2 i).1, ← case_rule, Tn.C11_exact C48_t2_seven_point.1 caseT caseP caseP_degree]
    simp
  have he : e = fun _ => 0 := funext fun i => (h2 i).2
  rw [hv, he]

/-- C22: in dimension 10 the rule `hammer_stroud_2` exists and integrates `x₀² x₇` over the simplex. -/
example : ∃ S, Tn.hammerStroud2 10 = some S ∧
    1 / ((10).factorial : ℝ) * dot 11 S.weights S.points (fun xi => xi 1 ^ 2 * xi 8) =
      2 / ((13).factorial : ℝ) := by
  obtain ⟨S, h, hd⟩ := (C22_hammerStroud2_defined 10).1 (by norm_num)
  refine ⟨S, h, ?_⟩
  have := (Tn.C22_hammerStroud2 10 S h).2 (MvPolynomial.X 0 ^ 2 * MvPolynomial.X 7)
    ((MvPolynomial.totalDegree_mul _ _).trans (by
      rw [hd, MvPolynomial.totalDegree_X_pow, MvPolynomial.totalDegree_X]))
  simp only [map_mul, map_pow, MvPolynomial.eval_X] at this
  have hm := simplex_mono (n := 10) ![2, 0, 0, 0, 0, 0, 0, 1, 0, 0]
  have e : (fun x : Fin 10 → ℝ => x 0 ^ 2 * x 7) = mono ![2, 0, 0, 0, 0, 0, 0, 1, 0, 0] := by
    funext x
    simp [mono, Fin.prod_univ_succ]
  rw [e, hm] at this
  refine Eq.trans this ?_
  simp [Fin.prod_univ_succ, Fin.sum_univ_succ]

end Quadpy
