import Verif.Props.C22
import Verif.Props.C24
import Verif.Props.C25
import Verif.Props.C26
import Verif.Props.C27
import Verif.Props.C48C2
import Verif.Props.C48C3
import Verif.Props.C48E2
import Verif.Props.C48E3
import Verif.Props.C48S2
import Verif.Props.C48S3
import Verif.Props.C48U3
import Verif.Lemmas.Moments9

/-!
# Concrete cases for the degrees of C24, C25 and C48: weighted sums which the rules give
-/

namespace Quadpy
open Finset

/-- A rule which has its degree for `J` gives the moments of `J`. -/
theorem rule_moment {n : ℕ} {J : Spec.Functional n} {E : (Fin n → ℕ) → ℝ} (hJ : EvenMom J E)
    (h0 : J (fun _ => 1) ≠ 0) {S : Scheme} (hS : S.ExactRel n J) (p : Fin n → ℕ)
    (hp : ∑ i, 2 * p i ≤ S.degree) {f : (Fin n → ℝ) → ℝ} (hf : ∀ x, f x = ∏ i, x i ^ (2 * p i)) {v : ℝ}
    (hv : E p = v) : dot n S.weights S.points f = v := by
  obtain rfl : f = mono fun i => 2 * p i := funext hf
  subst hv
  have h := hS.2 (MvPolynomial.monomial (Finsupp.equivFunOnFinite.symm fun i => 2 * p i) 1) (by
    rw [MvPolynomial.totalDegree_monomial _ one_ne_zero, Finsupp.sum_fintype _ _ (fun _ => rfl)]
    simpa using hp)
  have e : (fun x : Fin n → ℝ => MvPolynomial.eval x
      (MvPolynomial.monomial (Finsupp.equivFunOnFinite.symm fun i => 2 * p i) (1 : ℝ))) =
      mono fun i => 2 * p i := by
    funext x
    rw [MvPolynomial.eval_monomial, Finsupp.prod_fintype _ _ (fun _ => pow_zero _)]
    simp [mono]
  rw [e, hJ.even p] at h
  exact mul_left_cancel₀ h0 h

/-- The moment `p` of a rule with the degree `d`. -/
local macro "rule_case " a:term ", " b:term ", " c:term ", " d:term ", " p:term : tactic => `(tactic| (
  refine rule_moment $a $b $c $p (by rw [$d:term]; simp [Fin.sum_univ_succ]) (fun x => ?_) ?_
  · simp [Fin.prod_univ_succ, mul_assoc]
  · norm_num [oddFac, stepFac, Nat.factorial, Fin.prod_univ_succ, Fin.sum_univ_succ]))

theorem relCube {n : ℕ} {S : Scheme} (h : S.ExactOnCube n) : S.ExactRel n (Spec.cube n) := by
  rw [Scheme.ExactRel, McNameeStenger.cube_one]
  exact h

theorem cube_ne (n : ℕ) : Spec.cube n (fun _ => 1) ≠ 0 := by
  rw [McNameeStenger.cube_one]
  positivity

theorem sphere_ne {n : ℕ} (hn : 0 < n) : Spec.sphere n (fun _ => 1) ≠ 0 := by
  rw [one_eq_mono, sphere_mono' hn]
  have := (radial_symMom hn (fun _ => 1) rfl).zero
  simp only [radMom, one_mul] at this
  rw [this, mul_one]
  exact (sphereArea_pos hn).ne'

/-- C48, square: the mean of `x² y²` over the square is `1 / 9`, and the rule of Burnside gives it. -/
example : dot 2 FixedC2.burnside.weights FixedC2.burnside.points (fun x => x 0 ^ 2 * x 1 ^ 2) = 1 / 9 := by
  rule_case (cube_even 2), (cube_ne 2), (relCube C48_c2_burnside.1), C48_c2_burnside.2, ![1, 1]

/-- C48, cube: the mean of `x² y²` -/
example : dot 3 FixedC3.sadowsky.weights FixedC3.sadowsky.points (fun x => x 0 ^ 2 * x 1 ^ 2) = 1 / 9 := by
  rule_case (cube_even 3), (cube_ne 3), (relCube C48_c3_sadowsky.1), C48_c3_sadowsky.2, ![1, 1, 0]

/-- C48, disk: the mean of `x⁴ y⁴` is `3 / 640`. -/
example : dot 2 FixedS2.albrecht_4.weights FixedS2.albrecht_4.points (fun x => x 0 ^ 4 * x 1 ^ 4) =
    3 / 640 := by
  rule_case (ball_even (n := 2) (by norm_num)), (McNameeStenger.ball_pos (by norm_num)).ne',
    C48_s2_albrecht_4.1, C48_s2_albrecht_4.2, ![2, 2]

/-- C48, ball: the mean of `x² y²` is `1 / 35`. -/
example : dot 3 FixedS3.hammer_stroud_12_3.weights FixedS3.hammer_stroud_12_3.points
    (fun x => x 0 ^ 2 * x 1 ^ 2) = 1 / 35 := by
  rule_case (ball_even (n := 3) (by norm_num)), (McNameeStenger.ball_pos (by norm_num)).ne',
    C48_s3_hammer_stroud_12_3.1, C48_s3_hammer_stroud_12_3.2, ![1, 1, 0]

/-- C48, sphere: the mean of `x² z²` is `1 / 15`. -/
example : dot 3 FixedU3.albrecht_collatz_1.weights FixedU3.albrecht_collatz_1.points
    (fun x => x 0 ^ 2 * x 2 ^ 2) = 1 / 15 := by
  rule_case (sphere_even (n := 3) (by norm_num)), (sphere_ne (by norm_num)),
    C48_u3_albrecht_collatz_1.1, C48_u3_albrecht_collatz_1.2, ![1, 0, 1]

/-- C48, plane with `exp(-r)`: the mean of `x⁴ y²`. -/
example : dot 2 FixedE2r.stroud_secrest_6.weights FixedE2r.stroud_secrest_6.points
    (fun x => x 0 ^ 4 * x 1 ^ 2) = 315 := by
  rule_case (enr_even (n := 2) (by norm_num)), (McNameeStenger.enr_pos (by norm_num)).ne',
    C48_e2r_stroud_secrest_6.1, C48_e2r_stroud_secrest_6.2, ![2, 1]

/-- C48, space with `exp(-r²)`: the mean of `x² y²`. -/
example : dot 3 FixedE3r2.stroud_secrest_07.weights FixedE3r2.stroud_secrest_07.points
    (fun x => x 0 ^ 2 * x 1 ^ 2) = 1 / 4 := by
  rule_case (enr2_even 3), (McNameeStenger.enr2_pos 3).ne',
    C48_e3r2_stroud_secrest_07.1, C48_e3r2_stroud_secrest_07.2, ![1, 1, 0]

/-- C24, ball in dimension 7: the mean of `x₀⁴ x₃²`. -/
example : ∃ S, Sn.stroud1967_7ab 7 true = some S ∧
    dot 7 S.weights S.points (fun x => x 0 ^ 4 * x 3 ^ 2) = 3 / 1287 := by
  obtain ⟨S, h, hd, hS⟩ := C24_stroud1967_7a 7 (by norm_num) (by norm_num)
  refine ⟨S, h, ?_⟩
  rule_case (ball_even (n := 7) (by norm_num)), (McNameeStenger.ball_pos (by norm_num)).ne', hS, hd,
    ![2, 0, 0, 1, 0, 0, 0]

/-- C25, sphere in dimension 6: the mean of `x₀² x₁² x₅²` is `1 / 480`. -/
example : ∃ S, Un.stroud1967 6 = some S ∧
    dot 6 S.weights S.points (fun x => x 0 ^ 2 * x 1 ^ 2 * x 5 ^ 2) = 1 / 480 := by
  obtain ⟨S, h, hd, hS⟩ := C25_stroud1967 6 (by norm_num)
  refine ⟨S, h, ?_⟩
  rule_case (sphere_even (n := 6) (by norm_num)), (sphere_ne (by norm_num)), hS, hd,
    ![1, 1, 0, 0, 0, 1]

end Quadpy
