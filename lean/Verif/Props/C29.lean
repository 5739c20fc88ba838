/-
C29: the equidistant rule on the circle has degree exactly `n - 1`.
-/
import Verif.Lemmas.Circle
import Verif.Lemmas.SimplexFrame
import Verif.Model.U2
import Verif.Props.C15

namespace Quadpy
open Finset

/-- Any uniform rule on the circle, with any phase. -/
theorem circle_sphere {N : ℕ} (hN : 0 < N) (φ : ℝ) (α : Fin 2 → ℕ) (hα : ∑ i, α i < N) :
    Spec.sphere 2 (fun _ => 1) * (1 / N * ∑ k ∈ range N, (Real.cos (2 * Real.pi * k / N + φ) ^ α 0 *
      Real.sin (2 * Real.pi * k / N + φ) ^ α 1)) = Spec.sphere 2 (mono α) := by
  rw [Fin.sum_univ_two] at hα
  have h1 : Spec.sphere 2 (fun _ => 1) = 2 * Real.pi := by
    rw [one_eq_mono, sphere_two]
    simp only [circ, Pi.zero_apply, pow_zero, mul_one, MeasureTheory.setIntegral_const,
      MeasureTheory.measureReal_def, Real.volume_Ioo]
    rw [ENNReal.toReal_ofReal (by linarith [Real.pi_pos])]; simp; ring
  have h := uniform_circle hα φ
  have : (N : ℝ) ≠ 0 := by positivity
  rw [h1, sphere_two]
  generalize (∑ k ∈ range N, _ : ℝ) = s at h ⊢
  field_simp
  linear_combination h

theorem dot_krylov (n : ℕ) (f : (Fin 2 → ℝ) → ℝ) :
    dot 2 (U2.krylov n).weights (U2.krylov n).points f = 1 / n * ∑ k ∈ range n,
      f ![Real.cos (2 * Real.pi * k / n), Real.sin (2 * Real.pi * k / n)] := by
  have h := dot_replicate (n := 2) (1 / (n : ℝ)) ((List.range n).map fun k : ℕ =>
    [Real.cos (2 * k * Real.pi / n), Real.sin (2 * k * Real.pi / n)]) f
  rw [List.length_map, List.length_range, osum_range_map] at h
  rw [U2.krylov, h]
  congr 1
  refine sum_congr rfl fun k _ => ?_
  congr 1
  funext i
  rw [show 2 * (k : ℝ) * Real.pi / n = 2 * Real.pi * k / n by ring]
  fin_cases i <;> simp [toVec]

theorem C29_krylov (n : ℕ) (hn : 1 ≤ n) :
    (U2.krylov n).degree = n - 1 ∧ (U2.krylov n).ExactOnSphere 2 := by
  refine ⟨rfl, ⟨rfl, by simp [U2.krylov], ?_⟩, ?_⟩
  · simp only [U2.krylov, List.mem_map]
    rintro x ⟨k, -, rfl⟩; rfl
  · refine exactUpTo_of_mono ((dot_linOnMono _ _).const_mul _) sphere_linOnMono fun α hα => ?_
    beta_reduce
    have hα' : ∑ i, α i ≤ n - 1 := hα
    rw [dot_krylov, ← circle_sphere (N := n) hn 0 α (by omega)]
    simp [mono, Fin.prod_univ_two]

/-- The integral over any circle. -/
theorem C29_integrate (n : ℕ) (hn : 1 ≤ n) (c : Fin 2 → ℝ) (r : ℝ) (p : MvPolynomial (Fin 2) ℝ)
    (hp : p.totalDegree ≤ n - 1) :
    U2.integrate (U2.krylov n).weights (U2.krylov n).points (fun x => MvPolynomial.eval x p) c r =
      sphereIntegral c r fun x => MvPolynomial.eval x p := by
  rw [← C15_sphere (by norm_num) (C29_krylov n hn).2 c r p hp]
  simp [U2.integrate, Un.integrate, nsphereVolume]

/-- Real and imaginary part of `(x + i y)^m`. -/
noncomputable def reim : ℕ → MvPolynomial (Fin 2) ℝ × MvPolynomial (Fin 2) ℝ
  | 0 => (1, 0)
  | m + 1 => (MvPolynomial.X 0 * (reim m).1 - MvPolynomial.X 1 * (reim m).2,
      MvPolynomial.X 0 * (reim m).2 + MvPolynomial.X 1 * (reim m).1)

theorem reim_degree (m : ℕ) : (reim m).1.totalDegree ≤ m ∧ (reim m).2.totalDegree ≤ m := by
  induction m with
  | zero => simp [reim]
  | succ m ih =>
    have key : ∀ (i : Fin 2) (p : MvPolynomial (Fin 2) ℝ), p.totalDegree ≤ m →
        (MvPolynomial.X i * p).totalDegree ≤ m + 1 := fun i p hp => by
      refine (MvPolynomial.totalDegree_mul _ _).trans ?_
      rw [MvPolynomial.totalDegree_X]; omega
    exact ⟨(MvPolynomial.totalDegree_sub _ _).trans (max_le (key _ _ ih.1) (key _ _ ih.2)),
      (MvPolynomial.totalDegree_add _ _).trans (max_le (key _ _ ih.2) (key _ _ ih.1))⟩

theorem reim_eval (m : ℕ) (θ : ℝ) :
    MvPolynomial.eval ![Real.cos θ, Real.sin θ] (reim m).1 = Real.cos (m * θ) ∧
    MvPolynomial.eval ![Real.cos θ, Real.sin θ] (reim m).2 = Real.sin (m * θ) := by
  induction m with
  | zero => simp [reim]
  | succ m ih =>
    simp only [reim, map_sub, map_add, map_mul, MvPolynomial.eval_X, ih.1, ih.2]
    rw [show ((m + 1 : ℕ) : ℝ) * θ = θ + m * θ by push_cast; ring, Real.cos_add, Real.sin_add]
    simp [add_comm]

theorem cos_sum (n : ℕ) (hn : 1 ≤ n) :
    ∑ k ∈ range (n + 1), Real.cos (n * (2 * Real.pi * k / ((n + 1 : ℕ) : ℝ))) = 0 := by
  have h := ez_sum (N := n + 1) (m := n) (by simp) 0
  rw [if_neg (by exact_mod_cast (by omega : n ≠ 0))] at h
  have h2 := congrArg Complex.re h
  rw [Complex.re_sum] at h2
  rw [← Complex.zero_re, ← h2]
  refine sum_congr rfl fun k _ => ?_
  rw [ez, show (((n : ℤ) : ℂ) * ((2 * Real.pi * k / ((n + 1 : ℕ) : ℝ) + 0 : ℝ) : ℂ) * Complex.I) =
    ((n * (2 * Real.pi * k / ((n + 1 : ℕ) : ℝ)) : ℝ) : ℂ) * Complex.I by push_cast; ring,
    Complex.exp_ofReal_mul_I_re]

/-- The degree claim is sharp: no circle rule `krylov(n)` has degree `n`. -/
theorem C29_sharp (n : ℕ) (hn : 1 ≤ n) :
    ¬ Spec.ExactUpTo n (fun f => Spec.sphere 2 (fun _ => 1) *
      dot 2 (U2.krylov n).weights (U2.krylov n).points f) (Spec.sphere 2) := by
  intro h
  have h1 := h (reim n).1 (reim_degree n).1
  have h2 := (C29_krylov (n + 1) (by omega)).2.2 (reim n).1 (by simpa [U2.krylov] using (reim_degree n).1)
  beta_reduce at h1 h2
  rw [← h1, dot_krylov, dot_krylov] at h2
  have hs : Spec.sphere 2 (fun _ => 1) ≠ 0 := by
    have hp := Real.pi_pos
    rw [one_eq_mono, sphere_two]
    simp only [circ, Pi.zero_apply, pow_zero, mul_one, MeasureTheory.setIntegral_const,
      MeasureTheory.measureReal_def, Real.volume_Ioo]
    rw [ENNReal.toReal_ofReal (by linarith)]; simp
  have h3 := mul_left_cancel₀ hs h2
  simp only [(reim_eval n _).1, cos_sum n hn, mul_zero] at h3
  have h0 : (n : ℝ) ≠ 0 := by positivity
  have e : ∀ k ∈ range n, Real.cos (n * (2 * Real.pi * k / n)) = 1 := fun k _ => by
    rw [show (n : ℝ) * (2 * Real.pi * k / n) = k * (2 * Real.pi) by field_simp]
    exact Real.cos_nat_mul_two_pi k
  rw [sum_congr rfl e] at h3
  simp [h0] at h3

example : (U2.krylov 4).points.length = 4 ∧ (U2.krylov 4).ExactOnSphere 2 :=
  ⟨by simp [U2.krylov], (C29_krylov 4 (by norm_num)).2⟩

end Quadpy
