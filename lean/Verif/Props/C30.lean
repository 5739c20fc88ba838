/-
C30: the product rules on the disk have the degree they claim, given Gauss-Legendre rules.
-/
import Verif.Lemmas.ProductRule
import Verif.Lemmas.Circle
import Verif.Lemmas.CubeMoments
import Verif.Props.C29
import Mathlib.MeasureTheory.Integral.IntervalIntegral.Periodic

namespace Quadpy
open Finset Adaptive

theorem circ_intervalIntegral (a b : ℕ) :
    circ a b = ∫ θ in (-Real.pi)..Real.pi, Real.cos θ ^ a * Real.sin θ ^ b := by
  rw [circ, ← MeasureTheory.integral_Ioc_eq_integral_Ioo,
    ← intervalIntegral.integral_of_le (by linarith [Real.pi_pos])]

/-- Integration by parts on the circle. -/
theorem circ_step (a b : ℕ) : ((a : ℝ) + b + 2) * circ a (b + 2) = (b + 1) * circ a b := by
  have hd : ∀ θ ∈ Set.uIcc (-Real.pi) Real.pi, HasDerivAt
      (fun θ => Real.cos θ ^ (a + 1) * Real.sin θ ^ (b + 1))
      ((b + 1) * (Real.cos θ ^ a * Real.sin θ ^ b) -
        (a + b + 2) * (Real.cos θ ^ a * Real.sin θ ^ (b + 2))) θ := by
    intro θ _
    have h := ((Real.hasDerivAt_cos θ).pow (a + 1)).mul ((Real.hasDerivAt_sin θ).pow (b + 1))
    refine h.congr_deriv ?_
    simp only [Nat.add_sub_cancel, Pi.pow_apply]
    push_cast
    linear_combination (b + 1) * Real.cos θ ^ a * Real.sin θ ^ b * Real.cos_sq_add_sin_sq θ
  have h := intervalIntegral.integral_eq_sub_of_hasDerivAt hd
    (Continuous.intervalIntegrable (by fun_prop) _ _)
  rw [intervalIntegral.integral_sub (Continuous.intervalIntegrable (by fun_prop) _ _)
    (Continuous.intervalIntegrable (by fun_prop) _ _), intervalIntegral.integral_const_mul,
    intervalIntegral.integral_const_mul, ← circ_intervalIntegral, ← circ_intervalIntegral] at h
  simp only [Real.sin_pi, Real.sin_neg, Real.cos_neg, neg_zero] at h
  rw [zero_pow (by omega)] at h
  linarith

theorem circ_odd_sin {a b : ℕ} (hb : Odd b) : circ a b = 0 := by
  rw [circ_intervalIntegral]
  have h := intervalIntegral.integral_comp_neg (a := -Real.pi) (b := Real.pi)
    (fun θ => Real.cos θ ^ a * Real.sin θ ^ b)
  simp only [Real.cos_neg, Real.sin_neg, neg_neg, hb.neg_pow, mul_neg,
    intervalIntegral.integral_neg] at h
  linarith

/-- The integral over the disk in terms of the circle. -/
theorem ball_two (α : Fin 2 → ℕ) : Spec.ball 2 (mono α) = circ (α 0) (α 1) / (α 0 + α 1 + 2) := by
  rw [ball_eq_ballPow, ballPow_eq, polar (by norm_num), sphere_two,
    ballDens_integral (by norm_num) (by norm_num), Fin.sum_univ_two]
  push_cast
  have : (0 : ℝ) < 2 + 0 + (α 0 + α 1) := by positivity
  field_simp
  ring

theorem ball_two_one : Spec.ball 2 (fun _ => 1) = Real.pi := by
  rw [one_eq_mono, ball_two]
  simp only [circ, Pi.zero_apply, pow_zero, mul_one, MeasureTheory.setIntegral_const,
    MeasureTheory.measureReal_def, Real.volume_Ioo]
  rw [ENNReal.toReal_ofReal (by linarith [Real.pi_pos])]; simp

theorem ball_two_linOnMono : LinOnMono (Spec.ball 2) := by
  rw [ball_eq_ballPow]; exact ballPow_linOnMono (by norm_num) (by norm_num)

/-- Chebyshev's rule of the second kind in trigonometric form. -/
theorem half_circle {n a b : ℕ} (hb : Even b) (h : a + b ≤ 2 * n - 1) (hn : 1 ≤ n) :
    2 * Real.pi * ∑ m ∈ range n, (Real.cos (((m : ℝ) + 1) * Real.pi / (n + 1)) ^ a *
      Real.sin (((m : ℝ) + 1) * Real.pi / (n + 1)) ^ (b + 2)) = (n + 1) * circ a (b + 2) := by
  set F : ℝ → ℝ := fun θ => Real.cos θ ^ a * Real.sin θ ^ (b + 2) with hF
  have hu := uniform_circle (N := 2 * (n + 1)) (a := a) (b := b + 2) (by omega) 0
  have e : ∀ k : ℕ, 2 * Real.pi * (k : ℝ) / ((2 * (n + 1) : ℕ) : ℝ) + 0 = k * Real.pi / (n + 1) := by
    intro k; push_cast; field_simp; ring
  simp only [e] at hu
  change 2 * Real.pi * ∑ k ∈ range (2 * (n + 1)), F (k * Real.pi / (n + 1)) = _ at hu
  have n1 : (n : ℝ) + 1 ≠ 0 := by positivity
  have z0 : F ((0 : ℕ) * Real.pi / (n + 1)) = 0 := by simp [hF]
  have zpi : F (((n + 1 : ℕ) : ℝ) * Real.pi / (n + 1)) = 0 := by
    rw [show ((n + 1 : ℕ) : ℝ) * Real.pi / (n + 1) = Real.pi by push_cast; field_simp]
    simp [hF]
  have heven : Even (b + 2) := hb.add even_two
  have hs : ∑ k ∈ range (2 * (n + 1)), F (k * Real.pi / (n + 1)) =
      2 * ∑ m ∈ range n, F (((m : ℝ) + 1) * Real.pi / (n + 1)) := by
    rw [two_mul (n + 1), sum_range_add, sum_range_succ', sum_range_succ' _ n]
    have z0' : F (((n + 1 + 0 : ℕ) : ℝ) * Real.pi / (n + 1)) = 0 := zpi
    rw [z0, z0', add_zero, add_zero, two_mul]
    congr 1
    · refine sum_congr rfl fun m _ => by push_cast; rfl
    · rw [← sum_range_reflect]
      refine sum_congr rfl fun m hm => ?_
      have hm' : m < n := by simpa using hm
      have : ((n + 1 + (n - 1 - m + 1) : ℕ) : ℝ) = 2 * (n + 1) - (m + 1) := by
        rw [show n + 1 + (n - 1 - m + 1) = 2 * n + 1 - m by omega, Nat.cast_sub (by omega)]
        push_cast; ring
      rw [this, show (2 * ((n : ℝ) + 1) - (m + 1)) * Real.pi / (n + 1) =
        -((m + 1) * Real.pi / (n + 1)) + 2 * Real.pi by field_simp; ring]
      simp only [hF, Real.cos_add_two_pi, Real.sin_add_two_pi, Real.cos_neg, Real.sin_neg,
        heven.neg_pow]
  rw [hs] at hu
  push_cast at hu
  linarith

/-- C30: `s2.lether(n)`. -/
theorem C30_lether {n : ℕ} (hn : 1 ≤ n) {p w : List ℝ} (h : Spec.ExactC1 p w (2 * n - 1)) :
    (S2.lether n p w).degree = 2 * n - 1 ∧ (S2.lether n p w).ExactOnBall 2 := by
  rw [S2.lether, plainScheme_eq]
  refine ⟨rfl, ⟨rfl, ?_, ?_⟩, ?_⟩
  · simp [List.length_flatMap, h.1]
  · simp only [List.mem_flatMap, List.mem_map]
    rintro x ⟨a, -, b, -, rfl⟩; rfl
  · refine exactUpTo_of_mono ((dot_linOnMono _ _).const_mul _) ball_two_linOnMono fun α hα => ?_
    beta_reduce
    have hα' : α 0 + α 1 ≤ 2 * n - 1 := by simpa [Fin.sum_univ_two] using hα
    rw [ball_two, ball_two_one, dot_flatMap _ _ _ _ _ (by simp)]
    set s := ∑ m ∈ range n, (Real.cos (((m : ℝ) + 1) * Real.pi / (n + 1)) ^ α 0 *
      Real.sin (((m : ℝ) + 1) * Real.pi / (n + 1)) ^ (α 1 + 2)) with hs
    have e : ∀ wi pi : ℝ, dot 2 ((List.range n).map fun m : ℕ =>
          wi * Real.sin (((m : ℝ) + 1) * Real.pi / (n + 1)) ^ 2 / (n + 1))
        ((List.range n).map fun m : ℕ => [Real.cos (((m : ℝ) + 1) * Real.pi / (n + 1)),
          pi * Real.sin (((m : ℝ) + 1) * Real.pi / (n + 1))]) (mono α) =
        (s / (n + 1)) * (wi * pi ^ α 1) := by
      intro wi pi
      rw [dot_map_map, zipWith_range_sum, hs, sum_div, sum_mul]
      refine sum_congr rfl fun m _ => ?_
      simp [mono, Fin.prod_univ_two, toVec]; ring
    simp only [e]
    rw [zipWith_sum_mul_left, zipWith_sum_eq, exactC1_pow h (by omega : α 1 ≤ _), integral_pow_sym]
    rcases Nat.even_or_odd (α 1) with hb | hb
    · have h1 := half_circle hb hα' hn
      have h2 := circ_step (α 0) (α 1)
      rw [m1, if_pos hb]
      rw [← hs] at h1
      have : (0 : ℝ) < (α 0 : ℝ) + α 1 + 2 := by positivity
      field_simp
      nlinarith
    · rw [m1_odd hb, circ_odd_sin hb]; simp

theorem circ_odd_total {a b : ℕ} (h : Odd (a + b)) : circ a b = 0 := by
  rw [circ_intervalIntegral]
  have hp : Function.Periodic (fun θ => Real.cos θ ^ a * Real.sin θ ^ b) (2 * Real.pi) := by
    intro θ; simp only [Real.cos_add_two_pi, Real.sin_add_two_pi]
  have h1 := hp.intervalIntegral_add_eq (-Real.pi) 0
  have h2 := intervalIntegral.integral_comp_add_right (a := -Real.pi) (b := Real.pi)
    (fun θ => Real.cos θ ^ a * Real.sin θ ^ b) Real.pi
  have h3 : ∀ θ : ℝ, (-Real.cos θ) ^ a * (-Real.sin θ) ^ b = -(Real.cos θ ^ a * Real.sin θ ^ b) := by
    intro θ
    rw [neg_pow, neg_pow (Real.sin θ), show (-1 : ℝ) ^ a * Real.cos θ ^ a * ((-1) ^ b * Real.sin θ ^ b) =
      (-1) ^ (a + b) * (Real.cos θ ^ a * Real.sin θ ^ b) by ring, h.neg_one_pow]
    ring
  simp only [Real.cos_add_pi, Real.sin_add_pi, h3, intervalIntegral.integral_neg] at h2
  rw [show -Real.pi + 2 * Real.pi = Real.pi by ring, show (0 : ℝ) + 2 * Real.pi = 2 * Real.pi by ring]
    at h1
  rw [show -Real.pi + Real.pi = 0 by ring, show Real.pi + Real.pi = 2 * Real.pi by ring] at h2
  linarith

/-- C30: `peirce_1957(m)`, given a Gauss-Legendre rule with `m + 1` points in the interval. -/
theorem C30_peirce1957 (m : ℕ) {p w : List ℝ} (h : Spec.ExactC1 p w (2 * (m + 1) - 1))
    (hp : ∀ x ∈ p, -1 ≤ x) :
    (S2.peirce1957 m p w).degree = 4 * m + 3 ∧ (S2.peirce1957 m p w).ExactOnBall 2 := by
  rw [S2.peirce1957, plainScheme_eq]
  refine ⟨rfl, ⟨rfl, ?_, ?_⟩, ?_⟩
  · simp [List.length_flatMap, h.1]
  · simp only [List.mem_flatMap, List.mem_map]
    rintro x ⟨a, -, b, -, rfl⟩; rfl
  · refine exactUpTo_of_mono ((dot_linOnMono _ _).const_mul _) ball_two_linOnMono fun α hα => ?_
    beta_reduce
    have hα' : α 0 + α 1 ≤ 4 * m + 3 := by simpa [Fin.sum_univ_two] using hα
    rw [ball_two, ball_two_one, dot_flatMap _ _ _ _ _ (by simp [h.1])]
    set R := vdot (p.map fun x => √(1 / 2 * (x + 1)) ^ (α 0 + α 1)) w with hR
    have e : ∀ i : ℕ, dot 2 (w.map fun wj => 1 / 2 / (((4 * m + 3 : ℕ) : ℝ) + 1) * wj)
        (p.map fun pj =>
          [√(1 / 2 * (pj + 1)) * Real.cos (2 * Real.pi * ((i : ℝ) + 1) / (((4 * m + 3 : ℕ) : ℝ) + 1)),
           √(1 / 2 * (pj + 1)) * Real.sin (2 * Real.pi * ((i : ℝ) + 1) / (((4 * m + 3 : ℕ) : ℝ) + 1))])
          (mono α) =
        1 / 2 / (((4 * m + 3 : ℕ) : ℝ) + 1) * R *
          (Real.cos (2 * Real.pi * i / ((4 * m + 4 : ℕ) : ℝ) + 2 * Real.pi / ((4 * m + 4 : ℕ) : ℝ)) ^ α 0 *
           Real.sin (2 * Real.pi * i / ((4 * m + 4 : ℕ) : ℝ) + 2 * Real.pi / ((4 * m + 4 : ℕ) : ℝ)) ^ α 1) := by
      intro i
      rw [dot_map_map, hR, ← zipWith_sum_eq]
      have ea : 2 * Real.pi * ((i : ℝ) + 1) / (((4 * m + 3 : ℕ) : ℝ) + 1) =
          2 * Real.pi * i / ((4 * m + 4 : ℕ) : ℝ) + 2 * Real.pi / ((4 * m + 4 : ℕ) : ℝ) := by
        push_cast; field_simp; ring
      rw [ea]
      generalize 2 * Real.pi * (i : ℝ) / ((4 * m + 4 : ℕ) : ℝ) + 2 * Real.pi / ((4 * m + 4 : ℕ) : ℝ) = t
      rw [mul_right_comm, ← zipWith_sum_mul_left]
      congr 1; congr 1
      funext a b
      simp [mono, Fin.prod_univ_two, toVec]
      ring
    simp only [e]
    rw [zipWith_range_sum, ← mul_sum]
    have hu := uniform_circle (N := 4 * m + 4) (a := α 0) (b := α 1) (by omega)
      (2 * Real.pi / ((4 * m + 4 : ℕ) : ℝ))
    rw [show 4 * m + 3 + 1 = 4 * m + 4 by rfl]
    set S := ∑ k ∈ range (4 * m + 4), (Real.cos (2 * Real.pi * k / ((4 * m + 4 : ℕ) : ℝ) +
      2 * Real.pi / ((4 * m + 4 : ℕ) : ℝ)) ^ α 0 * Real.sin (2 * Real.pi * k / ((4 * m + 4 : ℕ) : ℝ) +
      2 * Real.pi / ((4 * m + 4 : ℕ) : ℝ)) ^ α 1)
    have hpi := Real.pi_pos
    rcases Nat.even_or_odd (α 0 + α 1) with ⟨j, hj⟩ | ho
    · have hRv : R = 2 / (j + 1) := by
        have := h.2 ((Polynomial.C (1 / 2) * (Polynomial.X + Polynomial.C 1)) ^ j) (by
          refine Polynomial.natDegree_pow_le.trans ?_
          have : (Polynomial.C (1 / 2 : ℝ) * (Polynomial.X + Polynomial.C 1)).natDegree ≤ 1 := by
            compute_degree
          calc _ ≤ j * 1 := Nat.mul_le_mul_left j this
            _ ≤ _ := by omega)
        simp only [Polynomial.eval_pow, Polynomial.eval_mul, Polynomial.eval_C, Polynomial.eval_add,
          Polynomial.eval_X] at this
        rw [hR, hj, ← two_mul]
        rw [show (p.map fun x => √(1 / 2 * (x + 1)) ^ (2 * j)) = p.map fun x => (1 / 2 * (x + 1)) ^ j from
          List.map_congr_left fun x hx => by
            rw [pow_mul, Real.sq_sqrt (by linarith [hp x hx])], this]
        have hi : (∫ x in (-1 : ℝ)..1, (1 / 2 * (x + 1)) ^ j) = 2 * ∫ x in (0 : ℝ)..1, x ^ j := by
          have := intervalIntegral.integral_comp_mul_add (a := -1) (b := 1) (fun x : ℝ => x ^ j)
            (by norm_num : (1 / 2 : ℝ) ≠ 0) (1 / 2)
          simp only [smul_eq_mul] at this
          rw [show (∫ x in (-1 : ℝ)..1, (1 / 2 * (x + 1)) ^ j) =
            ∫ x in (-1 : ℝ)..1, (1 / 2 * x + 1 / 2) ^ j from
              intervalIntegral.integral_congr fun x _ => by ring, this]
          norm_num
        rw [hi, integral_pow]; simp; ring
      have hc : (α 0 : ℝ) + α 1 = 2 * j := by exact_mod_cast (by omega : α 0 + α 1 = 2 * j)
      rw [hRv, hc]
      have hm : (0 : ℝ) < 4 * m + 4 := by positivity
      push_cast at hu ⊢
      have hS : S = (4 * m + 4) * circ (α 0) (α 1) / (2 * Real.pi) := by
        rw [eq_div_iff (by positivity)]; linarith
      rw [hS]
      have : (4 : ℝ) * m + 3 + 1 = 4 * m + 4 := by ring
      rw [this]
      field_simp
    · rw [circ_odd_total ho] at hu ⊢
      have hS : S = 0 := by
        have : 2 * Real.pi ≠ 0 := by positivity
        simpa [this] using hu
      rw [hS]; simp

/-- A concrete rule: the two point Gauss rule gives a rule of degree 3 on the disk. -/
example : (S2.lether 2 [-√(1 / 3), √(1 / 3)] [1, 1]).ExactOnBall 2 := by
  have h3 : √(1 / 3 : ℝ) ^ 2 = 1 / 3 := Real.sq_sqrt (by norm_num)
  generalize √(1 / 3 : ℝ) = s at h3 ⊢
  have h : Spec.ExactC1 [-s, s] [1, 1] (2 * 2 - 1) := exactC1_of_pow (by simp)
    fun k hk => by
      have hk' : k ≤ 3 := hk
      rw [integral_pow_ref]
      interval_cases k <;> simp only [List.map_cons, List.map_nil, vdot, List.zipWith_cons_cons,
        List.zipWith_nil_right, List.sum_cons, List.sum_nil] <;>
        norm_num [Nat.even_iff] <;> (first | linarith | ring)
  exact (C30_lether (by norm_num) h).2

/-- A concrete rule: the midpoint rule gives a rule of degree 3 on the disk. -/
example : (S2.peirce1957 0 [0] [2]).ExactOnBall 2 := by
  have h : Spec.ExactC1 [0] [2] (2 * (0 + 1) - 1) := exactC1_of_pow (by simp) fun k hk => by
    have hk' : k ≤ 1 := hk
    rw [integral_pow_ref]
    interval_cases k <;> simp [vdot]
  exact (C30_peirce1957 0 h (by simp)).2

end Quadpy
