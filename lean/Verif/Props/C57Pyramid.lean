import Verif.Lemmas.Decimal
import Verif.Model.MixedWedge
import Verif.Props.C50
import Mathlib.Topology.Algebra.MvPolynomial

/-!
# C57: the pyramid rule with decimal numbers
-/

namespace Quadpy.P3
open MeasureTheory Finset Dec

/-- On every pyramid whose base is a parallelogram and for every polynomial `p`, the error is at most `eps`
times the volume of the pyramid times the sum of the absolute values of the coefficients of `p` in the
affine coordinates of the reference pyramid. -/
def Approx (S : Scheme) (eps : ℝ) : Prop :=
  S.WellShaped 3 ∧ ∀ (pyra : Fin 5 → Fin 3 → ℝ), pyra 0 + pyra 2 = pyra 1 + pyra 3 →
    ∀ p q : MvPolynomial (Fin 3) ℝ, p.totalDegree ≤ S.degree → q.totalDegree ≤ S.degree →
      (∀ x, MvPolynomial.eval (collapse x) q = MvPolynomial.eval (transform x pyra) p) →
      |integrate S (fun x => MvPolynomial.eval x p) pyra -
        ∫ x in convexHull ℝ (Set.range pyra), MvPolynomial.eval x p| ≤
        eps * volume.real (convexHull ℝ (Set.range pyra)) * ∑ a ∈ q.support, |q.coeff a|

theorem integral_ref_one : ∫ _ in ref, (1 : ℝ) = 8 / 3 := by
  have := integral_ref 0 0 0
  simp [mom, slab] at this ⊢
  rw [this]
  norm_num

/-- The coordinates of the pyramid cover the reference pyramid up to the apex. -/
theorem collapse_surj (x : Fin 3 → ℝ) (hx : x 2 ≠ 1) : ∃ ξ, collapse ξ = x := by
  have h : (1 - x 2) / 2 ≠ 0 := fun h => hx (by linarith)
  refine ⟨![x 0 / ((1 - x 2) / 2), x 1 / ((1 - x 2) / 2), x 2], ?_⟩
  funext i
  fin_cases i <;> simp [collapse]
  · rw [div_mul_cancel₀ _ h]
  · rw [div_mul_cancel₀ _ h]

theorem eval_eq {pyra : Fin 5 → Fin 3 → ℝ} (hp : pyra 0 + pyra 2 = pyra 1 + pyra 3)
    {p q : MvPolynomial (Fin 3) ℝ}
    (h : ∀ x, MvPolynomial.eval (collapse x) q = MvPolynomial.eval (transform x pyra) p) (x : Fin 3 → ℝ) :
    MvPolynomial.eval x q = MvPolynomial.eval (affineMap (mat pyra) (vec pyra) x) p := by
  have hc1 : Continuous fun t : ℝ => MvPolynomial.eval ![x 0, x 1, t] q :=
    (MvPolynomial.continuous_eval q).comp (by fun_prop)
  have hc2 : Continuous fun t : ℝ =>
      MvPolynomial.eval (affineMap (mat pyra) (vec pyra) ![x 0, x 1, t]) p := by
    refine (MvPolynomial.continuous_eval p).comp ?_
    unfold affineMap
    fun_prop
  have hd : Dense {t : ℝ | t ≠ 1} := dense_compl_singleton 1
  have := hc1.ext_on hd hc2 fun t ht => by
    obtain ⟨ξ, hξ⟩ := collapse_surj ![x 0, x 1, t] (by simpa using ht)
    beta_reduce
    rw [← hξ, h, transform_eq hp]
  have hx : ![x 0, x 1, x 2] = x := by
    funext i
    fin_cases i <;> rfl
  have h2 := congrFun this (x 2)
  beta_reduce at h2
  rwa [hx] at h2

theorem approx_of_mom {data : List (ℝ × List (List ℝ))} {deg : ℕ} {eps : ℝ}
    (hs : ∀ g ∈ data, ∀ x ∈ g.2, x.length = 3)
    (h : ∀ a b c : ℕ, a + b + c ≤ deg → |(data.map fun g => g.1 * osum 3 g.2 fun ξ =>
      (ξ 0 * ((1 - ξ 2) / 2)) ^ a * (ξ 1 * ((1 - ξ 2) / 2)) ^ b * ξ 2 ^ c *
        ((1 - ξ 2) / 2) ^ 2).sum - mom a b c| ≤ 8 / 3 * eps) : Approx (schemeOf 3 data deg) eps := by
  refine ⟨schemeOf_wellShaped _ _ _ hs, fun pyra hp p q _ hq he => ?_⟩
  have href : Spec.ApproxUpTo deg (8 / 3 * eps)
      (fun f : (Fin 3 → ℝ) → ℝ => dot 3 (schemeOf 3 data deg).weights
      (schemeOf 3 data deg).points fun ξ => f (collapse ξ) * ((1 - ξ 2) / 2) ^ 2)
      fun f => ∫ x in ref, f x := by
    refine approxUpTo_of_mono (linOnMono_dot_comp _ _ _ _) (linOnMono_integral_one _ fun α => ?_)
      fun α hα => ?_
    · exact ContinuousOn.integrableOn_compact isCompact_ref (by unfold mono; fun_prop)
    · beta_reduce
      rw [dot_schemeOf]
      have := h (α 0) (α 1) (α 2) (by simpa [Fin.sum_univ_three] using hα)
      simpa only [mono, Fin.prod_univ_three, integral_ref, collapse, Matrix.cons_val] using this
  have h1 := href q hq
  beta_reduce at h1
  have hdet : volume.real (convexHull ℝ (Set.range pyra)) = |(mat pyra).det| * (8 / 3) := by
    have h2 := integral_affine (mat pyra) (vec pyra) isCompact_ref.measurableSet fun _ => (1 : ℝ)
    rw [image_ref hp, integral_ref_one] at h2
    simpa using h2
  have h3 := integral_affine (mat pyra) (vec pyra) isCompact_ref.measurableSet
    fun x => MvPolynomial.eval x p
  rw [image_ref hp] at h3
  simp only [eval_eq hp he] at h1
  rw [hdet, h3, integrate]
  simp only [transform_eq hp, getDetJ_eq hp, abs_mul, abs_pow, sq_abs]
  have h4 : (dot 3 (schemeOf 3 data deg).weights (schemeOf 3 data deg).points fun xi =>
      MvPolynomial.eval (affineMap (mat pyra) (vec pyra) (collapse xi)) p *
        (|(mat pyra).det| * ((1 - xi 2) / 2) ^ 2)) = |(mat pyra).det| *
      dot 3 (schemeOf 3 data deg).weights (schemeOf 3 data deg).points fun xi =>
      MvPolynomial.eval (affineMap (mat pyra) (vec pyra) (collapse xi)) p * ((1 - xi 2) / 2) ^ 2 := by
    rw [← Cn.dot_mul_const]
    congr 1
    funext ξ
    ring
  rw [h4, ← mul_sub, abs_mul, abs_abs]
  calc |(mat pyra).det| * _ ≤ |(mat pyra).det| * _ := mul_le_mul_of_nonneg_left h1 (abs_nonneg _)
    _ = _ := by ring

/-- The nine points of the square. -/
noncomputable def sq9 (r : ℝ) (a b : ℕ) : ℝ :=
  25 / 81 * (r ^ a * r ^ b + (-r) ^ a * r ^ b + r ^ a * (-r) ^ b + (-r) ^ a * (-r) ^ b) +
    40 / 81 * (r ^ a * 0 ^ b + (-r) ^ a * 0 ^ b + 0 ^ a * r ^ b + 0 ^ a * (-r) ^ b) + 64 / 81 * (0 ^ a * 0 ^ b)

theorem sq9_eq {r : ℝ} (hr : r ^ 2 = 3 / 5) (a b : ℕ) (h : a + b ≤ 5) :
    sq9 r a b = if Even a ∧ Even b then (4 : ℝ) / ((a + 1) * (b + 1)) else 0 := by
  have h4 : r ^ 4 = 9 / 25 := by rw [show r ^ 4 = (r ^ 2) ^ 2 by ring, hr]; norm_num
  have ha : a ≤ 5 := by omega
  have hb : b ≤ 5 := by omega
  have e1 : ¬ Even 1 := by decide
  have e3 : ¬ Even 3 := by decide
  have e5 : ¬ Even 5 := by decide
  have e0 : Even 0 := by decide
  have e2 : Even 2 := by decide
  have e4 : Even 4 := by decide
  interval_cases a <;> interval_cases b <;> first
    | (exfalso; omega)
    | (simp only [sq9, e1, e3, e5, e4, e0, e2, and_true, true_and, and_self, if_true, if_false,
        false_and, and_false]
       push_cast
       linarith)

/-- The three levels. -/
noncomputable def levels (c k : ℕ) : ℝ :=
  w1 * (g3 ^ c * ((1 - g3) / 2) ^ k) + w2 * (g4 ^ c * ((1 - g4) / 2) ^ k) +
    w3 * (g5 ^ c * ((1 - g5) / 2) ^ k)

theorem levels_near (c k : ℕ) (hk : Even k) (h : k + c ≤ 5) :
    |levels c (k + 2) - slab c (k + 2)| ≤ 1e-37 := by
  obtain ⟨m, rfl⟩ := hk
  have hm : m ≤ 2 := by omega
  have hc : c ≤ 5 := by omega
  interval_cases m <;> interval_cases c <;> first
    | (exfalso; omega)
    | (simp only [levels, slab, w1, w2, w3, g3, g4, g5]
       norm_num [abs_le])

theorem felippa_9_sum (r : ℝ) (a b c : ℕ) :
    (([(w1 * (25 / 81), s4 r g3), (w1 * (40 / 81), s4_0 r g3), (w1 * (64 / 81), [[0, 0, g3]]),
    (w2 * (25 / 81), s4 r g4), (w2 * (40 / 81), s4_0 r g4), (w2 * (64 / 81), [[0, 0, g4]]),
    (w3 * (25 / 81), s4 r g5), (w3 * (40 / 81), s4_0 r g5), (w3 * (64 / 81), [[0, 0, g5]])] :
      List (ℝ × List (List ℝ))).map fun g => g.1 * osum 3 g.2 fun ξ =>
      (ξ 0 * ((1 - ξ 2) / 2)) ^ a * (ξ 1 * ((1 - ξ 2) / 2)) ^ b * ξ 2 ^ c *
        ((1 - ξ 2) / 2) ^ 2).sum = sq9 r a b * levels c (a + b + 2) := by
  simp only [s4, s4_0, osum, toVec, List.map_cons, List.map_nil, List.sum_cons, List.sum_nil, sq9, levels,
    mul_pow, pow_add]
  simp only [Fin.val_zero, Fin.val_one, Fin.val_two, List.getD_cons_zero, List.getD_cons_succ]
  generalize g3 = x
  generalize g4 = y
  generalize g5 = z
  generalize (1 - x) / 2 = x'
  generalize (1 - y) / 2 = y'
  generalize (1 - z) / 2 = z'
  ring

theorem C57_p3_felippa_9 : Approx felippa_9 1e-36 := by
  refine approx_of_mom (by simp [s4, s4_0]) fun a b c h => ?_
  have h2 := Real.sq_sqrt (show (0 : ℝ) ≤ 3 / 5 by norm_num)
  beta_reduce
  rw [felippa_9_sum, sq9_eq h2 a b (by omega), mom]
  split_ifs with hab
  · rw [← mul_sub, abs_mul]
    have h3 := levels_near c (a + b) (hab.1.add hab.2) (by omega)
    have h4 : |(4 : ℝ) / ((a + 1) * (b + 1))| ≤ 4 := by
      rw [abs_of_nonneg (by positivity), div_le_iff₀ (by positivity)]
      have : (1 : ℝ) ≤ (a + 1) * (b + 1) := by
        have := Nat.cast_nonneg (α := ℝ) a
        have := Nat.cast_nonneg (α := ℝ) b
        nlinarith
      linarith
    refine (mul_le_mul h4 h3 (abs_nonneg _) (by norm_num)).trans ?_
    norm_num
  · norm_num

/-- The error for the volume of the reference pyramid. -/
example : |integrate felippa_9 (fun _ => 1) ![![-1, -1, -1], ![1, -1, -1], ![1, 1, -1], ![-1, 1, -1],
      ![0, 0, 1]] - ∫ _ in convexHull ℝ (Set.range
      ![![-1, -1, -1], ![1, -1, -1], ![1, 1, -1], ![-1, 1, -1], ![(0 : ℝ), 0, 1]]), (1 : ℝ)| ≤
    1e-36 * volume.real (convexHull ℝ (Set.range
      ![![-1, -1, -1], ![1, -1, -1], ![1, 1, -1], ![-1, 1, -1], ![(0 : ℝ), 0, 1]])) := by
  have := C57_p3_felippa_9.2 ![![-1, -1, -1], ![1, -1, -1], ![1, 1, -1], ![-1, 1, -1], ![0, 0, 1]]
    (by ext i; fin_cases i <;> simp) 1 1 (by simp) (by simp) (by simp)
  rw [show (1 : MvPolynomial (Fin 3) ℝ) = MvPolynomial.monomial 0 1 from rfl,
    MvPolynomial.support_monomial, if_neg one_ne_zero] at this
  simpa using this

end Quadpy.P3
