import Verif.Props.C10
import Verif.Lemmas.AdaptiveLive
import Mathlib.Analysis.Calculus.Taylor
import Mathlib.Topology.ContinuousMap.Weierstrass

/-!
# Error bounds of one-dimensional rules
-/

namespace Quadpy
open Adaptive Spec Polynomial MeasureTheory

theorem vdot_abs_le : ∀ {P W : List ℝ} {g : ℝ → ℝ} {c : ℝ} (_ : 0 ≤ c) (_ : ∀ x ∈ P, |g x| ≤ c),
    |vdot (P.map g) W| ≤ c * (W.map abs).sum
  | [], W, _, _, hc, _ => by
    simp only [List.map_nil, vdot, List.zipWith_nil_left, List.sum_nil, abs_zero]
    refine mul_nonneg hc (List.sum_nonneg ?_)
    simp
  | x :: P, [], _, _, hc, _ => by simp [vdot]
  | x :: P, w :: W, g, c, hc, hg => by
    have h1 := vdot_abs_le (P := P) (W := W) (g := g) hc fun x hx => hg x (List.mem_cons_of_mem _ hx)
    have h2 := mul_le_mul_of_nonneg_right (hg x (List.mem_cons_self ..)) (abs_nonneg w)
    rw [List.map_cons, vdot_cons, List.map_cons, List.sum_cons]
    refine (abs_add_le _ _).trans ?_
    rw [abs_mul]
    linarith

theorem sum_abs_of_nonneg {W : List ℝ} (h : ∀ w ∈ W, 0 ≤ w) : (W.map abs).sum = W.sum := by
  rw [List.map_congr_left fun w hw => abs_of_nonneg (h w hw), List.map_id']

theorem vdot_map_sub' (L w : List ℝ) (g h : ℝ → ℝ) :
    vdot (L.map fun x => g x - h x) w = vdot (L.map g) w - vdot (L.map h) w := by
  have := vdot_map_sum (Finset.univ : Finset (Fin 2)) L ![g, fun x => -1 * h x] w
  simp only [Fin.sum_univ_two, Matrix.cons_val_zero, Matrix.cons_val_one] at this
  rw [vdot_map_mul] at this
  rw [show (fun x => g x - h x) = fun x => g x + -1 * h x by funext x; ring, this]
  ring

namespace C1

theorem affine_mem {a b x : ℝ} (hab : a ≤ b) (hx : -1 ≤ x ∧ x ≤ 1) :
    affine (δ := Unit) (fun _ => a, fun _ => b) x () ∈ Set.Icc a b := by
  simp only [affine]
  constructor <;> nlinarith [hx.1, hx.2]

/-- The value of a rule changes little when the function changes little. -/
theorem integrate1_close {P W : List ℝ} (hP : ∀ x ∈ P, -1 ≤ x ∧ x ≤ 1) {a b : ℝ} (hab : a ≤ b)
    {f g : ℝ → ℝ} {ε : ℝ} (hε : 0 ≤ ε) (h : ∀ x ∈ Set.Icc a b, |f x - g x| ≤ ε) :
    |integrate1 P W f a b - integrate1 P W g a b| ≤ (b - a) / 2 * (W.map abs).sum * ε := by
  simp only [integrate1, integrate, len_unit]
  rw [← mul_sub, abs_mul, abs_mul, abs_abs, abs_of_nonneg (sub_nonneg.2 hab),
    abs_of_pos (by norm_num : (0 : ℝ) < 1 / 2), ← vdot_map_sub']
  have h1 := vdot_abs_le (P := P) (W := W) (g := fun x => f (affine (fun _ : Unit => a, fun _ => b) x ()) -
    g (affine (fun _ : Unit => a, fun _ => b) x ())) hε fun x hx => h _ (affine_mem hab (hP x hx))
  have h2 := mul_le_mul_of_nonneg_left h1 (show 0 ≤ 1 / 2 * (b - a) by linarith)
  refine h2.trans (le_of_eq ?_)
  ring

end C1

/-- The polynomial of Taylor. -/
theorem exists_taylor (f : ℝ → ℝ) {a b C : ℝ} (d : ℕ) (hab : a ≤ b)
    (hf : ContDiffOn ℝ (d + 1) f (Set.Icc a b))
    (hC : ∀ y ∈ Set.Icc a b, |iteratedDerivWithin (d + 1) f (Set.Icc a b) y| ≤ C) :
    ∃ p : ℝ[X], p.natDegree ≤ d ∧ ∀ x ∈ Set.Icc a b, |f x - p.eval x| ≤ C * (b - a) ^ (d + 1) / d.factorial := by
  refine ⟨∑ k ∈ Finset.range (d + 1), Polynomial.C (((k.factorial : ℝ)⁻¹) *
    iteratedDerivWithin k f (Set.Icc a b) a) * (X - Polynomial.C a) ^ k, ?_, fun x hx => ?_⟩
  · refine natDegree_sum_le_of_forall_le _ _ fun k hk => ?_
    refine (natDegree_C_mul_le _ _).trans (natDegree_pow_le.trans ?_)
    rw [natDegree_X_sub_C]
    have := Finset.mem_range.1 hk
    omega
  · have h := taylor_mean_remainder_bound hab hf hx hC
    rw [taylor_within_apply] at h
    have e : eval x (∑ k ∈ Finset.range (d + 1), Polynomial.C (((k.factorial : ℝ)⁻¹) *
        iteratedDerivWithin k f (Set.Icc a b) a) * (X - Polynomial.C a) ^ k) =
        ∑ k ∈ Finset.range (d + 1), ((k.factorial : ℝ)⁻¹ * (x - a) ^ k) •
          iteratedDerivWithin k f (Set.Icc a b) a := by
      rw [eval_finsetSum]
      refine Finset.sum_congr rfl fun k _ => ?_
      simp only [eval_mul, eval_C, eval_pow, eval_sub, eval_X, smul_eq_mul]
      ring
    rw [e]
    refine (Real.norm_eq_abs _ ▸ h).trans ?_
    have hC0 : 0 ≤ C := (abs_nonneg _).trans (hC a ⟨le_rfl, hab⟩)
    gcongr
    · linarith [hx.1]
    · exact hx.2

end Quadpy
