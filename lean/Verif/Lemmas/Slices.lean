import Verif.Lemmas.SimplexMoments
import Verif.Lemmas.Affine
import Verif.Props.C04
import Verif.Props.C08
import Verif.Model.WedgePyramid
import Mathlib.Analysis.Convex.Topology
import Mathlib.MeasureTheory.Constructions.Pi
import Mathlib.MeasureTheory.Integral.Prod

/-!
# The reference pyramid and the reference wedge
-/

open MeasureTheory Finset

namespace Quadpy

theorem convex_affineMap_image {n m : ℕ} (A : Matrix (Fin m) (Fin n) ℝ) (b : Fin m → ℝ)
    {S : Set (Fin n → ℝ)} (hS : Convex ℝ S) : Convex ℝ (affineMap A b '' S) := by
  have : affineMap A b = fun x => Matrix.toLin' A x + b := by
    funext x k
    simp [affineMap, Matrix.mulVec, dotProduct]
  rw [this]
  have h := (hS.linear_image (Matrix.toLin' A)).translate b
  rw [Set.image_image] at h
  simpa only [add_comm] using h

/-- Rules whose function values carry a factor that depends on the point. -/
theorem linOnMono_dot_comp {n m : ℕ} (w : List ℝ) (pts : List (List ℝ))
    (τ : (Fin m → ℝ) → (Fin n → ℝ)) (κ : (Fin m → ℝ) → ℝ) :
    LinOnMono (fun f : (Fin n → ℝ) → ℝ => dot m w pts fun ξ => f (τ ξ) * κ ξ) := by
  intro s c
  dsimp only
  unfold dot
  induction w generalizing pts with
  | nil => simp
  | cons a w ih =>
    cases pts with
    | nil => simp
    | cons p pts =>
      simp only [List.zipWith_cons_cons, List.sum_cons]
      rw [ih pts, sum_mul, mul_sum, ← sum_add_distrib]
      refine sum_congr rfl fun _ _ => ?_
      ring

/-- Fubini: cutting a body of `ℝ³` along the third coordinate. -/
theorem integral_slices {S : Set (Fin 3 → ℝ)} {K : ℝ → Set (Fin 2 → ℝ)} (hS : IsCompact S)
    (hK : ∀ t, MeasurableSet (K t))
    (h : ∀ t y, ![y 0, y 1, t] ∈ S ↔ t ∈ Set.Icc (-1 : ℝ) 1 ∧ y ∈ K t)
    {f : (Fin 3 → ℝ) → ℝ} (hf : Continuous f) :
    ∫ x in S, f x = ∫ t in (-1 : ℝ)..1, ∫ y in K t, f ![y 0, y 1, t] := by
  have hm := hS.isClosed.measurableSet
  have hi : Integrable (S.indicator f) volume :=
    (hf.continuousOn.integrableOn_compact hS).integrable_indicator hm
  rw [← integral_indicator hm]
  have hp := (volume_preserving_piFinSuccAbove (fun _ : Fin 3 => ℝ) 2).symm
  rw [← hp.integral_comp (MeasurableEquiv.measurableEmbedding _)]
  have hi' : Integrable (fun x => S.indicator f
      ((MeasurableEquiv.piFinSuccAbove (fun _ : Fin 3 => ℝ) 2).symm x)) volume :=
    hp.integrable_comp_of_integrable hi
  rw [Measure.volume_eq_prod] at hi' ⊢
  rw [integral_prod _ hi', intervalIntegral.integral_of_le (by norm_num),
    ← integral_Icc_eq_integral_Ioc, ← integral_indicator measurableSet_Icc]
  congr 1
  funext t
  have e : ∀ y : Fin 2 → ℝ, (MeasurableEquiv.piFinSuccAbove (fun _ : Fin 3 => ℝ) 2).symm (t, y)
      = ![y 0, y 1, t] := fun y => by
    funext i
    fin_cases i <;> rfl
  simp only [e]
  by_cases ht : t ∈ Set.Icc (-1 : ℝ) 1
  · rw [Set.indicator_of_mem ht, ← integral_indicator (hK _)]
    congr 1
    funext y
    by_cases hy : y ∈ K t
    · rw [Set.indicator_of_mem hy, Set.indicator_of_mem ((h t y).2 ⟨ht, hy⟩)]
    · rw [Set.indicator_of_notMem hy, Set.indicator_of_notMem fun h' => hy ((h t y).1 h').2]
  · rw [Set.indicator_of_notMem ht]
    refine integral_eq_zero_of_ae (Filter.Eventually.of_forall fun y => ?_)
    simp only [Pi.zero_apply]
    exact Set.indicator_of_notMem (fun h' => ht ((h t y).1 h').1) _

namespace P3

/-- The pyramid with base `[-1,1]² × {-1}` and apex `(0,0,1)`. -/
def ref : Set (Fin 3 → ℝ) :=
  {x | |x 0| ≤ (1 - x 2) / 2 ∧ |x 1| ≤ (1 - x 2) / 2 ∧ -1 ≤ x 2}

theorem isClosed_ref : IsClosed ref := by
  change IsClosed ({x : Fin 3 → ℝ | |x 0| ≤ (1 - x 2) / 2} ∩
    ({x | |x 1| ≤ (1 - x 2) / 2} ∩ {x | -1 ≤ x 2}))
  refine IsClosed.inter (isClosed_le (by fun_prop) (by fun_prop)) (IsClosed.inter
    (isClosed_le (by fun_prop) (by fun_prop)) (isClosed_le (by fun_prop) (by fun_prop)))

theorem isCompact_ref : IsCompact ref := by
  refine (isCompact_Icc (a := fun _ : Fin 3 => (-1 : ℝ)) (b := fun _ => 1)).of_isClosed_subset
    isClosed_ref ?_
  rintro x ⟨h0, h1, h2⟩
  have h3 := abs_nonneg (x 0)
  rw [abs_le] at h0 h1
  constructor <;> intro i <;> fin_cases i <;> simp <;> linarith

theorem convex_ref : Convex ℝ ref := by
  rintro x ⟨h0, h1, h2⟩ y ⟨k0, k1, k2⟩ a b ha hb hab
  rw [abs_le] at h0 h1 k0 k1
  obtain rfl : b = 1 - a := by linarith
  refine ⟨?_, ?_, ?_⟩ <;> simp only [Pi.add_apply, Pi.smul_apply, smul_eq_mul, abs_le]
  · constructor <;> nlinarith
  · constructor <;> nlinarith
  · nlinarith

/-- `∫ t^c ((1-t)/2)^k` over `[-1,1]`. -/
noncomputable def slab : ℕ → ℕ → ℝ
  | 0, k => 2 / (k + 1)
  | c + 1, k => slab c k - 2 * slab c (k + 1)

theorem integral_slab (c k : ℕ) : ∫ t in (-1 : ℝ)..1, t ^ c * ((1 - t) / 2) ^ k = slab c k := by
  induction c generalizing k with
  | zero =>
    have := intervalIntegral.integral_comp_sub_div (a := -1) (b := 1) (fun x : ℝ => x ^ k)
      (two_ne_zero (α := ℝ)) (1 / 2)
    have e : ∀ t : ℝ, (1 - t) / 2 = 1 / 2 - t / 2 := fun t => by ring
    simp only [pow_zero, one_mul, e, this, slab]
    norm_num [integral_pow]
    ring
  | succ c ih =>
    rw [slab, ← ih, ← ih, ← intervalIntegral.integral_const_mul, ← intervalIntegral.integral_sub
      (Continuous.intervalIntegrable (by fun_prop) _ _)
      (Continuous.intervalIntegrable (by fun_prop) _ _)]
    refine intervalIntegral.integral_congr fun t _ => ?_
    ring

/-- Moments of the reference pyramid. -/
noncomputable def mom (a b c : ℕ) : ℝ :=
  if Even a ∧ Even b then 4 / ((a + 1) * (b + 1)) * slab c (a + b + 2) else 0

theorem integral_sq (a b : ℕ) {h : ℝ} (hh : 0 ≤ h) :
    ∫ y in Set.Icc (fun _ : Fin 2 => -h) (fun _ => h), y 0 ^ a * y 1 ^ b =
      if Even a ∧ Even b then 4 / ((a + 1) * (b + 1)) * h ^ (a + b + 2) else 0 := by
  have := Cn.C08_box_monomial (fun _ : Fin 2 => -h) (fun _ => h) (fun _ => by simp; linarith) ![a, b]
  simp only [Fin.prod_univ_two, Matrix.cons_val_zero, Matrix.cons_val_one] at this
  rw [← this]
  simp [Cn.monomialOverNcube]
  have ha : (a + 1 : ℝ) ≠ 0 := by positivity
  have hb : (b + 1 : ℝ) ≠ 0 := by positivity
  rcases Nat.even_or_odd a with h0 | h0
  · rcases Nat.even_or_odd b with h1 | h1
    · rw [if_pos ⟨h0, h1⟩, h0.add_one.neg_pow, h1.add_one.neg_pow]
      field_simp
      ring
    · rw [if_neg (by simp [h1]), h1.add_one.neg_pow]
      simp
  · rw [if_neg (by simp [h0]), h0.add_one.neg_pow]
    simp

theorem integral_ref (a b c : ℕ) : ∫ x in ref, x 0 ^ a * x 1 ^ b * x 2 ^ c = mom a b c := by
  rw [integral_slices (K := fun t => Set.Icc (fun _ : Fin 2 => -((1 - t) / 2)) fun _ => (1 - t) / 2)
    isCompact_ref (fun t => measurableSet_Icc) ?_ (by fun_prop)]
  · have : ∀ t ∈ Set.uIcc (-1 : ℝ) 1,
        (∫ y in Set.Icc (fun _ : Fin 2 => -((1 - t) / 2)) (fun _ => (1 - t) / 2),
          ![y 0, y 1, t] 0 ^ a * ![y 0, y 1, t] 1 ^ b * ![y 0, y 1, t] 2 ^ c) =
        (if Even a ∧ Even b then (4 : ℝ) / ((a + 1) * (b + 1)) else 0) *
          (t ^ c * ((1 - t) / 2) ^ (a + b + 2)) := fun t ht => by
      rw [Set.uIcc_of_le (by norm_num)] at ht
      simp only [Matrix.cons_val]
      rw [integral_mul_const, integral_sq a b (by linarith [ht.2])]
      split_ifs <;> ring
    rw [intervalIntegral.integral_congr this, intervalIntegral.integral_const_mul, integral_slab, mom]
    split_ifs <;> simp
  · intro t y
    simp only [ref, Set.mem_ofPred_eq, Matrix.cons_val, abs_le, Set.mem_Icc, Pi.le_def,
      Fin.forall_fin_two]
    constructor
    · rintro ⟨h0, h1, h2⟩
      exact ⟨⟨h2, by linarith⟩, ⟨h0.1, h1.1⟩, h0.2, h1.2⟩
    · rintro ⟨⟨h2, h3⟩, ⟨h4, h5⟩, h6, h7⟩
      exact ⟨⟨h4, h6⟩, ⟨h5, h7⟩, h2⟩

end P3

namespace W3

/-- The wedge `{x, y ≥ 0, x + y ≤ 1} × [-1,1]`. -/
def ref : Set (Fin 3 → ℝ) :=
  {x | 0 ≤ x 0 ∧ 0 ≤ x 1 ∧ x 0 + x 1 ≤ 1 ∧ -1 ≤ x 2 ∧ x 2 ≤ 1}

theorem isClosed_ref : IsClosed ref := by
  change IsClosed ({x : Fin 3 → ℝ | 0 ≤ x 0} ∩ ({x | 0 ≤ x 1} ∩ ({x | x 0 + x 1 ≤ 1} ∩
    ({x | -1 ≤ x 2} ∩ {x | x 2 ≤ 1}))))
  exact IsClosed.inter (isClosed_le (by fun_prop) (by fun_prop)) (IsClosed.inter
    (isClosed_le (by fun_prop) (by fun_prop)) (IsClosed.inter (isClosed_le (by fun_prop) (by fun_prop))
    (IsClosed.inter (isClosed_le (by fun_prop) (by fun_prop))
      (isClosed_le (by fun_prop) (by fun_prop)))))

theorem isCompact_ref : IsCompact ref := by
  refine (isCompact_Icc (a := fun _ : Fin 3 => (-1 : ℝ)) (b := fun _ => 1)).of_isClosed_subset
    isClosed_ref ?_
  rintro x ⟨h0, h1, h2, h3, h4⟩
  constructor <;> intro i <;> fin_cases i <;> simp <;> linarith

theorem convex_ref : Convex ℝ ref := by
  rintro x ⟨h0, h1, h2, h3, h4⟩ y ⟨k0, k1, k2, k3, k4⟩ a b ha hb hab
  obtain rfl : b = 1 - a := by linarith
  refine ⟨?_, ?_, ?_, ?_, ?_⟩ <;> simp only [Pi.add_apply, Pi.smul_apply, smul_eq_mul] <;> nlinarith

/-- Moments of the reference wedge. -/
noncomputable def mom (a b c : ℕ) : ℝ :=
  a.factorial * b.factorial / (2 + a + b).factorial * (if Even c then (2 : ℝ) / (c + 1) else 0)

theorem integral_ref (a b c : ℕ) : ∫ x in ref, x 0 ^ a * x 1 ^ b * x 2 ^ c = mom a b c := by
  rw [integral_slices (K := fun _ => Spec.unitSimplex 2)
    isCompact_ref (fun t => (isClosed_simplexS 2 1).measurableSet) ?_ (by fun_prop)]
  · have h := simplex_mono ![a, b]
    simp only [Spec.simplex, mono, Fin.prod_univ_two, Fin.sum_univ_two, Matrix.cons_val_zero,
      Matrix.cons_val_one] at h
    simp only [Matrix.cons_val, integral_mul_const, h, intervalIntegral.integral_const_mul, integral_pow]
    rw [mom, ← add_assoc]
    congr 1
    rcases Nat.even_or_odd c with hc | hc
    · rw [if_pos hc, hc.add_one.neg_pow]; norm_num
    · rw [if_neg (by simp [hc]), hc.add_one.neg_pow]; simp
  · intro t y
    simp only [ref, Set.mem_ofPred_eq, Matrix.cons_val, Set.mem_Icc, Spec.unitSimplex,
      Fin.forall_fin_two, Fin.sum_univ_two]
    tauto

end W3

end Quadpy
