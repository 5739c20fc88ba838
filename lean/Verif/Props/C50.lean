import Verif.Lemmas.Slices
import Verif.Lemmas.Lobatto
import Verif.Lemmas.FixedRules
import Verif.Props.C13
import Mathlib.Analysis.Calculus.FDeriv.Mul
import Mathlib.Analysis.Calculus.FDeriv.Pi
import Mathlib.LinearAlgebra.Matrix.Determinant.Basic

/-!
# C50: integration over pyramids and wedges
-/

open MeasureTheory Finset

namespace Quadpy

theorem lit_eighth : (0.125 : ℝ) = 1 / 8 := by norm_num
theorem lit_half : (0.5 : ℝ) = 1 / 2 := by norm_num
theorem lit_half' : (0.500 : ℝ) = 1 / 2 := by norm_num
theorem lit_one : (1.0 : ℝ) = 1 := by norm_num

/-- Functions that are affine in each of three variables. -/
theorem hasFDerivAt_multiaffine (c : Fin 8 → ℝ) (x : Fin 3 → ℝ) :
    HasFDerivAt (fun y : Fin 3 → ℝ => c 0 + c 1 * y 0 + c 2 * y 1 + c 3 * y 2 + c 4 * (y 0 * y 1) +
        c 5 * (y 0 * y 2) + c 6 * (y 1 * y 2) + c 7 * (y 0 * y 1 * y 2))
      ((c 1 + c 4 * x 1 + c 5 * x 2 + c 7 * (x 1 * x 2)) •
          ContinuousLinearMap.proj (R := ℝ) (φ := fun _ : Fin 3 => ℝ) 0 +
        (c 2 + c 4 * x 0 + c 6 * x 2 + c 7 * (x 0 * x 2)) •
          ContinuousLinearMap.proj (R := ℝ) (φ := fun _ : Fin 3 => ℝ) 1 +
        (c 3 + c 5 * x 0 + c 6 * x 1 + c 7 * (x 0 * x 1)) •
          ContinuousLinearMap.proj (R := ℝ) (φ := fun _ : Fin 3 => ℝ) 2) x := by
  have hp : ∀ k : Fin 3, HasFDerivAt (fun y : Fin 3 → ℝ => y k)
      (ContinuousLinearMap.proj (R := ℝ) (φ := fun _ => ℝ) k) x := fun k =>
    (ContinuousLinearMap.proj (R := ℝ) (φ := fun _ => ℝ) k).hasFDerivAt
  have h := ((((((((hp 0).const_mul (c 1)).const_add (c 0)).add ((hp 1).const_mul (c 2))).add
    ((hp 2).const_mul (c 3))).add (((hp 0).mul (hp 1)).const_mul (c 4))).add
    (((hp 0).mul (hp 2)).const_mul (c 5))).add (((hp 1).mul (hp 2)).const_mul (c 6))).add
    ((((hp 0).mul (hp 1)).mul (hp 2)).const_mul (c 7))
  refine h.congr_fderiv ?_
  ext v
  simp
  ring

theorem det3_matrix (a b c : Fin 3 → ℝ) :
    (Matrix.of fun i j : Fin 3 => ![a i, b i, c i] j).det = P3.det3 a b c := by
  rw [Matrix.det_fin_three, P3.det3]
  simp
  ring

namespace P3

/-- `_transform` maps the corners of the reference square and the apex to the given vertices. -/
theorem C50_pyramid_vertices (pyra : Fin 5 → Fin 3 → ℝ) (a b : ℝ) :
    transform ![-1, -1, -1] pyra = pyra 0 ∧ transform ![1, -1, -1] pyra = pyra 1 ∧
      transform ![1, 1, -1] pyra = pyra 2 ∧ transform ![-1, 1, -1] pyra = pyra 3 ∧
      transform ![a, b, 1] pyra = pyra 4 := by
  refine ⟨?_, ?_, ?_, ?_, ?_⟩ <;> funext i <;> simp [transform, lit_eighth, lit_half', lit_one] <;> ring

/-- `_get_det_J` is the determinant of the derivative of `_transform`, for every pyramid and point. -/
theorem C50_pyramid_detJ (pyra : Fin 5 → Fin 3 → ℝ) (x : Fin 3 → ℝ) :
    ∃ L : (Fin 3 → ℝ) →L[ℝ] (Fin 3 → ℝ),
      HasFDerivAt (fun xi => transform xi pyra) L x ∧ L.det = getDetJ pyra x := by
  refine ⟨LinearMap.toContinuousLinearMap (Matrix.toLin'
    (Matrix.of fun i j : Fin 3 => ![J0 pyra x i, J1 pyra x i, J2 pyra x i] j)), ?_, ?_⟩
  · rw [hasFDerivAt_pi']
    intro i
    have h := hasFDerivAt_multiaffine
      ![(pyra 0 i + pyra 1 i + pyra 2 i + pyra 3 i) / 8 + pyra 4 i / 2,
        (-pyra 0 i + pyra 1 i + pyra 2 i - pyra 3 i) / 8,
        (-pyra 0 i - pyra 1 i + pyra 2 i + pyra 3 i) / 8,
        -(pyra 0 i + pyra 1 i + pyra 2 i + pyra 3 i) / 8 + pyra 4 i / 2,
        (pyra 0 i - pyra 1 i + pyra 2 i - pyra 3 i) / 8,
        -(-pyra 0 i + pyra 1 i + pyra 2 i - pyra 3 i) / 8,
        -(-pyra 0 i - pyra 1 i + pyra 2 i + pyra 3 i) / 8,
        -(pyra 0 i - pyra 1 i + pyra 2 i - pyra 3 i) / 8] x
    refine (h.congr_of_eventuallyEq (Filter.Eventually.of_forall fun y => ?_)).congr_fderiv ?_
    · simp [transform, lit_eighth, lit_half', lit_one]
      ring
    · ext v
      simp [Matrix.mulVec, dotProduct, Fin.sum_univ_three, J0, J1, J2, lit_eighth, lit_half',
        lit_one]
      ring
  · rw [ContinuousLinearMap.det, LinearMap.coe_toContinuousLinearMap, LinearMap.det_toLin', getDetJ,
      det3_matrix]

/-- The reference map from the cube to the pyramid. -/
noncomputable def collapse (ξ : Fin 3 → ℝ) : Fin 3 → ℝ :=
  ![ξ 0 * ((1 - ξ 2) / 2), ξ 1 * ((1 - ξ 2) / 2), ξ 2]

noncomputable def mat (pyra : Fin 5 → Fin 3 → ℝ) : Matrix (Fin 3) (Fin 3) ℝ :=
  Matrix.of fun i j => ![(pyra 1 i - pyra 0 i) / 2, (pyra 3 i - pyra 0 i) / 2,
    (pyra 4 i - (pyra 0 i + pyra 2 i) / 2) / 2] j

noncomputable def vec (pyra : Fin 5 → Fin 3 → ℝ) : Fin 3 → ℝ := fun i =>
  (pyra 4 i + (pyra 0 i + pyra 2 i) / 2) / 2

theorem transform_eq {pyra : Fin 5 → Fin 3 → ℝ} (hp : pyra 0 + pyra 2 = pyra 1 + pyra 3)
    (ξ : Fin 3 → ℝ) : transform ξ pyra = affineMap (mat pyra) (vec pyra) (collapse ξ) := by
  funext i
  have : pyra 2 i = pyra 1 i + pyra 3 i - pyra 0 i := by
    have := congrFun hp i
    simp only [Pi.add_apply] at this
    linarith
  simp [transform, lit_eighth, lit_half', lit_one, affineMap, mat, vec, collapse, Fin.sum_univ_three, this]
  ring

theorem getDetJ_eq {pyra : Fin 5 → Fin 3 → ℝ} (hp : pyra 0 + pyra 2 = pyra 1 + pyra 3)
    (ξ : Fin 3 → ℝ) : getDetJ pyra ξ = (mat pyra).det * ((1 - ξ 2) / 2) ^ 2 := by
  have : ∀ i, pyra 2 i = pyra 1 i + pyra 3 i - pyra 0 i := fun i => by
    have := congrFun hp i
    simp only [Pi.add_apply] at this
    linarith
  rw [mat, det3_matrix]
  simp only [getDetJ, det3, J0, J1, J2, this, lit_eighth, lit_half', lit_one]
  ring

theorem image_ref {pyra : Fin 5 → Fin 3 → ℝ} (hp : pyra 0 + pyra 2 = pyra 1 + pyra 3) :
    affineMap (mat pyra) (vec pyra) '' ref = convexHull ℝ (Set.range pyra) := by
  have hc : ∀ x : Fin 3 → ℝ, x 2 = 1 → x 0 = 0 → x 1 = 0 →
      affineMap (mat pyra) (vec pyra) x = pyra 4 := fun x h2 h0 h1 => by
    funext i
    simp [affineMap, mat, vec, Fin.sum_univ_three, h0, h1, h2]
    ring
  apply Set.Subset.antisymm
  · rintro _ ⟨x, ⟨h0, h1, h2⟩, rfl⟩
    have hh : 0 ≤ (1 - x 2) / 2 := (abs_nonneg _).trans h0
    rcases hh.eq_or_lt with hh | hh
    · rw [← hh] at h0 h1
      have h0' := abs_eq_zero.1 (le_antisymm h0 (abs_nonneg _))
      have h1' := abs_eq_zero.1 (le_antisymm h1 (abs_nonneg _))
      rw [hc x (by linarith) h0' h1']
      exact subset_convexHull ℝ _ ⟨4, rfl⟩
    · set h := (1 - x 2) / 2 with hdef
      rw [abs_le] at h0 h1
      have e : affineMap (mat pyra) (vec pyra) x = ∑ k : Fin 5,
          ![(h - x 0) * (h - x 1) / (4 * h), (h + x 0) * (h - x 1) / (4 * h),
            (h + x 0) * (h + x 1) / (4 * h), (h - x 0) * (h + x 1) / (4 * h), 1 - h] k • pyra k := by
        funext i
        have h2' : pyra 2 i = pyra 1 i + pyra 3 i - pyra 0 i := by
          have := congrFun hp i
          simp only [Pi.add_apply] at this
          linarith
        have hx : x 2 = 1 - 2 * h := by linarith
        simp [affineMap, mat, vec, Fin.sum_univ_five, Fin.sum_univ_three, h2', hx]
        field_simp
        ring
      rw [e]
      refine (convex_convexHull ℝ _).sum_mem (fun k _ => ?_) ?_
        (fun k _ => subset_convexHull ℝ _ ⟨k, rfl⟩)
      · have a1 : 0 ≤ h - x 0 := by linarith
        have a2 : 0 ≤ h + x 0 := by linarith
        have a3 : 0 ≤ h - x 1 := by linarith
        have a4 : 0 ≤ h + x 1 := by linarith
        have a5 : 0 ≤ 1 - h := by linarith
        have : ∀ k : Fin 5, 0 ≤ (![(h - x 0) * (h - x 1) / (4 * h), (h + x 0) * (h - x 1) / (4 * h),
            (h + x 0) * (h + x 1) / (4 * h), (h - x 0) * (h + x 1) / (4 * h), 1 - h] : Fin 5 → ℝ) k := by
          intro k
          fin_cases k
          · exact div_nonneg (mul_nonneg a1 a3) (by linarith)
          · exact div_nonneg (mul_nonneg a2 a3) (by linarith)
          · exact div_nonneg (mul_nonneg a2 a4) (by linarith)
          · exact div_nonneg (mul_nonneg a1 a4) (by linarith)
          · exact a5
        exact this k
      · simp [Fin.sum_univ_five]
        field_simp
        ring
  · refine convexHull_min ?_ (convex_affineMap_image _ _ convex_ref)
    rintro _ ⟨k, rfl⟩
    have hv := C50_pyramid_vertices pyra 0 0
    simp only [transform_eq hp] at hv
    obtain ⟨v0, v1, v2, v3, v4⟩ := hv
    fin_cases k
    · exact ⟨_, by simp [ref, collapse], v0⟩
    · exact ⟨_, by simp [ref, collapse], v1⟩
    · exact ⟨_, by simp [ref, collapse], v2⟩
    · exact ⟨_, by simp [ref, collapse], v3⟩
    · exact ⟨_, by simp [ref, collapse], v4⟩

/-- The scheme integrates every polynomial of degree at most `degree` exactly over every pyramid whose
base is a parallelogram, degenerate or not. -/
def Exact (S : Scheme) : Prop :=
  S.WellShaped 3 ∧ ∀ (pyra : Fin 5 → Fin 3 → ℝ), pyra 0 + pyra 2 = pyra 1 + pyra 3 →
    ∀ p : MvPolynomial (Fin 3) ℝ, p.totalDegree ≤ S.degree →
      integrate S (fun x => MvPolynomial.eval x p) pyra =
        ∫ x in convexHull ℝ (Set.range pyra), MvPolynomial.eval x p

theorem exact_of_mom {data : List (ℝ × List (List ℝ))} {deg : ℕ}
    (hs : ∀ g ∈ data, ∀ x ∈ g.2, x.length = 3)
    (h : ∀ a b c : ℕ, a + b + c ≤ deg → (data.map fun g => g.1 * osum 3 g.2 fun ξ =>
      (ξ 0 * ((1 - ξ 2) / 2)) ^ a * (ξ 1 * ((1 - ξ 2) / 2)) ^ b * ξ 2 ^ c *
        ((1 - ξ 2) / 2) ^ 2).sum = mom a b c) : Exact (schemeOf 3 data deg) := by
  refine ⟨schemeOf_wellShaped _ _ _ hs, fun pyra hp p hdeg => ?_⟩
  have href : Spec.ExactUpTo deg (fun f : (Fin 3 → ℝ) → ℝ => dot 3 (schemeOf 3 data deg).weights
      (schemeOf 3 data deg).points fun ξ => f (collapse ξ) * ((1 - ξ 2) / 2) ^ 2)
      fun f => ∫ x in ref, f x := by
    refine exactUpTo_of_mono (linOnMono_dot_comp _ _ _ _) (linOnMono_integral_one _ fun α => ?_)
      fun α hα => ?_
    · exact ContinuousOn.integrableOn_compact isCompact_ref (by unfold mono; fun_prop)
    · beta_reduce
      rw [dot_schemeOf]
      have := h (α 0) (α 1) (α 2) (by simpa [Fin.sum_univ_three] using hα)
      simp only [mono, Fin.prod_univ_three, integral_ref, ← this, collapse, Matrix.cons_val]
  have := exact_affine (mat pyra) (vec pyra) isCompact_ref.measurableSet href p hdeg
  rw [image_ref hp] at this
  beta_reduce at this
  rw [← this, integrate]
  simp only [transform_eq hp, getDetJ_eq hp, abs_mul, abs_pow, sq_abs]
  rw [← Cn.dot_mul_const]
  congr 1
  funext ξ
  ring

theorem osum_s4 (g z : ℝ) (a b c : ℕ) : (osum 3 (s4 g z) fun ξ =>
    (ξ 0 * ((1 - ξ 2) / 2)) ^ a * (ξ 1 * ((1 - ξ 2) / 2)) ^ b * ξ 2 ^ c * ((1 - ξ 2) / 2) ^ 2) =
      (1 + (-1) ^ a) * (1 + (-1) ^ b) * g ^ (a + b) * (((1 - z) / 2) ^ (a + b + 2) * z ^ c) := by
  simp only [osum, s4, toVec, List.map_cons, List.map_nil, List.sum_cons, List.sum_nil]
  simp only [List.getD_cons_zero, List.getD_cons_succ, Fin.val_zero, Fin.val_one, Fin.val_two]
  generalize (1 - z) / 2 = t
  rw [show -g = -1 * g by ring]
  simp only [mul_pow]
  ring

theorem osum_s4_0 (g z : ℝ) (a b c : ℕ) : (osum 3 (s4_0 g z) fun ξ =>
    (ξ 0 * ((1 - ξ 2) / 2)) ^ a * (ξ 1 * ((1 - ξ 2) / 2)) ^ b * ξ 2 ^ c * ((1 - ξ 2) / 2) ^ 2) =
      ((1 + (-1) ^ a) * g ^ a * 0 ^ b + (1 + (-1) ^ b) * g ^ b * 0 ^ a) *
        (((1 - z) / 2) ^ (a + b + 2) * z ^ c) := by
  simp only [osum, s4_0, toVec, List.map_cons, List.map_nil, List.sum_cons, List.sum_nil]
  simp only [List.getD_cons_zero, List.getD_cons_succ, Fin.val_zero, Fin.val_one, Fin.val_two]
  generalize (1 - z) / 2 = t
  rw [show -g = -1 * g by ring]
  simp only [mul_pow]
  rcases Nat.eq_zero_or_pos a with rfl | ha <;> rcases Nat.eq_zero_or_pos b with rfl | hb
  · ring
  · simp only [zero_mul, zero_pow hb.ne', pow_zero]
    ring
  · simp only [zero_mul, zero_pow ha.ne', pow_zero]
    ring
  · simp only [zero_mul, zero_pow ha.ne', zero_pow hb.ne']
    ring

theorem osum_s0 (z : ℝ) (a b c : ℕ) : (osum 3 [[0, 0, z]] fun ξ =>
    (ξ 0 * ((1 - ξ 2) / 2)) ^ a * (ξ 1 * ((1 - ξ 2) / 2)) ^ b * ξ 2 ^ c * ((1 - ξ 2) / 2) ^ 2) =
      0 ^ a * 0 ^ b * (((1 - z) / 2) ^ 2 * z ^ c) := by
  simp only [osum, toVec, List.map_cons, List.map_nil, List.sum_cons, List.sum_nil]
  simp only [List.getD_cons_zero, List.getD_cons_succ, Fin.val_zero, Fin.val_one, Fin.val_two,
    zero_mul]
  ring

/-- Only monomials which are even in `x` and in `y` have to be looked at. -/
theorem moms {data : List (ℝ × List (List ℝ))}
    (hd : ∀ g ∈ data, (∃ r z, g.2 = s4 r z) ∨ (∃ r z, g.2 = s4_0 r z) ∨ ∃ z, g.2 = [[0, 0, z]])
    {a b c : ℕ} (hab : ¬ (Even a ∧ Even b)) : (data.map fun g => g.1 * osum 3 g.2 fun ξ =>
      (ξ 0 * ((1 - ξ 2) / 2)) ^ a * (ξ 1 * ((1 - ξ 2) / 2)) ^ b * ξ 2 ^ c *
        ((1 - ξ 2) / 2) ^ 2).sum = mom a b c := by
  rw [mom, if_neg hab]
  refine List.sum_eq_zero fun y hy => ?_
  obtain ⟨g, hg, rfl⟩ := List.mem_map.1 hy
  have h : Odd a ∨ Odd b := by
    rcases Nat.even_or_odd a with h1 | h1
    · rcases Nat.even_or_odd b with h2 | h2
      · exact absurd ⟨h1, h2⟩ hab
      · exact Or.inr h2
    · exact Or.inl h1
  rcases hd g hg with ⟨r, z, e⟩ | ⟨r, z, e⟩ | ⟨z, e⟩
  · rw [e, osum_s4]
    rcases h with h | h <;> rw [h.neg_one_pow] <;> ring
  · rw [e, osum_s4_0]
    rcases h with h | h <;> rw [h.neg_one_pow, zero_pow h.pos.ne'] <;> ring
  · rw [e, osum_s0]
    rcases h with h | h <;> rw [zero_pow h.pos.ne'] <;> ring

macro "pyr_cases" d:term ", " e:term : tactic => `(tactic|
  (intro a b c hdeg
   by_cases hab : Even a ∧ Even b
   swap
   · exact moms $e hab
   have ha : a ≤ $d := by omega
   have hb : b ≤ $d := by omega
   have hc : c ≤ $d := by omega
   interval_cases a <;> interval_cases b <;> interval_cases c <;>
     first | (exfalso; omega) | (exfalso; revert hab; decide) | skip
   all_goals simp only [List.map_cons, List.map_nil, List.sum_cons, List.sum_nil, osum_s4, osum_s4_0,
     osum_s0, mom, slab, if_pos hab, Nat.cast_zero, Nat.cast_one, Nat.cast_ofNat, Nat.cast_add]))

theorem C50_felippa_1 : Exact felippa_1 := by
  refine exact_of_mom (by simp [s4]) ?_
  pyr_cases 1, (List.forall_mem_cons.2 ⟨Or.inr (Or.inr ⟨_, rfl⟩), List.forall_mem_nil _⟩)
  all_goals norm_num

theorem C50_felippa_2 : Exact felippa_2 := by
  refine exact_of_mom (by simp [s4]) ?_
  have h := Real.sq_sqrt (show (0 : ℝ) ≤ 2 / 15 by norm_num)
  generalize √(2 / 15 : ℝ) = r at h ⊢
  pyr_cases 2, (List.forall_mem_cons.2 ⟨Or.inl ⟨_, _, rfl⟩, List.forall_mem_cons.2 ⟨Or.inr (Or.inr ⟨_, rfl⟩), List.forall_mem_nil _⟩⟩)
  · ring1
  · ring1
  · ring1
  · linear_combination ((4)) * h
  · linear_combination ((4)) * h

theorem C50_felippa_3 : Exact felippa_3 := by
  refine exact_of_mom (by simp [s4]) ?_
  have h := Real.sq_sqrt (show (0 : ℝ) ≤ 12 / 35 by norm_num)
  generalize √(12 / 35 : ℝ) = r at h ⊢
  pyr_cases 2, (List.forall_mem_cons.2 ⟨Or.inl ⟨_, _, rfl⟩, List.forall_mem_cons.2 ⟨Or.inr (Or.inr ⟨_, rfl⟩), List.forall_mem_cons.2 ⟨Or.inr (Or.inr ⟨_, rfl⟩), List.forall_mem_nil _⟩⟩⟩)
  · ring1
  · ring1
  · ring1
  · linear_combination ((14 / 9)) * h
  · linear_combination ((14 / 9)) * h

theorem C50_felippa_4 : Exact felippa_4 := by
  refine exact_of_mom (by simp [s4]) ?_
  have hr := Real.sq_sqrt (show (0 : ℝ) ≤ 1 / 3 by norm_num)
  have h := Real.sq_sqrt (show (0 : ℝ) ≤ 10 by norm_num)
  generalize √(1 / 3 : ℝ) = r at hr ⊢
  generalize √(10 : ℝ) = q at h ⊢
  pyr_cases 3, (List.forall_mem_cons.2 ⟨Or.inl ⟨_, _, rfl⟩, List.forall_mem_cons.2 ⟨Or.inl ⟨_, _, rfl⟩, List.forall_mem_nil _⟩⟩)
  · linear_combination ((-(16 / 1215))) * h
  · linear_combination ((-(146 / 3645)) + (1 / 3645) * q ^ 2) * h
  · linear_combination ((4132 / 54675) + (-(38 / 91125)) * q ^ 2) * h
  · linear_combination ((-(11422 / 164025)) + (-(127 / 273375)) * q ^ 2 + (4 / 820125) * q ^ 4) * h
  · linear_combination ((1360 / 2187) + (-(148 / 729)) * q + (208 / 10935) * q ^ 2 + (14 / 54675) * q ^ 3 + (-(11 / 91125)) * q ^ 4 + (1 / 218700) * q ^ 5) * hr + ((1360 / 2187) + (148 / 729) * q + (208 / 10935) * q ^ 2 + (-(14 / 54675)) * q ^ 3 + (-(11 / 91125)) * q ^ 4 + (-(1 / 218700)) * q ^ 5) * hr + ((1948 / 164025) + (-(22 / 273375)) * q ^ 2) * h
  · linear_combination ((-(1360 / 6561)) + (988 / 6561) * q + (-(1096 / 32805)) * q ^ 2 + (134 / 54675) * q ^ 3 + (61 / 820125) * q ^ 4 + (-(289 / 16402500)) * q ^ 5 + (1 / 1640250) * q ^ 6) * hr + ((-(1360 / 6561)) + (-(988 / 6561)) * q + (-(1096 / 32805)) * q ^ 2 + (-(134 / 54675)) * q ^ 3 + (61 / 820125) * q ^ 4 + (289 / 16402500) * q ^ 5 + (1 / 1640250) * q ^ 6) * hr + ((-(10696 / 492075)) + (44 / 820125) * q ^ 2 + (1 / 2460375) * q ^ 4) * h
  · linear_combination ((1360 / 2187) + (-(148 / 729)) * q + (208 / 10935) * q ^ 2 + (14 / 54675) * q ^ 3 + (-(11 / 91125)) * q ^ 4 + (1 / 218700) * q ^ 5) * hr + ((1360 / 2187) + (148 / 729) * q + (208 / 10935) * q ^ 2 + (-(14 / 54675)) * q ^ 3 + (-(11 / 91125)) * q ^ 4 + (-(1 / 218700)) * q ^ 5) * hr + ((1948 / 164025) + (-(22 / 273375)) * q ^ 2) * h
  · linear_combination ((-(1360 / 6561)) + (988 / 6561) * q + (-(1096 / 32805)) * q ^ 2 + (134 / 54675) * q ^ 3 + (61 / 820125) * q ^ 4 + (-(289 / 16402500)) * q ^ 5 + (1 / 1640250) * q ^ 6) * hr + ((-(1360 / 6561)) + (-(988 / 6561)) * q + (-(1096 / 32805)) * q ^ 2 + (-(134 / 54675)) * q ^ 3 + (61 / 820125) * q ^ 4 + (289 / 16402500) * q ^ 5 + (1 / 1640250) * q ^ 6) * hr + ((-(10696 / 492075)) + (44 / 820125) * q ^ 2 + (1 / 2460375) * q ^ 4) * h

theorem C50_felippa_5 : Exact felippa_5 := by
  refine exact_of_mom (by simp [s4]) ?_
  have h := Real.sq_sqrt (show (0 : ℝ) ≤ 51 by norm_num)
  have h8 : √(51 : ℝ) ≤ 8 := Real.sqrt_le_iff.2 (by norm_num)
  have h0 := Real.sqrt_nonneg (51 : ℝ)
  have h1 := Real.sq_sqrt (show (0 : ℝ) ≤ 2 / 15 * (573 - 2 * √51) by linarith)
  have h2 := Real.sq_sqrt (show (0 : ℝ) ≤ 2 / 15 * (573 + 2 * √51) by linarith)
  generalize √(2 / 15 * (573 - 2 * √51)) = r1 at h1 ⊢
  generalize √(2 / 15 * (573 + 2 * √51)) = r2 at h2 ⊢
  generalize √(51 : ℝ) = q at h h1 h2 ⊢
  pyr_cases 2, (List.forall_mem_cons.2 ⟨Or.inl ⟨_, _, rfl⟩, List.forall_mem_cons.2 ⟨Or.inl ⟨_, _, rfl⟩, List.forall_mem_nil _⟩⟩)
  · linear_combination ((-(20728 / 4685625))) * h
  · linear_combination ((-(833036 / 163996875)) + (1844 / 163996875) * q ^ 2) * h
  · linear_combination ((75141968 / 5739890625) + (-(130856 / 5739890625)) * q ^ 2) * h
  · linear_combination ((2834432 / 937890625) + (18427904 / 47832421875) * q + (561664 / 47832421875) * q ^ 2 + (-(154624 / 430491796875)) * q ^ 3 + (-(32492 / 1291475390625)) * q ^ 4 + (-(461 / 1291475390625)) * q ^ 5) * h1 + ((2834432 / 937890625) + (-(18427904 / 47832421875)) * q + (561664 / 47832421875) * q ^ 2 + (154624 / 430491796875) * q ^ 3 + (-(32492 / 1291475390625)) * q ^ 4 + (461 / 1291475390625) * q ^ 5) * h2 + ((59212168 / 42205078125) + (-(14936 / 4099921875)) * q ^ 2 + (3688 / 19372130859375) * q ^ 4) * h
  · linear_combination ((2834432 / 937890625) + (18427904 / 47832421875) * q + (561664 / 47832421875) * q ^ 2 + (-(154624 / 430491796875)) * q ^ 3 + (-(32492 / 1291475390625)) * q ^ 4 + (-(461 / 1291475390625)) * q ^ 5) * h1 + ((2834432 / 937890625) + (-(18427904 / 47832421875)) * q + (561664 / 47832421875) * q ^ 2 + (154624 / 430491796875) * q ^ 3 + (-(32492 / 1291475390625)) * q ^ 4 + (461 / 1291475390625) * q ^ 5) * h2 + ((59212168 / 42205078125) + (-(14936 / 4099921875)) * q ^ 2 + (3688 / 19372130859375) * q ^ 4) * h

theorem C50_felippa_6 : Exact felippa_6 := by
  refine exact_of_mom (by simp [s4]) ?_
  have h := Real.sq_sqrt (show (0 : ℝ) ≤ 2865 by norm_num)
  have h0 := Real.sqrt_nonneg (2865 : ℝ)
  have h1 := Real.sq_sqrt (show (0 : ℝ) ≤ (573 + 5 * √2865) / (109825 + 969 * √2865) by positivity)
  have h2 := Real.sq_sqrt (show (0 : ℝ) ≤ 2 * (8025 + √2865) / 35 by positivity)
  have e : (573 + 5 * √2865) / (109825 + 969 * √2865) = (8025 - √2865) / 1533280 := by
    rw [div_eq_div_iff (by positivity) (by norm_num)]
    linarith
  generalize √((573 + 5 * √2865) / (109825 + 969 * √2865)) = r1 at h1 ⊢
  rw [e] at h1
  generalize √(2 * (8025 + √2865) / 35) = r2 at h2 ⊢
  generalize √(2865 : ℝ) = q at h h1 h2 ⊢
  pyr_cases 2, (List.forall_mem_cons.2 ⟨Or.inl ⟨_, _, rfl⟩, List.forall_mem_cons.2 ⟨Or.inl ⟨_, _, rfl⟩, List.forall_mem_cons.2 ⟨Or.inr (Or.inr ⟨_, rfl⟩), List.forall_mem_nil _⟩⟩⟩)
  · linear_combination ((-(4851331 / 52714166400))) * h
  · linear_combination ((7522719 / 327999257600) + (70057 / 44279899776000) * q ^ 2) * h
  · linear_combination ((45559228079 / 495934877491200) + (-(36446573 / 7439023162368000)) * q ^ 2) * h
  · linear_combination ((25083444325 / 480836608) + (137687439125 / 275519376384) * q + (-(25274495 / 137759688192)) * q ^ 2 + (-(20841167 / 1239837193728)) * q ^ 3 + (-(2399429 / 37195115811840)) * q ^ 4 + (-(70057 / 929877895296000)) * q ^ 5) * h1 + ((25083444325 / 42128980246528) + (-(137687439125 / 24139905681260544)) * q + (-(25274495 / 12069952840630272)) * q ^ 2 + (20841167 / 108629575565672448) * q ^ 3 + (-(2399429 / 3258887266970173440)) * q ^ 4 + (70057 / 81472181674254336000) * q ^ 5) * h2 + ((-(14078198672983 / 3168362620665446400)) + (-(59916841 / 91747952335872000)) * q ^ 2 + (70057 / 712881589649725440000) * q ^ 4) * h
  · linear_combination ((25083444325 / 480836608) + (137687439125 / 275519376384) * q + (-(25274495 / 137759688192)) * q ^ 2 + (-(20841167 / 1239837193728)) * q ^ 3 + (-(2399429 / 37195115811840)) * q ^ 4 + (-(70057 / 929877895296000)) * q ^ 5) * h1 + ((25083444325 / 42128980246528) + (-(137687439125 / 24139905681260544)) * q + (-(25274495 / 12069952840630272)) * q ^ 2 + (20841167 / 108629575565672448) * q ^ 3 + (-(2399429 / 3258887266970173440)) * q ^ 4 + (70057 / 81472181674254336000) * q ^ 5) * h2 + ((-(14078198672983 / 3168362620665446400)) + (-(59916841 / 91747952335872000)) * q ^ 2 + (70057 / 712881589649725440000) * q ^ 4) * h

theorem C50_felippa_7 : Exact felippa_7 := by
  refine exact_of_mom (by simp [s4, s4_0]) ?_
  have h1 := Real.sq_sqrt (show (0 : ℝ) ≤ 35 / 59 by norm_num)
  have h2 := Real.sq_sqrt (show (0 : ℝ) ≤ 336633710 / 33088740423 by norm_num)
  have h3 := Real.sq_sqrt (show (0 : ℝ) ≤ 37043 / 35 by norm_num)
  generalize √(35 / 59 : ℝ) = r1 at h1 ⊢
  generalize √(336633710 / 33088740423 : ℝ) = r2 at h2 ⊢
  generalize √(37043 / 35 : ℝ) = r3 at h3 ⊢
  pyr_cases 2, (List.forall_mem_cons.2 ⟨Or.inl ⟨_, _, rfl⟩, List.forall_mem_cons.2 ⟨Or.inr (Or.inl ⟨_, _, rfl⟩), List.forall_mem_cons.2 ⟨Or.inl ⟨_, _, rfl⟩, List.forall_mem_cons.2 ⟨Or.inr (Or.inr ⟨_, rfl⟩), List.forall_mem_nil _⟩⟩⟩⟩)
  · ring1
  · ring1
  · ring1
  · linear_combination ((3481 / 20700)) * h1 + ((2823572516096 / 785919486525)) * h2 + ((163863 / 436819772)) * h3
  · linear_combination ((3481 / 20700)) * h1 + ((2823572516096 / 785919486525)) * h2 + ((163863 / 436819772)) * h3

theorem C50_felippa_8 : Exact felippa_8 := by
  refine exact_of_mom (by simp [s4, s4_0]) ?_
  have hr := Real.sq_sqrt (show (0 : ℝ) ≤ 3 / 5 by norm_num)
  have h := Real.sq_sqrt (show (0 : ℝ) ≤ 10 by norm_num)
  generalize √(3 / 5 : ℝ) = r at hr ⊢
  generalize √(10 : ℝ) = q at h ⊢
  pyr_cases 3, (List.forall_mem_cons.2 ⟨Or.inl ⟨_, _, rfl⟩, List.forall_mem_cons.2 ⟨Or.inr (Or.inl ⟨_, _, rfl⟩), List.forall_mem_cons.2 ⟨Or.inr (Or.inr ⟨_, rfl⟩), List.forall_mem_cons.2 ⟨Or.inl ⟨_, _, rfl⟩, List.forall_mem_cons.2 ⟨Or.inr (Or.inl ⟨_, _, rfl⟩), List.forall_mem_cons.2 ⟨Or.inr (Or.inr ⟨_, rfl⟩), List.forall_mem_nil _⟩⟩⟩⟩⟩⟩)
  · linear_combination ((-(16 / 1215))) * h
  · linear_combination ((-(146 / 3645)) + (1 / 3645) * q ^ 2) * h
  · linear_combination ((4132 / 54675) + (-(38 / 91125)) * q ^ 2) * h
  · linear_combination ((-(11422 / 164025)) + (-(127 / 273375)) * q ^ 2 + (4 / 820125) * q ^ 4) * h
  · linear_combination ((34000 / 177147) + (-(3700 / 59049)) * q + (1040 / 177147) * q ^ 2 + (14 / 177147) * q ^ 3 + (-(11 / 295245)) * q ^ 4 + (1 / 708588) * q ^ 5) * hr + ((27200 / 177147) + (-(2960 / 59049)) * q + (832 / 177147) * q ^ 2 + (56 / 885735) * q ^ 3 + (-(44 / 1476225)) * q ^ 4 + (1 / 885735) * q ^ 5) * hr + ((34000 / 177147) + (3700 / 59049) * q + (1040 / 177147) * q ^ 2 + (-(14 / 177147)) * q ^ 3 + (-(11 / 295245)) * q ^ 4 + (-(1 / 708588)) * q ^ 5) * hr + ((27200 / 177147) + (2960 / 59049) * q + (832 / 177147) * q ^ 2 + (-(56 / 885735)) * q ^ 3 + (-(44 / 1476225)) * q ^ 4 + (-(1 / 885735)) * q ^ 5) * hr + ((1948 / 164025) + (-(22 / 273375)) * q ^ 2) * h
  · linear_combination ((-(34000 / 531441)) + (24700 / 531441) * q + (-(5480 / 531441)) * q ^ 2 + (134 / 177147) * q ^ 3 + (61 / 2657205) * q ^ 4 + (-(289 / 53144100)) * q ^ 5 + (1 / 5314410) * q ^ 6) * hr + ((-(27200 / 531441)) + (19760 / 531441) * q + (-(4384 / 531441)) * q ^ 2 + (536 / 885735) * q ^ 3 + (244 / 13286025) * q ^ 4 + (-(289 / 66430125)) * q ^ 5 + (2 / 13286025) * q ^ 6) * hr + ((-(34000 / 531441)) + (-(24700 / 531441)) * q + (-(5480 / 531441)) * q ^ 2 + (-(134 / 177147)) * q ^ 3 + (61 / 2657205) * q ^ 4 + (289 / 53144100) * q ^ 5 + (1 / 5314410) * q ^ 6) * hr + ((-(27200 / 531441)) + (-(19760 / 531441)) * q + (-(4384 / 531441)) * q ^ 2 + (-(536 / 885735)) * q ^ 3 + (244 / 13286025) * q ^ 4 + (289 / 66430125) * q ^ 5 + (2 / 13286025) * q ^ 6) * hr + ((-(10696 / 492075)) + (44 / 820125) * q ^ 2 + (1 / 2460375) * q ^ 4) * h
  · linear_combination ((34000 / 177147) + (-(3700 / 59049)) * q + (1040 / 177147) * q ^ 2 + (14 / 177147) * q ^ 3 + (-(11 / 295245)) * q ^ 4 + (1 / 708588) * q ^ 5) * hr + ((27200 / 177147) + (-(2960 / 59049)) * q + (832 / 177147) * q ^ 2 + (56 / 885735) * q ^ 3 + (-(44 / 1476225)) * q ^ 4 + (1 / 885735) * q ^ 5) * hr + ((34000 / 177147) + (3700 / 59049) * q + (1040 / 177147) * q ^ 2 + (-(14 / 177147)) * q ^ 3 + (-(11 / 295245)) * q ^ 4 + (-(1 / 708588)) * q ^ 5) * hr + ((27200 / 177147) + (2960 / 59049) * q + (832 / 177147) * q ^ 2 + (-(56 / 885735)) * q ^ 3 + (-(44 / 1476225)) * q ^ 4 + (-(1 / 885735)) * q ^ 5) * hr + ((1948 / 164025) + (-(22 / 273375)) * q ^ 2) * h
  · linear_combination ((-(34000 / 531441)) + (24700 / 531441) * q + (-(5480 / 531441)) * q ^ 2 + (134 / 177147) * q ^ 3 + (61 / 2657205) * q ^ 4 + (-(289 / 53144100)) * q ^ 5 + (1 / 5314410) * q ^ 6) * hr + ((-(27200 / 531441)) + (19760 / 531441) * q + (-(4384 / 531441)) * q ^ 2 + (536 / 885735) * q ^ 3 + (244 / 13286025) * q ^ 4 + (-(289 / 66430125)) * q ^ 5 + (2 / 13286025) * q ^ 6) * hr + ((-(34000 / 531441)) + (-(24700 / 531441)) * q + (-(5480 / 531441)) * q ^ 2 + (-(134 / 177147)) * q ^ 3 + (61 / 2657205) * q ^ 4 + (289 / 53144100) * q ^ 5 + (1 / 5314410) * q ^ 6) * hr + ((-(27200 / 531441)) + (-(19760 / 531441)) * q + (-(4384 / 531441)) * q ^ 2 + (-(536 / 885735)) * q ^ 3 + (244 / 13286025) * q ^ 4 + (289 / 66430125) * q ^ 5 + (2 / 13286025) * q ^ 6) * hr + ((-(10696 / 492075)) + (44 / 820125) * q ^ 2 + (1 / 2460375) * q ^ 4) * h

/-- Beyond the base being a parallelogram nothing is assumed: a sheared pyramid. -/
example : P3.integrate felippa_1 (fun _ => 1) ![![0, 0, 0], ![2, 0, 0], ![3, 1, 0], ![1, 1, 0], ![5, 7, 3]] =
    2 := by
  simp [integrate, felippa_1, schemeOf, untangle, dot, toVec, getDetJ, det3, J0, J1, J2, lit_eighth,
    lit_half', lit_one]
  norm_num

end P3

namespace W3

/-- `_transform` maps the corners of the reference wedge to the given vertices. -/
theorem C50_wedge_vertices (wedge : Fin 2 → Fin 3 → Fin 3 → ℝ) :
    transform ![0, 0, -1] wedge = wedge 0 0 ∧ transform ![1, 0, -1] wedge = wedge 0 1 ∧
      transform ![0, 1, -1] wedge = wedge 0 2 ∧ transform ![0, 0, 1] wedge = wedge 1 0 ∧
      transform ![1, 0, 1] wedge = wedge 1 1 ∧ transform ![0, 1, 1] wedge = wedge 1 2 := by
  refine ⟨?_, ?_, ?_, ?_, ?_, ?_⟩ <;> funext i <;> simp [transform, lit_half, lit_one] <;> ring

/-- `_get_detJ` is the determinant of the derivative of `_transform`, for every wedge and point. -/
theorem C50_wedge_detJ (wedge : Fin 2 → Fin 3 → Fin 3 → ℝ) (x : Fin 3 → ℝ) :
    ∃ L : (Fin 3 → ℝ) →L[ℝ] (Fin 3 → ℝ),
      HasFDerivAt (fun xi => transform xi wedge) L x ∧ L.det = getDetJ x wedge := by
  refine ⟨LinearMap.toContinuousLinearMap (Matrix.toLin'
    (Matrix.of fun i j : Fin 3 => ![J0 x wedge i, J1 x wedge i, J2 x wedge i] j)), ?_, ?_⟩
  · rw [hasFDerivAt_pi']
    intro i
    have h := hasFDerivAt_multiaffine
      ![(wedge 0 0 i + wedge 1 0 i) / 2,
        (-wedge 0 0 i + wedge 0 1 i - wedge 1 0 i + wedge 1 1 i) / 2,
        (-wedge 0 0 i + wedge 0 2 i - wedge 1 0 i + wedge 1 2 i) / 2,
        (-wedge 0 0 i + wedge 1 0 i) / 2,
        0,
        (wedge 0 0 i - wedge 0 1 i - wedge 1 0 i + wedge 1 1 i) / 2,
        (wedge 0 0 i - wedge 0 2 i - wedge 1 0 i + wedge 1 2 i) / 2,
        0] x
    refine (h.congr_of_eventuallyEq (Filter.Eventually.of_forall fun y => ?_)).congr_fderiv ?_
    · simp [transform, lit_half, lit_one]
      ring
    · ext v
      simp [Matrix.mulVec, dotProduct, Fin.sum_univ_three, J0, J1, J2, lit_half, lit_one]
      ring
  · rw [ContinuousLinearMap.det, LinearMap.coe_toContinuousLinearMap, LinearMap.det_toLin', getDetJ,
      det3_matrix]

noncomputable def mat (wedge : Fin 2 → Fin 3 → Fin 3 → ℝ) : Matrix (Fin 3) (Fin 3) ℝ :=
  Matrix.of fun i j => ![wedge 0 1 i - wedge 0 0 i, wedge 0 2 i - wedge 0 0 i,
    (wedge 1 0 i - wedge 0 0 i) / 2] j

noncomputable def vec (wedge : Fin 2 → Fin 3 → Fin 3 → ℝ) : Fin 3 → ℝ := fun i =>
  (wedge 0 0 i + wedge 1 0 i) / 2

/-- The three edges between the triangles are parallel and equally long. -/
def IsPrism (wedge : Fin 2 → Fin 3 → Fin 3 → ℝ) : Prop :=
  wedge 1 1 - wedge 0 1 = wedge 1 0 - wedge 0 0 ∧ wedge 1 2 - wedge 0 2 = wedge 1 0 - wedge 0 0

theorem IsPrism.coord {wedge : Fin 2 → Fin 3 → Fin 3 → ℝ} (hp : IsPrism wedge) (i : Fin 3) :
    wedge 1 1 i = wedge 0 1 i + wedge 1 0 i - wedge 0 0 i ∧
      wedge 1 2 i = wedge 0 2 i + wedge 1 0 i - wedge 0 0 i := by
  have h1 := congrFun hp.1 i
  have h2 := congrFun hp.2 i
  simp only [Pi.sub_apply] at h1 h2
  constructor <;> linarith

theorem transform_eq {wedge : Fin 2 → Fin 3 → Fin 3 → ℝ} (hp : IsPrism wedge)
    (ξ : Fin 3 → ℝ) : transform ξ wedge = affineMap (mat wedge) (vec wedge) ξ := by
  funext i
  obtain ⟨h1, h2⟩ := hp.coord i
  simp [transform, lit_half, lit_one, affineMap, mat, vec, Fin.sum_univ_three, h1, h2]
  ring

theorem getDetJ_eq {wedge : Fin 2 → Fin 3 → Fin 3 → ℝ} (hp : IsPrism wedge)
    (ξ : Fin 3 → ℝ) : getDetJ ξ wedge = (mat wedge).det := by
  rw [mat, det3_matrix]
  simp only [getDetJ, P3.det3, J0, J1, J2, hp.coord, lit_half, lit_one]
  ring

theorem image_ref {wedge : Fin 2 → Fin 3 → Fin 3 → ℝ} (hp : IsPrism wedge) :
    affineMap (mat wedge) (vec wedge) '' ref =
      convexHull ℝ (Set.range fun k : Fin 2 × Fin 3 => wedge k.1 k.2) := by
  apply Set.Subset.antisymm
  · rintro _ ⟨x, ⟨h0, h1, h2, h3, h4⟩, rfl⟩
    have e : affineMap (mat wedge) (vec wedge) x = ∑ k : Fin 2 × Fin 3,
        (![(1 - x 2) / 2, (1 + x 2) / 2] k.1 * ![1 - x 0 - x 1, x 0, x 1] k.2) • wedge k.1 k.2 := by
      funext i
      obtain ⟨e1, e2⟩ := hp.coord i
      simp [affineMap, mat, vec, Fin.sum_univ_three, Fintype.sum_prod_type, e1, e2]
      ring
    rw [e]
    refine (convex_convexHull ℝ _).sum_mem (fun k _ => ?_) ?_
      (fun k _ => subset_convexHull ℝ _ ⟨k, rfl⟩)
    · refine mul_nonneg ?_ ?_
      · have : ∀ k : Fin 2, 0 ≤ (![(1 - x 2) / 2, (1 + x 2) / 2] : Fin 2 → ℝ) k := by
          intro k
          fin_cases k <;> simp <;> linarith
        exact this _
      · have : ∀ k : Fin 3, 0 ≤ (![1 - x 0 - x 1, x 0, x 1] : Fin 3 → ℝ) k := by
          intro k
          fin_cases k <;> simp <;> linarith
        exact this _
    · simp [Fin.sum_univ_three, Fintype.sum_prod_type]
      ring
  · refine convexHull_min ?_ (convex_affineMap_image _ _ convex_ref)
    rintro _ ⟨⟨k, l⟩, rfl⟩
    have hv := C50_wedge_vertices wedge
    simp only [transform_eq hp] at hv
    obtain ⟨v0, v1, v2, v3, v4, v5⟩ := hv
    fin_cases k <;> fin_cases l
    · exact ⟨_, by simp [ref], v0⟩
    · exact ⟨_, by simp [ref], v1⟩
    · exact ⟨_, by simp [ref], v2⟩
    · exact ⟨_, by simp [ref], v3⟩
    · exact ⟨_, by simp [ref], v4⟩
    · exact ⟨_, by simp [ref], v5⟩

/-- The scheme integrates every polynomial of degree at most `degree` exactly over every prism,
degenerate or not. -/
def Exact (S : Scheme) : Prop :=
  S.WellShaped 3 ∧ ∀ (wedge : Fin 2 → Fin 3 → Fin 3 → ℝ), IsPrism wedge →
    ∀ p : MvPolynomial (Fin 3) ℝ, p.totalDegree ≤ S.degree →
      integrate S (fun x => MvPolynomial.eval x p) wedge =
        ∫ x in convexHull ℝ (Set.range fun k : Fin 2 × Fin 3 => wedge k.1 k.2), MvPolynomial.eval x p

theorem exact_of_mom {data : List (ℝ × List (List ℝ))} {deg : ℕ}
    (hs : ∀ g ∈ data, ∀ x ∈ g.2, x.length = 3)
    (h : ∀ a b c : ℕ, a + b + c ≤ deg → (data.map fun g => g.1 * osum 3 g.2 fun ξ =>
      ξ 0 ^ a * ξ 1 ^ b * ξ 2 ^ c).sum = mom a b c) : Exact (schemeOf 3 data deg) := by
  refine ⟨schemeOf_wellShaped _ _ _ hs, fun wedge hp p hdeg => ?_⟩
  have href : Spec.ExactUpTo deg (fun f : (Fin 3 → ℝ) → ℝ => dot 3 (schemeOf 3 data deg).weights
      (schemeOf 3 data deg).points f) fun f => ∫ x in ref, f x := by
    refine exactUpTo_of_mono (dot_linOnMono _ _) (linOnMono_integral_one _ fun α => ?_)
      fun α hα => ?_
    · exact ContinuousOn.integrableOn_compact isCompact_ref (by unfold mono; fun_prop)
    · beta_reduce
      rw [dot_schemeOf]
      have := h (α 0) (α 1) (α 2) (by simpa [Fin.sum_univ_three] using hα)
      have hm : mono α = fun ξ => ξ 0 ^ α 0 * ξ 1 ^ α 1 * ξ 2 ^ α 2 := by
        funext ξ
        simp [mono, Fin.prod_univ_three]
      simp only [hm, integral_ref, ← this]
  have := exact_affine (mat wedge) (vec wedge) isCompact_ref.measurableSet href p hdeg
  rw [image_ref hp] at this
  beta_reduce at this
  rw [← this, integrate]
  simp only [transform_eq hp, getDetJ_eq hp]
  rw [← Cn.dot_mul_const]

macro "wedge_cases" d:term : tactic => `(tactic|
  (intro a b c h
   have ha : a ≤ $d := by omega
   have hb : b ≤ $d := by omega
   have hc : c ≤ $d := by omega
   interval_cases a <;> interval_cases b <;> interval_cases c <;> first | (exfalso; omega) | skip
   all_goals simp [osum, toVec, mom, s3, s21_z, Nat.factorial, show ¬ Even 1 by decide]))

theorem C50_w3_felippa_1 : Exact felippa_1 := by
  refine exact_of_mom (by simp [s3]) ?_
  wedge_cases 1
  all_goals norm_num

theorem C50_w3_felippa_2 : Exact felippa_2 := by
  refine exact_of_mom (by simp [s21_z]) ?_
  have h := Real.sq_sqrt (show (0 : ℝ) ≤ 1 / 3 by norm_num)
  generalize √(1 / 3 : ℝ) = r at h ⊢
  wedge_cases 2
  all_goals grind

theorem C50_w3_felippa_3 : Exact felippa_3 := by
  refine exact_of_mom (by simp [s21_z]) ?_
  have h := Real.sq_sqrt (show (0 : ℝ) ≤ 1 / 3 by norm_num)
  generalize √(1 / 3 : ℝ) = r at h ⊢
  wedge_cases 2
  all_goals grind

example : W3.integrate felippa_1 (fun _ => 1)
    ![![![0, 0, 0], ![2, 0, 0], ![1, 1, 0]], ![![5, 7, 3], ![7, 7, 3], ![6, 8, 3]]] = 3 := by
  simp [integrate, felippa_1, s3, schemeOf, untangle, dot, toVec, getDetJ, P3.det3, J0, J1, J2,
    lit_half, lit_one]
  norm_num

end W3
end Quadpy
