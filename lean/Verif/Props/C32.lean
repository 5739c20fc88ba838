/-
C32: the product rules on the square and the cube have the degree of the 1-D rule.
-/
import Verif.Lemmas.ProductRule
import Verif.Lemmas.CubeExact

namespace Quadpy
open Finset Adaptive

theorem m1_eq (k : ℕ) : ∫ x in (-1 : ℝ)..1, x ^ k = 2 * m1 k := integral_pow_sym k

/-- C32: the square. -/
theorem C32_c2_product {p w : List ℝ} {d : ℕ} (h : Spec.ExactC1 p w d) :
    (C2.product p w d).degree = d ∧ (C2.product p w d).ExactOnCube 2 := by
  rw [C2.product, plainScheme_eq]
  refine ⟨rfl, ⟨rfl, ?_, ?_⟩, ?_⟩
  · simp [List.length_flatMap, h.1]
  · simp only [List.mem_flatMap, List.mem_map]
    rintro x ⟨a, -, b, -, rfl⟩; rfl
  · refine exactUpTo_of_mono ((dot_linOnMono _ _).const_mul _) (cube_linOnMono 2) fun α hα => ?_
    beta_reduce
    have hα' : α 0 + α 1 ≤ d := by simpa [Fin.sum_univ_two] using hα
    rw [cube_mono, cubeMom, Fin.prod_univ_two, dot_flatMap _ _ _ _ _ (by simp [h.1])]
    have e : ∀ wi yi : ℝ, dot 2 (w.map fun wj => wi * wj / 4) (p.map fun xj => [xj, yi]) (mono α) =
        (1 / 4 * (2 * m1 (α 0))) * (wi * yi ^ α 1) := by
      intro wi yi
      rw [dot_map_map, ← m1_eq, ← exactC1_pow h (by omega : α 0 ≤ d), ← zipWith_sum_eq]
      rw [show 1 / 4 * (List.zipWith (fun a x : ℝ => a * x ^ α 0) w p).sum * (wi * yi ^ α 1) =
        (1 / 4 * (wi * yi ^ α 1)) * (List.zipWith (fun a x : ℝ => a * x ^ α 0) w p).sum by ring,
        ← zipWith_sum_mul_left]
      congr 2
      funext a b
      simp [mono, Fin.prod_univ_two, toVec]; ring
    simp only [e]
    rw [zipWith_sum_mul_left, zipWith_sum_eq, exactC1_pow h (by omega : α 1 ≤ d), m1_eq]
    ring

/-- C32: the cube. -/
theorem C32_c3_product {p w : List ℝ} {d : ℕ} (h : Spec.ExactC1 p w d) :
    (C3.product p w d).degree = d ∧ (C3.product p w d).ExactOnCube 3 := by
  rw [C3.product, plainScheme_eq]
  refine ⟨rfl, ⟨rfl, ?_, ?_⟩, ?_⟩
  · simp [List.length_flatMap, h.1]
  · simp only [List.mem_flatMap, List.mem_map]
    rintro x ⟨a, -, b, -, c, -, rfl⟩; rfl
  · refine exactUpTo_of_mono ((dot_linOnMono _ _).const_mul _) (cube_linOnMono 3) fun α hα => ?_
    beta_reduce
    have hα' : α 0 + α 1 + α 2 ≤ d := by simpa [Fin.sum_univ_three] using hα
    rw [cube_mono, cubeMom, Fin.prod_univ_three, dot_flatMap _ _ _ _ _ (by simp [h.1])]
    have e1 : ∀ wz z wy y : ℝ, dot 3 (w.map fun wx => wx * wy * wz / 8) (p.map fun x => [x, y, z])
        (mono α) = (1 / 8 * (2 * m1 (α 0)) * (wz * z ^ α 2)) * (wy * y ^ α 1) := by
      intro wz z wy y
      rw [dot_map_map, ← m1_eq, ← exactC1_pow h (by omega : α 0 ≤ d), ← zipWith_sum_eq]
      rw [show 1 / 8 * (List.zipWith (fun a x : ℝ => a * x ^ α 0) w p).sum * (wz * z ^ α 2) *
          (wy * y ^ α 1) = (1 / 8 * (wy * y ^ α 1) * (wz * z ^ α 2)) *
          (List.zipWith (fun a x : ℝ => a * x ^ α 0) w p).sum by ring,
        ← zipWith_sum_mul_left]
      congr 2
      funext a b
      simp [mono, Fin.prod_univ_three, toVec]; ring
    have e : ∀ wz z : ℝ, dot 3 (w.flatMap fun wy => w.map fun wx => wx * wy * wz / 8)
        (p.flatMap fun y => p.map fun x => [x, y, z]) (mono α) =
        (1 / 8 * (2 * m1 (α 0)) * (2 * m1 (α 1))) * (wz * z ^ α 2) := by
      intro wz z
      rw [dot_flatMap _ _ _ _ _ (by simp [h.1])]
      simp only [e1]
      rw [zipWith_sum_mul_left, zipWith_sum_eq, exactC1_pow h (by omega : α 1 ≤ d), m1_eq]
      ring
    simp only [e]
    rw [zipWith_sum_mul_left, zipWith_sum_eq, exactC1_pow h (by omega : α 2 ≤ d), m1_eq]
    ring

/-- Simpson's rule. -/
example : (C2.product [-1, 0, 1] [1 / 3, 4 / 3, 1 / 3] 3).ExactOnCube 2 := by
  have h : Spec.ExactC1 [-1, 0, 1] [1 / 3, 4 / 3, 1 / 3] 3 := exactC1_of_moments rfl fun k hk => ?_
  · exact (C32_c2_product h).2
  interval_cases k <;> norm_num [vdot]; decide

/-! The list argument. -/

/-- A list of rules is not handled: the constructors raise for every list. -/
theorem C32_list_fails (l : List (List ℝ × List ℝ × ℕ)) :
    C2.productArg (.inr l) = none ∧ C3.productArg (.inr l) = none := ⟨rfl, rfl⟩

end Quadpy
