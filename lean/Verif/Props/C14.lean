import Verif.Props.C13

/-!
# C14: vectorised CnScheme.integrate

The property fails: an array of cubes with `e` extra axes gives `2^e` times the results for the
single cubes, because the reference volume is taken as 2 to the number of axes of `ncube` minus one
instead of 2 to the dimension.
-/

namespace Quadpy
namespace Cn
open Finset

/-- The result at the index `j` is `2^e` times the result for the cube at `j`, where `e` is the number
of extra axes: for every scheme, every integrand, all cubes and every shape. -/
theorem C14_factor {d : ℕ} {ι : Type} (shape : List ℕ) (weights : List ℝ) (points : List (List ℝ))
    (f : (Fin (d + 1) → ℝ) → ℝ) (ncube : (Fin (d + 1) → Fin 2) → ι → Fin (d + 1) → ℝ) (j : ι) :
    integrateV shape weights points f ncube j =
      2 ^ shape.length * integrate weights points f fun b => ncube b j := by
  unfold integrate integrateV
  simp only [List.length_nil, add_zero, Nat.add_sub_cancel]
  rw [pow_add]
  ring

/-- Hence the vectorised call agrees with one call per cube exactly when there are no extra axes or
the value is zero. -/
theorem C14_agree_iff {d : ℕ} {ι : Type} (shape : List ℕ) (weights : List ℝ)
    (points : List (List ℝ)) (f : (Fin (d + 1) → ℝ) → ℝ)
    (ncube : (Fin (d + 1) → Fin 2) → ι → Fin (d + 1) → ℝ) (j : ι) :
    integrateV shape weights points f ncube j = (integrate weights points f fun b => ncube b j) ↔
      shape = [] ∨ (integrate weights points f fun b => ncube b j) = 0 := by
  rw [C14_factor]
  generalize integrate weights points f (fun b => ncube b j) = v
  constructor
  · intro h
    by_cases hv : v = 0
    · exact Or.inr hv
    · left
      have h2 : (2 : ℝ) ^ shape.length = 1 := by
        have : ((2 : ℝ) ^ shape.length - 1) * v = 0 := by linear_combination h
        rcases mul_eq_zero.1 this with h | h
        · linarith
        · exact absurd h hv
      rw [pow_eq_one_iff_cases] at h2
      rcases h2 with h2 | h2 | h2
      · exact List.length_eq_zero_iff.1 h2
      · norm_num at h2
      · norm_num at h2
  · rintro (rfl | h)
    · simp
    · rw [h, mul_zero]

/-- Two unit intervals at once, integrand one: each value is 2 instead of 1. -/
example (j : Fin 2) : integrateV [2] [1] [[0]] (fun _ => 1)
    (fun b (_ : Fin 2) => ncubePoints (fun _ : Fin 1 => ![0, 1]) b) j = 2 := by
  rw [C14_factor]
  simp only [integrate, integrateV, box_parCorners, getDetJ_par]
  simp [dot, parMatrix]

end Cn
end Quadpy
