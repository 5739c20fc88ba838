import Verif.Props.C12
import Mathlib.LinearAlgebra.Matrix.DotProduct
import Mathlib.LinearAlgebra.Matrix.ToLinearEquiv
import Mathlib.Algebra.Order.Star.Real
import Mathlib.LinearAlgebra.Matrix.PosDef
import Mathlib.Analysis.Matrix.PosDef

/-!
# C12: degenerate simplices in spaces of any dimension
-/

namespace Quadpy
namespace Tn

open Matrix

/-- The volume of a simplex in `ℝ^m` (a triangle in space, for example) is zero exactly when it is
degenerate. -/
theorem C12_zero_iff_space {n m : ℕ} (v : Fin (n + 1) → Fin m → ℝ) :
    getVol v = 0 ↔ ¬ AffineIndependent ℝ v := by
  have hf : (n.factorial : ℝ) ≠ 0 := by positivity
  have hg : 0 ≤ (edgeMatrix v * (edgeMatrix v)ᵀ).det := by
    have := (Matrix.posSemidef_self_mul_conjTranspose (edgeMatrix v)).det_nonneg
    rwa [conjTranspose_eq_transpose_of_trivial] at this
  rw [C12_gram, div_eq_zero_iff, or_iff_left hf, Real.sqrt_eq_zero hg, iff_not_comm, iff_comm,
    affineIndependent_iff_linearIndependent_vsub ℝ v 0]
  let e : Fin n ≃ {x : Fin (n + 1) // x ≠ 0} :=
    ⟨fun i => ⟨i.succ, Fin.succ_ne_zero i⟩, fun x => x.1.pred x.2, fun i => by simp,
      fun x => by simp⟩
  rw [← linearIndependent_equiv e]
  have h1 : LinearIndependent ℝ ((fun i : {x : Fin (n + 1) // x ≠ 0} => v i.1 -ᵥ v 0) ∘ e) ↔
      LinearIndependent ℝ (edgeMatrix v).row := Iff.rfl
  rw [h1, ← Matrix.vecMul_injective_iff, ← not_iff_not, not_not, ← Matrix.exists_vecMul_eq_zero_iff]
  constructor
  · rintro ⟨x, hx, h⟩ hinj
    have h2 : x ᵥ* edgeMatrix v = 0 := by
      have := Matrix.vecMul_self_mul_conjTranspose_eq_zero (edgeMatrix v) x
      rw [conjTranspose_eq_transpose_of_trivial] at this
      exact this.1 h
    exact hx (hinj (by simpa using h2))
  · intro hinj
    by_contra hne
    push Not at hne
    refine hinj fun x y hxy => ?_
    by_contra hxy'
    refine hne (x - y) (sub_ne_zero.2 hxy') ?_
    rw [← Matrix.vecMul_vecMul, Matrix.sub_vecMul]
    rw [show x ᵥ* edgeMatrix v = y ᵥ* edgeMatrix v from hxy, sub_self, Matrix.zero_vecMul]

/-- A triangle in space. -/
example : getVol (n := 2) ![![0, 0, 0], ![1, 0, 0], ![0, 0, 2]] = 1 := by
  rw [C12_gram]
  have : (edgeMatrix ![![0, 0, 0], ![1, 0, 0], ![0, 0, (2 : ℝ)]] *
      (edgeMatrix ![![0, 0, 0], ![1, 0, 0], ![0, 0, (2 : ℝ)]])ᵀ).det = 2 ^ 2 := by
    rw [det_fin_two]
    simp [edgeMatrix, mul_apply, Fin.sum_univ_three]
    norm_num
  rw [this, Real.sqrt_sq (by norm_num)]
  norm_num

end Tn
end Quadpy
