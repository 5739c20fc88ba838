import Verif.Model.Adaptive

/-!
# c1: integration with a given rule
-/

namespace Quadpy
namespace C1

open Adaptive

variable {δ ι : Type} [Fintype δ] [Fintype ι]

/-- c1/_helpers.py:62-77 `C1Scheme.integrate` for one interval (segment); an array of intervals is
treated interval by interval. -/
noncomputable def integrate (points weights : List ℝ) (f : (δ → ℝ) → ι → ℝ) (I : Ivl δ) : ι → ℝ :=
  fun i => 1 / 2 * len I * vdot (points.map fun x => f (affine I x) i) weights

/-- The same for a function of one real variable and an interval `[a, b]`. -/
noncomputable def integrate1 (points weights : List ℝ) (f : ℝ → ℝ) (a b : ℝ) : ℝ :=
  integrate (δ := Unit) (ι := Unit) points weights (fun x _ => f (x ()))
    (fun _ => a, fun _ => b) ()

end C1
end Quadpy
