import Mathlib.Data.Real.Basic
import Mathlib.Data.List.Forall2

/-!
# Specification: partitions of segments by bisection

`Bisection (a, b) L` says that the segments `L`, in this order, are obtained from the segment from
`a` to `b` by cutting segments into halves finitely often: every cut replaces one segment by its two
halves, so nothing is lost and nothing is covered twice.
-/

namespace Quadpy
namespace Spec

variable {δ : Type}

/-- The mid of two points. -/
noncomputable def mid (a b : δ → ℝ) : δ → ℝ := fun i => (a i + b i) / 2

inductive Bisection : (δ → ℝ) × (δ → ℝ) → List ((δ → ℝ) × (δ → ℝ)) → Prop
  | whole (I) : Bisection I [I]
  | cut (a b L R) : Bisection (a, mid a b) L → Bisection (mid a b, b) R →
      Bisection (a, b) (L ++ R)

/-- The segments `L` are, up to their order, bisections of all the segments `Is`. -/
def Bisections (Is L : List ((δ → ℝ) × (δ → ℝ))) : Prop :=
  ∃ Ls, List.Forall₂ Bisection Is Ls ∧ L.Perm Ls.flatten

end Spec
end Quadpy
