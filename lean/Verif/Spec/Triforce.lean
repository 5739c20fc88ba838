import Verif.Spec.Bisection
import Mathlib.Data.Fin.VecNotation

/-!
# Specification: partitions of triangles by cutting triangles into four
-/

namespace Quadpy
namespace Spec

variable {δ : Type}

/-- The triangles `L` are obtained from the triangles `Ts`, up to their order, by finitely often
replacing a triangle by the three corner triangles and the middle triangle that its side midpoints
cut out. -/
inductive Triforce : List (Fin 3 → δ → ℝ) → List (Fin 3 → δ → ℝ) → Prop
  | whole (Ts) : Triforce Ts Ts
  | perm (Ts L L') : Triforce Ts L → L.Perm L' → Triforce Ts L'
  | cut (Ts) (a b c : δ → ℝ) (L) : Triforce Ts (![a, b, c] :: L) →
      Triforce Ts (![a, mid a c, mid a b] :: ![b, mid a b, mid b c] :: ![c, mid b c, mid a c] ::
        ![mid b c, mid a c, mid a b] :: L)

end Spec
end Quadpy
