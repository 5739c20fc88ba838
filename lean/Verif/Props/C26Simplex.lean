import Verif.Lemmas.SimplexFrame
import Verif.Model.Enr

/-!
C26, continued: the rule on the regular simplex.
-/

namespace Quadpy
open Finset Enr

theorem C26_stroudSecrest1 (n : ℕ) (hn : 1 ≤ n) :
    (Enr.stroudSecrest1 n).degree = 2 ∧ (Enr.stroudSecrest1 n).ExactOnEnr n := by
  refine ⟨rfl, secrest_deg2 hn (enr_linOnMono hn) (enr_mono hn) _ ?_ ?_⟩
  · simp [enrRho, Nat.factorial_ne_zero]
  · rw [Real.sq_sqrt (by positivity), enrRho]
    obtain ⟨m, rfl⟩ : ∃ m, n = m + 1 := ⟨n - 1, by omega⟩
    have : (m.factorial : ℝ) ≠ 0 := by positivity
    simp only [Nat.add_sub_cancel, Nat.factorial_succ, show m + 2 = m + 1 + 1 from rfl]
    push_cast
    field_simp

end Quadpy
