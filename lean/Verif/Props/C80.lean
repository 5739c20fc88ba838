import Verif.Model.Compat
import Mathlib.Tactic.IntervalCases
import Mathlib.Data.Nat.Choose.Sum

/-!
# C80: `comb` and `prod` on every version of Python
-/

namespace Quadpy
namespace Compat

/-- Only the first digit of the minor version decides. -/
theorem C80_first_digit (c : Char) (rest : List Char) :
    old ('3' :: '.' :: c :: rest) = true ↔ c < '8' := by
  simp [old, List.cons_lt_cons_iff]

/-- Before Python 3.8, which has no `math.comb` and no `math.prod`, the own code is used. -/
theorem C80_before (m : ℕ) (hm : m < 8) (rest : List Char) : old (version m rest) = true := by
  interval_cases m <;> exact (C80_first_digit _ _).2 (by decide)

/-- Python 3.8 and 3.9 use the standard library. -/
theorem C80_standard (m : ℕ) (hm : m = 8 ∨ m = 9) (rest : List Char) : old (version m rest) = false := by
  rcases hm with rfl | rfl <;> exact Bool.eq_false_iff.2 fun h => absurd ((C80_first_digit _ _).1 h) (by decide)

/-- Python 3.10 and later (up to 3.79) use the own code again: `"3.10" < "3.8"`. -/
theorem C80_after (m : ℕ) (h1 : 10 ≤ m) (h2 : m < 80) (rest : List Char) : old (version m rest) = true := by
  interval_cases m <;> exact (C80_first_digit _ _).2 (by decide)

/-- On every version `comb` is the binomial coefficient. -/
theorem C80_comb (v : List Char) (a b : ℕ) : comb v a b = some (a.choose b) := by
  unfold comb
  split_ifs
  · rw [combOld]
    rcases Nat.lt_or_ge a b with h | h
    · rw [show factorial? ((a : ℤ) - b) = none by rw [factorial?, if_pos]; omega, Nat.choose_eq_zero_of_lt h]
      simp [factorial?]
    · rw [show factorial? ((a : ℤ) - b) = some (a - b).factorial by
        rw [factorial?, if_neg (by omega)]; congr 2; omega]
      rw [show factorial? (a : ℤ) = some a.factorial by rw [factorial?, if_neg (by omega)]; rfl,
        show factorial? (b : ℤ) = some b.factorial by rw [factorial?, if_neg (by omega)]; rfl]
      simp [Nat.choose_eq_factorial_div_factorial h, Nat.div_div_eq_div_mul]
  · simp [mathComb]

/-- For negative arguments the versions differ: 0 or an exception. -/
theorem C80_comb_negative (v : List Char) (a b : ℤ) (h : a < 0 ∨ b < 0) :
    comb v a b = if old v then some 0 else none := by
  unfold comb
  split_ifs with hv
  · rcases h with h | h
    · simp [combOld, factorial?, h]
    · rcases hx : factorial? a with _ | x <;> simp [combOld, factorial?, h] at hx ⊢ <;> simp [hx, h]
  · simp [mathComb, h]

/-- On every version `prod` is the product, in the order of the list. -/
theorem C80_prod {R : Type} [Monoid R] (v : List Char) (l : List R) : prod v l = l.prod := by
  unfold prod
  split_ifs
  · rw [List.prod_eq_foldl]
  · rfl

/-- `comb(5, 2)` with Python 3.7.3, 3.9.1 and 3.11.4, and `comb(-1, 2)` with the latter two. -/
example : comb (version 7 ".3".toList) 5 2 = some 10 ∧ comb (version 9 ".1".toList) 5 2 = some 10 ∧
    comb (version 11 ".4".toList) 5 2 = some 10 ∧ comb (version 9 ".1".toList) (-1) 2 = none ∧
    comb (version 11 ".4".toList) (-1) 2 = some 0 := by
  refine ⟨C80_comb _ 5 2, C80_comb _ 5 2, C80_comb _ 5 2, ?_, ?_⟩
  · rw [C80_comb_negative _ _ _ (by norm_num), C80_standard _ (by norm_num)]; simp
  · rw [C80_comb_negative _ _ _ (by norm_num), C80_after _ (by norm_num) (by norm_num)]; simp

end Compat
end Quadpy
