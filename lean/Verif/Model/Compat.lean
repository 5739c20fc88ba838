import Mathlib.Data.Nat.Choose.Basic
import Mathlib.Algebra.BigOperators.Group.List.Basic
import Mathlib.Data.Nat.Factorial.Basic

/-!
# Model of `prod` and `comb` in helpers/misc.py

The two functions choose between the standard library and their own code by comparing `sys.version`, a string such as
`"3.7.3 (default, ...)"`, with `"3.8"`.
-/

namespace Quadpy
namespace Compat

/-- `sys.version` of Python 3.`m`; `rest` is what follows the minor version. -/
def version (m : ℕ) (rest : List Char) : List Char := ['3', '.'] ++ Nat.toDigits 10 m ++ rest

/-- helpers/misc.py:143 and 152 `sys.version < "3.8"`: the order of strings. -/
def old (v : List Char) : Bool := decide (v < ['3', '.', '8'])

/-- `math.factorial`; `none` is a `ValueError`. -/
def factorial? (a : ℤ) : Option ℕ := if a < 0 then none else some a.toNat.factorial

/-- `math.comb` (since Python 3.8); `none` is a `ValueError`. -/
def mathComb (a b : ℤ) : Option ℕ := if a < 0 ∨ b < 0 then none else some (a.toNat.choose b.toNat)

/-- helpers/misc.py:153-157. -/
def combOld (a b : ℤ) : ℕ :=
  match factorial? a, factorial? b, factorial? (a - b) with
  | some x, some y, some z => x / y / z
  | _, _, _ => 0

/-- helpers/misc.py:151-158 `comb(a, b)`. -/
def comb (v : List Char) (a b : ℤ) : Option ℕ := if old v then some (combOld a b) else mathComb a b

/-- helpers/misc.py:142-148 `prod(lst)`; the standard library's `math.prod` (since Python 3.8) is the product. -/
def prod {R : Type} [Monoid R] (v : List Char) (l : List R) : R := if old v then l.foldl (· * ·) 1 else l.prod

end Compat
end Quadpy
