/-
Model of quadpy/helpers/combinatorics.py (list programs; a numpy array of rows is a list of rows).
-/
import Mathlib.Algebra.BigOperators.Group.List.Basic
import Mathlib.Data.List.FinRange
import Mathlib.Data.List.Rotate
import Mathlib.Data.Real.Basic

namespace Quadpy

/-- Decrementing a positive entry lowers the sum (termination of `partitions`). -/
theorem sum_set_pred_lt : ∀ (l : List ℕ) (i : ℕ) (h : i < l.length), 0 < l[i] →
    (l.set i (l[i] - 1)).sum < l.sum
  | [], i, h, _ => absurd h (Nat.not_lt_zero i)
  | a :: l, 0, _, h0 => by
      simp only [List.getElem_cons_zero] at h0
      simp only [List.getElem_cons_zero, List.set_cons_zero, List.sum_cons]
      omega
  | a :: l, i + 1, h, h0 => by
      have h' : i < l.length := by simpa using h
      have h0' : 0 < l[i] := by simpa using h0
      have := sum_set_pred_lt l i h' h0'
      simp only [List.getElem_cons_succ, List.set_cons_succ, List.sum_cons]
      omega

/-- helpers/combinatorics.py:66-74 `partitions(*sizes)`.  The generator is the list of what it
yields.  Simplification: sizes are natural numbers (the callers never pass negative ones). -/
def partitions (sizes : List ℕ) : List (List ℕ) :=
  (if sizes.all (· = 0) then [[]] else []) ++
  (List.finRange sizes.length).flatMap fun (i : Fin sizes.length) =>
    if 0 < sizes[i.val] then
      (partitions (sizes.set i.val (sizes[i.val] - 1))).map (i.val :: ·)
    else []
termination_by sizes.sum
decreasing_by
  rename_i h
  exact sum_set_pred_lt sizes i.val i.isLt h

/-- `itertools.product(*lists)` (used in helpers/combinatorics.py:78 and 94): all choices of one
entry per list, last list running fastest. -/
def iterProduct {α : Type*} : List (List α) → List (List α)
  | [] => [[]]
  | l :: ls => l.flatMap fun a => (iterProduct ls).map (a :: ·)

/-- helpers/combinatorics.py:51-80 `combine(*elems)`. `values[ti]` is list indexing; the
templates only contain valid indices (`mem_partitions_iff`), so the default is never used. -/
def combine {α : Type*} (elems : List (List α × ℕ)) : List (List α) :=
  (partitions (elems.map Prod.snd)).flatMap fun t =>
    iterProduct (t.map fun ti => (elems.map Prod.fst).getD ti [])

/-- helpers/combinatorics.py:6-7 `z(n)`. -/
def z (n : ℕ) : List (List ℝ) := [List.replicate n 0]

/-- helpers/combinatorics.py:10-28 `rd(n, items)`; `none` models the AssertionError of line 21
or 23. -/
def rd (n : ℕ) (items : List (ℝ × ℕ)) : Option (List (List ℝ)) :=
  if (items.all fun it => 0 < it.2) ∧ (items.map Prod.snd).sum ≤ n then
    some (combine ((items.map fun it => ([it.1], it.2)) ++
      [([0], n - (items.map Prod.snd).sum)]))
  else none

/-- helpers/combinatorics.py:31-40 `fsd(n, *tuples)`; `none` models the AssertionError of line 38.
-/
def fsd (n : ℕ) (tuples : List (ℝ × ℕ)) : Option (List (List ℝ)) :=
  if (tuples.map Prod.snd).sum ≤ n then
    some (combine ((tuples.map fun it => ([it.1, -it.1], it.2)) ++
      [([0], n - (tuples.map Prod.snd).sum)]))
  else none

/-- helpers/combinatorics.py:43-48 `fs_array(v)`. -/
def fsArray (v : List ℝ) : List (List ℝ) :=
  combine (v.map fun vi => ([vi, -vi], 1))

open Classical in
/-- helpers/combinatorics.py:83-94 `pm(v)`. -/
noncomputable def pm (v : List ℝ) : List (List ℝ) :=
  iterProduct (v.map fun value => if value = 0 then [0] else [value, -value])

/-- `np.roll(row, i)` of one row: entry `j` moves to position `j + i` modulo the length. -/
def roll {α : Type*} (i : ℕ) (row : List α) : List α :=
  row.rotate (row.length - i % row.length)

/-- helpers/combinatorics.py:97-109 `pm_roll(v)`. -/
noncomputable def pmRoll (v : List ℝ) : List (List ℝ) :=
  (List.range v.length).flatMap fun i => (pm v).map (roll i)

/-- helpers/combinatorics.py:123-155 `augment(exponents)`.  The recursion of the code is on the
length of the tuples, here the first argument `fuel` (any number at least the length of the
tuples gives the same result; the loop below passes `dim`). -/
def augment : ℕ → List (List ℕ) → List (List ℕ)
  | 0, _ => []
  | fuel + 1, exponents =>
    if exponents.length = 0 ∨ (exponents.headD []).length = 0 then []
    else
      let withLeadingZero := (exponents.filter fun e => e.headD 1 = 0).map List.tail
      let out1 := augment fuel withLeadingZero
      (exponents.map fun e => (e.headD 0 + 1) :: e.tail) ++ out1.map (0 :: ·)

/-- helpers/combinatorics.py:112-173 `get_all_exponents(dim, max_degree)`; lines 160-171. -/
def getAllExponents (dim maxDegree : ℕ) : List (List (List ℕ)) :=
  (List.range (maxDegree + 1)).map fun d => (augment dim)^[d] [List.replicate dim 0]

end Quadpy
