import Verif.Model.Combinatorics
import Verif.Model.Scheme
import Mathlib.Data.Real.Basic
import Mathlib.Data.String.Basic
import Mathlib.Order.WithBot
import Mathlib.Algebra.BigOperators.Group.Finset.Basic

/-!
# test/helpers.py

The functions with which the project itself decides degrees of rules, chooses the rules for
`get_good_scheme`, and looks for rules which coincide.  All numbers are reals.
-/

namespace Quadpy.TestHelpers

inductive Err
  /-- `ValueError: zero-size array to reduction operation maximum which has no identity` -/
  | valueError
  deriving DecidableEq

/-- `np.max(a)` -/
noncomputable def npMax : List ℝ → Except Err ℝ
  | [] => .error .valueError
  | a :: l => .ok (l.foldl max a)

open Classical in
/-- test/helpers.py:6-38 `check_degree(quadrature, exact, dim, max_degree, tol)`.  `quadrature` takes an integrand
with many components, and is represented by its effect `Q` on one component; `exact(k)` is the integral of the
monomial with the exponents `k`. -/
noncomputable def checkDegree (dim : ℕ) (Q : ((Fin dim → ℝ) → ℝ) → ℝ) (exact : List ℕ → ℝ) (maxDegree : ℕ)
    (tol : ℝ) : Except Err (ℤ × ℝ) := do
  let exponents := (getAllExponents dim maxDegree).flatten
  let exactVals := exponents.map exact
  let vals := exponents.map fun k => Q fun x => ∏ i : Fin dim, x i ^ k.getD i 0
  let err := List.zipWith (fun e v => |e - v|) exactVals vals
  let isSmaller := List.zipWith (fun r e => decide (r < (1 + |e|) * tol)) err exactVals
  let rel := List.zipWith (fun r e => r / (1 + |e|)) err exactVals
  if isSmaller.all id then
    let m ← npMax rel
    return (maxDegree, m)
  else
    -- `np.where(~is_smaller)[0][0]`
    let k0 := isSmaller.findIdx fun b => !b
    let m ← npMax (((exponents.zip rel).filter fun p => p.1.sum < maxDegree).map Prod.snd)
    return (((exponents.getD k0 []).sum : ℤ) - 1, m)

/-- What `find_best_scheme` reads of a scheme.  `keys` are those of `symmetry_data`; some classes do not have
this attribute.  `year` is that of the source, if there is one. -/
structure Candidate where
  name : String
  degree : ℕ
  weights : List ℝ
  points : List (List ℝ)
  testTolerance : ℝ
  keys : Option (List String)
  year : Option String

/-- `max(abs_weights) / min(abs_weights)` of a list of float64: `none` stands for nan, `⊤` for inf.  (Python's `max` of
an empty sequence raises; here the ratio is nan.) -/
noncomputable def ratio (weights : List ℝ) : Option (WithTop ℝ) := open Classical in
  match weights.map fun w => |w| with
  | [] => none
  | a :: l =>
    let mx := l.foldl max a
    let mn := l.foldl min a
    if mn = 0 then (if mx = 0 then none else some ⊤) else some ((mx / mn : ℝ) : WithTop ℝ)

/-- A comparison of floats, false for nan. -/
def ltF (a b : Option (WithTop ℝ)) : Prop :=
  match a, b with
  | some a, some b => a < b
  | _, _ => False

/-- `"0" if scheme.source is None else scheme.source.year` -/
def yearOf (c : Candidate) : String := c.year.getD "0"

open Classical in
/-- test/helpers.py:87-112: the conditions. -/
noncomputable def eligible (degree : ℕ) (pointsOkay : List (List ℝ) → Bool) (symmetriesOkay : List String → Bool)
    (c : Candidate) : Bool :=
  if c.degree < degree then false
  else if c.weights.any fun w => decide (w < 0) then false
  else if !pointsOkay c.points then false
  else if c.testTolerance > 1 / 10 ^ 13 then false
  else match c.keys with
    | none => false
    | some keys => symmetriesOkay keys

open Classical in
/-- test/helpers.py:114-155: the comparison with the best scheme so far. -/
noncomputable def better (best : Option Candidate) (scheme : Candidate) : Candidate :=
  match best with
  | none => scheme
  | some best =>
    if scheme.weights.length > best.weights.length then best
    else if scheme.weights.length < best.weights.length then scheme
    else if ltF (ratio scheme.weights) (ratio best.weights) then scheme
    else if ltF (ratio best.weights) (ratio scheme.weights) then best
    else if yearOf scheme < yearOf best then scheme
    else if yearOf best < yearOf scheme then best
    else scheme

/-- test/helpers.py:78-157 `find_best_scheme(schemes, degree, is_points_okay, is_symmetries_okay)`.  `none` in the list of
schemes stands for a function which raises a TypeError because it needs arguments. -/
noncomputable def findBestScheme (schemes : List (Option Candidate)) (degree : ℕ)
    (pointsOkay : List (List ℝ) → Bool) (symmetriesOkay : List String → Bool) : Option Candidate :=
  schemes.foldl (fun best scheme =>
    match scheme with
    | none => best
    | some scheme => if eligible degree pointsOkay symmetriesOkay scheme then some (better best scheme) else best) none

/-- The rows of `np.vstack([scheme.weights, scheme.points])`: the weights, then for each coordinate the values of
all points (`scheme.points` has a column for each point; here a row). -/
def stack (dim : ℕ) (S : Candidate) : List (List ℝ) :=
  S.weights :: (List.range dim).map fun i => S.points.map fun x => x.getD i 0

/-- `np.sum((y_j - x_i) ** 2)` -/
noncomputable def dist2 (a b : List ℝ) : ℝ := (List.zipWith (fun s t => (s - t) ^ 2) a b).sum

open Classical in
/-- test/helpers.py:50-60: whether two schemes are reported as equal. -/
noncomputable def isEqual (dim : ℕ) (S T : Candidate) : Bool :=
  let tol : ℝ := 1 / 10 ^ 13
  if S.name = T.name then false
  else if S.weights.length ≠ T.weights.length then false
  -- `diff = np.min(…)`, then `if diff > tol`
  else (stack dim S).all fun x => (stack dim T).any fun y => decide (dist2 y x ≤ tol)

/-- test/helpers.py:41-75 `find_equal(schemes)`: the pairs reported. -/
noncomputable def findEqual (dim : ℕ) (schemes : List Candidate) : List (Candidate × Candidate) :=
  schemes.flatMap fun S => (schemes.filter fun T => isEqual dim S T).map fun T => (S, T)

end Quadpy.TestHelpers
