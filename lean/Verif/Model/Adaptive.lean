import Mathlib.Analysis.SpecialFunctions.Pow.Real
import Mathlib.Algebra.BigOperators.Group.List.Basic
import Mathlib.Analysis.SpecialFunctions.Sqrt

/-!
# c1: one Gauss-Kronrod evaluation and the adaptive loop

`δ` is the index set of one point of the domain (`domain_shape`; one element for functions of one
variable), `ι` is the index set of one function value (`range_shape`).  A set of intervals is the
list of its intervals in the flattened order of the code.  All numbers are reals.
-/

namespace Quadpy
namespace Adaptive

variable {δ ι : Type} [Fintype δ] [Fintype ι]

/-- An interval (segment): `intervals[0]`, `intervals[1]`. -/
abbrev Ivl (δ : Type) := (δ → ℝ) × (δ → ℝ)

/-- The data of the two rules `gauss_kronrod(k)` and `gauss_legendre(k)` the code uses
(c1/_gauss_kronrod.py:114-115): Kronrod points, Kronrod weights, Gauss weights.  The rules come
from an eigenvalue solver and are parameters here. -/
structure GK where
  pts : List ℝ
  gkW : List ℝ
  glW : List ℝ

/-- `a[..., 1::2]` (c1/_gauss_kronrod.py:134). -/
def odds {α : Type} : List α → List α
  | [] => []
  | [_] => []
  | _ :: b :: t => b :: odds t

/-- `np.dot(v, w)` of two vectors. -/
def vdot (v w : List ℝ) : ℝ := (List.zipWith (· * ·) v w).sum

/-- c1/_gauss_kronrod.py:117-120 and c1/_helpers.py:64-66: the point of the segment that belongs to
`x` of the reference interval. -/
noncomputable def affine (I : Ivl δ) (x : ℝ) : δ → ℝ :=
  fun i => I.1 i * (1 / 2 * (1 - x)) + I.2 i * (1 / 2 * (1 + x))

/-- c1/_gauss_kronrod.py:136-137 and c1/_helpers.py:74-75. -/
noncomputable def len (I : Ivl δ) : ℝ := √(∑ i, (I.2 i - I.1 i) ^ 2)

/-- c1/_gauss_kronrod.py:142 `average_gk`. -/
noncomputable def average (G : GK) (f : (δ → ℝ) → ι → ℝ) (I : Ivl δ) : ι → ℝ :=
  fun i => 1 / 2 * vdot (G.pts.map fun x => f (affine I x) i) G.gkW

/-- c1/_gauss_kronrod.py:143 `val_gauss_kronrod`. -/
noncomputable def valKronrod (G : GK) (f : (δ → ℝ) → ι → ℝ) (I : Ivl δ) : ι → ℝ :=
  fun i => average G f I i * len I

/-- c1/_gauss_kronrod.py:134, 144 `val_gauss_legendr`: the Gauss weights on every second value. -/
noncomputable def valGauss (G : GK) (f : (δ → ℝ) → ι → ℝ) (I : Ivl δ) : ι → ℝ :=
  fun i => 1 / 2 * len I * vdot (odds (G.pts.map fun x => f (affine I x) i)) G.glW

/-- c1/_gauss_kronrod.py:159-160 `I_tilde`. -/
noncomputable def Itilde (G : GK) (f : (δ → ℝ) → ι → ℝ) (I : Ivl δ) : ι → ℝ :=
  fun i => 1 / 2 * len I * vdot (G.pts.map fun x => |f (affine I x) i - average G f I i|) G.gkW

open Classical in
/-- c1/_gauss_kronrod.py:177-184 `error_estimate`. -/
noncomputable def errEst (G : GK) (f : (δ → ℝ) → ι → ℝ) (I : Ivl δ) : ι → ℝ :=
  fun i =>
    (if |Itilde G f I i| > 1 / 10 ^ 15 then
      min 1 ((200 * |valKronrod G f I i - valGauss G f I i| / Itilde G f I i) ^ (3 / 2 : ℝ))
    else 1) * Itilde G f I i

/-- The arguments of `integrate_adaptive` apart from the integrand and the intervals
(c1/_adaptive.py:14-28).  `conn` is `criteria_connection` applied to the criteria of one interval
(`np.any` is `fun l => l.any id`, `np.all` is `fun l => l.all id`); `maxSub = none` is `np.inf`. -/
structure Config where
  epsAbs : Option ℝ
  epsRel : Option ℝ
  conn : List Bool → Bool
  minLen : ℝ
  maxSub : Option ℝ

/-- The variables of the loop: the pending intervals (those that `~is_good` selects), the two sums
and the counter. -/
structure State (δ ι : Type) where
  bad : List (Ivl δ)
  values : ι → ℝ
  errors : ι → ℝ
  num : ℕ
  /-- Number of intervals that the last evaluation accepted; the code keeps it as `is_good`. -/
  lastGood : ℕ

open Classical in
/-- c1/_adaptive.py:65-72, for one interval. -/
noncomputable def good0 (G : GK) (c : Config) (f : (δ → ℝ) → ι → ℝ) (I : Ivl δ) : Bool :=
  c.conn
    ((match c.epsAbs with
      | some e => [decide (∀ i, errEst G f I i < e)]
      | none => []) ++
     (match c.epsRel with
      | some e => [decide (∀ i, errEst G f I i < e * |valGauss G f I i|)]
      | none => []))

/-- `np.sum(value_estimates[..., sel], axis=-1)`. -/
def total (g : Ivl δ → ι → ℝ) (L : List (Ivl δ)) : ι → ℝ := fun i => (L.map fun I => g I i).sum

/-- c1/_adaptive.py:42-75: the first evaluation. -/
noncomputable def init (G : GK) (c : Config) (f : (δ → ℝ) → ι → ℝ) (Is : List (Ivl δ)) :
    State δ ι :=
  let good := Is.filter fun I => good0 G c f I
  let bad := Is.filter fun I => !(good0 G c f I)
  ⟨bad, total (valGauss G f) good, total (errEst G f) good, 1, good.length⟩

/-- c1/_adaptive.py:79-86: the halves of the bad intervals, left halves first. -/
noncomputable def bisect (L : List (Ivl δ)) : List (Ivl δ) :=
  (L.map fun I => (I.1, fun i => 1 / 2 * (I.1 i + I.2 i))) ++
    (L.map fun I => (fun i => 1 / 2 * (I.1 i + I.2 i), I.2))

open Classical in
/-- c1/_adaptive.py:116-133, for one interval: `ttv` is the tentative total value, `sumLen` the sum
of the lengths of all new intervals, `ge` the errors accepted so far.  When `sumLen` is zero the
code divides 0 by 0 and compares with nan, which gives False. -/
noncomputable def goodN (G : GK) (c : Config) (f : (δ → ℝ) → ι → ℝ) (ttv ge : ι → ℝ) (sumLen : ℝ)
    (I : Ivl δ) : Bool :=
  c.conn
    ((match c.epsAbs with
      | some e => [decide (sumLen ≠ 0 ∧ ∀ i, errEst G f I i < (e - ge i) * (len I / sumLen))]
      | none => []) ++
     (match c.epsRel with
      | some e => [decide (sumLen ≠ 0 ∧
          ∀ i, errEst G f I i < (e * |ttv i| - ge i) * (len I / sumLen))]
      | none => []))

/-- How a round ends. -/
inductive Result (δ ι : Type)
  | next (s : State δ ι)
  | tooMany
  | tooShort

open Classical in
/-- One round of the loop, c1/_adaptive.py:78-136. -/
noncomputable def round (G : GK) (c : Config) (f : (δ → ℝ) → ι → ℝ) (s : State δ ι) :
    Result δ ι :=
  let Is := bisect s.bad
  let num := s.num + s.lastGood
  if (match c.maxSub with | some m => m < num | none => False) then .tooMany
  else if ∃ I ∈ Is, len I < c.minLen then .tooShort
  else
    let ttv : ι → ℝ := fun i => s.values i + total (valGauss G f) Is i
    let sumLen := (Is.map len).sum
    let isGood := goodN G c f ttv s.errors sumLen
    let good := Is.filter fun I => isGood I
    let bad := Is.filter fun I => !isGood I
    .next ⟨bad, fun i => s.values i + total (valGauss G f) good i,
      fun i => s.errors i + total (errEst G f) good i, num, good.length⟩

/-- What a call of `integrate_adaptive` has led to after some number of rounds. -/
inductive Outcome (δ ι : Type)
  | returned (value error : ι → ℝ)
  | running (s : State δ ι)
  | tooMany
  | tooShort
  | assertion
  | reshapeError

/-- The loop `while np.any(~is_good)` (c1/_adaptive.py:77), stopped after `fuel` rounds. -/
noncomputable def loop (G : GK) (c : Config) (f : (δ → ℝ) → ι → ℝ) : ℕ → State δ ι → Outcome δ ι
  | fuel, s =>
    if s.bad = [] then .returned s.values s.errors
    else match fuel with
      | 0 => .running s
      | fuel + 1 =>
        match round G c f s with
        | .next s' => loop G c f fuel s'
        | .tooMany => .tooMany
        | .tooShort => .tooShort

/-- c1/_adaptive.py:138-139: `reshape(orig_shape)` turns an array with one entry per function
component into one with an entry per component and requested interval; numpy refuses this unless
the number of entries agrees. -/
def reshape (nIntervals : ℕ) : Outcome δ ι → Outcome δ ι
  | .returned v e =>
    if Fintype.card ι * nIntervals = Fintype.card ι then .returned v e else .reshapeError
  | o => o

open Classical in
/-- c1/_adaptive.py:14-140, stopped after `fuel` rounds of the loop; lines 29-37 are the assertions
(finite limits hold for reals). -/
noncomputable def integrateAdaptive (G : GK) (c : Config) (f : (δ → ℝ) → ι → ℝ)
    (Is : List (Ivl δ)) (fuel : ℕ) : Outcome δ ι :=
  if (∀ I ∈ Is, ∀ i, I.1 i ≤ I.2 i) ∧ (c.epsAbs.isSome ∨ c.epsRel.isSome) then
    reshape Is.length (loop G c f fuel (init G c f Is))
  else .assertion

end Adaptive
end Quadpy
