/-
Model of quadpy/_optimize.py and quadpy/_cli.py: the improvement of the data file of a symmetric rule.
Exact arithmetic; numpy's `lstsq` and scipy's `minimize` are parameters with the specification used
(`LstsqSpec`, `MinimizeSpec`), and so are the orthogonal polynomials of the package orthopy.
-/
import Verif.Model.Symmetries
import Mathlib.Analysis.Real.Sqrt

namespace Quadpy.Optimize

/-- A value of `content["data"]`, or of the dictionary of points: a rectangular array, row by row.  In the
file the first row holds the weights.  The empty list stands for numpy's `array([])`. -/
abbrev Rows := List (List ℝ)

/-- The errors which end a run. -/
inductive Err
  | exit | importError | typeError | indexError | assertion | runtimeError
  deriving DecidableEq

/-- helpers/symmetries.py reads the columns of the array; the keys without parameters have the empty
array, which stands for one column without entries. -/
def columns : Rows → List (List ℝ)
  | [] => [[]]
  | r :: rs => (List.range r.length).map fun j => (r :: rs).map fun row => row.getD j 0

/-- The entry of the dictionary of points, the weights not yet known. -/
def pointEntry (kv : SymKey × Rows) : SymEntry := ⟨kv.1, [], columns kv.2⟩

/-- An entry of the file: weights first (helpers/symmetries.py:346-352). -/
def fileEntry (kv : SymKey × Rows) : SymEntry := ⟨kv.1, kv.2.headD [], columns kv.2.tail⟩

/-- helpers/symmetries.py:286-343 `expand_symmetries_points_only(data, dim)`: points and counts. -/
noncomputable def pointsOnly (d : List (SymKey × Rows)) (dim : ℕ) : List (List ℝ) × List ℕ :=
  ((d.map fun kv => entryPoints dim (pointEntry kv)).flatten,
   d.map fun kv => (orbit dim kv.1 ((columns kv.2).headD [])).length)

/-- `np.array(val).shape` (line 169). -/
def shape : Rows → List ℕ
  | [] => [0]
  | r :: rs => [rs.length + 1, r.length]

/-- `np.cumsum(sizes)[:-1]` (lines 170-171), the sums starting at `k`. -/
def splits : ℕ → List ℕ → List ℕ
  | _, [] => []
  | _, [_] => []
  | k, s :: t :: ss => (k + s) :: splits (k + s) (t :: ss)

/-- `np.split(x, splits)` (line 114): the pieces between consecutive indices. -/
def npSplit (x : List ℝ) : ℕ → List ℕ → List (List ℝ)
  | k, [] => [x.drop k]
  | k, s :: ss => (x.drop k).take (s - k) :: npSplit x s ss

/-- `item.reshape(shape)` (line 115). -/
def reshape (l : List ℝ) : List ℕ → Rows
  | [r, m] => (List.range r).map fun i => (l.drop (i * m)).take m
  | _ => []

/-- _optimize.py:112-117 `x_to_dict(x)` for given keys, shapes and sizes (lines 165-171). -/
def xToDict (data : List (SymKey × Rows)) (x : List ℝ) : List (SymKey × Rows) :=
  let vals := data.map fun kv => kv.2.tail
  (data.map Prod.fst).zip
    (List.zipWith reshape (npSplit x 0 (splits 0 (vals.map fun v => v.flatten.length))) (vals.map shape))

/-- Line 174: `x0`, all coordinates in one vector. -/
def x0 (data : List (SymKey × Rows)) : List ℝ := (data.map fun kv => kv.2.tail.flatten).flatten

/-- Line 110: `num_symm`. -/
def numSymm (data : List (SymKey × Rows)) : List ℕ := data.map fun kv => (kv.2.headD []).length

/-- `row[a:b:s]`. -/
def pySlice (row : List ℝ) (a b s : ℕ) : List ℝ :=
  (List.range ((min b row.length - a + s - 1) / s)).map fun c => row.getD (a + c * s) 0

/-- _optimize.py:133-141: the columns which belong to the same weight are summed up; one row of `A2`. -/
def colSums (row : List ℝ) : ℕ → List (ℕ × ℕ) → List ℝ
  | _, [] => []
  | k, (lsym, nsym) :: t =>
    ((List.range nsym).map fun i => (pySlice row (k + i) (k + lsym * nsym) nsym).sum) ++
      colSums row (k + lsym * nsym) t

/-- A row of a matrix times a vector. -/
def rowDot (a b : List ℝ) : ℝ := (List.zipWith (· * ·) a b).sum

/-- `Σ (A w - b)²`. -/
def sqRes (A : List (List ℝ)) (b w : List ℝ) : ℝ :=
  (List.zipWith (fun row y => (rowDot row w - y) ^ 2) A b).sum

/-- What is used of `np.linalg.lstsq(A, b)`, which returns solution, residuals and rank: the documented
lengths, the solution minimises `‖A w - b‖`, and the documented value of the residuals. -/
def LstsqSpec (lstsq : List (List ℝ) → List ℝ → List ℝ × List ℝ × ℕ) : Prop :=
  ∀ (A : List (List ℝ)) (b : List ℝ) (n : ℕ), (∀ r ∈ A, r.length = n) → b.length = A.length → A ≠ [] →
    (lstsq A b).1.length = n ∧ (∀ w, w.length = n → sqRes A b (lstsq A b).1 ≤ sqRes A b w) ∧
    (lstsq A b).2.2 ≤ min A.length n ∧
    (lstsq A b).2.1 = if (lstsq A b).2.2 = n ∧ n < A.length then [sqRes A b (lstsq A b).1] else []

/-- The values which stay the same during a run: the polynomials of the evaluator, `evaluator.int_p0`,
and the routine for least squares. -/
structure Env where
  phi : List (List ℝ → ℝ)
  int_p0 : ℝ
  lstsq : List (List ℝ) → List ℝ → List ℝ × List ℝ × ℕ

/-- Lines 144-145: the right-hand side. -/
def rhs (E : Env) : List ℝ := E.int_p0 :: List.replicate (E.phi.length - 1) 0

/-- _optimize.py:119-158 `get_w_from_x(x)`: system, weights and residual; `none` stands for the three
`None`s.  Real numbers are never nan (lines 123-125), and the weights are real (lines 150-152). -/
noncomputable def getW (E : Env) (data : List (SymKey × Rows)) (x : List ℝ) :
    Except Err (Option (List (List ℝ) × List ℝ) × ℝ) :=
  let P := pointsOnly (xToDict data x) 2
  let ln := P.2.zip (numSymm data)
  -- line 131
  if (ln.map fun p => p.1 * p.2).sum ≠ P.1.length then .error .assertion else
  let A := E.phi.map fun phi => colSums (P.1.map phi) 0 ln
  let out := E.lstsq A (rhs E)
  if out.2.2 < min A.length (numSymm data).sum then .ok (none, 1) else
  match out.2.1 with
  | [] => .error .indexError
  | r :: _ => .ok (some (A, out.1), √r)

/-- _optimize.py:160-163 `f(x)`. -/
noncomputable def residual (E : Env) (data : List (SymKey × Rows)) (x : List ℝ) : Except Err ℝ :=
  (getW E data x).map Prod.snd

/-- What is used of `scipy.optimize.minimize(f, x0)`: the point found has the length of the start, and the
value returned is the value of `f` there (comment in line 187). -/
def MinimizeSpec (minimize : (List ℝ → Except Err ℝ) → List ℝ → Except Err (List ℝ × ℝ)) : Prop :=
  ∀ f x x' v, minimize f x = .ok (x', v) → x'.length = x.length ∧ f x' = .ok v

/-- _optimize.py:197-206: the weights are put in front of the coordinates. -/
def prepend (w : List ℝ) : ℕ → List (SymKey × Rows) → List (SymKey × Rows)
  | _, [] => []
  | k, (key, []) :: t => (key, [[w.getD k 0]]) :: prepend w (k + 1) t
  | k, (key, r :: rs) :: t =>
    (key, (w.drop k).take r.length :: r :: rs) :: prepend w (k + r.length) t

/-- _optimize.py:95-214 `_optimize`: the new data and the residual (the condition number is left out). -/
noncomputable def run (E : Env)
    (minimize : (List ℝ → Except Err ℝ) → List ℝ → Except Err (List ℝ × ℝ))
    (data : List (SymKey × Rows)) : Except Err (List (SymKey × Rows) × ℝ) := do
  let r0 ← residual E data (x0 data)
  let out ← minimize (residual E data) (x0 data)
  if r0 ≤ out.2 then .error .runtimeError else
  match ← getW E data out.1 with
  | (none, _) => .error .typeError
  | (some (_, w), _) => .ok (prepend w 0 (xToDict data out.1), out.2)

/-- The functions a module gives access to, as far as `_optimize.py` asks for them. -/
structure Names where
  schemeFromDict : Bool
  expandSymmetries : Bool
  expandPointsOnly : Bool
  /-- `expand_symmetries_points_only` takes the argument `dim`. -/
  takesDim : Bool

/-- c2/_helpers.py:1-10 (imports) and 75 -/
def c2Names : Names := ⟨true, true, false, true⟩
/-- s2/_helpers.py:1-8 and 86 -/
def s2Names : Names := ⟨true, true, false, true⟩
/-- t2/_helpers.py:76 and helpers/symmetries.py:286, 346 (_optimize.py:82-83) -/
def t2Names : Names := ⟨true, true, true, true⟩
/-- u3/_helpers.py:522, 553, 567 -/
def u3Names : Names := ⟨true, true, true, false⟩

/-- The functions `_optimize_t2`, `_s2`, `_c2`, `_u3` (_optimize.py:23-92): the imports, then `_optimize`,
which calls `expand_symmetries_points_only(d, dim=2)` (line 121) for the first time in line 177. -/
noncomputable def runDomain (N : Names) (E : Env)
    (minimize : (List ℝ → Except Err ℝ) → List ℝ → Except Err (List ℝ × ℝ))
    (data : List (SymKey × Rows)) : Except Err (List (SymKey × Rows) × ℝ) :=
  if !(N.schemeFromDict && N.expandSymmetries && N.expandPointsOnly) then .error .importError
  else if !N.takesDim then .error .typeError
  else run E minimize data

/-- _optimize.py:4-20 `optimize(content)`. -/
noncomputable def optimize (domain : Option String) (E : Env)
    (minimize : (List ℝ → Except Err ℝ) → List ℝ → Except Err (List ℝ × ℝ))
    (data : List (SymKey × Rows)) : Except Err (List (SymKey × Rows) × ℝ) :=
  match domain with
  | none => .error .exit
  | some d =>
    if d.toLower = "t2" then runDomain t2Names E minimize data
    else if d.toLower = "s2" then runDomain s2Names E minimize data
    else if d.toLower = "c2" then runDomain c2Names E minimize data
    else if d.toLower = "u3" then runDomain u3Names E minimize data
    else .error .exit

/-- A data file. -/
structure Content where
  name : String
  domain : Option String
  degree : ℕ
  tol : ℝ
  factor : Option ℝ
  comments : Option (List String)
  data : List (SymKey × Rows)

/-- _cli.py:22-25 -/
noncomputable def unscale (factor : Option ℝ) (kv : SymKey × Rows) : SymKey × Rows :=
  match factor with
  | none => kv
  | some w => (kv.1, ((kv.2.headD []).map fun v => v / w) :: kv.2.tail)

/-- _cli.py:27-34 -/
def addComment (comments : Option (List String)) : Option (List String) :=
  let text := "precision improved with quadpy-optimize"
  let c := comments.getD []
  if text ∈ c then comments else some (c ++ [text])

/-- _cli.py:6-56 `main`, the content of the file afterwards: unchanged when the rule cannot be improved. -/
noncomputable def main (E : Env)
    (minimize : (List ℝ → Except Err ℝ) → List ℝ → Except Err (List ℝ × ℝ))
    (C : Content) : Except Err Content :=
  match optimize C.domain E minimize C.data with
  | .error .runtimeError => .ok C
  | .error e => .error e
  | .ok (d, err) => .ok { C with
      data := d.map (unscale C.factor), comments := addComment C.comments, tol := err }

/-- _cli.py:40-45: the keys in the order in which they are written. -/
def writeKeys (keys : List String) : List String :=
  if keys.getLast? = some "data" then keys else keys.erase "data" ++ ["data"]

/-- t2/_helpers.py:18-35, 64-73 (s2/_helpers.py:18-35, 68-83) `_read`: points and weights of the rule in
a file, and the degree reported. -/
noncomputable def read (dim : ℕ) (C : Content) : Scheme :=
  let PW := expandSymmetries (C.data.map fileEntry) dim
  { dim := dim, points := PW.1
    weights := match C.factor with | none => PW.2 | some w => PW.2.map fun v => v * w
    degree := C.degree }

/-- c2/_helpers.py:58-72 (u3/_helpers.py:567-587) `_read`: here the weights in the
file are multiplied before the expansion. -/
noncomputable def readScaled (dim : ℕ) (C : Content) : Scheme :=
  let data : List (SymKey × Rows) := match C.factor with
    | none => C.data
    | some w => C.data.map fun kv => (kv.1, ((kv.2.headD []).map fun v => v * w) :: kv.2.tail)
  let PW := expandSymmetries (data.map fileEntry) dim
  { dim := dim, points := PW.1, weights := PW.2, degree := C.degree }

end Quadpy.Optimize
