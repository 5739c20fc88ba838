import Verif.Model.Inside
import Mathlib.Data.Rat.Defs

/-!
# The constructors of the scheme classes and `__str__`

An object is a record of attributes which are set one after the other; to read an attribute which is not set
yet is an AttributeError.  Warnings are collected.  Arrays are their entries and a dtype.
-/

namespace Quadpy.SchemeClass
open Quadpy

/-- The dtypes which `QuadratureScheme.__init__` tells apart. -/
inductive Dtype
  | float64
  | int
  | object
  | other
  deriving DecidableEq

/-- The entries of an array (as numbers) and its dtype. -/
structure Arr (α : Type) where
  dtype : Dtype
  data : α

inductive Err
  | attributeError (name : String)
  | assertionError
  | typeError
  | valueError
  deriving DecidableEq

/-- The attributes of an object; `points` has a row for each point. -/
structure Obj where
  domain : Option String := none
  dim : Option ℕ := none
  tol : Option ℝ := none
  name : Option String := none
  degree : Option ℕ := none
  source : Option (Option String) := none
  comments : Option (List String) := none
  weights : Option (List ℝ) := none
  weightsSymbolic : Option (List ℝ) := none
  points : Option (List (List ℝ)) := none
  pointsSymbolic : Option (List (List ℝ)) := none

/-- The state: the object and the warnings so far. -/
structure World where
  self : Obj := {}
  warnings : List String := []

abbrev Run := StateT World (Except Err)

def setAttr (f : Obj → Obj) : Run Unit := modify fun s => { s with self := f s.self }

def setDomain (d : String) : Run Unit := setAttr fun o => { o with domain := some d }

/-- The arguments which all constructors share.  `weights` and `points` are the arrays which the constructor
gets, or which `expand_symmetries` returns.  The number of columns is that of the array `points`. -/
structure Args where
  name : String
  dim : ℕ
  weights : Arr (List ℝ)
  points : Arr (List (List ℝ))
  rows : ℕ
  degree : ℕ
  source : Option String
  tol : ℝ
  comments : Option (List String)
  factor : Option ℝ

open Classical in
/-- helpers/_class.py:7-39 `QuadratureScheme.__init__(name, weights, points, degree, source, tol, comments)`. -/
noncomputable def baseInit (name : String) (weights : Arr (List ℝ)) (points : Arr (List (List ℝ)))
    (degree : ℕ) (source : Option String) (tol : ℝ) (comments : Option (List String)) : Run Unit := do
  if tol > 1 / 10 ^ 12 then
    match (← get).self.domain with
    | none => throw (.attributeError "domain")
    | some d => modify fun s => { s with warnings := s.warnings ++ [name ++ " (" ++ d ++ ") has low precision"] }
  setAttr fun o => { o with tol := some tol }
  setAttr fun o => { o with name := some name }
  setAttr fun o => { o with degree := some degree }
  setAttr fun o => { o with source := some source }
  setAttr fun o => { o with comments := some (comments.getD []) }
  if weights.dtype = .float64 then
    setAttr fun o => { o with weights := some weights.data }
  else
    if weights.dtype = .object ∨ weights.dtype = .int then
      setAttr fun o => { o with weights := some weights.data, weightsSymbolic := some weights.data }
    else throw .assertionError
  if points.dtype = .float64 then
    setAttr fun o => { o with points := some points.data }
  else
    if points.dtype = .object ∨ points.dtype = .int then
      setAttr fun o => { o with points := some points.data, pointsSymbolic := some points.data }
    else throw .assertionError

/-- The classes. -/
inductive Cls
  | c1 | c2 | c3 | cn | e1r | e1r2 | e2r | e2r2 | e3r | e3r2 | enr | enr2 | p3 | s2 | s3 | sn | t2 | t3 | tn
  | u2 | u3 | un | w3
  deriving DecidableEq

/-- `weights *= weight_factor`, in place: an array of integers cannot take the result. -/
def scale (a : Args) : Run (Arr (List ℝ)) :=
  match a.factor with
  | none => pure a.weights
  | some w => if a.weights.dtype = .int then throw .typeError
      else pure ⟨a.weights.dtype, a.weights.data.map (· * w)⟩

def assert (p : Prop) [Decidable p] : Run Unit := if p then pure () else throw .assertionError

/-- cn/_helpers.py:11-25 -/
noncomputable def cnInit (dim : ℕ) (a : Args) (comments : Option (List String)) : Run Unit := do
  setDomain s!"Cn (n={dim})"
  setAttr fun o => { o with dim := some dim }
  assert (a.rows = dim)
  baseInit a.name a.weights a.points a.degree a.source a.tol comments

/-- tn/_helpers.py:11-16 -/
noncomputable def tnInit (dim : ℕ) (a : Args) (weights : Arr (List ℝ)) (comments : Option (List String)) :
    Run Unit := do
  setDomain s!"Tn (n={dim})"
  setAttr fun o => { o with dim := some dim }
  baseInit a.name weights a.points a.degree a.source a.tol comments

/-- The constructors.  `tol` and `comments` of classes which do not take them have their defaults. -/
noncomputable def construct (c : Cls) (a : Args) : Run Unit :=
  match c with
  | .c1 => do -- c1/_helpers.py:58-60
    setDomain "C1"
    baseInit a.name a.weights a.points a.degree a.source (1 / 10 ^ 14) none
  | .e1r => do -- e1r/_helpers.py:7-9
    setDomain "E1r"
    baseInit a.name a.weights a.points a.degree none (1 / 10 ^ 14) none
  | .e1r2 => do -- e1r2/_helpers.py:7-9
    setDomain "E1r2"
    baseInit a.name a.weights a.points a.degree a.source (1 / 10 ^ 14) none
  | .cn => cnInit a.dim a a.comments
  | .c2 => do -- c2/_helpers.py:21-27
    cnInit 2 a a.comments
    setDomain "C2"
  | .c3 => do -- c3/_helpers.py:18-22
    cnInit 3 a none
    setDomain "C3"
  | .tn => tnInit a.dim a a.weights a.comments
  | .t2 => do -- t2/_helpers.py:18-36
    let weights ← scale a
    assert (a.rows = 3)
    tnInit 2 a weights a.comments
    setDomain "T2"
  | .t3 => do -- t3/_helpers.py:18-27
    let weights ← scale a
    tnInit 3 a weights none
    setDomain "T3"
  | .sn => do -- sn/_helpers.py:9-13
    setDomain s!"Sn (n={a.dim})"
    setAttr fun o => { o with dim := some a.dim }
    assert (a.rows = a.dim)
    baseInit a.name a.weights a.points a.degree a.source a.tol none
  | .s2 => do -- s2/_helpers.py:19-35
    setDomain "S2"
    assert (a.rows = 2)
    assert (a.points.data.length = a.weights.data.length)
    let weights ← scale a
    baseInit a.name weights a.points a.degree a.source a.tol none
  | .s3 => do -- s3/_helpers.py:18-22
    baseInit a.name a.weights a.points a.degree a.source a.tol none
    setDomain "S3"
  | .un => do -- un/_helpers.py:8-11
    baseInit a.name a.weights a.points a.degree a.source a.tol none
    setDomain s!"Un (n={a.dim})"
    setAttr fun o => { o with dim := some a.dim }
  | .u2 => do -- u2/_helpers.py:14-16
    baseInit a.name a.weights a.points a.degree a.source a.tol none
    setDomain "U2"
  | .u3 => do -- u3/_helpers.py:19-46, without theta_phi
    setDomain "U3"
    baseInit a.name a.weights a.points a.degree a.source a.tol a.comments
  | .enr => do -- enr/_helpers.py:8-12
    setDomain s!"Enr (n={a.dim})"
    setAttr fun o => { o with dim := some a.dim }
    assert (a.rows = a.dim)
    baseInit a.name a.weights a.points a.degree a.source a.tol none
  | .enr2 => do -- enr2/_helpers.py:8-12; the tolerance, which the label contains, is left out
    setDomain s!"Enr2 (n={a.dim})"
    setAttr fun o => { o with dim := some a.dim }
    assert (a.rows = a.dim)
    baseInit a.name a.weights a.points a.degree a.source a.tol none
  | .e2r => do -- e2r/_helpers.py:17-26
    setDomain "E2r"
    assert (a.rows = 2)
    let weights ← scale a
    baseInit a.name weights a.points a.degree a.source a.tol none
  | .e2r2 => do -- e2r2/_helpers.py:17-26
    setDomain "E2r2"
    assert (a.rows = 2)
    let weights ← scale a
    baseInit a.name weights a.points a.degree a.source a.tol none
  | .e3r => do -- e3r/_helpers.py:16-20
    setDomain "E3r"
    baseInit a.name a.weights a.points a.degree a.source a.tol none
  | .e3r2 => do -- e3r2/_helpers.py:16-20
    baseInit a.name a.weights a.points a.degree a.source a.tol none
    setDomain "E3r2"
  | .p3 => do -- p3/_helpers.py:7-9
    baseInit a.name a.weights a.points a.degree a.source a.tol none
    setDomain "P3"
  | .w3 => do -- w3/_helpers.py:7-9
    setDomain "W3"
    baseInit a.name a.weights a.points a.degree a.source a.tol none

/-- The object and the warnings, or an exception. -/
noncomputable def make (c : Cls) (a : Args) : Except Err World :=
  ((construct c a).run {}).map (·.2)

/-! ### `__str__` -/

/-- The numbers and answers which are printed. -/
structure Summary where
  num : ℕ
  /-- `none` stands for `inf` (or `nan` if all weights vanish): numpy divides by zero. -/
  ratio : Option ℝ
  position : Option Inside.Position
  positive : Prop

open Classical in
/-- helpers/_class.py:105-131: `len(self.weights)`, the quotient of the largest and the smallest absolute value,
the position of the points if the class has `points_inside`, and whether all weights are positive.  `np.max` of
an empty array is a ValueError. -/
noncomputable def summary (weights : List ℝ) (pos : Option Inside.Position) : Except Err Summary :=
  match weights.map abs with
  | [] => .error .valueError
  | a :: l =>
    let hi := l.foldl max a
    let lo := l.foldl min a
    .ok ⟨weights.length, if lo = 0 then none else some (hi / lo), pos, ∀ w ∈ weights, w > 0⟩

end Quadpy.SchemeClass
