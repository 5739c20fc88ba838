import Mathlib.Data.List.Basic
import Mathlib.Data.Nat.Notation

/-!
# The dictionaries `schemes` and `register`

Each domain has a file `_helpers.py` with a global dictionary `schemes` and a function `register`; the modules of
the domain call `register` when they are imported.
-/

namespace Quadpy.Registry

/-- A function of Python: where it is defined, and its attribute `__name__`, which is the name in its `def`
statement whatever name it is imported or assigned to. -/
structure Function where
  file : String
  name : String
  deriving DecidableEq

/-- A dictionary with strings as keys: the items in the order of insertion. -/
abbrev Dict := List (String × Function)

/-- `d[key] = value`: replaces the value of an old key, appends a new one. -/
def setItem (d : Dict) (key : String) (value : Function) : Dict :=
  if d.any fun e => e.1 = key then d.map fun e => if e.1 = key then (key, value) else e
  else d ++ [(key, value)]

/-- `d[key]`; `none` is a KeyError. -/
def getItem (d : Dict) (key : String) : Option Function := (d.find? fun e => e.1 = key).map Prod.snd

/-- c2/_helpers.py:15-17 `register(in_schemes)` (the same in c3, e2r, e2r2, e3r, e3r2, s2, s3, t2, t3, u2, u3). -/
def register (schemes : Dict) (inSchemes : List Function) : Dict :=
  inSchemes.foldl (fun d scheme => setItem d scheme.name scheme) schemes

/-- The dictionary after all calls; a call is the list of its arguments. -/
def registerAll (calls : List (List Function)) : Dict := calls.foldl register []

end Quadpy.Registry
