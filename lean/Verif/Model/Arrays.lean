import Verif.Model.CnTransform
import Verif.Model.Simplex
import Verif.Model.U2
import Mathlib.Algebra.BigOperators.Fin

/-!
# integrate for arrays of balls, spheres and simplices

NumPy arrays with their axes: a shape and the entry at each multi-index.  Modelled are the operations
that the `integrate` methods use (`.T`, `multiply.outer`, `swapaxes`, `+` and `*` with broadcasting,
`dot`); an operation that raises returns `none`.
-/

namespace Quadpy

/-- A real `ndarray`: its shape and its entries.  `get` is only meaningful at indices within the
shape. -/
structure NdArray where
  shape : List ℕ
  get : List ℕ → ℝ

namespace NdArray

/-- `a.T`: all axes reversed. -/
def T (a : NdArray) : NdArray := ⟨a.shape.reverse, fun i => a.get i.reverse⟩

/-- `np.multiply.outer(a, b)`: shape `a.shape + b.shape`. -/
def outer (a b : NdArray) : NdArray :=
  ⟨a.shape ++ b.shape,
    fun i => a.get (i.take a.shape.length) * b.get (i.drop a.shape.length)⟩

/-- A list with two entries exchanged. -/
def swapList (p q : ℕ) (l : List ℕ) : List ℕ := (l.set p (l.getD q 0)).set q (l.getD p 0)

/-- `np.swapaxes(a, 0, -2)`. -/
def swapaxes (a : NdArray) : NdArray :=
  ⟨swapList 0 (a.shape.length - 2) a.shape,
    fun i => a.get (swapList 0 (a.shape.length - 2) i)⟩

/-- NumPy broadcasting of two lengths of an axis. -/
def bdim (a b : ℕ) : Option ℕ :=
  if a = b then some a else if a = 1 then some b else if b = 1 then some a else none

/-- Broadcasting of two shapes, last axis first. -/
def bshapeRev : List ℕ → List ℕ → Option (List ℕ)
  | [], t => some t
  | s, [] => some s
  | a :: s, b :: t =>
    match bdim a b, bshapeRev s t with
    | some c, some r => some (c :: r)
    | _, _ => none

/-- NumPy broadcasting of two shapes: aligned at the last axis. -/
def bshape (s t : List ℕ) : Option (List ℕ) := (bshapeRev s.reverse t.reverse).map List.reverse

/-- The entry that a broadcast array has at the index `i` of the common shape: missing leading axes
are dropped and axes of length one are read at 0. -/
def bget (a : NdArray) (i : List ℕ) : ℝ :=
  a.get (List.zipWith (fun d k => if d = 1 then 0 else k) a.shape
    (i.drop (i.length - a.shape.length)))

/-- `a + b`; `none` for `ValueError: operands could not be broadcast together`. -/
def add (a b : NdArray) : Option NdArray :=
  (bshape a.shape b.shape).map fun s => ⟨s, fun i => a.bget i + b.bget i⟩

/-- `a * b`. -/
def mul (a b : NdArray) : Option NdArray :=
  (bshape a.shape b.shape).map fun s => ⟨s, fun i => a.bget i * b.bget i⟩

/-- A function applied to every entry. -/
def map (g : ℝ → ℝ) (a : NdArray) : NdArray := ⟨a.shape, fun i => g (a.get i)⟩

/-- `np.dot(a, w)` for a vector `w`: contraction of the last axis; `none` for mismatched lengths (and
for a scalar `a`, which the code never has). -/
def dotLast (a : NdArray) (w : List ℝ) : Option NdArray :=
  if a.shape.getLast? = some w.length then
    some ⟨a.shape.dropLast, fun i => ∑ p : Fin w.length, w[p] * a.get (i ++ [p.val])⟩
  else none

/-- The integrand: a function of a point `x` with `m` coordinates, called with an array whose first
axis runs over the coordinates and applied along all other axes. -/
def applyF (m : ℕ) (f : (Fin m → ℝ) → ℝ) (x : NdArray) : NdArray :=
  ⟨x.shape.tail, fun i => f fun j => x.get (j.val :: i)⟩

/-- The points of a scheme as an array of shape `(N, n)` (`self.points.T` for `SnScheme`, `S2Scheme`
and `S3Scheme`, `self.points` for `UnScheme` and `U2Scheme`). -/
def ofRows (n : ℕ) (points : List (List ℝ)) : NdArray :=
  ⟨[points.length, n], fun i => (points.getD (i.getD 0 0) []).getD (i.getD 1 0) 0⟩

end NdArray

open NdArray

/-- The common body of sn/_helpers.py:21-33, s2/_helpers.py:54-65, s3/_helpers.py:35-46,
un/_helpers.py:14-20 and u2/_helpers.py:43-49 `integrate(f, center, radius)`:
```
rr = np.multiply.outer(radius, points)
rr = np.swapaxes(rr, 0, -2)
x = (rr + center).T
return volume(radius) * dot(f(x), weights)
```
for arrays `center` and `radius`.  The check of the shape of `f(x)` always succeeds here, as the
integrand is scalar. -/
def integrateArr (n : ℕ) (volume : ℝ → ℝ) (weights : List ℝ) (points : List (List ℝ))
    (f : (Fin n → ℝ) → ℝ) (center radius : NdArray) : Option NdArray :=
  let rr := (outer radius (ofRows n points)).swapaxes
  (rr.add center).bind fun x =>
    ((applyF n f x.T).dotLast weights).bind fun d => (radius.map volume).mul d

/-- sn/_helpers.py:21-33 `SnScheme.integrate`. -/
noncomputable def Sn.integrateA (n : ℕ) := integrateArr n (nballVolume n)

/-- un/_helpers.py:14-20 `UnScheme.integrate`. -/
noncomputable def Un.integrateA (n : ℕ) := integrateArr n (nsphereVolume n)

/-- u2/_helpers.py:43-49 `U2Scheme.integrate`. -/
noncomputable def U2.integrateA := integrateArr 2 fun r => 2 * Real.pi * r

/-- s2/_helpers.py:54-65 `S2Scheme.integrate`. -/
noncomputable def S2.integrateA := integrateArr 2 fun r => Real.pi * r ^ 2

/-- s3/_helpers.py:35-46 `S3Scheme.integrate`. -/
noncomputable def S3.integrateA := integrateArr 3 fun r => 4 / 3 * Real.pi * r ^ 3

/-- u3/_helpers.py:64-74 `U3Scheme.integrate(f, center, radius)`:
`rr = (self.points.T * radius + center).T`, `area(radius) * dot(f(rr), self.weights)` with
`area(r) = 4 * pi * r ** 2` (lines 98-99). -/
noncomputable def U3.integrateA (weights : List ℝ) (points : List (List ℝ))
    (f : (Fin 3 → ℝ) → ℝ) (center radius : NdArray) : Option NdArray :=
  ((ofRows 3 points).mul radius).bind fun pr =>
    (pr.add center).bind fun x =>
      ((applyF 3 f x.T).dotLast weights).bind fun d =>
        (radius.map fun r => 4 * Real.pi * r ^ 2).mul d

/-- u3/_helpers.py:64-74 `U3Scheme.integrate(f, center, radius)` for one sphere. -/
noncomputable def U3.integrate (weights : List ℝ) (points : List (List ℝ))
    (f : (Fin 3 → ℝ) → ℝ) (center : Fin 3 → ℝ) (radius : ℝ) : ℝ :=
  4 * Real.pi * radius ^ 2 * dot 3 weights points fun x => f fun i => x i * radius + center i

/-- s2/_helpers.py:54-65 for one disk. -/
noncomputable def S2.integrate (weights : List ℝ) (points : List (List ℝ))
    (f : (Fin 2 → ℝ) → ℝ) (center : Fin 2 → ℝ) (radius : ℝ) : ℝ :=
  Real.pi * radius ^ 2 * dot 2 weights points fun x => f fun i => radius * x i + center i

/-- s3/_helpers.py:35-46 for one ball. -/
noncomputable def S3.integrate (weights : List ℝ) (points : List (List ℝ))
    (f : (Fin 3 → ℝ) → ℝ) (center : Fin 3 → ℝ) (radius : ℝ) : ℝ :=
  4 / 3 * Real.pi * radius ^ 3 * dot 3 weights points fun x => f fun i => radius * x i + center i

/-- `simplex[:, i, :]` for an index `i` of the middle axes. -/
def Tn.slice {n m : ℕ} (simplex : NdArray) (i : List ℕ) : Fin (n + 1) → Fin m → ℝ :=
  fun v j => simplex.get (v.val :: i ++ [j.val])

/-- tn/_helpers.py:24-42 `TnScheme.integrate(f, simplex)` for an array of simplices of shape
`(n + 1,) + s + (m,)`.  `x = np.dot(simplex.T, points)` has the shape `(m,) + reversed(s) + (N,)`;
`get_vol(simplex)` (lines 56-77) moves the two vertex axes to the end and has the shape `s`.
The check in line 27 is the first `if`. -/
noncomputable def Tn.integrateA (n m : ℕ) (weights : List ℝ) (points : List (List ℝ))
    (f : (Fin m → ℝ) → ℝ) (simplex : NdArray) : Option NdArray :=
  if simplex.shape.head? = some (n + 1) then
    let st := simplex.T
    let x : NdArray := ⟨st.shape.dropLast ++ [points.length], fun i =>
      ∑ v : Fin (n + 1), st.get (i.dropLast ++ [v.val]) *
        (points.getD (i.getLast?.getD 0) []).getD v.val 0⟩
    let vol : NdArray := ⟨simplex.shape.tail.dropLast, fun i => getVol (n := n) (m := m) (slice simplex i)⟩
    ((applyF m f x).dotLast weights).bind fun d => vol.mul d
  else none

end Quadpy
