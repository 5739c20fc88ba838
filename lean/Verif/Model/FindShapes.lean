import Verif.Model.Arrays

/-!
# c1/_helpers.py: `_find_shapes` and `C1Scheme.integrate` for arrays of intervals
-/

namespace Quadpy

/-- `a[k]`: the first axis at a fixed position. -/
def NdArray.at (a : NdArray) (k : ℕ) : NdArray := ⟨a.shape.tail, fun i => a.get (k :: i)⟩

/-- A list as an array of one axis. -/
def NdArray.ofList (l : List ℝ) : NdArray := ⟨[l.length], fun i => l.getD (i.headD 0) 0⟩

namespace C1

/-- c1/_helpers.py:33-38, the loop: the longest common beginning of two lists. -/
def commonPrefix : List ℕ → List ℕ → List ℕ
  | a :: s, b :: t => if b ≠ a then [] else a :: commonPrefix s t
  | _, _ => []

/-- c1/_helpers.py:6-53 `_find_shapes(fx, intervals, x, domain_shape, range_shape)` on the shapes of
`fx` and `intervals` and the length `N` of `x`.  Slices with negative ends count from the end; the
asserts in lines 46-52 are the last `if`. -/
def findShapes (fx iv : List ℕ) (N : ℕ) (domainShape rangeShape : Option (List ℕ)) :
    Option (List ℕ × List ℕ × List ℕ) :=
  let r : List ℕ × List ℕ × List ℕ :=
    match domainShape, rangeShape with
    -- line 14
    | some D, some R => (D, R, iv.drop (1 + D.length))
    -- line 17
    | some D, none =>
      let S := iv.drop (1 + D.length)
      (D, fx.take (fx.length - (S.length + 1)), S)
    -- line 20
    | none, some R =>
      let S := (fx.take (fx.length - 1)).drop R.length
      (if S.length = 0 then iv.drop 1 else (iv.take (iv.length - S.length)).drop 1, R, S)
    -- line 26
    | none, none =>
      let k := min (iv.length - 1) (fx.length - 1)
      let S := (commonPrefix (iv.reverse.take k) ((fx.reverse.drop 1).take k)).reverse
      (if S.length = 0 then iv.drop 1 else (iv.take (iv.length - S.length)).drop 1,
        fx.take (fx.length - (S.length + 1)), S)
  if iv = 2 :: (r.1 ++ r.2.2) ∧ fx = r.2.1 ++ r.2.2 ++ [N] then some r else none

/-- All multi-indices of a shape. -/
def indices : List ℕ → List (List ℕ)
  | [] => [[]]
  | d :: s => (List.range d).flatMap fun k => (indices s).map (k :: ·)

/-- The integrand: a function that takes an array of shape `D` to one of shape `R`, called with an
array of shape `D + ...` and applied along the other axes. -/
def applyV (d : ℕ) (R : List ℕ) (f : (List ℕ → ℝ) → List ℕ → ℝ) (x : NdArray) : NdArray :=
  ⟨R ++ x.shape.drop d,
    fun i => f (fun δ => x.get (δ ++ i.drop R.length)) (i.take R.length)⟩

/-- c1/_helpers.py:62-77 `C1Scheme.integrate(f, intervals, domain_shape, range_shape)` for an
integrand that takes arrays with `d` axes to arrays of shape `R`:
```
x = outer(iv[0], 0.5 * (1.0 - points)) + outer(iv[1], 0.5 * (1.0 + points))
fx = f(x)
domain_shape, range_shape, interval_set_shape = _find_shapes(...)
len_intervals = sqrt(sum((iv[1] - iv[0]) ** 2, axis=range(len(domain_shape))))
return 0.5 * len_intervals * dot(fx, weights)
``` -/
noncomputable def integrateA (points weights : List ℝ) (d : ℕ) (R : List ℕ)
    (f : (List ℕ → ℝ) → List ℕ → ℝ) (iv : NdArray) (domainShape rangeShape : Option (List ℕ)) :
    Option NdArray :=
  let x0 := NdArray.ofList (points.map fun p => 0.5 * (1.0 - p))
  let x1 := NdArray.ofList (points.map fun p => 0.5 * (1.0 + p))
  (((iv.at 0).outer x0).add ((iv.at 1).outer x1)).bind fun x =>
    let fx := applyV d R f x
    (findShapes fx.shape iv.shape points.length domainShape rangeShape).bind fun r =>
      let len : NdArray := ⟨iv.shape.tail.drop r.1.length, fun i =>
        0.5 * Real.sqrt (((indices r.1).map fun δ =>
          ((iv.at 1).get (δ ++ i) - (iv.at 0).get (δ ++ i)) ^ 2).sum)⟩
      (fx.dotLast weights).bind fun q => len.mul q

end C1
end Quadpy
