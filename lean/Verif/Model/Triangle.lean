import Verif.Model.Simplex

/-!
# t2/_tools.py: adaptive integration over triangles

`ι` is the index set of one function value.  Triangles have their vertices in `ℝ^m`.  A set of
triangles is the list of its triangles in the order of the code.
-/

namespace Quadpy
namespace T2

variable {ι : Type} [Fintype ι] {m : ℕ}

/-- `triangles[0]`, `triangles[1]`, `triangles[2]`. -/
abbrev Tri (m : ℕ) := Fin 3 → Fin m → ℝ

/-- The weights and (barycentric) points of the two rules (t2/_tools.py:18-19).  The default rules
are tables in data files; they are parameters here. -/
structure Rules where
  w1 : List ℝ
  x1 : List (List ℝ)
  w2 : List ℝ
  x2 : List (List ℝ)

/-- t2/_tools.py:35, 80 `val1`. -/
noncomputable def val1 (R : Rules) (f : (Fin m → ℝ) → ι → ℝ) (T : Tri m) : ι → ℝ :=
  fun i => Tn.integrate R.w1 R.x1 (fun x => f x i) T

/-- t2/_tools.py:36, 81 `val2`. -/
noncomputable def val2 (R : Rules) (f : (Fin m → ℝ) → ι → ℝ) (T : Tri m) : ι → ℝ :=
  fun i => Tn.integrate R.w2 R.x2 (fun x => f x i) T

/-- t2/_tools.py:37, 82 `error_estimate`. -/
noncomputable def err (R : Rules) (f : (Fin m → ℝ) → ι → ℝ) (T : Tri m) : ι → ℝ :=
  fun i => |val1 R f T i - val2 R f T i|

open Classical in
/-- t2/_tools.py:41, 85 `is_good`, for one triangle.  Division by a zero total area gives nan in the
code and the comparison is False. -/
noncomputable def good (R : Rules) (f : (Fin m → ℝ) → ι → ℝ) (eps totalArea : ℝ) (T : Tri m) : Bool :=
  decide (totalArea ≠ 0 ∧ ∀ i, err R f T i < eps * Tn.getVol T / totalArea)

/-- `np.sum(..., axis=-1)`. -/
def total (g : Tri m → ι → ℝ) (L : List (Tri m)) : ι → ℝ := fun i => (L.map fun T => g T i).sum

/-- t2/_tools.py:57-61 `midpoints`. -/
noncomputable def midpoints (T : Tri m) : Tri m :=
  ![fun k => 0.5 * (T 1 k + T 2 k), fun k => 0.5 * (T 2 k + T 0 k), fun k => 0.5 * (T 0 k + T 1 k)]

/-- t2/_tools.py:56-75: each bad triangle is split into four; `np.concatenate` puts the first parts
of all triangles first. -/
noncomputable def split (L : List (Tri m)) : List (Tri m) :=
  (L.map fun T => ![T 0, midpoints T 1, midpoints T 2]) ++
  (L.map fun T => ![T 1, midpoints T 2, midpoints T 0]) ++
  (L.map fun T => ![T 2, midpoints T 0, midpoints T 1]) ++
  (L.map fun T => ![midpoints T 0, midpoints T 1, midpoints T 2])

/-- The variables of the loop: the bad triangles and the two sums. -/
structure State (m : ℕ) (ι : Type) where
  bad : List (Tri m)
  values : ι → ℝ
  errors : ι → ℝ

/-- One evaluation: t2/_tools.py:35-48 and 80-89. -/
noncomputable def evaluate (R : Rules) (f : (Fin m → ℝ) → ι → ℝ) (eps totalArea : ℝ)
    (values errors : ι → ℝ) (Ts : List (Tri m)) : State m ι :=
  let g := Ts.filter fun T => good R f eps totalArea T
  let b := Ts.filter fun T => !good R f eps totalArea T
  ⟨b, fun i => values i + total (val1 R f) g i, fun i => errors i + total (err R f) g i⟩

/-- What a call has led to after some number of rounds. -/
inductive Outcome (m : ℕ) (ι : Type)
  | returned (value error : ι → ℝ)
  | running (s : State m ι)
  | assertion

open Classical in
/-- The loop `while any(is_bad)` (t2/_tools.py:49-89), stopped after `fuel` rounds. -/
noncomputable def loop (R : Rules) (f : (Fin m → ℝ) → ι → ℝ) (eps totalArea minArea : ℝ) :
    ℕ → State m ι → Outcome m ι
  | fuel, s =>
    if s.bad = [] then .returned s.values s.errors
    else match fuel with
      | 0 => .running s
      | fuel + 1 =>
        if ∀ T ∈ split s.bad, Tn.getVol T > minArea then
          loop R f eps totalArea minArea fuel
            (evaluate R f eps totalArea s.values s.errors (split s.bad))
        else .assertion

/-- t2/_tools.py:13-91 `integrate_adaptive(f, triangles, eps, minimum_triangle_area)`, stopped after
`fuel` rounds of the loop. -/
noncomputable def integrateAdaptive (R : Rules) (f : (Fin m → ℝ) → ι → ℝ) (Ts : List (Tri m))
    (eps : ℝ) (minArea : Option ℝ) (fuel : ℕ) : Outcome m ι :=
  let totalArea := (Ts.map Tn.getVol).sum
  loop R f eps totalArea (minArea.getD (totalArea * 0.25 ^ 10)) fuel
    (evaluate R f eps totalArea 0 0 Ts)

end T2
end Quadpy
