/-
Model of the product rules: c2/_product.py, c3/_product.py, s2/_lether.py, s2/_peirce_1957.py,
t2/_lether.py.  The one-dimensional rules (`scheme1d`, `np.polynomial.legendre.leggauss(n)`,
`gauss_legendre(n)`) are parameters: a list of points and a list of weights.
-/
import Verif.Model.Cn
import Verif.Model.Symmetries

namespace Quadpy

/-- A scheme given by the key "plain" (C2Scheme, S2Scheme, T2Scheme, C3Scheme constructors:
`expand_symmetries(symmetry_data, dim)`, e.g. c2/_helpers.py:21-27). -/
noncomputable def plainScheme (dim : ℕ) (weights : List ℝ) (points : List (List ℝ)) (degree : ℕ) :
    Scheme := schemeOfSym dim [⟨.plain, weights, points⟩] degree

namespace C2

/-- c2/_product.py:6-19 `product(scheme1d)` for one rule.  `np.outer(w, w).flatten()` runs through
`w[i] * w[j]` with `j` fast; `np.meshgrid(x, y)` has the points `(x[j], y[i])` in this order.
A list of rules fails (`scheme1d.name`, line 16). -/
noncomputable def product (points weights : List ℝ) (degree : ℕ) : Scheme :=
  plainScheme 2 (weights.flatMap fun wi => weights.map fun wj => wi * wj / 4)
    (points.flatMap fun yi => points.map fun xj => [xj, yi]) degree

/-- c2/_product.py:6-19 with either argument: a rule (points, weights, degree) or a list of rules, for
which `scheme1d.name` (line 16) raises. -/
noncomputable def productArg : (List ℝ × List ℝ × ℕ) ⊕ List (List ℝ × List ℝ × ℕ) → Option Scheme
  | .inl (p, w, d) => some (product p w d)
  | .inr _ => none

end C2

namespace C3

/-- c3/_product.py:6-21 `product(scheme1d)` for one rule.  `np.meshgrid(p, p, p)` has shape
(second, first, third); `y, z, x` are its entries: `z` is slow, `x` is fast. -/
noncomputable def product (points weights : List ℝ) (degree : ℕ) : Scheme :=
  plainScheme 3
    (weights.flatMap fun wz => weights.flatMap fun wy => weights.map fun wx => wx * wy * wz / 8)
    (points.flatMap fun z => points.flatMap fun y => points.map fun x => [x, y, z]) degree

/-- c3/_product.py:6-21 with either argument; `scheme1d.name` (line 21) raises for a list. -/
noncomputable def productArg : (List ℝ × List ℝ × ℕ) ⊕ List (List ℝ × List ℝ × ℕ) → Option Scheme
  | .inl (p, w, d) => some (product p w d)
  | .inr _ => none

end C3

namespace S2

/-- s2/_lether.py:19-32 `lether(n)`, with the rule `leggauss(n)` given. -/
noncomputable def lether (n : ℕ) (p w : List ℝ) : Scheme :=
  plainScheme 2
    (w.flatMap fun wi => (List.range n).map fun m : ℕ =>
      wi * Real.sin (((m : ℝ) + 1) * Real.pi / (n + 1)) ^ 2 / (n + 1))
    (p.flatMap fun pi => (List.range n).map fun m : ℕ =>
      [Real.cos (((m : ℝ) + 1) * Real.pi / (n + 1)),
       pi * Real.sin (((m : ℝ) + 1) * Real.pi / (n + 1))]) (2 * n - 1)

/-- s2/_peirce_1957.py:19-33 `peirce_1957(m)`, with the rule `leggauss(m + 1)` given. -/
noncomputable def peirce1957 (m : ℕ) (p w : List ℝ) : Scheme :=
  let k := 4 * m + 3
  plainScheme 2
    ((List.range (k + 1)).flatMap fun _ => w.map fun wj => 1 / 2 / ((k : ℝ) + 1) * wj)
    ((List.range (k + 1)).flatMap fun i : ℕ => p.map fun pj =>
      [√(1 / 2 * (pj + 1)) * Real.cos (2 * Real.pi * ((i : ℝ) + 1) / ((k : ℝ) + 1)),
       √(1 / 2 * (pj + 1)) * Real.sin (2 * Real.pi * ((i : ℝ) + 1) / ((k : ℝ) + 1))]) k

end S2

namespace T2

/-- t2/_lether.py:31-46 `lether(n)`, with the rule `gauss_legendre(n)` given. -/
noncomputable def lether (n : ℕ) (p w : List ℝ) : Scheme :=
  plainScheme 2
    ((List.zip p w).flatMap fun i => w.map fun wj => (1 + i.1) * i.2 * wj / 4)
    (p.flatMap fun pi => p.map fun pj =>
      [(1 - pi) / 2, (1 + pi) * (1 - pj) / 4, 1 - (1 - pi) / 2 - (1 + pi) * (1 - pj) / 4])
    (2 * (n - 1))

end T2
end Quadpy
