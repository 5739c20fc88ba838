import Mathlib.Data.Real.Basic
import Mathlib.Analysis.Real.Sqrt
import Mathlib.Analysis.SpecialFunctions.Trigonometric.Basic
import Mathlib.Algebra.Order.BigOperators.Group.Finset

/-!
# Rounding

The rest of the model computes with real numbers.  Here `C1Scheme.integrate` and `integrate` on balls, spheres,
simplices, cubes and the domains with exponential weights are written with a rounding error in every operation (powers
count as one operation).  Simplifications: no overflow and no underflow, so that every operation has a small relative
error; the order in which `np.dot` adds is not known, so any order is allowed.
-/

namespace Quadpy
namespace Rounding

/-- `r` is the result of an operation with the exact value `x`; `u` is the unit roundoff. -/
def Rnd (u x r : ℝ) : Prop := |r - x| ≤ u * |x|

/-- The order of the additions of a sum of terms with indices in `ι`. -/
inductive SumTree (ι : Type)
  | leaf (i : ι)
  | node (l r : SumTree ι)

/-- The terms, from left to right. -/
def SumTree.leaves {ι : Type} : SumTree ι → List ι
  | leaf i => [i]
  | node l r => l.leaves ++ r.leaves

/-- The number of additions a term goes through at most. -/
def SumTree.depth {ι : Type} : SumTree ι → ℕ
  | leaf _ => 0
  | node l r => max l.depth r.depth + 1

/-- The values a sum may have. -/
inductive Sums {ι : Type} (u : ℝ) (t : ι → ℝ) : SumTree ι → ℝ → Prop
  | leaf (i : ι) : Sums u t (.leaf i) (t i)
  | node {l r : SumTree ι} {x y z : ℝ} : Sums u t l x → Sums u t r y → Rnd u (x + y) z → Sums u t (.node l r) z

/-- `np.dot(y, w)`: rounded products, added up in some order.  (A fused multiplication and addition is the case
of a product without error.) -/
def Dot {n : ℕ} (u : ℝ) (y w : Fin n → ℝ) (T : SumTree (Fin n)) (s : ℝ) : Prop :=
  T.leaves.Perm (List.finRange n) ∧ ∃ t : Fin n → ℝ, (∀ i, Rnd u (y i * w i) (t i)) ∧ Sums u t T s

/-- c1/_helpers.py:64-66: `x` for one point `p` and the interval `[a, b]`. -/
def Abscissa (u p a b x : ℝ) : Prop :=
  ∃ d s x0 x1 l r, Rnd u (1 - p) d ∧ Rnd u (1 / 2 * d) x0 ∧ Rnd u (1 + p) s ∧ Rnd u (1 / 2 * s) x1 ∧
    Rnd u (a * x0) l ∧ Rnd u (b * x1) r ∧ Rnd u (l + r) x

/-- c1/_helpers.py:74-75: `len_intervals` for one interval `[a, b]`. -/
def Length (u a b l : ℝ) : Prop := ∃ d e, Rnd u (b - a) d ∧ Rnd u (d ^ 2) e ∧ Rnd u (√e) l

/-- c1/_helpers.py:62-77 `C1Scheme.integrate(f, [a, b])` with rounding: the points `p` and the weights `w` of the
scheme are numbers of the machine, `x` are the abscissae, `y = f(x)` the values the integrand gives, `z` is the
result. -/
def Integrate1 {n : ℕ} (u : ℝ) (p w : Fin n → ℝ) (a b : ℝ) (T : SumTree (Fin n)) (x y : Fin n → ℝ) (z : ℝ) :
    Prop :=
  (∀ i, Abscissa u (p i) a b (x i)) ∧ ∃ l h s, Length u a b l ∧ Rnd u (1 / 2 * l) h ∧ Dot u y w T s ∧
    Rnd u (h * s) z

/-- A loop that adds one term after the other. -/
def SumTree.loop {ι : Type} (T : SumTree ι) : List ι → SumTree ι
  | [] => T
  | i :: L => (SumTree.node T (.leaf i)).loop L

/-- sn/_helpers.py:23-25 (s2/_helpers.py:55-58, s3/_helpers.py:36-39, un/_helpers.py:15-17,
u2/_helpers.py:44-46, u3/_helpers.py:66-67): a coordinate `x` of a point for the coordinate `p` of a point of the
rule and `c` of the center. -/
def BallAbscissa (u p r c x : ℝ) : Prop := ∃ m, Rnd u (r * p) m ∧ Rnd u (m + c) x

/-- sn/_helpers.py:22-33 `SnScheme.integrate(f, center, radius)` with rounding, and in the same way the `integrate`
methods cited at `BallAbscissa`: `v` is the volume (length, area) the code has computed. -/
def IntegrateBall {n k : ℕ} (u v : ℝ) (p : Fin k → Fin n → ℝ) (w : Fin k → ℝ) (c : Fin n → ℝ) (r : ℝ)
    (T : SumTree (Fin k)) (x : Fin k → Fin n → ℝ) (y : Fin k → ℝ) (z : ℝ) : Prop :=
  (∀ i j, BallAbscissa u (p i j) r (c j) (x i j)) ∧ ∃ s, Dot u y w T s ∧ Rnd u (v * s) z

/-- s2/_helpers.py:65 `np.pi * np.array(radius) ** 2`. -/
def DiskArea (u r v : ℝ) : Prop := ∃ π' q, Rnd u Real.pi π' ∧ Rnd u (r ^ 2) q ∧ Rnd u (π' * q) v

/-- s3/_helpers.py:46 `4 / 3 * pi * np.asarray(radius) ** 3`. -/
def BallVolume3 (u r v : ℝ) : Prop :=
  ∃ h π' a q, Rnd u (4 / 3) h ∧ Rnd u Real.pi π' ∧ Rnd u (h * π') a ∧ Rnd u (r ^ 3) q ∧ Rnd u (a * q) v

/-- u2/_helpers.py:48 `2 * np.pi * np.asarray(radius)`. -/
def CircleLength (u r v : ℝ) : Prop := ∃ π' a, Rnd u Real.pi π' ∧ Rnd u (2 * π') a ∧ Rnd u (a * r) v

/-- u3/_helpers.py:98-99 `4 * np.pi * np.array(radius) ** 2`. -/
def SphereArea3 (u r v : ℝ) : Prop :=
  ∃ π' a q, Rnd u Real.pi π' ∧ Rnd u (4 * π') a ∧ Rnd u (r ^ 2) q ∧ Rnd u (a * q) v

/-- `ndim.nball.volume(n, r)` (external, sn/_helpers.py:31): the recursion of `nballVolume` with rounding. -/
inductive BallVolume (u r : ℝ) : ℕ → ℝ → Prop
  | zero : BallVolume u r 0 1
  | one {v : ℝ} : Rnd u (2 * r) v → BallVolume u r 1 v
  | step {n : ℕ} {v π' a b q d v' : ℝ} : BallVolume u r n v → Rnd u Real.pi π' → Rnd u (2 * π') a →
      Rnd u (a / (n + 2)) b → Rnd u (r ^ 2) q → Rnd u (b * q) d → Rnd u (d * v) v' → BallVolume u r (n + 2) v'

/-- tn/_helpers.py:24-43 `TnScheme.integrate(f, simplex)` with rounding: `np.dot(simplex, points)` in
`transform` (line 54) adds up each coordinate in the order `Tx`; `v` is the volume the code has computed. -/
def IntegrateSimplex {n m k : ℕ} (u v : ℝ) (p : Fin k → Fin (n + 1) → ℝ) (w : Fin k → ℝ)
    (S : Fin (n + 1) → Fin m → ℝ) (Tx : SumTree (Fin (n + 1))) (T : SumTree (Fin k)) (x : Fin k → Fin m → ℝ)
    (y : Fin k → ℝ) (z : ℝ) : Prop :=
  (∀ i j, Dot u (fun l => S l j) (p i) Tx (x i j)) ∧ ∃ s, Dot u y w T s ∧ Rnd u (v * s) z

/-- enr/_helpers.py:14-17 (enr2/_helpers.py:14-17, e2r/_helpers.py:41-44, e2r2/_helpers.py:40-43,
e3r/_helpers.py:22-25, e3r2/_helpers.py:22-25): `integrate(f)` with rounding; the integrand is called with the points
of the rule themselves and gives `y`, `v` is `ref_vol`. -/
def IntegrateWeighted {k : ℕ} (u v : ℝ) (w : Fin k → ℝ) (T : SumTree (Fin k)) (y : Fin k → ℝ) (z : ℝ) : Prop :=
  ∃ s, Dot u y w T s ∧ Rnd u (v * s) z

/-- e2r/_helpers.py:43 `2 * math.pi`. -/
def VolE2r (u v : ℝ) : Prop := ∃ π', Rnd u Real.pi π' ∧ Rnd u (2 * π') v

/-- e2r2/_helpers.py:42 `math.pi`. -/
def VolE2r2 (u v : ℝ) : Prop := Rnd u Real.pi v

/-- e3r/_helpers.py:24 `8 * pi`. -/
def VolE3r (u v : ℝ) : Prop := ∃ π', Rnd u Real.pi π' ∧ Rnd u (8 * π') v

/-- e3r2/_helpers.py:24 `sqrt(pi) ** 3`. -/
def VolE3r2 (u v : ℝ) : Prop := ∃ π' q, Rnd u Real.pi π' ∧ Rnd u (√π') q ∧ Rnd u (q ^ 3) v

/-- cn/_helpers.py:65: `one_mp_xi` for one point with rounding. -/
def OneMpXi {d : ℕ} (u : ℝ) (p : Fin d → ℝ) (a : Fin d → Fin 2 → ℝ) : Prop :=
  ∀ k, (∃ m, Rnd u (1 - p k) m ∧ Rnd u (1 / 2 * m) (a k 0)) ∧ ∃ s, Rnd u (1 + p k) s ∧ Rnd u (1 / 2 * s) (a k 1)

/-- helpers/misc.py:56-86 `n_outer(a)` with rounding: the entry `r` for the corner `b`. -/
def NOuter (u : ℝ) : {d : ℕ} → (Fin (d + 1) → Fin 2 → ℝ) → (Fin (d + 1) → Fin 2) → ℝ → Prop
  | 0, a, b, r => r = a 0 (b 0)
  | _ + 1, a, b, r =>
    ∃ q, NOuter u (Fin.init a) (Fin.init b) q ∧ Rnd u (q * a (Fin.last _) (b (Fin.last _))) r

/-- cn/_helpers.py:70: a coordinate of `transform(xi, cube)` with rounding; `np.tensordot` adds up the corners in the
order `T`. -/
def CubeAbscissa {d : ℕ} (u : ℝ) (p : Fin (d + 1) → ℝ) (cube : (Fin (d + 1) → Fin 2) → ℝ)
    (T : SumTree (Fin (d + 1) → Fin 2)) (x : ℝ) : Prop :=
  (T.leaves.Nodup ∧ ∀ b, b ∈ T.leaves) ∧ ∃ a, OneMpXi u p a ∧ ∃ c t : (Fin (d + 1) → Fin 2) → ℝ,
    (∀ b, NOuter u a b (c b)) ∧ (∀ b, Rnd u (c b * cube b) (t b)) ∧ Sums u t T x

/-- cn/_helpers.py:27-40 `CnScheme.integrate(f, ncube)` with rounding; `D` are the values of `np.linalg.det`. -/
def IntegrateCube {d k : ℕ} (u : ℝ) (p : Fin k → Fin (d + 1) → ℝ) (w D : Fin k → ℝ)
    (cube : (Fin (d + 1) → Fin 2) → Fin (d + 1) → ℝ) (Tx : SumTree (Fin (d + 1) → Fin 2)) (T : SumTree (Fin k))
    (x : Fin k → Fin (d + 1) → ℝ) (y : Fin k → ℝ) (z : ℝ) : Prop :=
  (∀ i j, CubeAbscissa u (p i) (fun b => cube b j) Tx (x i j)) ∧ ∃ g s, (∀ i, Rnd u (y i * |D i|) (g i)) ∧
    Dot u g w T s ∧ Rnd u (2 ^ (d + 1) * s) z

end Rounding
end Quadpy
