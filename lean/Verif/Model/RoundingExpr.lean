import Verif.Model.Rounding

/-!
# Rounding in the formulas of `p3` and `w3`

The formulas are written down as the code has them, as trees of operations, so that every operation can be given its
own rounding error.  A subexpression that the code evaluates once and uses several times occurs several times here;
the runs of the code are those where all its occurrences have the same value.
-/

namespace Quadpy
namespace Rounding

/-- A formula in the inputs `ι`; constants are floating-point numbers. -/
inductive Expr (ι : Type)
  | const (c : ℝ)
  | var (i : ι)
  | neg (e : Expr ι)
  | add (e e' : Expr ι)
  | sub (e e' : Expr ι)
  | mul (e e' : Expr ι)

namespace Expr
variable {ι : Type}

instance : Neg (Expr ι) := ⟨neg⟩
instance : Add (Expr ι) := ⟨add⟩
instance : Sub (Expr ι) := ⟨sub⟩
instance : Mul (Expr ι) := ⟨mul⟩

/-- The value in exact arithmetic. -/
def eval (P : ι → ℝ) : Expr ι → ℝ
  | const c => c
  | var i => P i
  | neg e => -e.eval P
  | add e e' => e.eval P + e'.eval P
  | sub e e' => e.eval P - e'.eval P
  | mul e e' => e.eval P * e'.eval P

/-- `r` is a value in floating-point arithmetic; changing a sign is exact. -/
def Fl (u : ℝ) (p : ι → ℝ) : Expr ι → ℝ → Prop
  | const c, r => r = c
  | var i, r => r = p i
  | neg e, r => ∃ s, e.Fl u p s ∧ r = -s
  | add e e', r => ∃ s t, e.Fl u p s ∧ e'.Fl u p t ∧ Rnd u (s + t) r
  | sub e e', r => ∃ s t, e.Fl u p s ∧ e'.Fl u p t ∧ Rnd u (s - t) r
  | mul e e', r => ∃ s t, e.Fl u p s ∧ e'.Fl u p t ∧ Rnd u (s * t) r

/-- The number of roundings a term of the value goes through at most; the inputs have been rounded once. -/
def ops : Expr ι → ℕ
  | const _ => 0
  | var _ => 1
  | neg e => e.ops
  | add e e' => max e.ops e'.ops + 1
  | sub e e' => max e.ops e'.ops + 1
  | mul e e' => e.ops + e'.ops + 1

/-- The value with all signs positive, for inputs of at most `X`. -/
def mag (X : ι → ℝ) : Expr ι → ℝ
  | const c => |c|
  | var i => X i
  | neg e => e.mag X
  | add e e' => e.mag X + e'.mag X
  | sub e e' => e.mag X + e'.mag X
  | mul e e' => e.mag X * e'.mag X

end Expr

open Expr

/-- The expression of p3/_helpers.py:78-85 and w3/_helpers.py:86-93. -/
def det3E (J0 J1 J2 : Fin 3 → Expr (Fin 3)) : Expr (Fin 3) :=
  J0 0 * J1 1 * J2 2
  + J1 0 * J2 1 * J0 2
  + J2 0 * J0 1 * J1 2
  - J0 2 * J1 1 * J2 0
  - J1 2 * J2 1 * J0 0
  - J2 2 * J0 1 * J1 0

/-- p3/_helpers.py:47-55 `_transform(xi, pyra)`, the coordinate `i`. -/
noncomputable def p3Transform (pyra : Fin 5 → Fin 3 → ℝ) (i : Fin 3) : Expr (Fin 3) :=
  const 0.125 * (const 1 - var 0) * (const 1 - var 1) * (const 1 - var 2) * const (pyra 0 i)
  + const 0.125 * (const 1 + var 0) * (const 1 - var 1) * (const 1 - var 2) * const (pyra 1 i)
  + const 0.125 * (const 1 + var 0) * (const 1 + var 1) * (const 1 - var 2) * const (pyra 2 i)
  + const 0.125 * (const 1 - var 0) * (const 1 + var 1) * (const 1 - var 2) * const (pyra 3 i)
  + const 0.5 * (const 1 + var 2) * const (pyra 4 i)

/-- p3/_helpers.py:59-64 -/
noncomputable def p3J0 (pyra : Fin 5 → Fin 3 → ℝ) (i : Fin 3) : Expr (Fin 3) :=
  -(const 0.125 * (const 1 - var 1) * (const 1 - var 2) * const (pyra 0 i))
  + const 0.125 * (const 1 - var 1) * (const 1 - var 2) * const (pyra 1 i)
  + const 0.125 * (const 1 + var 1) * (const 1 - var 2) * const (pyra 2 i)
  - const 0.125 * (const 1 + var 1) * (const 1 - var 2) * const (pyra 3 i)

/-- p3/_helpers.py:65-70 -/
noncomputable def p3J1 (pyra : Fin 5 → Fin 3 → ℝ) (i : Fin 3) : Expr (Fin 3) :=
  -(const 0.125 * (const 1 - var 0) * (const 1 - var 2) * const (pyra 0 i))
  - const 0.125 * (const 1 + var 0) * (const 1 - var 2) * const (pyra 1 i)
  + const 0.125 * (const 1 + var 0) * (const 1 - var 2) * const (pyra 2 i)
  + const 0.125 * (const 1 - var 0) * (const 1 - var 2) * const (pyra 3 i)

/-- p3/_helpers.py:71-77 -/
noncomputable def p3J2 (pyra : Fin 5 → Fin 3 → ℝ) (i : Fin 3) : Expr (Fin 3) :=
  -(const 0.125 * (const 1 - var 0) * (const 1 - var 1) * const (pyra 0 i))
  - const 0.125 * (const 1 + var 0) * (const 1 - var 1) * const (pyra 1 i)
  - const 0.125 * (const 1 + var 0) * (const 1 + var 1) * const (pyra 2 i)
  - const 0.125 * (const 1 - var 0) * (const 1 + var 1) * const (pyra 3 i)
  + const 0.5 * const 1 * const (pyra 4 i)

/-- p3/_helpers.py:58-86 `_get_det_J(pyra, xi)`. -/
noncomputable def p3Det (pyra : Fin 5 → Fin 3 → ℝ) : Expr (Fin 3) := det3E (p3J0 pyra) (p3J1 pyra) (p3J2 pyra)

/-- w3/_helpers.py:52-61 `_transform(xi, wedge)`, the coordinate `i`. -/
noncomputable def w3Transform (wedge : Fin 2 → Fin 3 → Fin 3 → ℝ) (i : Fin 3) : Expr (Fin 3) :=
  const 0.5 * (const 1 - var 0 - var 1) * (const 1 - var 2) * const (wedge 0 0 i)
  + const 0.5 * var 0 * (const 1 - var 2) * const (wedge 0 1 i)
  + const 0.5 * var 1 * (const 1 - var 2) * const (wedge 0 2 i)
  + const 0.5 * (const 1 - var 0 - var 1) * (const 1 + var 2) * const (wedge 1 0 i)
  + const 0.5 * var 0 * (const 1 + var 2) * const (wedge 1 1 i)
  + const 0.5 * var 1 * (const 1 + var 2) * const (wedge 1 2 i)

/-- w3/_helpers.py:66-71 -/
noncomputable def w3J0 (wedge : Fin 2 → Fin 3 → Fin 3 → ℝ) (i : Fin 3) : Expr (Fin 3) :=
  -(const 0.5 * (const 1 - var 2) * const (wedge 0 0 i))
  + const 0.5 * (const 1 - var 2) * const (wedge 0 1 i)
  - const 0.5 * (const 1 + var 2) * const (wedge 1 0 i)
  + const 0.5 * (const 1 + var 2) * const (wedge 1 1 i)

/-- w3/_helpers.py:72-77 -/
noncomputable def w3J1 (wedge : Fin 2 → Fin 3 → Fin 3 → ℝ) (i : Fin 3) : Expr (Fin 3) :=
  -(const 0.5 * (const 1 - var 2) * const (wedge 0 0 i))
  + const 0.5 * (const 1 - var 2) * const (wedge 0 2 i)
  - const 0.5 * (const 1 + var 2) * const (wedge 1 0 i)
  + const 0.5 * (const 1 + var 2) * const (wedge 1 2 i)

/-- w3/_helpers.py:78-85 -/
noncomputable def w3J2 (wedge : Fin 2 → Fin 3 → Fin 3 → ℝ) (i : Fin 3) : Expr (Fin 3) :=
  -(const 0.5 * (const 1 - var 0 - var 1) * const (wedge 0 0 i))
  - const 0.5 * var 0 * const (wedge 0 1 i)
  - const 0.5 * var 1 * const (wedge 0 2 i)
  + const 0.5 * (const 1 - var 0 - var 1) * const (wedge 1 0 i)
  + const 0.5 * var 0 * const (wedge 1 1 i)
  + const 0.5 * var 1 * const (wedge 1 2 i)

/-- w3/_helpers.py:64-94 `_get_detJ(xi, wedge)`. -/
noncomputable def w3Det (wedge : Fin 2 → Fin 3 → Fin 3 → ℝ) : Expr (Fin 3) :=
  det3E (w3J0 wedge) (w3J1 wedge) (w3J2 wedge)

/-- p3/_helpers.py:11-18 `P3Scheme.integrate(f, pyra)` and w3/_helpers.py:11-16 `W3Scheme.integrate(f, wedge)` with
rounding: `tr` and `det` are the formulas of `_transform` and of the determinant. -/
def IntegrateMapped {k : ℕ} (u : ℝ) (tr : Fin 3 → Expr (Fin 3)) (det : Expr (Fin 3)) (p : Fin k → Fin 3 → ℝ)
    (w : Fin k → ℝ) (T : SumTree (Fin k)) (x : Fin k → Fin 3 → ℝ) (y : Fin k → ℝ) (z : ℝ) : Prop :=
  (∀ i j, (tr j).Fl u (p i) (x i j)) ∧ ∃ J g : Fin k → ℝ, (∀ i, det.Fl u (p i) (J i)) ∧
    (∀ i, Rnd u (y i * |J i|) (g i)) ∧ Dot u g w T z

end Rounding
end Quadpy
