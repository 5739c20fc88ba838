import Mathlib.Tactic.LinearCombination
import Mathlib.Data.Real.Basic

/-!
# `quad_comb`: polynomial identities modulo equations for powers

`quad_comb [h₁, …, hₖ]` closes a goal `A = B` over the reals where `A` and `B` are polynomial
expressions (divisions by numerals allowed) and the left-hand side of each `hᵢ` is a monomial in atoms,
like `v ^ 2 = e`.
It divides `A - B` by the `hᵢ` one after the other and calls `linear_combination` with the quotients, so
that the proof the kernel sees is one `ring1` identity.  Nothing is trusted: a wrong quotient makes
`linear_combination` fail.
-/

namespace Quadpy.QuadComb
open Lean Meta Elab Tactic

/-- A monomial: exponents of the atoms. -/
abbrev Mono := List (Nat × Nat)

/-- A polynomial: coefficients of its monomials. -/
abbrev Poly := List (Mono × Rat)

partial def mulMono : Mono → Mono → Mono
  | [], b => b
  | a, [] => a
  | (i, m) :: a, (j, n) :: b =>
    if i < j then (i, m) :: mulMono a ((j, n) :: b)
    else if j < i then (j, n) :: mulMono ((i, m) :: a) b
    else (i, m + n) :: mulMono a b

partial def cmpMono : Mono → Mono → Ordering
  | [], [] => .eq
  | [], _ => .lt
  | _, [] => .gt
  | (i, m) :: a, (j, n) :: b =>
    match compare i j with
    | .eq => match compare m n with
      | .eq => cmpMono a b
      | o => o
    | o => o

partial def add : Poly → Poly → Poly
  | [], q => q
  | p, [] => p
  | (m, c) :: p, (n, d) :: q =>
    match cmpMono m n with
    | .lt => (m, c) :: add p ((n, d) :: q)
    | .gt => (n, d) :: add ((m, c) :: p) q
    | .eq => if c + d = 0 then add p q else (m, c + d) :: add p q

def scale (k : Rat) (p : Poly) : Poly := if k = 0 then [] else p.map fun t => (t.1, k * t.2)

def mulTerm (m : Mono) (c : Rat) (p : Poly) : Poly :=
  (p.map fun t => (mulMono m t.1, c * t.2)).foldl (fun q t => add q [t]) []

def mul (p q : Poly) : Poly := p.foldl (fun r t => add r (mulTerm t.1 t.2 q)) []

def pow (p : Poly) : Nat → Poly
  | 0 => [([], 1)]
  | n + 1 => mul (pow p n) p

def const? : Poly → Option Rat
  | [] => some 0
  | [([], c)] => some c
  | _ => none

partial def natLit? (e : Expr) : Option Nat :=
  match e.nat? with
  | some n => some n
  | none => match e.rawNatLit? with
    | some n => some n
    | none => match e.getAppFnArgs with
      | (``HAdd.hAdd, #[_, _, _, _, a, b]) => return (← natLit? a) + (← natLit? b)
      | (``HMul.hMul, #[_, _, _, _, a, b]) => return (← natLit? a) * (← natLit? b)
      | _ => none

/-- Reads an expression as a polynomial in its atoms. -/
partial def parse (e : Expr) : StateT (Array Expr) MetaM Poly := do
  match e.getAppFnArgs with
  | (``HAdd.hAdd, #[_, _, _, _, a, b]) => return add (← parse a) (← parse b)
  | (``HSub.hSub, #[_, _, _, _, a, b]) => return add (← parse a) (scale (-1) (← parse b))
  | (``HMul.hMul, #[_, _, _, _, a, b]) => return mul (← parse a) (← parse b)
  | (``Neg.neg, #[_, _, a]) => return scale (-1) (← parse a)
  | (``HPow.hPow, #[_, _, _, _, a, n]) =>
    match natLit? n with
    | some k => return pow (← parse a) k
    | none => atom e
  | (``HDiv.hDiv, #[_, _, _, _, a, b]) =>
    match const? (← parse b) with
    | some c => if c = 0 then atom e else return scale c⁻¹ (← parse a)
    | none => atom e
  | (``Inv.inv, #[_, _, a]) =>
    match const? (← parse a) with
    | some c => if c = 0 then atom e else return [([], c⁻¹)]
    | none => atom e
  | (``OfNat.ofNat, #[_, n, _]) =>
    match natLit? n with
    | some k => return if k = 0 then [] else [([], (k : Rat))]
    | none => atom e
  | _ => atom e
where
  atom (e : Expr) : StateT (Array Expr) MetaM Poly := do
    let as ← get
    match as.findIdx? (· == e) with
    | some i => return [([(i, 1)], 1)]
    | none =>
      set (as.push e)
      return [([(as.size, 1)], 1)]

/-- `m / d` if `d` divides `m`. -/
def divMono? (m : Mono) : Mono → Option Mono
  | [] => some m
  | (v, n) :: d =>
    if m.any fun x => x.1 == v && n ≤ x.2 then
      divMono? ((m.map fun x => if x.1 == v then (v, x.2 - n) else x).filter fun x => x.2 ≠ 0) d
    else none

/-- Divides by `d - e` for a monomial `d`: returns quotient and remainder. -/
partial def divide (d : Mono) (e : Poly) (p quo : Poly) : Poly × Poly :=
  match p.findSome? fun t => (divMono? t.1 d).map fun m' => (t, m') with
  | none => (quo, p)
  | some ((m, c), m') => divide d e (add (add p [(m, -c)]) (mulTerm m' c e)) (add quo [(m', c)])

def ratStx (c : Rat) : TermElabM Term := do
  let n := Syntax.mkNumLit (toString c.num.natAbs)
  let d := Syntax.mkNumLit (toString c.den)
  let a ← if c.den = 1 then `(($n : ℝ)) else `((($n : ℝ) / $d))
  if c.num < 0 then `((-$a)) else pure a

def polyStx (as : Array Term) (p : Poly) : TermElabM Term := do
  let ts ← p.mapM fun (m, c) => do
    m.foldlM (init := ← ratStx c) fun s (i, k) => do
      let x := as[i]!
      if k = 1 then `($s * $x) else `($s * $x ^ $(Syntax.mkNumLit (toString k)))
  match ts with
  | [] => `((0 : ℝ))
  | t :: ts => ts.foldlM (init := t) fun s t => `($s + $t)

/-- The common part of both forms. -/
def run (hs : Array Expr) : TacticM Unit := withMainContext do
  let tgt ← whnfR (← instantiateMVars (← getMainTarget))
  let some (_, lhs, rhs) := tgt.eq? | throwError "quad_comb: not an equation {tgt}"
  let mut st : Array Expr := #[]
  let (l, st1) ← (parse lhs).run st
  let (r, st2) ← (parse rhs).run st1
  st := st2
  let mut rules : Array (Expr × Mono × Poly) := #[]
  for he in hs do
    let some (_, a, b) := (← instantiateMVars (← inferType he)).eq? |
      throwError "quad_comb: not an equation {tgt}"
    let (pa, s1) ← (parse a).run st
    let (pb, s2) ← (parse b).run s1
    st := s2
    match pa with
    | [(m, _)] => rules := rules.push (he, m, pb)
    | _ => throwError "quad_comb: the left-hand side is not a monomial"
  let mut p := add l (scale (-1) r)
  let mut quos : Array Poly := rules.map fun _ => []
  for _ in [0:4] do
    for i in [0:rules.size] do
      let (_, m, e) := rules[i]!
      let (q, r) := divide m e p []
      quos := quos.set! i (add quos[i]! q)
      p := r
  unless p.isEmpty do throwError "quad_comb: the remainder is not zero"
  let as ← st.mapM fun e => Lean.Elab.Term.exprToSyntax e
  let mut s : Option Term := none
  for i in [0:rules.size] do
    let q := quos[i]!
    unless q.isEmpty do
      let h ← Lean.Elab.Term.exprToSyntax rules[i]!.1
      let t ← `(($(← polyStx as q)) * $h)
      s := some (← match s with | none => pure t | some u => `($u + $t))
  match s with
  | none => evalTactic (← `(tactic| ring1))
  | some u => evalTactic (← `(tactic| linear_combination $u:term))

/-- See the head of the file. -/
elab "quad_comb" "[" hs:term,* "]" : tactic => withMainContext do
  run (← hs.getElems.mapM fun h => Tactic.elabTerm h none)

/-- `quad_comb` with all hypotheses of the form `v ^ n = e` or `v * w = e` where `v`, `w` are variables. -/
elab "quad_comb_all" : tactic => withMainContext do
  let mut hs : Array Expr := #[]
  for d in ← getLCtx do
    if d.isImplementationDetail then continue
    let ty ← instantiateMVars d.type
    if let some (_, a, _) := ty.eq? then
      if let (``HPow.hPow, #[_, _, _, _, v, n]) := a.getAppFnArgs then
        if v.isFVar && (natLit? n).isSome then hs := hs.push d.toExpr
      if let (``HMul.hMul, #[_, _, _, _, v, w]) := a.getAppFnArgs then
        if v.isFVar && w.isFVar then hs := hs.push d.toExpr
  run hs

end Quadpy.QuadComb
