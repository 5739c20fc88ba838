import Verif.Model.Adaptive

/-!
# quad: the scipy compatible wrapper
-/

namespace Quadpy
namespace Quad

open Adaptive

/-- A limit of integration: a real number or an infinity. -/
inductive Lim
  | negInf
  | fin (x : ℝ)
  | posInf

/-- What the first part of `quad` (_scipy_compat.py:9-43) hands to `integrate_adaptive`: the
substituted integrand, the limits, and whether the sign is to be changed; or the assertion of
`integrate_adaptive` that refuses infinite limits; or the case of two equal infinities, in which the
integrand is evaluated at infinity and which is not modelled further. -/
inductive Setup
  | ok (g : ℝ → ℝ) (a b : ℝ) (swap : Bool)
  | assertion
  | atInfinity

open Classical in
/-- _scipy_compat.py:9-43.  `f x args` is the call `f(x, *args)`. -/
noncomputable def setup (f : ℝ → List ℝ → ℝ) (a b : Lim) (args : List ℝ) : Setup :=
  match a, b with
  -- 12-19
  | .negInf, .posInf => .ok (fun t => (f ((1 - t) / t) args + f (-(1 - t) / t) []) / t ^ 2) 0 1 false
  -- 21-27
  | .fin x, .posInf => .ok (fun t => f (x + (1 - t) / t) args / t ^ 2) 0 1 false
  | .posInf, .posInf => .atInfinity
  -- 29-35
  | .negInf, .fin y => .ok (fun t => f (y - (1 - t) / t) args / t ^ 2) 0 1 false
  | .negInf, .negInf => .atInfinity
  -- 37-43
  | .fin x, .fin y =>
    if x > y then .ok (fun t => f t args) y x true else .ok (fun t => f t args) x y false
  | .posInf, .fin _ => .assertion
  | .posInf, .negInf => .assertion
  | .fin _, .negInf => .assertion

/-- The ways a call of `quad` can end, after some number of rounds of the adaptive loop. -/
inductive Outcome
  | returned (value error : ℝ)
  | other

/-- _scipy_compat.py:9-57, with `fuel` rounds of the adaptive loop. -/
noncomputable def quad (G : GK) (f : ℝ → List ℝ → ℝ) (a b : Lim) (args : List ℝ)
    (epsabs epsrel limit : ℝ) (fuel : ℕ) : Outcome :=
  match setup f a b args with
  | .ok g a b swap =>
    match integrateAdaptive (δ := Unit) (ι := Unit) G
        ⟨some epsabs, some epsrel, fun l => l.any id, 0, some limit⟩ (fun x _ => g (x ()))
        [(fun _ => a, fun _ => b)] fuel with
    | .returned v e => .returned (if swap then v () * -1 else v ()) (e ())
    | _ => .other
  | _ => .other

end Quad
end Quadpy
