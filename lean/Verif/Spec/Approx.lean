import Verif.Spec.Schemes

/-! What it means for a rule with rounded points and weights to have a degree. -/

namespace Quadpy

/-- `Q` differs from `J` by at most `eps` times the sum of the absolute values of the coefficients, for
every polynomial in `n` variables of total degree at most `d`. -/
def Spec.ApproxUpTo {n : ℕ} (d : ℕ) (eps : ℝ) (Q J : Spec.Functional n) : Prop :=
  ∀ p : MvPolynomial (Fin n) ℝ, p.totalDegree ≤ d →
    |Q (fun x => MvPolynomial.eval x p) - J (fun x => MvPolynomial.eval x p)| ≤
      eps * ∑ a ∈ p.support, |p.coeff a|

/-- The claimed degree holds up to `eps` for the functional `J`, with weights relative to `J(1)`; the
error is relative to `J(1)`, too. -/
def Scheme.ApproxRel (S : Scheme) (n : ℕ) (J : Spec.Functional n) (eps : ℝ) : Prop :=
  S.WellShaped n ∧ Spec.ApproxUpTo S.degree (J (fun _ => 1) * eps)
    (fun f => J (fun _ => 1) * dot n S.weights S.points f) J

/-- The claimed degree holds up to `eps` on the unit simplex (barycentric points, see
`Scheme.ExactOnSimplex`). -/
def Scheme.ApproxOnSimplex (S : Scheme) (n : ℕ) (eps : ℝ) : Prop :=
  (S.dim = n ∧ S.weights.length = S.points.length ∧
    ∀ x ∈ S.points, x.length = n + 1 ∧ x.sum = 1) ∧
  Spec.ApproxUpTo S.degree (1 / (n.factorial : ℝ) * eps)
    (fun f => 1 / (n.factorial : ℝ) * dot (n + 1) S.weights S.points fun xi =>
      f fun i => xi i.succ) (Spec.simplex n)

end Quadpy
