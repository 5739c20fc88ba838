import Verif.Model.Unbounded
import Verif.Lemmas.Moments9
import Verif.Spec.Approx
import Verif.Spec.OneDim
import Verif.Props.C19
import Verif.Props.C48E2

/-!
# C62 — integrate on the domains with an exponential weight
-/

namespace Quadpy.Unbounded

open Real MeasureTheory

/-- The integral which the methods approximate. -/
noncomputable def target : Domain → (n : ℕ) → Spec.Functional n
  | .e2r, n | .e3r, n | .enr, n => fun f => ∫ x : Fin n → ℝ, f x * exp (-√(∑ i, x i ^ 2))
  | .e2r2, n | .e3r2, n | .enr2, n => fun f => ∫ x : Fin n → ℝ, f x * exp (-∑ i, x i ^ 2)

theorem enr_one {n : ℕ} (hn : 0 < n) :
    Spec.enr n (fun _ => 1) = 2 * √π ^ n * Gamma n / Gamma (n / 2) := by
  have h1 : Spec.sphere n (mono 0) = sphereArea n := by
    have hG : Real.Gamma ((n : ℝ) / 2) ≠ 0 := (Real.Gamma_pos_of_pos (by positivity)).ne'
    rw [sphere_mono' hn]
    simp [sphMom, g1_zero, hG]
  rw [one_eq_mono, enr_eq, polar hn 0 (fun r => Real.exp (-r)), h1, enr_integral, sphereArea]
  obtain ⟨m, rfl⟩ : ∃ m, n = m + 1 := ⟨n - 1, by omega⟩
  have := Real.Gamma_nat_eq_factorial m
  push_cast at this ⊢
  rw [this]
  simp
  ring

/-- The reference volumes in the code are the integrals of the weight functions over the whole space. -/
theorem C62_volume (D : Domain) {n : ℕ} (h : D.HasDim n) : refVol D n = target D n fun _ => 1 := by
  have hG : Gamma (3 / 2) = √π / 2 := by
    rw [show (3 : ℝ) / 2 = 1 / 2 + 1 by norm_num, Gamma_add_one (by norm_num), Gamma_one_half_eq]
    ring
  have hp := sqrt_ne_zero'.2 pi_pos
  have hs := sq_sqrt pi_pos.le
  cases D with
  | e2r =>
    obtain rfl : n = 2 := h
    show _ = Spec.enr 2 _
    rw [enr_one (by norm_num)]
    norm_num [refVol, hs, Gamma_two]
  | e2r2 =>
    obtain rfl : n = 2 := h
    show _ = Spec.enr2 2 _
    rw [enr2_one, hs]
    rfl
  | e3r =>
    obtain rfl : n = 3 := h
    show _ = Spec.enr 3 _
    have h3 : Gamma 3 = 2 := by
      rw [show (3 : ℝ) = (2 : ℕ) + 1 by norm_num, Gamma_nat_eq_factorial]
      rfl
    rw [enr_one (by norm_num)]
    push_cast
    rw [hG, h3, refVol]
    field_simp
    linear_combination (-8) * hs
  | e3r2 =>
    obtain rfl : n = 3 := h
    exact (enr2_one 3).symm
  | enr => exact (enr_one h).symm
  | enr2 => exact (enr2_one n).symm

/-- A scheme of the degree it claims integrates every polynomial up to this degree. -/
theorem C62_exact (D : Domain) {n : ℕ} (h : D.HasDim n) {S : Scheme} (hS : S.ExactRel n (target D n))
    (p : MvPolynomial (Fin n) ℝ) (hp : p.totalDegree ≤ S.degree) :
    integrate D n S (fun x => MvPolynomial.eval x p) = target D n fun x => MvPolynomial.eval x p := by
  rw [integrate, C62_volume D h]
  exact hS.2 p hp

/-- The same for a scheme with decimal numbers. -/
theorem C62_approx (D : Domain) {n : ℕ} (h : D.HasDim n) {S : Scheme} {eps : ℝ}
    (hS : S.ApproxRel n (target D n) eps) (p : MvPolynomial (Fin n) ℝ) (hp : p.totalDegree ≤ S.degree) :
    |integrate D n S (fun x => MvPolynomial.eval x p) - target D n fun x => MvPolynomial.eval x p| ≤
      refVol D n * eps * ∑ a ∈ p.support, |p.coeff a| := by
  rw [integrate, C62_volume D h]
  exact hS.2 p hp

/-- A rule for the plane with the weight `exp(-|x|)`, applied to a polynomial of degree 5. -/
example : integrate .e2r 2 FixedE2r.stroud_secrest_5 (fun x => x 0 ^ 2 * x 1 ^ 3 + x 0 ^ 4) =
    ∫ x : Fin 2 → ℝ, (x 0 ^ 2 * x 1 ^ 3 + x 0 ^ 4) * exp (-√(∑ i, x i ^ 2)) := by
  have := C62_exact .e2r rfl C48_e2r_stroud_secrest_5.1
    (MvPolynomial.X 0 ^ 2 * MvPolynomial.X 1 ^ 3 + MvPolynomial.X 0 ^ 4) (by
      rw [C48_e2r_stroud_secrest_5.2]
      refine (MvPolynomial.totalDegree_add _ _).trans (max_le ?_ ?_)
      · refine (MvPolynomial.totalDegree_mul _ _).trans ?_
        rw [MvPolynomial.totalDegree_X_pow, MvPolynomial.totalDegree_X_pow]
      · rw [MvPolynomial.totalDegree_X_pow]; norm_num)
  simpa [target] using this

/-! ### One variable -/

theorem rowDot_map (P W : List ℝ) (g : ℝ → ℝ) :
    rowDot (P.map g) W = (List.zipWith (fun x w => w * g x) P W).sum := by
  rw [rowDot, List.zipWith_map_left]
  congr 2
  funext x w
  ring

/-- With an integrand which picks the row of the points the result is the number `Σ w g(x)`; with an
integrand which works on every entry of its argument it is an array with this number as its only entry. -/
theorem C62_one (P W : List ℝ) (g : ℝ → ℝ) :
    integrate1 P W (firstRow g) = .scalar (List.zipWith (fun x w => w * g x) P W).sum ∧
    integrate1 P W (elementwise g) = .array [(List.zipWith (fun x w => w * g x) P W).sum] := by
  constructor
  · simp only [integrate1, firstRow, List.headD_cons, rowDot_map]
  · simp only [integrate1, elementwise, List.map_cons, List.map_nil, rowDot_map]

/-- The one-point rule for `exp(-x)` applied to `lambda x: x ** 2` and to `lambda x: x[0] ** 2`. -/
example : integrate1 [1] [1] (elementwise fun x => x ^ 2) = .array [1] ∧
    integrate1 [1] [1] (firstRow fun x => x ^ 2) = .scalar 1 := by
  rw [(C62_one _ _ _).1, (C62_one _ _ _).2]
  norm_num

/-- `gauss_laguerre(n, a).integrate(p)`: the integral of `p` with the weight `x^a exp(-x)`. -/
theorem C62_laguerre (n : ℕ) [NeZero n] {a : ℝ} (ha : -1 < a) {P W : List ℝ}
    (h : OneDim.GaussLaguerre n a P W) (p : Polynomial ℝ) (hp : p.natDegree ≤ 2 * n - 1) :
    integrate1 P W (firstRow fun x => p.eval x) =
      .scalar (∫ x in Set.Ioi 0, p.eval x * (x ^ a * exp (-x))) := by
  rw [(C62_one P W _).1]
  congr 1
  have := ((C19_gauss_laguerre n ha).2 P W h).1.2 p hp
  rw [← rowDot_map]
  exact this

/-- `gauss_hermite(n).integrate(p)`: the integral of `p` with the weight `exp(-x²)`. -/
theorem C62_hermite (n : ℕ) [NeZero n] {P W : List ℝ}
    (h : OneDim.GaussHermite n P W) (p : Polynomial ℝ) (hp : p.natDegree ≤ 2 * n - 1) :
    integrate1 P W (firstRow fun x => p.eval x) =
      .scalar (∫ x, p.eval x * exp (-x ^ 2)) := by
  rw [(C62_one P W _).1]
  congr 1
  have := ((C19_gauss_hermite n).2 P W h).1.2 p hp
  rw [← rowDot_map]
  exact this

end Quadpy.Unbounded
