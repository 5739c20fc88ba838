import Verif.Props.C19
import Verif.Props.C62
import Verif.Props.C74Transfer
import Mathlib.Analysis.Calculus.Taylor

/-!
# C78: rules with nonnegative weights keep bounds by polynomials
-/

namespace Quadpy

open MeasureTheory Spec OneDim

/-! ### Several variables -/

theorem dot_le_dot {m : ℕ} {f g : (Fin m → ℝ) → ℝ} : ∀ {W : List ℝ} {P : List (List ℝ)}, (∀ w ∈ W, 0 ≤ w) →
    (∀ x ∈ P, f (toVec m x) ≤ g (toVec m x)) → dot m W P f ≤ dot m W P g
  | [], _, _, _ => by simp [dot]
  | _ :: _, [], _, _ => by simp [dot]
  | w :: W, x :: P, hW, h => by
    have h1 := dot_le_dot (W := W) (P := P) (fun v hv => hW v (List.mem_cons_of_mem _ hv))
      fun y hy => h y (List.mem_cons_of_mem _ hy)
    have h2 := mul_le_mul_of_nonneg_left (h x (List.mem_cons_self ..)) (hW w (List.mem_cons_self ..))
    simp only [dot, List.zipWith_cons_cons, List.sum_cons] at h1 ⊢
    linarith

section

variable {n m : ℕ} {α : Type*} [MeasurableSpace α] {μ : Measure α} {g : α → Fin n → ℝ} {ω : α → ℝ}
  {e : (Fin m → ℝ) → Fin n → ℝ}

/-- A rule with nonnegative weights for an integral with a nonnegative density, and a function between two
polynomials that the rule integrates exactly: the value lies between their integrals, and so does the integral
of the function. -/
theorem C78_space {W : List ℝ} {P : List (List ℝ)} {c : ℝ} {d : ℕ}
    (h : ∀ p : MvPolynomial (Fin n) ℝ, p.totalDegree ≤ d →
      c * dot m W P (fun x => MvPolynomial.eval (e x) p) = ∫ x, MvPolynomial.eval (g x) p * ω x ∂μ)
    (hi : ∀ p : MvPolynomial (Fin n) ℝ, Integrable (fun x => MvPolynomial.eval (g x) p * ω x) μ)
    (hω : ∀ᵐ x ∂μ, 0 ≤ ω x) (hc : 0 ≤ c) (hW : ∀ w ∈ W, 0 ≤ w) {f : (Fin n → ℝ) → ℝ}
    (hf : AEStronglyMeasurable (fun x => f (g x) * ω x) μ) {p q : MvPolynomial (Fin n) ℝ}
    (hp : p.totalDegree ≤ d) (hq : q.totalDegree ≤ d)
    (hP : ∀ x ∈ P, MvPolynomial.eval (e (toVec m x)) p ≤ f (e (toVec m x)) ∧
      f (e (toVec m x)) ≤ MvPolynomial.eval (e (toVec m x)) q)
    (hμ : ∀ᵐ x ∂μ, MvPolynomial.eval (g x) p ≤ f (g x) ∧ f (g x) ≤ MvPolynomial.eval (g x) q) :
    (∫ x, MvPolynomial.eval (g x) p * ω x ∂μ ≤ c * dot m W P fun x => f (e x)) ∧
      (c * dot m W P (fun x => f (e x)) ≤ ∫ x, MvPolynomial.eval (g x) q * ω x ∂μ) ∧
      |c * dot m W P (fun x => f (e x)) - ∫ x, f (g x) * ω x ∂μ| ≤
        ∫ x, MvPolynomial.eval (g x) (q - p) * ω x ∂μ := by
  have h1 : ∫ x, MvPolynomial.eval (g x) p * ω x ∂μ ≤ c * dot m W P fun x => f (e x) := by
    rw [← h p hp]
    exact mul_le_mul_of_nonneg_left (dot_le_dot hW fun x hx => (hP x hx).1) hc
  have h2 : c * dot m W P (fun x => f (e x)) ≤ ∫ x, MvPolynomial.eval (g x) q * ω x ∂μ := by
    rw [← h q hq]
    exact mul_le_mul_of_nonneg_left (dot_le_dot hW fun x hx => (hP x hx).2) hc
  have hfi : Integrable (fun x => f (g x) * ω x) μ := by
    refine ((hi p).norm.add (hi q).norm).mono' hf ?_
    filter_upwards [hω, hμ] with x hx hx2
    simp only [Pi.add_apply, Real.norm_eq_abs, abs_mul, abs_of_nonneg hx, ← add_mul]
    refine mul_le_mul_of_nonneg_right ?_ hx
    rw [abs_le]
    constructor <;> linarith [neg_abs_le (MvPolynomial.eval (g x) p), le_abs_self (MvPolynomial.eval (g x) q),
      abs_nonneg (MvPolynomial.eval (g x) p), abs_nonneg (MvPolynomial.eval (g x) q)]
  have h3 : ∫ x, MvPolynomial.eval (g x) p * ω x ∂μ ≤ ∫ x, f (g x) * ω x ∂μ := by
    refine integral_mono_ae (hi p) hfi ?_
    filter_upwards [hω, hμ] with x hx hx2
    exact mul_le_mul_of_nonneg_right hx2.1 hx
  have h4 : ∫ x, f (g x) * ω x ∂μ ≤ ∫ x, MvPolynomial.eval (g x) q * ω x ∂μ := by
    refine integral_mono_ae hfi (hi q) ?_
    filter_upwards [hω, hμ] with x hx hx2
    exact mul_le_mul_of_nonneg_right hx2.2 hx
  refine ⟨h1, h2, ?_⟩
  have h5 : ∫ x, MvPolynomial.eval (g x) (q - p) * ω x ∂μ =
      (∫ x, MvPolynomial.eval (g x) q * ω x ∂μ) - ∫ x, MvPolynomial.eval (g x) p * ω x ∂μ := by
    rw [← integral_sub (hi q) (hi p)]
    simp only [map_sub, sub_mul]
  rw [h5, abs_le]
  constructor <;> linarith

end

namespace Unbounded

/-- The weight functions. -/
theorem poly_integrable (D : Domain) {n : ℕ} (hD : D.HasDim n) : ∃ ω : (Fin n → ℝ) → ℝ,
    Continuous ω ∧ (∀ x, 0 ≤ ω x) ∧ (∀ f, target D n f = ∫ x, f x * ω x) ∧
    ∀ p : MvPolynomial (Fin n) ℝ, Integrable fun x => MvPolynomial.eval x p * ω x := by
  have hn : 0 < n := by cases D <;> simp only [Domain.HasDim] at hD <;> omega
  have key : ∀ ω : (Fin n → ℝ) → ℝ, (∀ α : Fin n → ℕ, Integrable fun x => mono α x * ω x) →
      ∀ p : MvPolynomial (Fin n) ℝ, Integrable fun x => MvPolynomial.eval x p * ω x := fun ω h p => by
    have e : (fun x => MvPolynomial.eval x p * ω x) =
        fun x => ∑ a ∈ p.support, p.coeff a * (mono a x * ω x) := by
      funext x
      rw [MvPolynomial.eval_eq', Finset.sum_mul]
      exact Finset.sum_congr rfl fun a _ => by rw [mono]; ring
    rw [e]
    exact integrable_finsetSum _ fun a _ => (h a).const_mul _
  have h1 : ∀ α : Fin n → ℕ, Integrable fun x => mono α x * Real.exp (-√(∑ i, x i ^ 2)) := fun α =>
    integrable_radial hn α (fun r => Real.exp (-r)) (by fun_prop) (enr_integrable _)
  have h2 : ∀ α : Fin n → ℕ, Integrable fun x => mono α x * Real.exp (-∑ i, x i ^ 2) := fun α => by
    have h : (fun x : Fin n → ℝ => mono α x * Real.exp (-∑ i, x i ^ 2)) =
        fun x => ∏ i, (x i ^ α i * Real.exp (-x i ^ 2)) := by
      funext x
      rw [Finset.prod_mul_distrib, ← Real.exp_sum, Finset.sum_neg_distrib]
      rfl
    rw [h]
    exact Integrable.fintype_prod fun i => integrable_pow_gauss (α i)
  cases D with
  | e2r | e3r | enr =>
    exact ⟨_, by fun_prop, fun x => (Real.exp_pos _).le, fun f => rfl, key _ h1⟩
  | e2r2 | e3r2 | enr2 =>
    exact ⟨_, by fun_prop, fun x => (Real.exp_pos _).le, fun f => rfl, key _ h2⟩

/-- `integrate(f)` on the domains with an exponential weight, for a continuous function between two polynomials
of the degree of the rule. -/
theorem C78_unbounded (D : Domain) {n : ℕ} (hD : D.HasDim n) {S : Scheme} (hS : S.ExactRel n (target D n))
    (hW : ∀ w ∈ S.weights, 0 ≤ w) {f : (Fin n → ℝ) → ℝ} (hf : Continuous f) {p q : MvPolynomial (Fin n) ℝ}
    (hp : p.totalDegree ≤ S.degree) (hq : q.totalDegree ≤ S.degree)
    (hpq : ∀ x, MvPolynomial.eval x p ≤ f x ∧ f x ≤ MvPolynomial.eval x q) :
    (target D n (fun x => MvPolynomial.eval x p) ≤ integrate D n S f) ∧
      (integrate D n S f ≤ target D n fun x => MvPolynomial.eval x q) ∧
      |integrate D n S f - target D n f| ≤ target D n fun x => MvPolynomial.eval x (q - p) := by
  obtain ⟨ω, hωc, hω0, hω, hωi⟩ := poly_integrable D hD
  have hv : 0 ≤ refVol D n := by
    rw [C62_volume D hD, hω]
    exact integral_nonneg fun x => by simpa using hω0 x
  simp only [hω]
  exact C78_space (g := id) (e := id) (c := refVol D n) (fun p hp => by
    have := C62_exact D hD hS p hp
    rw [hω] at this
    exact this) hωi (ae_of_all _ hω0) hv hW (by exact (hf.mul hωc).aestronglyMeasurable) hp hq
    (fun x _ => hpq _) (ae_of_all _ fun x => hpq _)

end Unbounded

section

variable {n : ℕ} {S : Scheme}

theorem poly_integrableOn {K : Set (Fin n → ℝ)} (hK : IsCompact K) (p : MvPolynomial (Fin n) ℝ) :
    Integrable (fun x => MvPolynomial.eval (id x) p * (1 : ℝ)) (volume.restrict K) := by
  simp only [mul_one]
  exact (MvPolynomial.continuous_eval p).continuousOn.integrableOn_compact hK

/-- Simplices. -/
theorem C78_simplex (hS : S.ExactOnSimplex n) (hin : ∀ x ∈ S.points, ∀ i, 0 ≤ toVec (n + 1) x i)
    (hW : ∀ w ∈ S.weights, 0 ≤ w) (v : Fin (n + 1) → Fin n → ℝ) {f : (Fin n → ℝ) → ℝ} (hf : Continuous f)
    {p q : MvPolynomial (Fin n) ℝ} (hp : p.totalDegree ≤ S.degree) (hq : q.totalDegree ≤ S.degree)
    (hpq : ∀ x ∈ convexHull ℝ (Set.range v), MvPolynomial.eval x p ≤ f x ∧ f x ≤ MvPolynomial.eval x q) :
    (∫ x in convexHull ℝ (Set.range v), MvPolynomial.eval x p ≤ Tn.integrate S.weights S.points f v) ∧
      (Tn.integrate S.weights S.points f v ≤ ∫ x in convexHull ℝ (Set.range v), MvPolynomial.eval x q) ∧
      |Tn.integrate S.weights S.points f v - ∫ x in convexHull ℝ (Set.range v), f x| ≤
        ∫ x in convexHull ℝ (Set.range v), MvPolynomial.eval x (q - p) := by
  obtain ⟨hK, hfin⟩ := finite_hull v
  have := C78_space (μ := volume.restrict (convexHull ℝ (Set.range v))) (g := id) (ω := fun _ => 1)
    (e := fun xi => Tn.transform xi v) (c := Tn.getVol v) (W := S.weights) (P := S.points) (d := S.degree)
    (fun q hq => by
      simp only [mul_one]
      exact Tn.C11_exact hS v q hq) (poly_integrableOn hK)
    (ae_of_all _ fun _ => zero_le_one) (Tn.C12_nonneg v) hW (f := f) (by
      simp only [mul_one]
      exact hf.aestronglyMeasurable) hp hq
    (fun x hx => hpq _ (Tn.transform_mem (hin x hx) (by
      obtain ⟨h1, h2⟩ := hS.1.2.2 x hx
      rw [Tn.sum_toVec h1, h2])))
    ((ae_restrict_mem hK.isClosed.measurableSet).mono fun x hx => hpq x hx)
  simp only [mul_one] at this
  exact this

/-- Balls. -/
theorem C78_ball (hn : 0 < n) (hS : S.ExactOnBall n) (hin : ∀ x ∈ S.points, toVec n x ∈ unitBall n)
    (hW : ∀ w ∈ S.weights, 0 ≤ w) (c : Fin n → ℝ) {r : ℝ} (hr : 0 < r) {f : (Fin n → ℝ) → ℝ} (hf : Continuous f)
    {p q : MvPolynomial (Fin n) ℝ} (hp : p.totalDegree ≤ S.degree) (hq : q.totalDegree ≤ S.degree)
    (hpq : ∀ x ∈ closedBall c r, MvPolynomial.eval x p ≤ f x ∧ f x ≤ MvPolynomial.eval x q) :
    (∫ x in closedBall c r, MvPolynomial.eval x p ≤ Sn.integrate S.weights S.points f c r) ∧
      (Sn.integrate S.weights S.points f c r ≤ ∫ x in closedBall c r, MvPolynomial.eval x q) ∧
      |Sn.integrate S.weights S.points f c r - ∫ x in closedBall c r, f x| ≤
        ∫ x in closedBall c r, MvPolynomial.eval x (q - p) := by
  have hK := isCompact_ball c r
  have hv : 0 ≤ nballVolume n r := by
    rw [C15_ball_volume hn]
    exact mul_nonneg (by positivity) (integral_nonneg fun _ => zero_le_one)
  have := C78_space (μ := volume.restrict (closedBall c r)) (g := id) (ω := fun _ => 1)
    (e := fun x i => r * x i + c i) (c := nballVolume n r) (W := S.weights) (P := S.points) (d := S.degree)
    (fun q hq => by
      simp only [mul_one]
      exact C15_ball hn hS c hr q hq) (poly_integrableOn hK)
    (ae_of_all _ fun _ => zero_le_one) hv hW (f := f) (by
      simp only [mul_one]
      exact hf.aestronglyMeasurable) hp hq
    (fun x hx => hpq _ (ball_mem (hin x hx)))
    ((ae_restrict_mem hK.isClosed.measurableSet).mono fun x hx => hpq x hx)
  simp only [mul_one] at this
  exact this

/-- Spheres. -/
theorem C78_sphere (hn : 0 < n) (hS : S.ExactOnSphere n) (hin : ∀ x ∈ S.points, ∑ i, toVec n x i ^ 2 = 1)
    (hW : ∀ w ∈ S.weights, 0 ≤ w) (c : Fin n → ℝ) {r : ℝ} (hr : 0 ≤ r) {f : (Fin n → ℝ) → ℝ} (hf : Continuous f)
    {p q : MvPolynomial (Fin n) ℝ} (hp : p.totalDegree ≤ S.degree) (hq : q.totalDegree ≤ S.degree)
    (hpq : ∀ x, ∑ i, (x i - c i) ^ 2 = r ^ 2 → MvPolynomial.eval x p ≤ f x ∧ f x ≤ MvPolynomial.eval x q) :
    (sphereIntegral c r (fun x => MvPolynomial.eval x p) ≤ Un.integrate S.weights S.points f c r) ∧
      (Un.integrate S.weights S.points f c r ≤ sphereIntegral c r fun x => MvPolynomial.eval x q) ∧
      |Un.integrate S.weights S.points f c r - sphereIntegral c r f| ≤
        sphereIntegral c r fun x => MvPolynomial.eval x (q - p) := by
  have hs : ∀ x : Fin n → ℝ, ∑ i, x i ^ 2 = 1 → ∑ i, (r * x i + c i - c i) ^ 2 = r ^ 2 := fun x hx => by
    calc ∑ i, (r * x i + c i - c i) ^ 2 = r ^ 2 * ∑ i, x i ^ 2 := by
          rw [Finset.mul_sum]; exact Finset.sum_congr rfl fun _ _ => by ring
      _ = r ^ 2 := by rw [hx, mul_one]
  have hA : 0 ≤ Spec.sphere n (fun _ => 1) := integral_nonneg fun _ => zero_le_one
  have := C78_space (μ := (volume : Measure (EuclideanSpace ℝ (Fin n))).toSphere) (ω := fun _ => 1)
    (g := fun x i => x.1 i) (e := id) (c := Spec.sphere n fun _ => 1) (W := S.weights) (P := S.points)
    (d := S.degree) (fun q hq => by
      simp only [mul_one]
      exact hS.2 q hq) (fun p => by
        simp only [mul_one]
        exact (((MvPolynomial.continuous_eval p).comp (by fun_prop)).integrable_of_hasCompactSupport
          (HasCompactSupport.of_compactSpace _)))
    (ae_of_all _ fun _ => zero_le_one) hA hW
    (f := fun x => f fun i => r * x i + c i) (by
      simp only [mul_one]
      exact Continuous.aestronglyMeasurable (by fun_prop))
    (p := polyAffine (Matrix.diagonal fun _ => r) c p) (q := polyAffine (Matrix.diagonal fun _ => r) c q)
    ((totalDegree_polyAffine _ _ p).trans hp) ((totalDegree_polyAffine _ _ q).trans hq)
    (fun x hx => by
      simp only [eval_polyAffine, affine_ball]
      exact hpq _ (hs _ (hin x hx)))
    (ae_of_all _ fun x => by
      simp only [eval_polyAffine, affine_ball]
      exact hpq _ (hs _ (sphere_mem x)))
  simp only [mul_one, map_sub, eval_polyAffine, affine_ball] at this
  obtain ⟨h1, h2, h3⟩ := this
  have hr' := pow_nonneg hr (n - 1)
  rw [Un.integrate, C15_sphere_volume hn]
  simp only [sphereIntegral, map_sub]
  refine ⟨?_, ?_, ?_⟩
  · rw [mul_assoc]
    exact mul_le_mul_of_nonneg_left h1 hr'
  · rw [mul_assoc]
    exact mul_le_mul_of_nonneg_left h2 hr'
  · rw [mul_assoc, ← mul_sub, abs_mul, abs_of_nonneg hr']
    exact mul_le_mul_of_nonneg_left h3 hr'

end

section

open Cn

variable {d : ℕ} {S : Scheme}

/-- Parallelotopes. -/
theorem C78_parallelotope (hS : S.ExactOnCube (d + 1))
    (hin : ∀ x ∈ S.points, toVec (d + 1) x ∈ Set.Icc (fun _ => -1) fun _ => (1 : ℝ)) (hW : ∀ w ∈ S.weights, 0 ≤ w)
    (c : Fin (d + 1) → ℝ) (E : Fin (d + 1) → Fin (d + 1) → ℝ) {f : (Fin (d + 1) → ℝ) → ℝ} (hf : Continuous f)
    {p q : MvPolynomial (Fin (d + 1)) ℝ} (hp : p.totalDegree ≤ S.degree) (hq : q.totalDegree ≤ S.degree)
    (hpq : ∀ x ∈ parallelotope c E, MvPolynomial.eval x p ≤ f x ∧ f x ≤ MvPolynomial.eval x q) :
    (∫ x in parallelotope c E, MvPolynomial.eval x p ≤ integrate S.weights S.points f (parCorners c E)) ∧
      (integrate S.weights S.points f (parCorners c E) ≤ ∫ x in parallelotope c E, MvPolynomial.eval x q) ∧
      |integrate S.weights S.points f (parCorners c E) - ∫ x in parallelotope c E, f x| ≤
        ∫ x in parallelotope c E, MvPolynomial.eval x (q - p) := by
  have hK := isCompact_par c E
  have := C78_space (μ := volume.restrict (parallelotope c E)) (g := id) (ω := fun _ => 1)
    (e := affineMap (parMatrix E) (parMid c E)) (c := 2 ^ (d + 1) * |(parMatrix E).det|) (W := S.weights)
    (P := S.points) (d := S.degree) (fun q hq => by
      simp only [mul_one]
      exact (integrate_par _ _ _ _ _).symm.trans (C13_parallelotope hS c E q hq)) (poly_integrableOn hK)
    (ae_of_all _ fun _ => zero_le_one) (by positivity) hW (f := f) (by
      simp only [mul_one]
      exact hf.aestronglyMeasurable) hp hq
    (fun x hx => hpq _ (by rw [← image_par]; exact ⟨_, hin x hx, rfl⟩))
    ((ae_restrict_mem hK.isClosed.measurableSet).mono fun x hx => hpq x hx)
  simp only [mul_one] at this
  rw [← integrate_par] at this
  exact this

/-- Boxes. -/
theorem C78_box (hS : S.ExactOnCube (d + 1))
    (hin : ∀ x ∈ S.points, toVec (d + 1) x ∈ Set.Icc (fun _ => -1) fun _ => (1 : ℝ)) (hW : ∀ w ∈ S.weights, 0 ≤ w)
    {a b : Fin (d + 1) → ℝ} (hab : a ≤ b) {f : (Fin (d + 1) → ℝ) → ℝ} (hf : Continuous f)
    {p q : MvPolynomial (Fin (d + 1)) ℝ} (hp : p.totalDegree ≤ S.degree) (hq : q.totalDegree ≤ S.degree)
    (hpq : ∀ x ∈ Set.Icc a b, MvPolynomial.eval x p ≤ f x ∧ f x ≤ MvPolynomial.eval x q) :
    (∫ x in Set.Icc a b, MvPolynomial.eval x p ≤
        integrate S.weights S.points f (ncubePoints fun i => ![a i, b i])) ∧
      (integrate S.weights S.points f (ncubePoints fun i => ![a i, b i]) ≤
        ∫ x in Set.Icc a b, MvPolynomial.eval x q) ∧
      |integrate S.weights S.points f (ncubePoints fun i => ![a i, b i]) - ∫ x in Set.Icc a b, f x| ≤
        ∫ x in Set.Icc a b, MvPolynomial.eval x (q - p) := by
  have := C78_parallelotope hS hin hW (fun i => a i) (fun k i => if k = i then b i - a i else 0) hf hp hq
    (by rwa [box_parallelotope a b hab])
  rw [box_parallelotope a b hab] at this
  rw [box_parCorners]
  simpa only [Matrix.cons_val_zero, Matrix.cons_val_one] using this

end

/-- `exp` lies above its tangent plane, and the midpoint rule for boxes is exact on linear functions: the rule is
above the integral of the tangent plane at any point. -/
example {a b : Fin 3 → ℝ} (hab : a ≤ b) (hb : ∀ x ∈ Set.Icc a b, Real.exp (x 0) ≤ 1 + 2 * x 0) :
    ∫ x in Set.Icc a b, MvPolynomial.eval x (1 + MvPolynomial.X (0 : Fin 3) : MvPolynomial (Fin 3) ℝ) ≤
      Cn.integrate (Cn.stroudCn11 3).weights (Cn.stroudCn11 3).points (fun x => Real.exp (x 0))
        (Cn.ncubePoints fun i => ![a i, b i]) := by
  refine (C78_box (d := 2) (q := 1 + MvPolynomial.C 2 * MvPolynomial.X 0) (C21_stroudCn11 3) (by
    simp only [Cn.stroudCn11, List.mem_singleton, forall_eq]
    constructor <;> intro i <;> fin_cases i <;> simp [toVec]) (by simp [Cn.stroudCn11]) hab (by fun_prop)
    (f := fun x => Real.exp (x 0)) ?_ ?_ fun x hx => ⟨?_, ?_⟩).1
  · exact (MvPolynomial.totalDegree_add _ _).trans (by simp [Cn.stroudCn11])
  · refine (MvPolynomial.totalDegree_add _ _).trans (max_le (by simp) ?_)
    exact (MvPolynomial.totalDegree_mul _ _).trans (by simp [Cn.stroudCn11])
  · simpa [add_comm] using Real.add_one_le_exp (x 0)
  · simpa using hb x hx

/-! ### One variable -/

section

open Polynomial Adaptive

/-- A rule with nonnegative weights for a nonnegative weight on the line. -/
theorem C78_line {s : Set ℝ} (hs : MeasurableSet s) {w : ℝ → ℝ} (hw : Measurable w) (hw0 : ∀ x ∈ s, 0 ≤ w x)
    (hmom : ∀ k : ℕ, IntegrableOn (fun x => x ^ k * w x) s) {P W : List ℝ} {d : ℕ}
    (h : ExactL P W d (weightInt s w)) (hW : ∀ v ∈ W, 0 ≤ v) {f : ℝ → ℝ} (hf : Measurable f) {p q : ℝ[X]}
    (hp : p.natDegree ≤ d) (hq : q.natDegree ≤ d) (hP : ∀ x ∈ P, p.eval x ≤ f x ∧ f x ≤ q.eval x)
    (hpq : ∀ x ∈ s, p.eval x ≤ f x ∧ f x ≤ q.eval x) :
    (∫ x in s, p.eval x * w x ≤ vdot (P.map f) W) ∧ (vdot (P.map f) W ≤ ∫ x in s, q.eval x * w x) ∧
      |vdot (P.map f) W - ∫ x in s, f x * w x| ≤ ∫ x in s, (q - p).eval x * w x := by
  have hv : ∀ g k : ℝ → ℝ, (∀ x ∈ P, g x ≤ k x) → vdot (P.map g) W ≤ vdot (P.map k) W := fun g k hgk => by
    have : 0 ≤ vdot (P.map fun x => k x - g x) W := vdot_nonneg (fun y hy => by
      obtain ⟨x, hx, rfl⟩ := List.mem_map.1 hy
      exact sub_nonneg.2 (hgk x hx)) hW
    rw [vdot_map_sub'] at this
    linarith
  have hi := weightInt_integrable hmom
  have h1 : ∫ x in s, p.eval x * w x ≤ vdot (P.map f) W :=
    (h.2 p hp).symm.le.trans (hv _ _ fun x hx => (hP x hx).1)
  have h2 : vdot (P.map f) W ≤ ∫ x in s, q.eval x * w x :=
    (hv _ _ fun x hx => (hP x hx).2).trans (h.2 q hq).le
  have hfi : IntegrableOn (fun x => f x * w x) s := by
    refine ((hi p).norm.add (hi q).norm).mono' (hf.mul hw).aestronglyMeasurable ?_
    filter_upwards [ae_restrict_mem hs] with x hx
    have hx2 := hpq x hx
    simp only [Pi.add_apply, Real.norm_eq_abs, abs_mul, abs_of_nonneg (hw0 x hx), ← add_mul]
    refine mul_le_mul_of_nonneg_right ?_ (hw0 x hx)
    rw [abs_le]
    constructor <;> linarith [neg_abs_le (p.eval x), le_abs_self (q.eval x), abs_nonneg (p.eval x),
      abs_nonneg (q.eval x)]
  have h3 : ∫ x in s, p.eval x * w x ≤ ∫ x in s, f x * w x :=
    setIntegral_mono_on (hi p) hfi hs fun x hx => mul_le_mul_of_nonneg_right (hpq x hx).1 (hw0 x hx)
  have h4 : ∫ x in s, f x * w x ≤ ∫ x in s, q.eval x * w x :=
    setIntegral_mono_on hfi (hi q) hs fun x hx => mul_le_mul_of_nonneg_right (hpq x hx).2 (hw0 x hx)
  refine ⟨h1, h2, ?_⟩
  have h5 : ∫ x in s, (q - p).eval x * w x = (∫ x in s, q.eval x * w x) - ∫ x in s, p.eval x * w x := by
    rw [← integral_sub (hi q) (hi p)]
    simp only [eval_sub, sub_mul]
  rw [h5, abs_le]
  constructor <;> linarith

/-- Taylor's polynomial on both sides of its centre. -/
theorem exists_taylor_global {f : ℝ → ℝ} {N : ℕ} (hf : ContDiff ℝ (N + 1) f) (c M : ℝ) :
    ∃ T : ℝ[X], T.natDegree ≤ N ∧ ∀ x, (∀ y ∈ Set.uIcc c x, |iteratedDeriv (N + 1) f y| ≤ M) →
      |f x - T.eval x| ≤ M * |x - c| ^ (N + 1) / (N + 1).factorial := by
  refine ⟨∑ k ∈ Finset.range (N + 1), Polynomial.C (((k.factorial : ℝ)⁻¹) * iteratedDeriv k f c) *
    (X - Polynomial.C c) ^ k, ?_, fun x hx => ?_⟩
  · refine natDegree_sum_le_of_forall_le _ _ fun k hk => ?_
    refine (natDegree_C_mul_le _ _).trans (natDegree_pow_le.trans ?_)
    rw [natDegree_X_sub_C]
    have := Finset.mem_range.1 hk
    omega
  · rcases eq_or_ne c x with rfl | hne
    · have : eval c (∑ k ∈ Finset.range (N + 1), Polynomial.C (((k.factorial : ℝ)⁻¹) * iteratedDeriv k f c) *
          (X - Polynomial.C c) ^ k) = f c := by
        rw [eval_finsetSum, Finset.sum_range_succ', Finset.sum_eq_zero fun k _ => by simp]
        simp
      rw [this]
      simp
    · have hu : UniqueDiffOn ℝ (Set.uIcc c x) := uniqueDiffOn_Icc (min_lt_max.2 hne)
      have hd : ∀ k ≤ N + 1, ∀ y ∈ Set.uIcc c x, iteratedDerivWithin k f (Set.uIcc c x) y = iteratedDeriv k f y :=
        fun k hk y hy => iteratedDerivWithin_eq_iteratedDeriv hu
          ((hf.of_le (by exact_mod_cast hk)).contDiffAt) hy
      obtain ⟨y, hy, h⟩ := taylor_mean_remainder_lagrange (n := N) hne
        (hf.of_le (by exact_mod_cast Nat.le_succ N)).contDiffOn
        ((hf.contDiffOn.differentiableOn_iteratedDerivWithin (by exact_mod_cast Nat.lt_succ_self N) hu).mono
          Set.uIoo_subset_uIcc_self)
      have hy' := Set.uIoo_subset_uIcc_self hy
      have hT : eval x (∑ k ∈ Finset.range (N + 1), Polynomial.C (((k.factorial : ℝ)⁻¹) * iteratedDeriv k f c) *
          (X - Polynomial.C c) ^ k) = taylorWithinEval f N (Set.uIcc c x) c x := by
        rw [taylor_within_apply, eval_finsetSum]
        refine Finset.sum_congr rfl fun k hk => ?_
        rw [hd k (by have := Finset.mem_range.1 hk; omega) c Set.left_mem_uIcc]
        simp only [eval_mul, eval_C, eval_pow, eval_sub, eval_X, smul_eq_mul]
        ring
      rw [hT, h, hd (N + 1) le_rfl y hy', abs_div, abs_mul, abs_pow, Nat.abs_cast]
      gcongr
      exact hx y hy'

/-- `gauss_hermite(n)`: the error for a function with a bounded derivative of the even order `N + 1 < 2 n`;
`√π g1 (N + 1)` is the integral of `x ^ (N + 1) exp (-x ^ 2)`. -/
theorem C78_hermite {n : ℕ} [NeZero n] {P W : List ℝ} (h : GaussHermite n P W) {f : ℝ → ℝ} {N : ℕ}
    (hN : N + 1 < 2 * n) (he : Even (N + 1)) (hf : ContDiff ℝ (N + 1) f) {M : ℝ}
    (hM : ∀ x, |iteratedDeriv (N + 1) f x| ≤ M) :
    |vdot (P.map f) W - ∫ x, f x * Real.exp (-x ^ 2)| ≤
      2 * M / (N + 1).factorial * ∫ x, x ^ (N + 1) * Real.exp (-x ^ 2) := by
  obtain ⟨hE, -, -, hW, -⟩ := (C19_gauss_hermite n).2 _ _ h
  obtain ⟨T, hT, hTf⟩ := exists_taylor_global hf 0 M
  have hb : ∀ x, (T - Polynomial.C (M / (N + 1).factorial) * X ^ (N + 1)).eval x ≤ f x ∧
      f x ≤ (T + Polynomial.C (M / (N + 1).factorial) * X ^ (N + 1)).eval x := fun x => by
    have := hTf x fun y _ => hM y
    rw [sub_zero, he.pow_abs, abs_le] at this
    simp only [eval_sub, eval_add, eval_mul, eval_C, eval_pow, eval_X]
    rw [mul_div_right_comm] at this
    constructor <;> linarith
  have hdeg : (Polynomial.C (M / (N + 1).factorial) * X ^ (N + 1)).natDegree ≤ 2 * n - 1 :=
    (natDegree_C_mul_X_pow_le _ _).trans (by omega)
  have := (C78_line MeasurableSet.univ (w := fun x => Real.exp (-x ^ 2)) (by fun_prop)
    (fun x _ => (Real.exp_pos _).le) hermite_integrable (P := P) (W := W) (d := 2 * n - 1) ⟨hE.1, fun p hp => by
        rw [hE.2 p hp, weightInt, setIntegral_univ]⟩ (fun w hw => (hW w hw).le) hf.continuous.measurable
    ((natDegree_sub_le _ _).trans (max_le (hT.trans (by omega)) hdeg))
    ((natDegree_add_le _ _).trans (max_le (hT.trans (by omega)) hdeg)) (fun x _ => hb x) fun x _ => hb x).2.2
  simp only [setIntegral_univ] at this
  refine this.trans (le_of_eq ?_)
  rw [← integral_const_mul]
  refine integral_congr_ae (ae_of_all _ fun x => ?_)
  simp only [eval_sub, eval_add, eval_mul, eval_C, eval_pow, eval_X]
  ring

/-- `gauss_laguerre(n, a)`: the error for a function whose derivative of the order `N + 1 < 2 n` is bounded on the
half line. -/
theorem C78_laguerre {n : ℕ} [NeZero n] {a : ℝ} (ha : -1 < a) {P W : List ℝ} (h : GaussLaguerre n a P W)
    {f : ℝ → ℝ} {N : ℕ} (hN : N + 1 < 2 * n) (hf : ContDiff ℝ (N + 1) f) {M : ℝ}
    (hM : ∀ x, 0 ≤ x → |iteratedDeriv (N + 1) f x| ≤ M) :
    |vdot (P.map f) W - ∫ x in Set.Ioi 0, f x * (x ^ a * Real.exp (-x))| ≤
      2 * M / (N + 1).factorial * Real.Gamma (a + 1 + (N + 1)) := by
  obtain ⟨hE, -, -, hP, hW, -⟩ := (C19_gauss_laguerre n ha).2 _ _ h
  obtain ⟨T, hT, hTf⟩ := exists_taylor_global hf 0 M
  have hb : ∀ x, 0 < x → (T - Polynomial.C (M / (N + 1).factorial) * X ^ (N + 1)).eval x ≤ f x ∧
      f x ≤ (T + Polynomial.C (M / (N + 1).factorial) * X ^ (N + 1)).eval x := fun x hx => by
    have := hTf x fun y hy => hM y (by rw [Set.uIcc_of_le hx.le] at hy; exact hy.1)
    rw [sub_zero, abs_of_pos hx, abs_le] at this
    simp only [eval_sub, eval_add, eval_mul, eval_C, eval_pow, eval_X]
    rw [mul_div_right_comm] at this
    constructor <;> linarith
  have hdeg : (Polynomial.C (M / (N + 1).factorial) * X ^ (N + 1)).natDegree ≤ 2 * n - 1 :=
    (natDegree_C_mul_X_pow_le _ _).trans (by omega)
  have := (C78_line measurableSet_Ioi (w := fun x => x ^ a * Real.exp (-x)) (by fun_prop)
    (fun x hx => mul_nonneg (Real.rpow_nonneg (le_of_lt hx) _) (Real.exp_pos _).le) (laguerre_integrable ha)
    (P := P) (W := W) (d := 2 * n - 1) hE (fun w hw => (hW w hw).le) hf.continuous.measurable
    ((natDegree_sub_le _ _).trans (max_le (hT.trans (by omega)) hdeg))
    ((natDegree_add_le _ _).trans (max_le (hT.trans (by omega)) hdeg)) (fun x hx => hb x (hP x hx))
    fun x hx => hb x hx).2.2
  refine this.trans (le_of_eq ?_)
  have hm := laguerre_moment ha (N + 1)
  simp only [weightInt, eval_pow, eval_X] at hm
  push_cast at hm
  rw [← hm, ← integral_const_mul]
  refine integral_congr_ae (ae_of_all _ fun x => ?_)
  simp only [eval_sub, eval_add, eval_mul, eval_C, eval_pow, eval_X]
  ring

/-- The error of `gauss_hermite(3)` for the cosine: at most `√π / 16`. -/
example {P W : List ℝ} (h : GaussHermite 3 P W) :
    |vdot (P.map Real.cos) W - ∫ x, Real.cos x * Real.exp (-x ^ 2)| ≤ √Real.pi / 16 := by
  have := C78_hermite h (f := Real.cos) (N := 3) (by norm_num) (by decide) Real.contDiff_cos (M := 1) fun x => by
    simp only [iteratedDeriv_succ, iteratedDeriv_zero]
    simp [Real.abs_cos_le_one]
  refine this.trans (le_of_eq ?_)
  have hm := hermite_moment 4
  simp only [weightInt, eval_pow, eval_X, setIntegral_univ] at hm
  rw [hm]
  have hg : Real.Gamma (5 / 2) = 3 / 4 * √Real.pi := by
    rw [show (5 / 2 : ℝ) = (1 / 2 + 1) + 1 by norm_num, Real.Gamma_add_one (by norm_num),
      Real.Gamma_add_one (by norm_num), Real.Gamma_one_half_eq]
    ring
  have h0 : √Real.pi ≠ 0 := by positivity
  norm_num [g1, Nat.factorial, show Even 4 by decide, hg]
  field_simp
  norm_num

end

end Quadpy
