import Verif.Model.CnTransform
import Verif.Lemmas.Affine
import Verif.Lemmas.RadialExact
import Verif.Props.C24

/-!
# C15: SnScheme and UnScheme integrate transfer exactness to every ball and sphere
-/

namespace Quadpy
open MeasureTheory Finset

theorem ball_one {n : ℕ} (hn : 0 < n) : Spec.ball n (fun _ => 1) = sphereArea n / n := by
  have h0 : (n : ℝ) ≠ 0 := by positivity
  rw [ball_eq_ballPow, one_eq_mono, ballPow_eq]
  rw [polar hn, sphere_mono' hn, ballDens_integral hn (by simpa using hn)]
  have := (radial_symMom hn (fun _ => 1) rfl).zero
  simp only [radMom, one_mul] at this
  simp [this, h0]
  ring

theorem sphereArea_add_two {n : ℕ} (hn : 0 < n) :
    sphereArea (n + 2) = 2 * Real.pi / n * sphereArea n := by
  have h : (0 : ℝ) < n := by exact_mod_cast hn
  have hG : Real.Gamma ((n : ℝ) / 2) ≠ 0 := (Real.Gamma_pos_of_pos (by positivity)).ne'
  unfold sphereArea
  push_cast
  rw [show ((n : ℝ) + 2) / 2 = n / 2 + 1 by ring, Real.Gamma_add_one (by positivity), pow_add,
    Real.sq_sqrt Real.pi_pos.le]
  field_simp

theorem sphereArea_one : sphereArea 1 = 2 := by
  unfold sphereArea
  have : √Real.pi ≠ 0 := by positivity
  push_cast
  rw [pow_one, Real.Gamma_one_half_eq]
  field_simp

theorem sphereArea_two : sphereArea 2 = 2 * Real.pi := by
  unfold sphereArea
  push_cast
  rw [Real.sq_sqrt Real.pi_pos.le]
  norm_num

/-- The recursion of `ndim.nball.volume` gives `r^n` times the volume of the unit ball. -/
theorem C15_ball_volume {n : ℕ} (hn : 0 < n) (r : ℝ) :
    nballVolume n r = r ^ n * Spec.ball n (fun _ => 1) := by
  induction n using Nat.twoStepInduction with
  | zero => omega
  | one => rw [ball_one one_pos, sphereArea_one]; simp [nballVolume]; ring
  | more n ih _ =>
    rcases Nat.eq_zero_or_pos n with rfl | h
    · rw [ball_one (by norm_num), sphereArea_two]; simp [nballVolume]; ring
    · have h0 : (n : ℝ) ≠ 0 := by positivity
      rw [nballVolume, ih h, ball_one h, ball_one (by omega), sphereArea_add_two h]
      push_cast
      field_simp
      ring

/-- The recursion of `ndim.nsphere.volume` gives `r^(n-1)` times the area of the unit sphere. -/
theorem C15_sphere_volume {n : ℕ} (hn : 0 < n) (r : ℝ) :
    nsphereVolume n r = r ^ (n - 1) * Spec.sphere n (fun _ => 1) := by
  have hs : ∀ n, 0 < n → Spec.sphere n (fun _ => 1) = sphereArea n := fun n hn => by
    rw [one_eq_mono, sphere_mono' hn]
    have := (radial_symMom hn (fun _ => 1) rfl).zero
    simp only [radMom, one_mul] at this
    rw [this, mul_one]
  rw [hs n hn]
  obtain ⟨m, rfl⟩ : ∃ m, n = m + 1 := ⟨n - 1, by omega⟩
  simp only [Nat.add_sub_cancel]
  clear hn hs
  induction m using Nat.twoStepInduction with
  | zero => rw [sphereArea_one]; simp [nsphereVolume]
  | one => rw [sphereArea_two]; simp [nsphereVolume]; ring
  | more n ih _ =>
    rw [show n + 2 + 1 = n + 3 from rfl, nsphereVolume, ih, show n + 3 = (n + 1) + 2 from rfl,
      sphereArea_add_two (by omega)]
    push_cast
    ring

/-- The closed ball. -/
def closedBall {n : ℕ} (c : Fin n → ℝ) (r : ℝ) : Set (Fin n → ℝ) :=
  {x | ∑ i, (x i - c i) ^ 2 ≤ r ^ 2}

theorem affine_ball {n : ℕ} (c : Fin n → ℝ) (r : ℝ) (x : Fin n → ℝ) :
    affineMap (Matrix.diagonal fun _ => r) c x = fun i => r * x i + c i := by
  funext i
  simp [affineMap, Matrix.diagonal_apply]

/-- A scheme exact on the unit ball is exact on every ball. -/
theorem C15_ball {n : ℕ} (hn : 0 < n) {S : Scheme} (hS : S.ExactOnBall n) (c : Fin n → ℝ) {r : ℝ}
    (hr : 0 < r) (p : MvPolynomial (Fin n) ℝ) (hp : p.totalDegree ≤ S.degree) :
    Sn.integrate S.weights S.points (fun x => MvPolynomial.eval x p) c r =
      ∫ x in closedBall c r, MvPolynomial.eval x p := by
  have hm : MeasurableSet (Spec.unitBall n) := by
    apply measurableSet_le <;> fun_prop
  have h := exact_affine (Matrix.diagonal fun _ => r) c hm hS.2 p hp
  have e : affineMap (Matrix.diagonal fun _ => r) c '' Spec.unitBall n = closedBall c r := by
    ext y
    simp only [Set.mem_image, affine_ball, Spec.unitBall, closedBall, Set.mem_ofPred_eq]
    constructor
    · rintro ⟨x, hx, rfl⟩
      have : ∑ i, (r * x i + c i - c i) ^ 2 = r ^ 2 * ∑ i, x i ^ 2 := by
        rw [mul_sum]; exact sum_congr rfl fun _ _ => by ring
      rw [this]
      nlinarith [sq_nonneg r]
    · intro hy
      refine ⟨fun i => (y i - c i) / r, ?_, ?_⟩
      · have : ∑ i, ((y i - c i) / r) ^ 2 = (∑ i, (y i - c i) ^ 2) / r ^ 2 := by
          rw [sum_div]; exact sum_congr rfl fun _ _ => by ring
        rw [this]
        exact div_le_one_of_le₀ hy (sq_nonneg r)
      · funext i
        field_simp
        ring
  rw [e] at h
  beta_reduce at h
  rw [← h, Sn.integrate, C15_ball_volume hn]
  simp only [affine_ball, Matrix.det_diagonal, prod_const, card_univ, Fintype.card_fin]
  rw [abs_of_nonneg (by positivity)]
  ring

/-- The surface integral over the sphere of radius `r` around `c`: the unit sphere, scaled. -/
noncomputable def sphereIntegral {n : ℕ} (c : Fin n → ℝ) (r : ℝ) (f : (Fin n → ℝ) → ℝ) : ℝ :=
  r ^ (n - 1) * Spec.sphere n fun x => f fun i => r * x i + c i

/-- A scheme exact on the unit sphere is exact on every sphere. -/
theorem C15_sphere {n : ℕ} (hn : 0 < n) {S : Scheme} (hS : S.ExactOnSphere n) (c : Fin n → ℝ)
    (r : ℝ) (p : MvPolynomial (Fin n) ℝ) (hp : p.totalDegree ≤ S.degree) :
    Un.integrate S.weights S.points (fun x => MvPolynomial.eval x p) c r =
      sphereIntegral c r fun x => MvPolynomial.eval x p := by
  have h := hS.2 (polyAffine (Matrix.diagonal fun _ => r) c p)
    ((totalDegree_polyAffine _ _ p).trans hp)
  simp only [eval_polyAffine, affine_ball] at h
  rw [sphereIntegral, ← h, Un.integrate, C15_sphere_volume hn]
  ring

/-- A rule of degree three integrates cubics exactly over every ball of every dimension. -/
example (n : ℕ) (c : Fin (n + 1) → ℝ) (i : Fin (n + 1)) :
    Sn.integrate (Sn.stroudSn32 (n + 1)).weights (Sn.stroudSn32 (n + 1)).points
      (fun x => MvPolynomial.eval x (MvPolynomial.X i ^ 3)) c 2 =
    ∫ x in closedBall c 2, MvPolynomial.eval x (MvPolynomial.X i ^ 3) := by
  refine C15_ball n.succ_pos (C24_stroudSn32 (n + 1) (by omega)).2 c two_pos _ ?_
  rw [(C24_stroudSn32 (n + 1) (by omega)).1]
  exact (MvPolynomial.totalDegree_pow _ _).trans (by simp)

end Quadpy
