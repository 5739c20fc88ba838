import Verif.Model.Spherical
import Verif.Lemmas.Circle
import Verif.Props.C15
import Verif.Props.C48U3
import Mathlib.Analysis.SpecialFunctions.Integrals.Basic

/-!
# C53: U3Scheme.integrate, integrate_spherical and the spherical coordinates
-/

namespace Quadpy
open MeasureTheory Finset

/-- The point of the unit sphere with polar angle `θ` and azimuth `φ`. -/
noncomputable def spherePt (θ φ : ℝ) : Fin 3 → ℝ :=
  ![Real.sin θ * Real.cos φ, Real.sin θ * Real.sin φ, Real.cos θ]

/-- The integral over the unit sphere in spherical coordinates. -/
noncomputable def sphericalIntegral (f : ℝ → ℝ → ℝ) : ℝ :=
  ∫ φ in (-Real.pi)..Real.pi, ∫ θ in (0 : ℝ)..Real.pi, f θ φ * Real.sin θ

/-- `cartesian_to_spherical` gives the polar angle and the azimuth of every unit vector, the poles
included. -/
theorem C53_coords (x : Fin 3 → ℝ) (hx : ∑ i, x i ^ 2 = 1) :
    (U3.cartesianToSpherical x).1 ∈ Set.Icc 0 Real.pi ∧
    (U3.cartesianToSpherical x).2 ∈ Set.Ioc (-Real.pi) Real.pi ∧
    spherePt (U3.cartesianToSpherical x).1 (U3.cartesianToSpherical x).2 = x := by
  rw [Fin.sum_univ_three] at hx
  have h2 : x 2 ^ 2 ≤ 1 := by nlinarith [sq_nonneg (x 0), sq_nonneg (x 1)]
  have hz := abs_le.1 (abs_le_one_iff_mul_self_le_one.2 (by nlinarith : x 2 * x 2 ≤ 1))
  refine ⟨⟨Real.arccos_nonneg _, Real.arccos_le_pi _⟩, Complex.arg_mem_Ioc _, ?_⟩
  have hn : ‖(⟨x 0, x 1⟩ : ℂ)‖ = Real.sin (Real.arccos (x 2)) := by
    rw [Real.sin_arccos, Complex.norm_def, Complex.normSq_apply]
    congr 1
    simp only
    nlinarith
  have hre := Complex.norm_mul_cos_arg (⟨x 0, x 1⟩ : ℂ)
  have him := Complex.norm_mul_sin_arg (⟨x 0, x 1⟩ : ℂ)
  rw [hn] at hre him
  funext i
  fin_cases i
  · exact hre
  · exact him
  · exact Real.cos_arccos hz.1 hz.2

/-- Away from the poles the coordinates are recovered. -/
theorem C53_inverse (θ φ : ℝ) (hθ : θ ∈ Set.Ioo 0 Real.pi) (hφ : φ ∈ Set.Ioc (-Real.pi) Real.pi) :
    U3.cartesianToSpherical (spherePt θ φ) = (θ, φ) := by
  have hs := Real.sin_pos_of_mem_Ioo hθ
  refine Prod.ext (Real.arccos_cos hθ.1.le hθ.2.le) ?_
  have : (⟨spherePt θ φ 0, spherePt θ φ 1⟩ : ℂ) =
      (Real.sin θ : ℂ) * (Complex.cos φ + Complex.sin φ * Complex.I) := by
    apply Complex.ext <;> simp [spherePt, ← Complex.ofReal_cos, ← Complex.ofReal_sin]
  exact (congrArg Complex.arg this).trans (Complex.arg_mul_cos_add_sin_mul_I hs hφ)

/-- The factor of `U3Scheme.integrate` is that of `UnScheme.integrate` for `n = 3`. -/
theorem C53_un (w : List ℝ) (pts : List (List ℝ)) (f : (Fin 3 → ℝ) → ℝ) (c : Fin 3 → ℝ) (r : ℝ) :
    U3.integrate w pts f c r = Un.integrate w pts f c r := by
  simp only [U3.integrate, Un.integrate, nsphereVolume]
  congr 1
  · push_cast; ring
  · congr 1; funext x; congr 1; funext i; ring

/-- A rule of degree `d` on the unit sphere integrates polynomials of degree `d` exactly over every
sphere. -/
theorem C53_integrate {S : Scheme} (hS : S.ExactOnSphere 3) (c : Fin 3 → ℝ) (r : ℝ)
    (p : MvPolynomial (Fin 3) ℝ) (hp : p.totalDegree ≤ S.degree) :
    U3.integrate S.weights S.points (fun x => MvPolynomial.eval x p) c r =
      sphereIntegral c r fun x => MvPolynomial.eval x p := by
  rw [C53_un, C15_sphere (by norm_num) hS c r p hp]

theorem dot_congr {n : ℕ} (w : List ℝ) (pts : List (List ℝ)) (f g : (Fin n → ℝ) → ℝ)
    (h : ∀ x ∈ pts, f (toVec n x) = g (toVec n x)) : dot n w pts f = dot n w pts g := by
  unfold dot
  congr 1
  induction pts generalizing w with
  | nil => simp
  | cons a pts ih =>
    cases w with
    | nil => simp
    | cons b w =>
      rw [List.zipWith_cons_cons, List.zipWith_cons_cons, h a (by simp),
        ih _ fun x hx => h x (by simp [hx])]

/-- `integrate_spherical` of a function of the angles is `integrate` of the same function of the
point, for points on the unit sphere. -/
theorem C53_spherical_eq (w : List ℝ) (pts : List (List ℝ)) (g : (Fin 3 → ℝ) → ℝ)
    (hu : ∀ x ∈ pts, ∑ i, toVec 3 x i ^ 2 = 1) :
    U3.integrateSpherical w pts (fun θ φ => g (spherePt θ φ)) = U3.integrate w pts g 0 1 := by
  unfold U3.integrateSpherical U3.integrate
  congr 1
  refine dot_congr _ _ _ _ fun x hx => ?_
  beta_reduce
  rw [(C53_coords _ (hu x hx)).2.2]
  simp

/-! ### The surface integral in spherical coordinates -/

theorem legendre_beta (m c : ℕ) (hc : Even c) :
    ∫ u in (-1 : ℝ)..1, u ^ c * (1 - u ^ 2) ^ m =
      m.factorial * Real.Gamma ((c + 1) / 2) / Real.Gamma (m + (c + 3) / 2) := by
  induction m generalizing c with
  | zero =>
    have h1 : Real.Gamma (((c : ℝ) + 1) / 2) ≠ 0 := (Real.Gamma_pos_of_pos (by positivity)).ne'
    have h2 := Real.Gamma_add_one (s := ((c : ℝ) + 1) / 2) (by positivity)
    have : (-1 : ℝ) ^ (c + 1) = -1 := (hc.add_one).neg_one_pow
    simp only [pow_zero, mul_one, integral_pow, one_pow, this, Nat.factorial_zero, Nat.cast_one,
      one_mul, Nat.cast_zero, zero_add]
    rw [show ((c : ℝ) + 3) / 2 = (c + 1) / 2 + 1 by ring, h2]
    have h3 : (c : ℝ) + 1 ≠ 0 := by positivity
    field_simp
    norm_num
  | succ m ih =>
    have h0 : ∫ u in (-1 : ℝ)..1, u ^ c * (1 - u ^ 2) ^ (m + 1) =
        (∫ u in (-1 : ℝ)..1, u ^ c * (1 - u ^ 2) ^ m) -
          ∫ u in (-1 : ℝ)..1, u ^ (c + 2) * (1 - u ^ 2) ^ m := by
      rw [← intervalIntegral.integral_sub]
      · congr 1; funext u; ring
      · exact Continuous.intervalIntegrable (by fun_prop) _ _
      · exact Continuous.intervalIntegrable (by fun_prop) _ _
    rw [h0, ih c hc, ih (c + 2) (by simpa [Nat.even_add] using hc)]
    set s : ℝ := m + (c + 3) / 2 with hs
    have hs0 : 0 < s := by positivity
    have h2 := Real.Gamma_add_one (s := ((c : ℝ) + 1) / 2) (by positivity)
    have h3 := Real.Gamma_add_one (s := s) hs0.ne'
    have h4 : Real.Gamma s ≠ 0 := (Real.Gamma_pos_of_pos hs0).ne'
    push_cast
    rw [show ((c : ℝ) + 2 + 1) / 2 = (c + 1) / 2 + 1 by ring, h2,
      show (m : ℝ) + (c + 2 + 3) / 2 = s + 1 by rw [hs]; ring,
      show (m : ℝ) + 1 + (c + 3) / 2 = s + 1 by rw [hs]; ring, h3, Nat.factorial_succ]
    have h5 : (c : ℝ) = 2 * (s - m) - 3 := by rw [hs]; ring
    field_simp
    push_cast
    rw [h5]
    ring

theorem legendre_odd (m c : ℕ) (hc : Odd c) :
    ∫ u in (-1 : ℝ)..1, u ^ c * (1 - u ^ 2) ^ m = 0 := by
  have h := intervalIntegral.integral_comp_neg (a := -1) (b := 1)
    (fun u : ℝ => u ^ c * (1 - u ^ 2) ^ m)
  simp only [neg_neg, hc.neg_pow, even_two.neg_pow, neg_mul, intervalIntegral.integral_neg] at h
  linarith

theorem circ_eq (a b : ℕ) :
    circ a b = 2 * Real.pi * (g1 a * g1 b / Real.Gamma ((2 + (a + b)) / 2)) := by
  have := sphere_two ![a, b]
  rw [sphere_mono' (by norm_num), sphereArea_two, sphMom] at this
  simp only [Fin.prod_univ_two, Fin.sum_univ_two, Matrix.cons_val_zero, Matrix.cons_val_one] at this
  rw [← this]
  norm_num [Real.Gamma_one]
  ring

theorem sphere_three_mono (α : Fin 3 → ℕ) :
    Spec.sphere 3 (mono α) = sphericalIntegral fun θ φ => mono α (spherePt θ φ) := by
  have e : ∀ θ φ, mono α (spherePt θ φ) * Real.sin θ =
      (Real.cos φ ^ α 0 * Real.sin φ ^ α 1) *
        (Real.sin θ ^ (α 0 + α 1 + 1) * Real.cos θ ^ α 2) := fun θ φ => by
    simp only [mono, Fin.prod_univ_three, spherePt, Matrix.cons_val_zero, Matrix.cons_val_one,
      Matrix.cons_val]
    ring
  have hc : ∫ φ in (-Real.pi)..Real.pi, Real.cos φ ^ α 0 * Real.sin φ ^ α 1 =
      circ (α 0) (α 1) := by
    rw [circ, intervalIntegral.integral_of_le (by linarith [Real.pi_pos]), integral_Ioc_eq_integral_Ioo]
  have key : sphericalIntegral (fun θ φ => mono α (spherePt θ φ)) = circ (α 0) (α 1) *
      ∫ θ in (0 : ℝ)..Real.pi, Real.sin θ ^ (α 0 + α 1 + 1) * Real.cos θ ^ α 2 := by
    unfold sphericalIntegral
    simp only [e, intervalIntegral.integral_const_mul, intervalIntegral.integral_mul_const, hc]
  rw [key, circ_eq, sphere_mono (by norm_num)]
  simp only [Fin.prod_univ_three, Fin.sum_univ_three]
  by_cases h0 : Even (α 0)
  swap
  · rw [g1_odd (Nat.not_even_iff_odd.1 h0)]; simp
  by_cases h1 : Even (α 1)
  swap
  · rw [g1_odd (Nat.not_even_iff_odd.1 h1)]; simp
  obtain ⟨m, hm⟩ : ∃ m, α 0 + α 1 = 2 * m := by
    obtain ⟨m, hm⟩ := h0.add h1; exact ⟨m, by omega⟩
  have hmr : (α 0 : ℝ) + α 1 = 2 * m := by exact_mod_cast hm
  rw [hm, integral_sin_pow_odd_mul_cos_pow, Real.cos_pi, Real.cos_zero]
  by_cases h2 : Even (α 2)
  swap
  · rw [legendre_odd m _ (Nat.not_even_iff_odd.1 h2), g1_odd (Nat.not_even_iff_odd.1 h2)]; simp
  rw [legendre_beta m _ h2]
  have hg : Real.Gamma (((α 2 : ℝ) + 1) / 2) = √Real.pi * g1 (α 2) := by
    rw [g1, if_pos h2]; field_simp
  have hpi : √Real.pi ^ 3 = Real.pi * √Real.pi := by
    rw [pow_succ, Real.sq_sqrt Real.pi_pos.le]
  rw [hg, hmr, show (2 + 2 * (m : ℝ)) / 2 = m + 1 by ring, Real.Gamma_nat_eq_factorial]
  have hf : (m.factorial : ℝ) ≠ 0 := by positivity
  rw [show (((3 : ℕ) : ℝ) + (2 * (m : ℝ) + α 2)) / 2 = m + (α 2 + 3) / 2 by push_cast; ring, hpi]
  have hG : Real.Gamma (m + ((α 2 : ℝ) + 3) / 2) ≠ 0 := (Real.Gamma_pos_of_pos (by positivity)).ne'
  field_simp

theorem spherical_linOnMono :
    LinOnMono (n := 3) fun f => sphericalIntegral fun θ φ => f (spherePt θ φ) := by
  intro s c
  have hc : ∀ α : Fin 3 → ℕ, Continuous fun q : ℝ × ℝ =>
      mono α (spherePt q.2 q.1) * Real.sin q.2 := fun α => by
    simp only [mono, Fin.prod_univ_three, spherePt, Matrix.cons_val_zero, Matrix.cons_val_one,
      Matrix.cons_val]
    fun_prop
  unfold sphericalIntegral
  have e : ∀ φ, ∫ θ in (0 : ℝ)..Real.pi, (∑ a ∈ s, c a * mono a (spherePt θ φ)) * Real.sin θ =
      ∑ a ∈ s, c a * ∫ θ in (0 : ℝ)..Real.pi, mono a (spherePt θ φ) * Real.sin θ := fun φ => by
    simp only [sum_mul, mul_assoc]
    rw [intervalIntegral.integral_finsetSum]
    · simp only [intervalIntegral.integral_const_mul]
    · intro a _
      refine Continuous.intervalIntegrable ?_ _ _
      have h := (hc a).comp (by fun_prop : Continuous fun θ : ℝ => (φ, θ))
      exact continuous_const.mul h
  simp only [e]
  rw [intervalIntegral.integral_finsetSum]
  · simp only [intervalIntegral.integral_const_mul]
  · intro a _
    refine Continuous.intervalIntegrable ?_ _ _
    refine continuous_const.mul ?_
    exact intervalIntegral.continuous_parametric_intervalIntegral_of_continuous' (hc a) _ _

/-- The surface integral of a polynomial over the unit sphere is the double integral over the angles
with the factor `sin θ`. -/
theorem C53_surface (p : MvPolynomial (Fin 3) ℝ) :
    Spec.sphere 3 (fun x => MvPolynomial.eval x p) =
      sphericalIntegral fun θ φ => MvPolynomial.eval (spherePt θ φ) p :=
  exactUpTo_of_mono (d := p.totalDegree) sphere_linOnMono spherical_linOnMono
    (fun α _ => sphere_three_mono α) p le_rfl

/-- `integrate_spherical` of a rule of degree `d` with points on the unit sphere gives the integral
`∫∫ f(θ, φ) sin θ dθ dφ` for every `f` that is a polynomial of degree at most `d` on the sphere (so for
all spherical harmonics up to this degree). -/
theorem C53_spherical {S : Scheme} (hS : S.ExactOnSphere 3)
    (hu : ∀ x ∈ S.points, ∑ i, toVec 3 x i ^ 2 = 1)
    (p : MvPolynomial (Fin 3) ℝ) (hp : p.totalDegree ≤ S.degree) (f : ℝ → ℝ → ℝ)
    (hf : ∀ θ φ, f θ φ = MvPolynomial.eval (spherePt θ φ) p) :
    U3.integrateSpherical S.weights S.points f = sphericalIntegral f := by
  obtain rfl : f = fun θ φ => MvPolynomial.eval (spherePt θ φ) p := by
    funext θ φ; exact hf θ φ
  rw [C53_spherical_eq _ _ (fun x => MvPolynomial.eval x p) hu, C53_integrate hS 0 1 p hp,
    ← C53_surface]
  simp [sphereIntegral]

/-! ### The points of the schemes -/

/-- The parameters of an orbit for which its points lie on the unit sphere. -/
def UnitVals : SymKey → List ℝ → Prop
  | .a1, _ => True
  | .a2, _ => True
  | .a3, _ => True
  | .llm, [_] => True
  | .pq0, [_] => True
  | .rsw, [_, _] => True
  | .llm2, [L, m] => 2 * L ^ 2 + m ^ 2 = 1
  | .llm2, [L] => 2 * L ^ 2 ≤ 1
  | .pq02, [a, b] => a ^ 2 + b ^ 2 = 1
  | .pq02, [a] => a ^ 2 ≤ 1
  | .rs0, [a, b] => a ^ 2 + b ^ 2 = 1
  | .rs0, [a] => a ^ 2 ≤ 1
  | .rsw2, [r, s, w] => r ^ 2 + s ^ 2 + w ^ 2 = 1
  | .rsw2, [r, s] => r ^ 2 + s ^ 2 ≤ 1
  | .rst, [r, s, w] => r ^ 2 + s ^ 2 + w ^ 2 = 1
  | .rst, [r, s] => r ^ 2 + s ^ 2 ≤ 1
  | .rst_weird, [r, s, w] => r ^ 2 + s ^ 2 + w ^ 2 = 1
  | .rst_weird, [r, s] => r ^ 2 + s ^ 2 ≤ 1
  | _, _ => False

/-- A row of three numbers on the unit sphere. -/
def UnitRow (x : List ℝ) : Prop := x.length = 3 ∧ ∑ i, toVec 3 x i ^ 2 = 1

theorem unitRow_mk {a b c : ℝ} (h : a ^ 2 + b ^ 2 + c ^ 2 = 1) : UnitRow [a, b, c] :=
  ⟨rfl, by simpa [Fin.sum_univ_three, toVec] using h⟩

theorem llm2_unit {L m : ℝ} (h : 2 * L ^ 2 + m ^ 2 = 1) : ∀ x ∈ llm2Pts L m, UnitRow x := by
  simp only [llm2Pts, List.forall_mem_cons, List.not_mem_nil, IsEmpty.forall_iff, implies_true,
    and_true]
  refine ⟨?_, ?_, ?_, ?_, ?_, ?_, ?_, ?_, ?_, ?_, ?_, ?_, ?_, ?_, ?_, ?_, ?_, ?_, ?_, ?_, ?_, ?_,
    ?_, ?_⟩ <;> exact unitRow_mk (by linarith)

theorem pq02_unit {a b : ℝ} (h : a ^ 2 + b ^ 2 = 1) : ∀ x ∈ pq02Pts a b, UnitRow x := by
  simp only [pq02Pts, List.forall_mem_cons, List.not_mem_nil, IsEmpty.forall_iff, implies_true,
    and_true]
  refine ⟨?_, ?_, ?_, ?_, ?_, ?_, ?_, ?_, ?_, ?_, ?_, ?_, ?_, ?_, ?_, ?_, ?_, ?_, ?_, ?_, ?_, ?_,
    ?_, ?_⟩ <;> exact unitRow_mk (by linarith)

theorem rs0_unit {a b : ℝ} (h : a ^ 2 + b ^ 2 = 1) : ∀ x ∈ rs0Pts a b, UnitRow x := by
  simp only [rs0Pts, List.forall_mem_cons, List.not_mem_nil, IsEmpty.forall_iff, implies_true,
    and_true]
  refine ⟨?_, ?_, ?_, ?_, ?_, ?_, ?_, ?_, ?_, ?_, ?_, ?_⟩ <;> exact unitRow_mk (by linarith)

theorem rsw2_unit {r s w : ℝ} (h : r ^ 2 + s ^ 2 + w ^ 2 = 1) : ∀ x ∈ rsw2Pts r s w, UnitRow x := by
  simp only [rsw2Pts, List.forall_mem_cons, List.not_mem_nil, IsEmpty.forall_iff, implies_true,
    and_true]
  refine ⟨?_, ?_, ?_, ?_, ?_, ?_, ?_, ?_, ?_, ?_, ?_, ?_, ?_, ?_, ?_, ?_, ?_, ?_, ?_, ?_, ?_, ?_,
    ?_, ?_, ?_, ?_, ?_, ?_, ?_, ?_, ?_, ?_, ?_, ?_, ?_, ?_, ?_, ?_, ?_, ?_, ?_, ?_, ?_, ?_, ?_, ?_,
    ?_, ?_⟩ <;> exact unitRow_mk (by linarith)

theorem rst_unit {r s w : ℝ} (h : r ^ 2 + s ^ 2 + w ^ 2 = 1) : ∀ x ∈ rstPts r s w, UnitRow x := by
  simp only [rstPts, List.forall_mem_cons, List.not_mem_nil, IsEmpty.forall_iff, implies_true,
    and_true]
  refine ⟨?_, ?_, ?_, ?_, ?_, ?_, ?_, ?_, ?_, ?_, ?_, ?_, ?_, ?_, ?_, ?_, ?_, ?_, ?_, ?_, ?_, ?_,
    ?_, ?_⟩ <;> exact unitRow_mk (by linarith)

theorem rst_weird_unit {r s w : ℝ} (h : r ^ 2 + s ^ 2 + w ^ 2 = 1) :
    ∀ x ∈ rst_weirdPts r s w, UnitRow x := by
  simp only [rst_weirdPts, List.forall_mem_cons, List.not_mem_nil, IsEmpty.forall_iff, implies_true,
    and_true]
  refine ⟨?_, ?_, ?_, ?_, ?_, ?_, ?_, ?_, ?_, ?_, ?_, ?_, ?_, ?_, ?_, ?_, ?_, ?_, ?_, ?_, ?_, ?_,
    ?_, ?_⟩ <;> exact unitRow_mk (by linarith)

theorem a1_unit (v : List ℝ) : ∀ x ∈ orbit 3 .a1 v, UnitRow x := by
  simp only [orbit, List.forall_mem_cons, List.not_mem_nil, IsEmpty.forall_iff, implies_true,
    and_true]
  refine ⟨?_, ?_, ?_, ?_, ?_, ?_⟩ <;> exact unitRow_mk (by norm_num)

theorem a2_unit (v : List ℝ) : ∀ x ∈ orbit 3 .a2 v, UnitRow x := by
  have h : (1 / √2 : ℝ) ^ 2 = 1 / 2 := by rw [div_pow, Real.sq_sqrt (by norm_num)]; norm_num
  simp only [orbit, List.forall_mem_cons, List.not_mem_nil, IsEmpty.forall_iff, implies_true,
    and_true]
  refine ⟨?_, ?_, ?_, ?_, ?_, ?_, ?_, ?_, ?_, ?_, ?_, ?_⟩ <;>
    exact unitRow_mk (by simp only [neg_sq, h]; norm_num)

theorem a3_unit (v : List ℝ) : ∀ x ∈ orbit 3 .a3 v, UnitRow x := by
  have h : (1 / √3 : ℝ) ^ 2 = 1 / 3 := by rw [div_pow, Real.sq_sqrt (by norm_num)]; norm_num
  simp only [orbit, List.forall_mem_cons, List.not_mem_nil, IsEmpty.forall_iff, implies_true,
    and_true]
  refine ⟨?_, ?_, ?_, ?_, ?_, ?_, ?_, ?_⟩ <;>
    exact unitRow_mk (by simp only [neg_sq, h]; norm_num)

/-- Number of points of an orbit. -/
def unitCount : SymKey → ℕ
  | .a1 => 6
  | .a2 => 12
  | .a3 => 8
  | .rs0 => 12
  | .rsw => 48
  | .rsw2 => 48
  | _ => 24

/-- The points of an orbit lie on the unit sphere, and their number depends only on the key. -/
theorem C53_orbit (k : SymKey) (v : List ℝ) (h : UnitVals k v) :
    (orbit 3 k v).length = unitCount k ∧ ∀ x ∈ orbit 3 k v, UnitRow x := by
  have hs : ∀ v : ℝ, Real.sin v ^ 2 + Real.cos v ^ 2 = 1 := Real.sin_sq_add_cos_sq
  unfold UnitVals at h
  split at h
  · exact ⟨rfl, a1_unit _⟩
  · exact ⟨rfl, a2_unit _⟩
  · exact ⟨rfl, a3_unit _⟩
  · rename_i v
    refine ⟨rfl, llm2_unit ?_⟩
    rw [div_pow, Real.sq_sqrt (by norm_num)]
    linarith [hs (v * Real.pi)]
  · exact ⟨rfl, pq02_unit (hs _)⟩
  · rename_i v w
    refine ⟨rfl, rsw2_unit ?_⟩
    have h1 := hs (v * Real.pi)
    have h2 := hs (w * Real.pi)
    linear_combination Real.sin (w * Real.pi) ^ 2 * h1 + h2
  · exact ⟨rfl, llm2_unit h⟩
  · refine ⟨rfl, llm2_unit ?_⟩
    rw [Real.sq_sqrt (by linarith)]; ring
  · exact ⟨rfl, pq02_unit h⟩
  · refine ⟨rfl, pq02_unit ?_⟩
    rw [Real.sq_sqrt (by linarith)]; ring
  · exact ⟨rfl, rs0_unit h⟩
  · refine ⟨rfl, rs0_unit ?_⟩
    rw [Real.sq_sqrt (by linarith)]; ring
  · exact ⟨rfl, rsw2_unit h⟩
  · refine ⟨rfl, rsw2_unit ?_⟩
    rw [Real.sq_sqrt (by linarith)]; ring
  · exact ⟨rfl, rst_unit h⟩
  · refine ⟨rfl, rst_unit ?_⟩
    rw [Real.sq_sqrt (by linarith)]; ring
  · exact ⟨rfl, rst_weird_unit h⟩
  · refine ⟨rfl, rst_weird_unit ?_⟩
    rw [Real.sq_sqrt (by linarith)]; ring
  · exact h.elim

/-- All points that `expand_symmetries` of a U3 scheme gives lie on the unit sphere. -/
theorem C53_points (data : List SymEntry)
    (h : ∀ e ∈ data, ∀ col ∈ e.cols, UnitVals e.key col) :
    ∀ x ∈ (expandSymmetries data 3).1, UnitRow x := by
  intro x hx
  simp only [expandSymmetries, List.mem_flatten, List.mem_map] at hx
  obtain ⟨_, ⟨e, he, rfl⟩, hx⟩ := hx
  simp only [entryPoints, List.mem_flatMap, List.mem_range, List.mem_map] at hx
  obtain ⟨c, hc, col, hcol, rfl⟩ := hx
  have h1 := C53_orbit e.key col (h e he col hcol)
  have h0 : (orbit 3 e.key (e.cols.headD [])).length = unitCount e.key := by
    cases hcs : e.cols with
    | nil => rw [hcs] at hcol; simp at hcol
    | cons a t => exact (C53_orbit e.key a (h e he a (by simp [hcs]))).1
  rw [h0, ← h1.1] at hc
  rw [List.getD_eq_getElem?_getD, List.getElem?_eq_getElem hc, Option.getD_some]
  exact h1.2 _ (List.getElem_mem hc)

/-- Non-trivial case: the 14-point rule of Albrecht and Collatz has its points on the sphere and
integrates `cos² θ` over the sphere exactly, to `4 pi / 3`. -/
example : U3.integrateSpherical FixedU3.albrecht_collatz_2.weights
    FixedU3.albrecht_collatz_2.points (fun θ _ => Real.cos θ ^ 2) = 4 * Real.pi / 3 := by
  have hu : ∀ x ∈ FixedU3.albrecht_collatz_2.points, ∑ i, toVec 3 x i ^ 2 = 1 := by
    intro x hx
    refine (C53_points _ ?_ x hx).2
    simp [UnitVals]
  have h := C53_spherical C48_u3_albrecht_collatz_2.1 hu (MvPolynomial.X 2 ^ 2)
    (by rw [C48_u3_albrecht_collatz_2.2]
        exact (MvPolynomial.totalDegree_pow _ _).trans (by simp))
    (fun θ _ => Real.cos θ ^ 2) (fun θ φ => by simp [spherePt])
  rw [h, sphericalIntegral]
  have := integral_sin_pow_odd_mul_cos_pow (a := 0) (b := Real.pi) 0 2
  simp only [mul_zero, zero_add, pow_one, pow_zero, mul_one, Real.cos_pi, Real.cos_zero,
    integral_pow] at this
  simp only [mul_comm (Real.cos _ ^ 2), this]
  simp
  ring

end Quadpy
