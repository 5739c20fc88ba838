import Verif.Props.C74Space
import Verif.Props.C11
import Verif.Props.C13
import Verif.Props.C15
import Verif.Props.C22
import Verif.Props.C29

/-!
# C74: the error of `integrate` on simplices, boxes, balls and spheres
-/

namespace Quadpy
open Adaptive Spec MeasureTheory Filter
open scoped Topology

/-! ### Simplices -/

theorem Tn.transform_mem {n m : ℕ} {v : Fin (n + 1) → Fin m → ℝ} {xi : Fin (n + 1) → ℝ} (h : ∀ i, 0 ≤ xi i)
    (h1 : ∑ i, xi i = 1) : Tn.transform xi v ∈ convexHull ℝ (Set.range v) := by
  have : Tn.transform xi v = ∑ i, xi i • v i := by
    funext j
    simp [Tn.transform, Finset.sum_apply, mul_comm]
  rw [this]
  exact (convex_convexHull ℝ _).sum_mem (fun i _ => h i) h1 fun i _ => subset_convexHull ℝ _ ⟨i, rfl⟩

section
variable {n : ℕ} {S : Scheme}

theorem finite_hull (v : Fin (n + 1) → Fin n → ℝ) :
    IsCompact (convexHull ℝ (Set.range v)) ∧ IsFiniteMeasure (volume.restrict (convexHull ℝ (Set.range v))) :=
  have h := (Set.finite_range v).isCompact_convexHull (𝕜 := ℝ)
  ⟨h, ⟨by rw [Measure.restrict_apply_univ]; exact h.measure_lt_top⟩⟩

theorem real_restrict_univ {α : Type*} [MeasurableSpace α] (μ : Measure α) (s : Set α) :
    (μ.restrict s).real Set.univ = (μ s).toReal := by
  rw [measureReal_def, Measure.restrict_apply_univ]

/-- A rule with nonnegative barycentric coordinates: the error on any simplex. -/
theorem C74_simplex (hS : S.ExactOnSimplex n) (hin : ∀ x ∈ S.points, ∀ i, 0 ≤ toVec (n + 1) x i)
    (v : Fin (n + 1) → Fin n → ℝ) {f : (Fin n → ℝ) → ℝ} (hf : Continuous f) (p : MvPolynomial (Fin n) ℝ)
    (hp : p.totalDegree ≤ S.degree) {ε : ℝ} (hε : 0 ≤ ε)
    (he : ∀ x ∈ convexHull ℝ (Set.range v), |f x - MvPolynomial.eval x p| ≤ ε) :
    |Tn.integrate S.weights S.points f v - ∫ x in convexHull ℝ (Set.range v), f x| ≤
      Tn.getVol v * ((S.weights.map abs).sum + 1) * ε := by
  obtain ⟨hK, hfin⟩ := finite_hull v
  have := C74_space_best (μ := volume.restrict (convexHull ℝ (Set.range v))) (g := id)
    (e := fun xi => Tn.transform xi v) measurable_id hK (ae_restrict_mem hK.isClosed.measurableSet)
    (fun q hq => Tn.C11_exact hS v q hq) (fun x hx => Tn.transform_mem (hin x hx) (by
      obtain ⟨h1, h2⟩ := hS.1.2.2 x hx
      rw [Tn.sum_toVec h1, h2])) hf p hp hε he
  rw [real_restrict_univ, ← Tn.C11_volume, abs_of_nonneg (Tn.C12_nonneg v)] at this
  refine this.trans (le_of_eq ?_)
  ring

/-- A mesh of simplices on each of which the integrand varies by at most `ω`. -/
theorem C74_mesh (hS : S.ExactOnSimplex n) (hin : ∀ x ∈ S.points, ∀ i, 0 ≤ toVec (n + 1) x i)
    {f : (Fin n → ℝ) → ℝ} (hf : Continuous f) {ω : ℝ} (hω : 0 ≤ ω) (L : List (Fin (n + 1) → Fin n → ℝ))
    (hL : ∀ v ∈ L, ∀ x ∈ convexHull ℝ (Set.range v), ∀ y ∈ convexHull ℝ (Set.range v), |f x - f y| ≤ ω) :
    |(L.map fun v => Tn.integrate S.weights S.points f v).sum -
      (L.map fun v => ∫ x in convexHull ℝ (Set.range v), f x).sum| ≤
      (L.map Tn.getVol).sum * ((S.weights.map abs).sum + 1) * ω := by
  induction L with
  | nil => simp
  | cons v L ih =>
    have h1 := C74_simplex hS hin v hf (MvPolynomial.C (f (v 0))) (by simp) hω fun x hx => by
      rw [MvPolynomial.eval_C]
      exact hL v (List.mem_cons_self ..) x hx _ (subset_convexHull ℝ _ ⟨0, rfl⟩)
    have h2 := ih fun w hw => hL w (List.mem_cons_of_mem _ hw)
    simp only [List.map_cons, List.sum_cons]
    rw [add_sub_add_comm]
    refine (abs_add_le _ _).trans ((add_le_add h1 h2).trans (le_of_eq ?_))
    ring

/-- Meshes of simplices in a compact set with diameters tending to 0: `integrate` over the mesh converges to the
integral, for every continuous function and every single rule. -/
theorem C74_mesh_tendsto (hS : S.ExactOnSimplex n) (hin : ∀ x ∈ S.points, ∀ i, 0 ≤ toVec (n + 1) x i)
    {f : (Fin n → ℝ) → ℝ} (hf : Continuous f) {K : Set (Fin n → ℝ)} (hK : IsCompact K)
    (M : ℕ → List (Fin (n + 1) → Fin n → ℝ)) (hMK : ∀ k, ∀ v ∈ M k, convexHull ℝ (Set.range v) ⊆ K) {V I : ℝ}
    (hV : ∀ k, ((M k).map Tn.getVol).sum ≤ V)
    (hI : ∀ k, ((M k).map fun v => ∫ x in convexHull ℝ (Set.range v), f x).sum = I)
    (hd : ∀ δ > 0, ∃ N, ∀ k ≥ N, ∀ v ∈ M k, ∀ x ∈ convexHull ℝ (Set.range v),
      ∀ y ∈ convexHull ℝ (Set.range v), dist x y < δ) :
    Tendsto (fun k => ((M k).map fun v => Tn.integrate S.weights S.points f v).sum) atTop (𝓝 I) := by
  have hV0 : 0 ≤ V := le_trans (List.sum_nonneg fun a ha => by
    obtain ⟨v, -, rfl⟩ := List.mem_map.1 ha
    exact Tn.C12_nonneg v) (hV 0)
  have hW : 0 ≤ (S.weights.map abs).sum := List.sum_nonneg (by simp)
  rw [Metric.tendsto_atTop]
  intro ε hε
  set C := V * ((S.weights.map abs).sum + 1) with hC
  have hC0 : 0 ≤ C := by positivity
  obtain ⟨δ, hδ, hu⟩ := Metric.uniformContinuousOn_iff.1
    (hK.uniformContinuousOn_of_continuous hf.continuousOn) (ε / (C + 1)) (by positivity)
  obtain ⟨N, hN⟩ := hd δ hδ
  refine ⟨N, fun k hk => ?_⟩
  have h1 := C74_mesh hS hin hf (ω := ε / (C + 1)) (by positivity) (M k) fun v hv x hx y hy =>
    (hu x (hMK k v hv hx) y (hMK k v hv hy) (hN k hk v hv x hx y hy)).le
  rw [hI k] at h1
  rw [Real.dist_eq]
  refine lt_of_le_of_lt (b := C * (ε / (C + 1))) (h1.trans ?_) ?_
  · exact mul_le_mul_of_nonneg_right (mul_le_mul_of_nonneg_right (hV k) (by positivity)) (by positivity)
  · rw [mul_div_assoc', div_lt_iff₀ (by positivity)]
    nlinarith

/-- The centroid rule on a mesh. -/
example (n : ℕ) {f : (Fin n → ℝ) → ℝ} (hf : Continuous f) {ω : ℝ} (hω : 0 ≤ ω)
    (L : List (Fin (n + 1) → Fin n → ℝ))
    (hL : ∀ v ∈ L, ∀ x ∈ convexHull ℝ (Set.range v), ∀ y ∈ convexHull ℝ (Set.range v), |f x - f y| ≤ ω) :
    |(L.map fun v => Tn.integrate (Tn.stroudTn11 n).weights (Tn.stroudTn11 n).points f v).sum -
      (L.map fun v => ∫ x in convexHull ℝ (Set.range v), f x).sum| ≤ (L.map Tn.getVol).sum * 2 * ω := by
  have := C74_mesh (Tn.C22_stroudTn11 n) (by
    rw [show (Tn.stroudTn11 n).points = [List.replicate (n + 1) (1 / ((n : ℝ) + 1))] from rfl]
    simp only [List.mem_singleton, forall_eq]
    intro i
    show 0 ≤ (List.replicate (n + 1) (1 / ((n : ℝ) + 1))).getD i 0
    rw [List.getD_replicate _ i.2]
    positivity) hf hω L hL
  refine this.trans (le_of_eq ?_)
  rw [show (Tn.stroudTn11 n).weights = [1] from rfl]
  norm_num

/-- Families of rules with nonnegative weights and coordinates converge on every simplex. -/
theorem C74_simplex_tendsto {S : ℕ → Scheme} (hS : ∀ k, (S k).ExactOnSimplex n)
    (hin : ∀ k, ∀ x ∈ (S k).points, ∀ i, 0 ≤ toVec (n + 1) x i) (hW : ∀ k, ∀ w ∈ (S k).weights, 0 ≤ w)
    (hd : Tendsto (fun k => (S k).degree) atTop atTop) (v : Fin (n + 1) → Fin n → ℝ) {f : (Fin n → ℝ) → ℝ}
    (hf : Continuous f) :
    Tendsto (fun k => Tn.integrate (S k).weights (S k).points f v) atTop
      (𝓝 (∫ x in convexHull ℝ (Set.range v), f x)) := by
  obtain ⟨hK, hfin⟩ := finite_hull v
  exact C74_space_tendsto (μ := volume.restrict (convexHull ℝ (Set.range v))) (g := id)
    (e := fun xi => Tn.transform xi v) measurable_id hK (ae_restrict_mem hK.isClosed.measurableSet)
    (Tn.C12_nonneg v) (fun k q hq => Tn.C11_exact (hS k) v q hq) (fun k => (hS k).1.2.1)
    (fun k x hx => Tn.transform_mem (hin k x hx) (by
      obtain ⟨h1, h2⟩ := (hS k).1.2.2 x hx
      rw [Tn.sum_toVec h1, h2])) hW hd hf

/-! ### Balls -/

theorem isCompact_ball (c : Fin n → ℝ) (r : ℝ) : IsCompact (closedBall c r) := by
  refine (isCompact_Icc (a := fun i => c i - |r|) (b := fun i => c i + |r|)).of_isClosed_subset ?_ ?_
  · exact isClosed_le (by fun_prop) continuous_const
  · intro x hx
    have : ∀ i, |x i - c i| ≤ |r| := fun i => sq_le_sq.1
      ((Finset.single_le_sum (f := fun i => (x i - c i) ^ 2) (fun j _ => sq_nonneg _) (Finset.mem_univ i)).trans hx)
    exact ⟨fun i => by have := (abs_le.1 (this i)).1; simp only; linarith,
      fun i => by have := (abs_le.1 (this i)).2; simp only; linarith⟩

theorem ball_mem {c : Fin n → ℝ} {r : ℝ} {x : Fin n → ℝ} (hx : x ∈ unitBall n) :
    (fun i => r * x i + c i) ∈ closedBall c r := by
  show ∑ i, (r * x i + c i - c i) ^ 2 ≤ r ^ 2
  have : ∑ i, (r * x i + c i - c i) ^ 2 = r ^ 2 * ∑ i, x i ^ 2 := by
    rw [Finset.mul_sum]; exact Finset.sum_congr rfl fun _ _ => by ring
  rw [this]
  have hx' : ∑ i, x i ^ 2 ≤ 1 := hx
  nlinarith [sq_nonneg r]

/-- The error on any ball. -/
theorem C74_ball (hn : 0 < n) (hS : S.ExactOnBall n) (hin : ∀ x ∈ S.points, toVec n x ∈ unitBall n)
    (c : Fin n → ℝ) {r : ℝ} (hr : 0 < r) {f : (Fin n → ℝ) → ℝ} (hf : Continuous f)
    (p : MvPolynomial (Fin n) ℝ) (hp : p.totalDegree ≤ S.degree) {ε : ℝ} (hε : 0 ≤ ε)
    (he : ∀ x ∈ closedBall c r, |f x - MvPolynomial.eval x p| ≤ ε) :
    |Sn.integrate S.weights S.points f c r - ∫ x in closedBall c r, f x| ≤
      nballVolume n r * ((S.weights.map abs).sum + 1) * ε := by
  have hK := isCompact_ball c r
  have hfin : IsFiniteMeasure (volume.restrict (closedBall c r)) :=
    ⟨by rw [Measure.restrict_apply_univ]; exact hK.measure_lt_top⟩
  have := C74_space_best (μ := volume.restrict (closedBall c r)) (g := id)
    (e := fun x i => r * x i + c i) measurable_id hK (ae_restrict_mem hK.isClosed.measurableSet)
    (fun q hq => C15_ball hn hS c hr q hq) (fun x hx => ball_mem (hin x hx)) hf p hp hε he
  have h0 : 0 ≤ nballVolume n r := by
    rw [C15_ball_volume hn]
    exact mul_nonneg (by positivity) (integral_nonneg fun _ => zero_le_one)
  have hvol : (volume (closedBall c r)).toReal = nballVolume n r := by
    have h1 := C15_ball hn hS c hr 1 (by simp)
    have h2 := hS.2 1 (by simp)
    simp only [map_one, setIntegral_const, smul_eq_mul, mul_one, Sn.integrate] at h1 h2
    rw [← measureReal_def, ← h1, C15_ball_volume hn, mul_assoc, h2]
  rw [real_restrict_univ, hvol, abs_of_nonneg h0] at this
  refine this.trans (le_of_eq ?_)
  ring

/-- Families of rules converge on every ball. -/
theorem C74_ball_tendsto (hn : 0 < n) {S : ℕ → Scheme} (hS : ∀ k, (S k).ExactOnBall n)
    (hin : ∀ k, ∀ x ∈ (S k).points, toVec n x ∈ unitBall n) (hW : ∀ k, ∀ w ∈ (S k).weights, 0 ≤ w)
    (hd : Tendsto (fun k => (S k).degree) atTop atTop) (c : Fin n → ℝ) {r : ℝ} (hr : 0 < r)
    {f : (Fin n → ℝ) → ℝ} (hf : Continuous f) :
    Tendsto (fun k => Sn.integrate (S k).weights (S k).points f c r) atTop (𝓝 (∫ x in closedBall c r, f x)) := by
  have hK := isCompact_ball c r
  have hfin : IsFiniteMeasure (volume.restrict (closedBall c r)) :=
    ⟨by rw [Measure.restrict_apply_univ]; exact hK.measure_lt_top⟩
  exact C74_space_tendsto (μ := volume.restrict (closedBall c r)) (g := id)
    (e := fun x i => r * x i + c i) measurable_id hK (ae_restrict_mem hK.isClosed.measurableSet)
    (by
      rw [C15_ball_volume hn]
      exact mul_nonneg (by positivity) (integral_nonneg fun _ => zero_le_one))
    (fun k q hq => C15_ball hn (hS k) c hr q hq) (fun k => (hS k).1.2.1)
    (fun k x hx => ball_mem (hin k x hx)) hW hd hf

/-! ### Spheres -/

theorem isCompact_sphere' (n : ℕ) : IsCompact {x : Fin n → ℝ | ∑ i, x i ^ 2 = 1} :=
  (isCompact_unitBall n).of_isClosed_subset (isClosed_eq (by fun_prop) continuous_const) fun _ hx => le_of_eq hx

theorem sphere_mem (x : Metric.sphere (0 : EuclideanSpace ℝ (Fin n)) 1) :
    (fun i => x.1 i) ∈ {x : Fin n → ℝ | ∑ i, x i ^ 2 = 1} := by
  have h := x.2
  rw [mem_sphere_zero_iff_norm, EuclideanSpace.norm_eq, Real.sqrt_eq_one] at h
  simpa using h

/-- The error on any sphere. -/
theorem C74_sphere (hn : 0 < n) (hS : S.ExactOnSphere n) (hin : ∀ x ∈ S.points, ∑ i, toVec n x i ^ 2 = 1)
    (c : Fin n → ℝ) {r : ℝ} (hr : 0 ≤ r) {f : (Fin n → ℝ) → ℝ} (hf : Continuous f)
    (p : MvPolynomial (Fin n) ℝ) (hp : p.totalDegree ≤ S.degree) {ε : ℝ} (hε : 0 ≤ ε)
    (he : ∀ x, ∑ i, (x i - c i) ^ 2 = r ^ 2 → |f x - MvPolynomial.eval x p| ≤ ε) :
    |Un.integrate S.weights S.points f c r - sphereIntegral c r f| ≤
      nsphereVolume n r * ((S.weights.map abs).sum + 1) * ε := by
  have hK := isCompact_sphere' n
  have hA : Spec.sphere n (fun _ => 1) =
      ((volume : Measure (EuclideanSpace ℝ (Fin n))).toSphere).real Set.univ := by simp [Spec.sphere]
  have := C74_space_best (μ := (volume : Measure (EuclideanSpace ℝ (Fin n))).toSphere)
    (g := fun x i => x.1 i) (e := id) (by fun_prop) hK
    (ae_of_all _ fun x => sphere_mem x) (fun q hq => hS.2 q hq) (fun x hx => hin x hx)
    (f := fun x => f fun i => r * x i + c i) (by fun_prop) (polyAffine (Matrix.diagonal fun _ => r) c p)
    ((totalDegree_polyAffine _ _ p).trans hp) hε fun x hx => by
      rw [eval_polyAffine, affine_ball]
      refine he _ ?_
      have h1 : ∑ i, x i ^ 2 = 1 := hx
      calc ∑ i, (r * x i + c i - c i) ^ 2 = r ^ 2 * ∑ i, x i ^ 2 := by
            rw [Finset.mul_sum]; exact Finset.sum_congr rfl fun _ _ => by ring
        _ = r ^ 2 := by rw [h1, mul_one]
  have h0 : 0 ≤ Spec.sphere n (fun _ => 1) := by rw [hA]; exact measureReal_nonneg
  rw [← hA, abs_of_nonneg h0] at this
  rw [Un.integrate, C15_sphere_volume hn, sphereIntegral, mul_assoc, ← mul_sub, abs_mul,
    abs_of_nonneg (pow_nonneg hr _), mul_assoc, mul_assoc]
  refine mul_le_mul_of_nonneg_left (this.trans (le_of_eq ?_)) (pow_nonneg hr _)
  ring

/-- Families of rules converge on every sphere. -/
theorem C74_sphere_tendsto (hn : 0 < n) {S : ℕ → Scheme} (hS : ∀ k, (S k).ExactOnSphere n)
    (hin : ∀ k, ∀ x ∈ (S k).points, ∑ i, toVec n x i ^ 2 = 1) (hW : ∀ k, ∀ w ∈ (S k).weights, 0 ≤ w)
    (hd : Tendsto (fun k => (S k).degree) atTop atTop) (c : Fin n → ℝ) (r : ℝ)
    {f : (Fin n → ℝ) → ℝ} (hf : Continuous f) :
    Tendsto (fun k => Un.integrate (S k).weights (S k).points f c r) atTop (𝓝 (sphereIntegral c r f)) := by
  have := C74_space_tendsto (μ := (volume : Measure (EuclideanSpace ℝ (Fin n))).toSphere)
    (g := fun x i => x.1 i) (e := id) (by fun_prop) (isCompact_sphere' n)
    (ae_of_all _ fun x => sphere_mem x) (integral_nonneg fun _ => zero_le_one) (fun k q hq => (hS k).2 q hq)
    (fun k => (hS k).1.2.1) (fun k x hx => hin k x hx) hW hd
    (f := fun x => f fun i => r * x i + c i) (by fun_prop)
  have := this.const_mul (r ^ (n - 1))
  simp only [Un.integrate, C15_sphere_volume hn, sphereIntegral, mul_assoc]
  exact this

/-- `u2.krylov(n)` converges for every continuous function on every circle. -/
theorem C74_krylov {f : (Fin 2 → ℝ) → ℝ} (hf : Continuous f) (c : Fin 2 → ℝ) (r : ℝ) :
    Tendsto (fun n => U2.integrate (U2.krylov (n + 1)).weights (U2.krylov (n + 1)).points f c r) atTop
      (𝓝 (sphereIntegral c r f)) := by
  have := C74_sphere_tendsto (n := 2) (by norm_num) (fun k => (C29_krylov (k + 1) (by omega)).2) (fun k x hx => ?_)
    (fun k w hw => ?_) (tendsto_id.congr fun k => by rw [(C29_krylov (k + 1) (by omega)).1]; simp) c r hf
  · refine this.congr fun k => ?_
    simp [U2.integrate, Un.integrate, nsphereVolume]
  · simp only [U2.krylov, List.mem_map] at hx
    obtain ⟨j, -, rfl⟩ := hx
    simp [toVec, Fin.sum_univ_two]
  · simp only [U2.krylov] at hw
    rw [List.eq_of_mem_replicate hw]
    positivity

end

/-! ### Boxes and parallelotopes -/

section
variable {d : ℕ} {S : Scheme}
open Cn

theorem isCompact_par (c : Fin (d + 1) → ℝ) (E : Fin (d + 1) → Fin (d + 1) → ℝ) :
    IsCompact (parallelotope c E) := by
  rw [← image_par]
  exact isCompact_Icc.image (by unfold affineMap; fun_prop)

theorem integrate_par (W : List ℝ) (P : List (List ℝ)) (f : (Fin (d + 1) → ℝ) → ℝ) (c : Fin (d + 1) → ℝ)
    (E : Fin (d + 1) → Fin (d + 1) → ℝ) : integrate W P f (parCorners c E) =
      2 ^ (d + 1) * |(parMatrix E).det| * dot (d + 1) W P fun x => f (affineMap (parMatrix E) (parMid c E) x) := by
  rw [integrate, integrateV]
  simp only [transform_affine, getDetJ_par, List.length_nil, add_zero, Nat.add_sub_cancel]
  rw [dot_mul_const, mul_assoc]

/-- The error on any parallelotope; `2 ^ n |det|` is its volume. -/
theorem C74_parallelotope (hS : S.ExactOnCube (d + 1))
    (hin : ∀ x ∈ S.points, toVec (d + 1) x ∈ Set.Icc (fun _ => -1) fun _ => (1 : ℝ))
    (c : Fin (d + 1) → ℝ) (E : Fin (d + 1) → Fin (d + 1) → ℝ) {f : (Fin (d + 1) → ℝ) → ℝ} (hf : Continuous f)
    (p : MvPolynomial (Fin (d + 1)) ℝ) (hp : p.totalDegree ≤ S.degree) {ε : ℝ} (hε : 0 ≤ ε)
    (he : ∀ x ∈ parallelotope c E, |f x - MvPolynomial.eval x p| ≤ ε) :
    |integrate S.weights S.points f (parCorners c E) - ∫ x in parallelotope c E, f x| ≤
      (volume (parallelotope c E)).toReal * ((S.weights.map abs).sum + 1) * ε := by
  have hK := isCompact_par c E
  have hfin : IsFiniteMeasure (volume.restrict (parallelotope c E)) :=
    ⟨by rw [Measure.restrict_apply_univ]; exact hK.measure_lt_top⟩
  have hvol : (volume (parallelotope c E)).toReal = 2 ^ (d + 1) * |(parMatrix E).det| := by
    have h1 := C13_parallelotope hS c E 1 (by simp)
    have h2 := hS.2 1 (by simp)
    rw [integrate_par] at h1
    simp only [map_one, setIntegral_const, smul_eq_mul, mul_one] at h1
    simp only [map_one, Spec.cube, setIntegral_const, smul_eq_mul, mul_one] at h2
    rw [← measureReal_def, ← h1, measureReal_def, Real.volume_Icc_pi_toReal (fun _ => by norm_num)] at *
    simp only [sub_neg_eq_add, Finset.prod_const, Finset.card_univ, Fintype.card_fin] at h2
    norm_num at h2
    rw [h2, mul_one]
  have := C74_space_best (μ := volume.restrict (parallelotope c E)) (g := id)
    (e := affineMap (parMatrix E) (parMid c E)) (c := 2 ^ (d + 1) * |(parMatrix E).det|) measurable_id hK
    (ae_restrict_mem hK.isClosed.measurableSet)
    (fun q hq => (integrate_par _ _ _ _ _).symm.trans (C13_parallelotope hS c E q hq))
    (fun x hx => by rw [← image_par]; exact ⟨_, hin x hx, rfl⟩) hf p hp hε he
  rw [real_restrict_univ, ← hvol, abs_of_nonneg ENNReal.toReal_nonneg, hvol, ← integrate_par] at this
  refine this.trans (le_of_eq ?_)
  rw [hvol]
  ring

/-- The error on any box. -/
theorem C74_box (hS : S.ExactOnCube (d + 1))
    (hin : ∀ x ∈ S.points, toVec (d + 1) x ∈ Set.Icc (fun _ => -1) fun _ => (1 : ℝ))
    {a b : Fin (d + 1) → ℝ} (hab : a ≤ b) {f : (Fin (d + 1) → ℝ) → ℝ} (hf : Continuous f)
    (p : MvPolynomial (Fin (d + 1)) ℝ) (hp : p.totalDegree ≤ S.degree) {ε : ℝ} (hε : 0 ≤ ε)
    (he : ∀ x ∈ Set.Icc a b, |f x - MvPolynomial.eval x p| ≤ ε) :
    |integrate S.weights S.points f (ncubePoints fun i => ![a i, b i]) - ∫ x in Set.Icc a b, f x| ≤
      (∏ i, (b i - a i)) * ((S.weights.map abs).sum + 1) * ε := by
  have := C74_parallelotope hS hin (fun i => a i) (fun k i => if k = i then b i - a i else 0) hf p hp hε
    (by rwa [box_parallelotope a b hab])
  rw [box_parallelotope a b hab, Real.volume_Icc_pi_toReal hab] at this
  rw [box_parCorners]
  simpa only [Matrix.cons_val_zero, Matrix.cons_val_one] using this

/-- The midpoint rule on a box. -/
example {f : (Fin 3 → ℝ) → ℝ} (hf : Continuous f) {ω : ℝ} (hω : 0 ≤ ω) {a b : Fin 3 → ℝ} (hab : a ≤ b)
    (h : ∀ x ∈ Set.Icc a b, |f x - f a| ≤ ω) :
    |integrate (stroudCn11 3).weights (stroudCn11 3).points f (ncubePoints fun i => ![a i, b i]) -
      ∫ x in Set.Icc a b, f x| ≤ (∏ i, (b i - a i)) * 2 * ω := by
  have := C74_box (d := 2) (C21_stroudCn11 3) (by
    simp only [stroudCn11, List.mem_singleton, forall_eq]
    constructor <;> intro i <;> fin_cases i <;> simp [toVec]) hab hf (MvPolynomial.C (f a)) (by simp) hω (by simpa using h)
  refine this.trans (le_of_eq ?_)
  simp [stroudCn11]
  norm_num

/-- Families of rules converge on every parallelotope. -/
theorem C74_parallelotope_tendsto {S : ℕ → Scheme} (hS : ∀ k, (S k).ExactOnCube (d + 1))
    (hin : ∀ k, ∀ x ∈ (S k).points, toVec (d + 1) x ∈ Set.Icc (fun _ => -1) fun _ => (1 : ℝ))
    (hW : ∀ k, ∀ w ∈ (S k).weights, 0 ≤ w)
    (hd : Tendsto (fun k => (S k).degree) atTop atTop) (c : Fin (d + 1) → ℝ)
    (E : Fin (d + 1) → Fin (d + 1) → ℝ) {f : (Fin (d + 1) → ℝ) → ℝ} (hf : Continuous f) :
    Tendsto (fun k => integrate (S k).weights (S k).points f (parCorners c E)) atTop
      (𝓝 (∫ x in parallelotope c E, f x)) := by
  have hK := isCompact_par c E
  have hfin : IsFiniteMeasure (volume.restrict (parallelotope c E)) :=
    ⟨by rw [Measure.restrict_apply_univ]; exact hK.measure_lt_top⟩
  simp only [integrate_par]
  exact C74_space_tendsto (μ := volume.restrict (parallelotope c E)) (g := id)
    (e := affineMap (parMatrix E) (parMid c E)) (c := 2 ^ (d + 1) * |(parMatrix E).det|) measurable_id hK
    (ae_restrict_mem hK.isClosed.measurableSet) (by positivity)
    (fun k q hq => (integrate_par _ _ _ _ _).symm.trans (C13_parallelotope (hS k) c E q hq))
    (fun k => (hS k).1.2.1)
    (fun k x hx => by rw [← image_par]; exact ⟨_, hin k x hx, rfl⟩) hW hd hf

end

end Quadpy
