import Verif.Props.C74Families
import Verif.Props.C30Gauss
import Mathlib.Topology.ContinuousMap.StoneWeierstrass
import Mathlib.Topology.Algebra.MvPolynomial

/-!
# C74 in several variables
-/

namespace Quadpy
open Adaptive Spec MeasureTheory OneDim Filter
open scoped Topology

/-! ### The theorem of Weierstrass in several variables -/

/-- Polynomials are dense in the continuous functions on a compact set. -/
theorem exists_mvPolynomial_near {n : ℕ} {K : Set (Fin n → ℝ)} (hK : IsCompact K) {f : (Fin n → ℝ) → ℝ}
    (hf : Continuous f) {ε : ℝ} (hε : 0 < ε) :
    ∃ p : MvPolynomial (Fin n) ℝ, ∀ x ∈ K, |f x - MvPolynomial.eval x p| ≤ ε := by
  have : CompactSpace K := isCompact_iff_compactSpace.1 hK
  let φ : MvPolynomial (Fin n) ℝ →ₐ[ℝ] C(K, ℝ) :=
    MvPolynomial.aeval fun i => ⟨fun x => x.1 i, (continuous_apply i).comp continuous_subtype_val⟩
  have hφ : ∀ p (x : K), φ p x = MvPolynomial.eval x.1 p := by
    intro p x
    induction p using MvPolynomial.induction_on with
    | C a => simp [φ]
    | add p q hp hq => rw [map_add, ContinuousMap.add_apply, hp, hq, map_add]
    | mul_X p i hp => rw [map_mul, ContinuousMap.mul_apply, hp, map_mul]; simp [φ]
  have hsep : φ.range.SeparatesPoints := by
    intro x y hxy
    obtain ⟨i, hi⟩ : ∃ i, x.1 i ≠ y.1 i := by
      by_contra h
      push Not at h
      exact hxy (Subtype.ext (funext h))
    refine ⟨_, ⟨φ (MvPolynomial.X i), ⟨_, rfl⟩, rfl⟩, ?_⟩
    show φ _ x ≠ φ _ y
    rw [hφ, hφ]
    simpa using hi
  obtain ⟨⟨_, p, rfl⟩, hg⟩ := ContinuousMap.exists_mem_subalgebra_near_continuousMap_of_separatesPoints
    φ.range hsep ⟨fun x : K => f x.1, hf.comp continuous_subtype_val⟩ ε hε
  refine ⟨p, fun x hx => ?_⟩
  have := (ContinuousMap.norm_coe_le_norm _ (⟨x, hx⟩ : K)).trans hg.le
  rw [ContinuousMap.sub_apply, Real.norm_eq_abs] at this
  rw [abs_sub_comm, ← hφ p ⟨x, hx⟩]
  exact this

/-! ### Error and convergence -/

theorem dot_abs_le {m : ℕ} {g : (Fin m → ℝ) → ℝ} {c : ℝ} (hc : 0 ≤ c) :
    ∀ {W : List ℝ} {P : List (List ℝ)} (_ : ∀ x ∈ P, |g (toVec m x)| ≤ c),
      |dot m W P g| ≤ c * (W.map abs).sum
  | [], P, _ => by simp [dot]
  | w :: W, [], _ => by
    simp only [dot, List.zipWith_nil_right, List.sum_nil, abs_zero]
    exact mul_nonneg hc (List.sum_nonneg (by simp))
  | w :: W, x :: P, h => by
    have h1 := dot_abs_le (W := W) hc fun y hy => h y (List.mem_cons_of_mem _ hy)
    have h2 := mul_le_mul_of_nonneg_left (h x (List.mem_cons_self ..)) (abs_nonneg w)
    have e : dot m (w :: W) (x :: P) g = w * g (toVec m x) + dot m W P g := by simp [dot]
    rw [e, List.map_cons, List.sum_cons]
    refine (abs_add_le _ _).trans ?_
    rw [abs_mul]
    linarith

theorem dot_sub' {m : ℕ} (W : List ℝ) (P : List (List ℝ)) (g h : (Fin m → ℝ) → ℝ) :
    dot m W P (fun x => g x - h x) = dot m W P g - dot m W P h := by
  have := dot_finset_sum W P (Finset.univ : Finset (Fin 2)) ![1, -1] ![g, h]
  simp only [Fin.sum_univ_two, Matrix.cons_val_zero, Matrix.cons_val_one] at this
  rw [show (fun x => g x - h x) = fun x => 1 * g x + -1 * h x by funext x; ring, this]
  ring

section
variable {n m : ℕ} {X : Type*} [MeasurableSpace X] {μ : Measure X} [IsFiniteMeasure μ]
  {g : X → Fin n → ℝ} {K : Set (Fin n → ℝ)} {e : (Fin m → ℝ) → Fin n → ℝ}

/-- A rule with the weights `W` and the points `e x`, `x ∈ P`, times `c`, for an integral over the compact set
`K`: the error is at most a multiple of the distance to the polynomials the rule is exact for. -/
theorem C74_space_best (hg : Measurable g) (hK : IsCompact K) (hgK : ∀ᵐ x ∂μ, g x ∈ K) {W : List ℝ}
    {P : List (List ℝ)} {c : ℝ} {d : ℕ} (h : ∀ p : MvPolynomial (Fin n) ℝ, p.totalDegree ≤ d →
      c * dot m W P (fun x => MvPolynomial.eval (e x) p) = ∫ x, MvPolynomial.eval (g x) p ∂μ)
    (hP : ∀ x ∈ P, e (toVec m x) ∈ K) {f : (Fin n → ℝ) → ℝ} (hf : Continuous f)
    (p : MvPolynomial (Fin n) ℝ) (hp : p.totalDegree ≤ d) {ε : ℝ} (hε : 0 ≤ ε)
    (he : ∀ x ∈ K, |f x - MvPolynomial.eval x p| ≤ ε) :
    |c * dot m W P (fun x => f (e x)) - ∫ x, f (g x) ∂μ| ≤ (|c| * (W.map abs).sum + μ.real Set.univ) * ε := by
  have h1 : |c * dot m W P (fun x => f (e x)) - c * dot m W P (fun x => MvPolynomial.eval (e x) p)| ≤
      |c| * (ε * (W.map abs).sum) := by
    rw [← mul_sub, abs_mul, ← dot_sub']
    exact mul_le_mul_of_nonneg_left (dot_abs_le hε fun x hx => he _ (hP x hx)) (abs_nonneg c)
  have hint : ∀ q : (Fin n → ℝ) → ℝ, Continuous q → Integrable (fun x => q (g x)) μ := fun q hq => by
    obtain ⟨C, hC⟩ := hK.exists_bound_of_continuousOn hq.continuousOn
    exact Integrable.of_bound (hq.measurable.comp hg).aestronglyMeasurable C
      (hgK.mono fun x hx => hC _ hx)
  have h2 : |(∫ x, MvPolynomial.eval (g x) p ∂μ) - ∫ x, f (g x) ∂μ| ≤ ε * μ.real Set.univ := by
    rw [← integral_sub (hint _ (MvPolynomial.continuous_eval p)) (hint _ hf), ← Real.norm_eq_abs]
    refine norm_integral_le_of_norm_le_const (hgK.mono fun x hx => ?_)
    rw [Real.norm_eq_abs, abs_sub_comm]
    exact he _ hx
  rw [h p hp] at h1
  have := abs_sub_le (c * dot m W P (fun x => f (e x))) (∫ x, MvPolynomial.eval (g x) p ∂μ)
    (∫ x, f (g x) ∂μ)
  calc _ ≤ _ := this
    _ ≤ _ := add_le_add h1 h2
    _ = _ := by ring

/-- A family of rules with degrees growing beyond all bounds, points in the domain and nonnegative weights
converges for every continuous function. -/
theorem C74_space_tendsto (hg : Measurable g) (hK : IsCompact K) (hgK : ∀ᵐ x ∂μ, g x ∈ K)
    {W : ℕ → List ℝ} {P : ℕ → List (List ℝ)} {c : ℝ} (hc : 0 ≤ c) {d : ℕ → ℕ}
    (h : ∀ k, ∀ p : MvPolynomial (Fin n) ℝ, p.totalDegree ≤ d k →
      c * dot m (W k) (P k) (fun x => MvPolynomial.eval (e x) p) = ∫ x, MvPolynomial.eval (g x) p ∂μ)
    (hl : ∀ k, (W k).length = (P k).length)
    (hP : ∀ k, ∀ x ∈ P k, e (toVec m x) ∈ K) (hW : ∀ k, ∀ w ∈ W k, 0 ≤ w) (hd : Tendsto d atTop atTop)
    {f : (Fin n → ℝ) → ℝ} (hf : Continuous f) :
    Tendsto (fun k => c * dot m (W k) (P k) fun x => f (e x)) atTop (𝓝 (∫ x, f (g x) ∂μ)) := by
  have hs : ∀ k, |c| * ((W k).map abs).sum = μ.real Set.univ := fun k => by
    have h0 := h k 1 (by simp)
    simp only [map_one, integral_const, smul_eq_mul, mul_one] at h0
    rw [sum_abs_of_nonneg (hW k), abs_of_nonneg hc, ← h0]
    have key : ∀ {W : List ℝ} {P : List (List ℝ)}, W.length = P.length → dot m W P (fun _ => 1) = W.sum := by
      intro W P hl
      induction W generalizing P with
      | nil => simp [dot]
      | cons w W ih =>
        cases P with
        | nil => simp at hl
        | cons x P =>
          have := ih (P := P) (by simpa using hl)
          simp only [dot, mul_one, List.zipWith_cons_cons, List.sum_cons] at this ⊢
          rw [this]
    rw [key (hl k)]
  rw [Metric.tendsto_atTop]
  intro ε hε
  have hμ : 0 ≤ μ.real Set.univ := measureReal_nonneg
  set C := μ.real Set.univ + μ.real Set.univ with hC
  obtain ⟨p, hp⟩ := exists_mvPolynomial_near hK hf (ε := ε / (C + 1)) (by positivity)
  obtain ⟨N, hN⟩ := (tendsto_atTop_atTop.1 hd) p.totalDegree
  refine ⟨N, fun k hk => ?_⟩
  have h1 := C74_space_best hg hK hgK (h k) (hP k) hf p (hN k hk) (by positivity) hp
  rw [hs k] at h1
  rw [Real.dist_eq]
  refine lt_of_le_of_lt h1 ?_
  rw [← hC, mul_div_assoc', div_lt_iff₀ (by positivity)]
  nlinarith

end

/-! ### The square and the cube -/

theorem exactOnCube_tendsto {n : ℕ} {S : ℕ → Scheme} (h : ∀ k, (S k).ExactOnCube n)
    (hP : ∀ k, ∀ x ∈ (S k).points, ∀ i, -1 ≤ toVec n x i ∧ toVec n x i ≤ 1)
    (hW : ∀ k, ∀ w ∈ (S k).weights, 0 ≤ w) (hd : Tendsto (fun k => (S k).degree) atTop atTop)
    {f : (Fin n → ℝ) → ℝ} (hf : Continuous f) :
    Tendsto (fun k => 2 ^ n * dot n (S k).weights (S k).points f) atTop (𝓝 (Spec.cube n f)) := by
  have hfin : IsFiniteMeasure (volume.restrict (Set.Icc (fun _ : Fin n => (-1 : ℝ)) fun _ => 1)) :=
    ⟨by rw [Measure.restrict_apply_univ]; exact isCompact_Icc.measure_lt_top⟩
  exact C74_space_tendsto (μ := volume.restrict (Set.Icc (fun _ : Fin n => (-1 : ℝ)) fun _ => 1)) (g := id)
    (e := id) measurable_id isCompact_Icc (ae_restrict_mem measurableSet_Icc) (by positivity)
    (fun k p hp => (h k).2 p hp) (fun k => (h k).1.2.1)
    (fun k x hx => ⟨fun i => (hP k x hx i).1, fun i => (hP k x hx i).2⟩) hW hd hf

/-- The tensor products of a converging family with nonnegative weights converge on the square and on the
cube. -/
theorem C74_product {P W : ℕ → List ℝ} {d : ℕ → ℕ} (h : ∀ k, ExactC1 (P k) (W k) (d k))
    (hP : ∀ k, ∀ x ∈ P k, -1 ≤ x ∧ x ≤ 1) (hW : ∀ k, ∀ w ∈ W k, 0 ≤ w) (hd : Tendsto d atTop atTop) :
    (∀ f : (Fin 2 → ℝ) → ℝ, Continuous f → Tendsto (fun k => 2 ^ 2 *
      dot 2 (C2.product (P k) (W k) (d k)).weights (C2.product (P k) (W k) (d k)).points f) atTop
      (𝓝 (Spec.cube 2 f))) ∧
    ∀ f : (Fin 3 → ℝ) → ℝ, Continuous f → Tendsto (fun k => 2 ^ 3 *
      dot 3 (C3.product (P k) (W k) (d k)).weights (C3.product (P k) (W k) (d k)).points f) atTop
      (𝓝 (Spec.cube 3 f)) := by
  constructor
  · intro f hf
    refine exactOnCube_tendsto (fun k => (C32_c2_product (h k)).2) (fun k => ?_) (fun k => ?_) ?_ hf
    · rw [C2.product, plainScheme_eq]
      simp only [List.mem_flatMap, List.mem_map]
      rintro _ ⟨y, hy, x, hx, rfl⟩ i
      fin_cases i
      · exact hP k x hx
      · exact hP k y hy
    · rw [C2.product, plainScheme_eq]
      simp only [List.mem_flatMap, List.mem_map]
      rintro _ ⟨v, hv, w, hw, rfl⟩
      have := hW k v hv
      have := hW k w hw
      positivity
    · simpa only [(C32_c2_product (h _)).1] using hd
  · intro f hf
    refine exactOnCube_tendsto (fun k => (C32_c3_product (h k)).2) (fun k => ?_) (fun k => ?_) ?_ hf
    · rw [C3.product, plainScheme_eq]
      simp only [List.mem_flatMap, List.mem_map]
      rintro _ ⟨z, hz, y, hy, x, hx, rfl⟩ i
      fin_cases i
      · exact hP k x hx
      · exact hP k y hy
      · exact hP k z hz
    · rw [C3.product, plainScheme_eq]
      simp only [List.mem_flatMap, List.mem_map]
      rintro _ ⟨u, hu, v, hv, w, hw, rfl⟩
      have := hW k u hu
      have := hW k v hv
      have := hW k w hw
      positivity
    · simpa only [(C32_c3_product (h _)).1] using hd

/-! ### The disk -/

theorem isCompact_unitBall (n : ℕ) : IsCompact (unitBall n) := by
  refine (isCompact_Icc (a := fun _ : Fin n => (-1 : ℝ)) (b := fun _ => 1)).of_isClosed_subset ?_ ?_
  · exact isClosed_le (by fun_prop) continuous_const
  · intro x hx
    have : ∀ i, x i ^ 2 ≤ 1 := fun i =>
      (Finset.single_le_sum (f := fun i => x i ^ 2) (fun j _ => sq_nonneg _) (Finset.mem_univ i)).trans hx
    exact ⟨fun i => (abs_le.1 ((sq_le_one_iff_abs_le_one _).1 (this i))).1,
      fun i => (abs_le.1 ((sq_le_one_iff_abs_le_one _).1 (this i))).2⟩

theorem exactOnBall_tendsto {n : ℕ} {S : ℕ → Scheme} (h : ∀ k, (S k).ExactOnBall n)
    (hP : ∀ k, ∀ x ∈ (S k).points, toVec n x ∈ unitBall n)
    (hW : ∀ k, ∀ w ∈ (S k).weights, 0 ≤ w) (hd : Tendsto (fun k => (S k).degree) atTop atTop)
    {f : (Fin n → ℝ) → ℝ} (hf : Continuous f) :
    Tendsto (fun k => (Spec.ball n fun _ => 1) * dot n (S k).weights (S k).points f) atTop
      (𝓝 (Spec.ball n f)) := by
  have hfin : IsFiniteMeasure (volume.restrict (unitBall n)) :=
    ⟨by rw [Measure.restrict_apply_univ]; exact (isCompact_unitBall n).measure_lt_top⟩
  exact C74_space_tendsto (μ := volume.restrict (unitBall n)) (g := id)
    (e := id) measurable_id (isCompact_unitBall n)
    (ae_restrict_mem (isCompact_unitBall n).isClosed.measurableSet)
    (integral_nonneg fun _ => zero_le_one)
    (fun k p hp => (h k).2 p hp) (fun k => (h k).1.2.1) hP hW hd hf

/-- `s2.lether(n)` converges for every continuous function on the disk. -/
theorem C74_s2_lether {P W : ℕ → List ℝ} (h : ∀ n, GaussLegendre (n + 1) (P n) (W n))
    {f : (Fin 2 → ℝ) → ℝ} (hf : Continuous f) :
    Tendsto (fun n => (Spec.ball 2 fun _ => 1) * dot 2 (S2.lether (n + 1) (P n) (W n)).weights
      (S2.lether (n + 1) (P n) (W n)).points f) atTop (𝓝 (Spec.ball 2 f)) := by
  have hG := fun n => (C19_gauss_legendre (n + 1)).2 _ _ (h n)
  refine exactOnBall_tendsto (fun n => ((C30_lether_gauss (n + 1)).2 _ _ (h n)).2) (fun n => ?_)
    (fun n => ?_) ?_ hf
  · rw [S2.lether, plainScheme_eq]
    simp only [List.mem_flatMap, List.mem_map]
    rintro _ ⟨p, hp, k, -, rfl⟩
    have h1 := (hG n).2.2.2.1 p hp
    simp only [unitBall, Set.mem_ofPred_eq, Fin.sum_univ_two, toVec]
    push_cast
    have h2 := Real.sin_sq_add_cos_sq (((k : ℝ) + 1) * Real.pi / (n + 1 + 1))
    have h3 : p ^ 2 ≤ 1 := by nlinarith [h1.1, h1.2]
    simp
    nlinarith [sq_nonneg (Real.sin (((k : ℝ) + 1) * Real.pi / (n + 1 + 1)))]
  · rw [S2.lether, plainScheme_eq]
    simp only [List.mem_flatMap, List.mem_map]
    rintro _ ⟨w, hw, k, -, rfl⟩
    have := (hG n).2.2.2.2.1 w hw
    positivity
  · refine tendsto_atTop_mono (fun n => ?_) tendsto_id
    rw [((C30_lether_gauss (n + 1)).2 _ _ (h n)).1]
    simp only [id]
    omega

/-- `s2.peirce_1957(m)` converges for every continuous function on the disk. -/
theorem C74_s2_peirce_1957 {P W : ℕ → List ℝ} (h : ∀ m, GaussLegendre (m + 1) (P m) (W m))
    {f : (Fin 2 → ℝ) → ℝ} (hf : Continuous f) :
    Tendsto (fun m => (Spec.ball 2 fun _ => 1) * dot 2 (S2.peirce1957 m (P m) (W m)).weights
      (S2.peirce1957 m (P m) (W m)).points f) atTop (𝓝 (Spec.ball 2 f)) := by
  have hG := fun n => (C19_gauss_legendre (n + 1)).2 _ _ (h n)
  refine exactOnBall_tendsto (fun n => ((C30_peirce1957_gauss n).2 _ _ (h n)).2) (fun n => ?_)
    (fun n => ?_) ?_ hf
  · rw [S2.peirce1957, plainScheme_eq]
    simp only [List.mem_flatMap, List.mem_map]
    rintro _ ⟨k, -, p, hp, rfl⟩
    have h1 := (hG n).2.2.2.1 p hp
    simp only [unitBall, Set.mem_ofPred_eq, Fin.sum_univ_two, toVec]
    simp only [Fin.val_zero, Fin.val_one, List.getD_cons_zero, List.getD_cons_succ]
    rw [mul_pow, mul_pow, Real.sq_sqrt (by linarith), ← mul_add, add_comm (Real.cos _ ^ 2),
      Real.sin_sq_add_cos_sq]
    linarith
  · rw [S2.peirce1957, plainScheme_eq]
    simp only [List.mem_flatMap, List.mem_map]
    rintro _ ⟨k, -, w, hw, rfl⟩
    have := (hG n).2.2.2.2.1 w hw
    positivity
  · refine tendsto_atTop_mono (fun n => ?_) tendsto_id
    rw [((C30_peirce1957_gauss n).2 _ _ (h n)).1]
    simp only [id]
    omega

/-! ### The triangle -/

theorem isCompact_unitSimplex (n : ℕ) : IsCompact (unitSimplex n) := by
  refine (isCompact_Icc (a := fun _ : Fin n => (0 : ℝ)) (b := fun _ => 1)).of_isClosed_subset ?_ ?_
  · have : unitSimplex n = (⋂ i, {x : Fin n → ℝ | 0 ≤ x i}) ∩ {x | ∑ i, x i ≤ 1} := by
      ext x; simp [unitSimplex]
    rw [this]
    exact (isClosed_iInter fun i => isClosed_le continuous_const (continuous_apply i)).inter
      (isClosed_le (by fun_prop) continuous_const)
  · intro x hx
    exact ⟨fun i => hx.1 i, fun i =>
      (Finset.single_le_sum (f := x) (fun j _ => hx.1 j) (Finset.mem_univ i)).trans hx.2⟩

theorem exactOnSimplex_tendsto {n : ℕ} {S : ℕ → Scheme} (h : ∀ k, (S k).ExactOnSimplex n)
    (hP : ∀ k, ∀ x ∈ (S k).points, (fun i : Fin n => toVec (n + 1) x i.succ) ∈ unitSimplex n)
    (hW : ∀ k, ∀ w ∈ (S k).weights, 0 ≤ w) (hd : Tendsto (fun k => (S k).degree) atTop atTop)
    {f : (Fin n → ℝ) → ℝ} (hf : Continuous f) :
    Tendsto (fun k => 1 / (n.factorial : ℝ) * dot (n + 1) (S k).weights (S k).points fun xi =>
      f fun i => xi i.succ) atTop (𝓝 (Spec.simplex n f)) := by
  have hfin : IsFiniteMeasure (volume.restrict (unitSimplex n)) :=
    ⟨by rw [Measure.restrict_apply_univ]; exact (isCompact_unitSimplex n).measure_lt_top⟩
  exact C74_space_tendsto (μ := volume.restrict (unitSimplex n)) (g := id)
    (e := fun xi i => xi i.succ) measurable_id (isCompact_unitSimplex n)
    (ae_restrict_mem (isCompact_unitSimplex n).isClosed.measurableSet) (by positivity)
    (fun k p hp => (h k).2 p hp) (fun k => (h k).1.2.1) hP hW hd hf

/-- `t2.lether(n)` converges for every continuous function on the triangle. -/
theorem C74_t2_lether {P W : ℕ → List ℝ} (h : ∀ n, GaussLegendre (n + 1) (P n) (W n))
    {f : (Fin 2 → ℝ) → ℝ} (hf : Continuous f) :
    Tendsto (fun n => 1 / ((2).factorial : ℝ) * dot 3 (T2.lether (n + 1) (P n) (W n)).weights
      (T2.lether (n + 1) (P n) (W n)).points fun xi => f fun i => xi i.succ) atTop
      (𝓝 (Spec.simplex 2 f)) := by
  have hG := fun n => (C19_gauss_legendre (n + 1)).2 _ _ (h n)
  refine exactOnSimplex_tendsto (fun n => ((C31_lether_gauss (n + 1)).2 _ _ (h n)).2) (fun n => ?_)
    (fun n => ?_) ?_ hf
  · rw [T2.lether, plainScheme_eq]
    simp only [List.mem_flatMap, List.mem_map]
    rintro _ ⟨p, hp, q, hq, rfl⟩
    have h1 := (hG n).2.2.2.1 p hp
    have h2 := (hG n).2.2.2.1 q hq
    have e0 : toVec 3 [(1 - p) / 2, (1 + p) * (1 - q) / 4, 1 - (1 - p) / 2 - (1 + p) * (1 - q) / 4]
        (Fin.succ 0) = (1 + p) * (1 - q) / 4 := rfl
    have e1 : toVec 3 [(1 - p) / 2, (1 + p) * (1 - q) / 4, 1 - (1 - p) / 2 - (1 + p) * (1 - q) / 4]
        (Fin.succ 1) = 1 - (1 - p) / 2 - (1 + p) * (1 - q) / 4 := rfl
    refine ⟨fun i => ?_, ?_⟩
    · fin_cases i
      · refine le_of_le_of_eq ?_ e0.symm
        nlinarith
      · refine le_of_le_of_eq ?_ e1.symm
        nlinarith
    · rw [Fin.sum_univ_two, e0, e1]
      linarith
  · rw [T2.lether, plainScheme_eq]
    simp only [List.mem_flatMap, List.mem_map]
    rintro _ ⟨⟨p, v⟩, hv, w, hw, rfl⟩
    have h1 := (hG n).2.2.2.1 p (List.of_mem_zip hv).1
    have h2 := (hG n).2.2.2.2.1 v (List.of_mem_zip hv).2
    have h3 := (hG n).2.2.2.2.1 w hw
    have : 0 ≤ 1 + p := by linarith
    positivity
  · refine tendsto_atTop_mono (fun n => ?_) tendsto_id
    rw [((C31_lether_gauss (n + 1)).2 _ _ (h n)).1]
    simp only [id]
    omega

end Quadpy
