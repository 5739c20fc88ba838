import Verif.Model.Residuals
import Verif.Lemmas.Sobolev
import Verif.Spec.Schemes
import Verif.Props.C63

/-!
# C64 — `compute_residuals` tells the degree of a rule on the sphere
-/

namespace Quadpy.Residuals
open MeasureTheory Finset

/-- The integral of a complex function over the unit sphere. -/
noncomputable def sphereC (Y : (Fin 3 → ℝ) → ℂ) : ℂ :=
  ∫ x : Metric.sphere (0 : EuclideanSpace ℝ (Fin 3)) 1, Y (fun i => x.1 i)
    ∂(volume : Measure (EuclideanSpace ℝ (Fin 3))).toSphere

/-- What the evaluator is supposed to supply: in step k polynomials of degree at most k on the sphere, with mean
zero unless k is 0, such that the functions of the steps 0, ..., d span the polynomials of degree d on the
sphere.  Spherical harmonics, with any normalisation, real or complex, have these properties. -/
structure Evaluator.Good (E : Evaluator) : Prop where
  ne : ∀ k, E.level k ≠ []
  poly : ∀ k, ∀ Y ∈ E.level k, ∃ p q : MvPolynomial (Fin 3) ℝ, p.totalDegree ≤ k ∧ q.totalDegree ≤ k ∧
    ∀ x : Fin 3 → ℝ, ∑ i, x i ^ 2 = 1 → Y x = (MvPolynomial.eval x p : ℝ) + (MvPolynomial.eval x q : ℝ) * Complex.I
  first : ∀ Y ∈ E.level 0, sphereC Y = E.int_p0
  mean : ∀ k, k ≠ 0 → ∀ Y ∈ E.level k, sphereC Y = 0
  span : ∀ d, ∀ p : MvPolynomial (Fin 3) ℝ, p.totalDegree ≤ d → ∃ c : ℕ → ℕ → ℂ,
    ∀ x : Fin 3 → ℝ, ∑ i, x i ^ 2 = 1 → ((MvPolynomial.eval x p : ℝ) : ℂ) =
      ∑ k ∈ range (d + 1), ∑ j : Fin (E.level k).length, c k j * (E.level k)[j] x

/-- The rule applied to a complex function, with the area of the sphere. -/
noncomputable def ruleC (S : Scheme) (Y : (Fin 3 → ℝ) → ℂ) : ℂ :=
  4 * Real.pi * (List.zipWith (fun (w : ℝ) x => (w : ℂ) * Y (toVec 3 x)) S.weights S.points).sum

/-- The error of the rule for a complex function. -/
noncomputable def errC (S : Scheme) (Y : (Fin 3 → ℝ) → ℂ) : ℂ := ruleC S Y - sphereC Y

/-! ### The loop -/

theorem run_next (E : Evaluator) (pts : List (List ℝ)) (k : ℕ) :
    (next E pts).run k = .ok ((E.level k).map fun Y => pts.map fun x => Y (toVec 3 x), k + 1) := rfl

theorem run_integrate (E : Evaluator) (w : List ℝ) (pts : List (List ℝ)) (k : ℕ) :
    (integrate w pts (fun _ => next E pts) [0, 0, 0] 1).run k =
      .ok ((E.level k).map fun Y => 4 * Real.pi *
        (List.zipWith (fun (w : ℝ) x => (w : ℂ) * Y (toVec 3 x)) w pts).sum, k + 1) := by
  have h : ((E.level k).map fun Y => pts.map fun x => Y (toVec 3 x)).all
      (fun row => row.length == (pts.map fun x => List.zipWith (fun a c => a * 1 + c) x [0, 0, (0 : ℝ)]).length) =
        true := by simp
  simp only [integrate, StateT.run_bind, run_next]
  change StateT.run (if _ then _ else _) (k + 1) = _
  rw [if_pos h]
  change Except.ok (_, k + 1) = _
  rw [List.map_map]
  congr 2
  refine List.map_congr_left fun Y _ => ?_
  simp only [Function.comp_apply, List.zipWith_map_left]
  rw [List.zipWith_comm]
  simp [mul_comm]

theorem npMax_spec {l : List ℝ} (hl : l ≠ []) (s : ℕ) : ∃ m, (npMax l).run s = .ok (m, s) ∧ IsGreatest {a | a ∈ l} m := by
  cases l with
  | nil => exact absurd rfl hl
  | cons a l =>
    refine ⟨l.foldl max a, rfl, ?_⟩
    clear hl
    induction l generalizing a with
    | nil => simp [IsGreatest, upperBounds]
    | cons b l ih =>
      obtain ⟨h1, h2⟩ := ih (max a b)
      rw [List.foldl_cons]
      constructor
      · have : l.foldl max (max a b) ∈ max a b :: l := h1
        rcases List.mem_cons.1 this with h | h
        · rw [h]
          rcases max_choice a b with h' | h' <;> rw [h'] <;> simp
        · exact List.mem_cons_of_mem _ (List.mem_cons_of_mem _ h)
      · intro c hc
        have h3 : max a b ≤ l.foldl max (max a b) := h2 (List.mem_cons_self)
        rcases List.mem_cons.1 (show c ∈ a :: b :: l from hc) with rfl | h
        · exact (le_max_left _ _).trans h3
        · rcases List.mem_cons.1 h with rfl | h
          · exact (le_max_right _ _).trans h3
          · exact h2 (List.mem_cons_of_mem _ h)

/-- `compute_residuals(level)` returns `level + 1` numbers.  The k-th is the largest error of the rule for the
functions of degree k. -/
theorem C64_residuals (S : Scheme) {E : Evaluator} (hE : E.Good) (level : ℕ) :
    ∃ r, computeResiduals S E level = .ok r ∧ r.length = level + 1 ∧
      ∀ k, (h : k < r.length) → IsGreatest {e | ∃ Y ∈ E.level k, e = ‖errC S Y‖} r[k] := by
  suffices ∀ n, ∃ r, ((List.range n).foldlM (step S E) []).run 0 = .ok (r, n) ∧ r.length = n ∧
      ∀ k, (h : k < r.length) → IsGreatest {e | ∃ Y ∈ E.level k, e = ‖errC S Y‖} r[k] by
    obtain ⟨r, h1, h2, h3⟩ := this (level + 1)
    refine ⟨r, ?_, h2, h3⟩
    rw [computeResiduals, StateT.run'_eq, h1]
    rfl
  intro n
  induction n with
  | zero => exact ⟨[], rfl, rfl, by simp⟩
  | succ n ih =>
    obtain ⟨r, h1, h2, h3⟩ := ih
    have hex : ∀ Y ∈ E.level n, (if n = 0 then E.int_p0 else 0) = sphereC Y := by
      intro Y hY
      split_ifs with h0
      · subst h0; exact (hE.first Y hY).symm
      · exact (hE.mean n h0 Y hY).symm
    obtain ⟨m, hm, hg⟩ := npMax_spec (l := (((E.level n).map fun Y => 4 * Real.pi *
        (List.zipWith (fun (w : ℝ) x => (w : ℂ) * Y (toVec 3 x)) S.weights S.points).sum).map fun a =>
          ‖a - (if n = 0 then E.int_p0 else 0)‖)) (by simp [hE.ne]) (n + 1)
    refine ⟨r ++ [m], ?_, by simp [h2], ?_⟩
    · rw [List.range_succ, List.foldlM_append, StateT.run_bind, h1]
      simp only [List.foldlM_cons, List.foldlM_nil, bind_pure]
      change (step S E r n).run n = _
      rw [step, StateT.run_bind, run_integrate]
      change StateT.run (npMax _ >>= fun m => pure (r ++ [m])) (n + 1) = _
      rw [StateT.run_bind, hm]
      rfl
    · intro k hk
      by_cases hkn : k < r.length
      · rw [List.getElem_append_left hkn]
        exact h3 k hkn
      · obtain rfl : k = n := by simp at hk; omega
        subst h2
        rw [List.getElem_append_right le_rfl]
        simp only [Nat.sub_self, List.getElem_cons_zero]
        convert hg using 1
        ext e
        simp only [Set.mem_ofPred_eq, List.map_map, List.mem_map, Function.comp_apply]
        refine exists_congr fun Y => and_congr_right fun hY => ?_
        rw [hex Y hY, eq_comm]
        rfl

/-! ### The error is a linear functional -/

theorem norm_sphere {n : ℕ} (x : Metric.sphere (0 : EuclideanSpace ℝ (Fin n)) 1) : ∑ i, x.1 i ^ 2 = 1 := by
  have h := x.2
  rw [mem_sphere_zero_iff_norm, EuclideanSpace.norm_eq, Real.sqrt_eq_one] at h
  simpa using h

/-- Functions which are polynomials on the sphere. -/
def PolyC (Y : (Fin 3 → ℝ) → ℂ) : Prop := ∃ p q : MvPolynomial (Fin 3) ℝ,
  ∀ x : Fin 3 → ℝ, ∑ i, x i ^ 2 = 1 → Y x = (MvPolynomial.eval x p : ℝ) + (MvPolynomial.eval x q : ℝ) * Complex.I

theorem sphereC_congr {Y Z : (Fin 3 → ℝ) → ℂ} (h : ∀ x : Fin 3 → ℝ, ∑ i, x i ^ 2 = 1 → Y x = Z x) :
    sphereC Y = sphereC Z :=
  integral_congr_ae (Filter.Eventually.of_forall fun x => h _ (norm_sphere x))

theorem poly_integrable (p : MvPolynomial (Fin 3) ℝ) :
    Integrable (fun x : Metric.sphere (0 : EuclideanSpace ℝ (Fin 3)) 1 => MvPolynomial.eval (fun i => x.1 i) p)
      (volume : Measure (EuclideanSpace ℝ (Fin 3))).toSphere := by
  refine Continuous.integrable_of_hasCompactSupport ?_ (HasCompactSupport.of_compactSpace _)
  simp only [MvPolynomial.eval_eq]
  fun_prop

theorem sphereC_poly (p q : MvPolynomial (Fin 3) ℝ) :
    sphereC (fun x => (MvPolynomial.eval x p : ℝ) + (MvPolynomial.eval x q : ℝ) * Complex.I) =
      (Spec.sphere 3 fun x => MvPolynomial.eval x p : ℝ) +
        (Spec.sphere 3 fun x => MvPolynomial.eval x q : ℝ) * Complex.I := by
  have hp := (poly_integrable p).ofReal (𝕜 := ℂ)
  have hq := (poly_integrable q).ofReal (𝕜 := ℂ)
  unfold sphereC Spec.sphere
  refine (integral_add hp (hq.mul_const _)).trans ?_
  rw [integral_mul_const]
  congr 1
  · exact integral_ofReal
  · congr 1
    exact integral_ofReal

theorem PolyC.integrable {Y : (Fin 3 → ℝ) → ℂ} (h : PolyC Y) :
    Integrable (fun x : Metric.sphere (0 : EuclideanSpace ℝ (Fin 3)) 1 => Y (fun i => x.1 i))
      (volume : Measure (EuclideanSpace ℝ (Fin 3))).toSphere := by
  obtain ⟨p, q, h⟩ := h
  have hp := (poly_integrable p).ofReal (𝕜 := ℂ)
  have hq := (poly_integrable q).ofReal (𝕜 := ℂ)
  refine (hp.add (hq.mul_const Complex.I)).congr (Filter.Eventually.of_forall fun x => ?_)
  exact (h _ (norm_sphere x)).symm

theorem ruleC_congr {S : Scheme} (hu : ∀ x ∈ S.points, ∑ i, toVec 3 x i ^ 2 = 1) {Y Z : (Fin 3 → ℝ) → ℂ}
    (h : ∀ x : Fin 3 → ℝ, ∑ i, x i ^ 2 = 1 → Y x = Z x) : ruleC S Y = ruleC S Z := by
  unfold ruleC
  congr 2
  exact zipWith_congr_mem _ _ _ _ fun a b hb => by rw [h _ (hu b hb)]

theorem ruleC_eq (S : Scheme) (Y : (Fin 3 → ℝ) → ℂ) :
    ruleC S Y = 4 * Real.pi * ∑ i : Fin (min S.weights.length S.points.length),
      ((S.weights[i] : ℝ) : ℂ) * Y (toVec 3 S.points[i]) := by
  unfold ruleC
  congr 1
  rw [← List.sum_ofFn]
  congr 1
  refine List.ext_getElem (by simp) fun i h1 h2 => by simp

theorem errC_sum {ι : Type*} (S : Scheme) (s : Finset ι) (c : ι → ℂ) (Y : ι → (Fin 3 → ℝ) → ℂ)
    (h : ∀ i ∈ s, PolyC (Y i)) : errC S (fun x => ∑ i ∈ s, c i * Y i x) = ∑ i ∈ s, c i * errC S (Y i) := by
  have h1 : ruleC S (fun x => ∑ i ∈ s, c i * Y i x) = ∑ i ∈ s, c i * ruleC S (Y i) := by
    simp only [ruleC_eq, mul_sum]
    rw [sum_comm]
    refine sum_congr rfl fun i _ => sum_congr rfl fun j _ => ?_
    ring
  have h2 : sphereC (fun x => ∑ i ∈ s, c i * Y i x) = ∑ i ∈ s, c i * sphereC (Y i) := by
    unfold sphereC
    rw [integral_finsetSum]
    · exact sum_congr rfl fun i _ => integral_const_mul _ _
    · exact fun i hi => (h i hi).integrable.const_mul _
  rw [errC, h1, h2, ← sum_sub_distrib]
  exact sum_congr rfl fun i _ => by rw [errC]; ring

theorem sphere_three : Spec.sphere 3 (fun _ => 1) = 4 * Real.pi := by
  have hn : 0 < 3 := by norm_num
  have h1 : Spec.sphere 3 (fun _ => 1) = sphereArea 3 := by
    rw [one_eq_mono, sphere_mono' hn]
    have := (radial_symMom hn (fun _ => 1) rfl).zero
    simp only [radMom, one_mul] at this
    rw [this, mul_one]
  have hG : Real.Gamma (3 / 2) = Real.sqrt Real.pi / 2 := by
    rw [show (3 : ℝ) / 2 = 1 / 2 + 1 by norm_num, Real.Gamma_add_one (by norm_num), Real.Gamma_one_half_eq]
    ring
  have hs := Real.sq_sqrt Real.pi_pos.le
  have hp := Real.sqrt_ne_zero'.2 Real.pi_pos
  rw [h1, sphereArea]
  push_cast
  rw [hG]
  field_simp
  linear_combination 4 * hs

theorem errC_poly (S : Scheme) (p q : MvPolynomial (Fin 3) ℝ) :
    errC S (fun x => (MvPolynomial.eval x p : ℝ) + (MvPolynomial.eval x q : ℝ) * Complex.I) =
      ((4 * Real.pi * dot 3 S.weights S.points (fun x => MvPolynomial.eval x p) -
        Spec.sphere 3 fun x => MvPolynomial.eval x p : ℝ) : ℂ) +
      ((4 * Real.pi * dot 3 S.weights S.points (fun x => MvPolynomial.eval x q) -
        Spec.sphere 3 fun x => MvPolynomial.eval x q : ℝ) : ℂ) * Complex.I := by
  have hd : ∀ f, dot 3 S.weights S.points f = ∑ i : Fin (min S.weights.length S.points.length),
      S.weights[i] * f (toVec 3 S.points[i]) := by
    intro f
    unfold dot
    rw [← List.sum_ofFn]
    congr 1
    refine List.ext_getElem (by simp) fun i h1 h2 => by simp
  rw [errC, sphereC_poly, ruleC_eq, hd, hd]
  push_cast
  simp only [mul_add, sum_add_distrib, ← mul_assoc, ← sum_mul]
  ring

/-! ### What the residuals tell -/

/-- The residuals bound the error for every polynomial, in terms of its coefficients with respect to the
functions of the evaluator. -/
theorem C64_bound {S : Scheme} (hu : ∀ x ∈ S.points, ∑ i, toVec 3 x i ^ 2 = 1) {E : Evaluator} (hE : E.Good)
    {d : ℕ} {r : List ℝ} (hr : computeResiduals S E d = .ok r) (p : MvPolynomial (Fin 3) ℝ) (c : ℕ → ℕ → ℂ)
    (hc : ∀ x : Fin 3 → ℝ, ∑ i, x i ^ 2 = 1 → ((MvPolynomial.eval x p : ℝ) : ℂ) =
      ∑ k ∈ range (d + 1), ∑ j : Fin (E.level k).length, c k j * (E.level k)[j] x) :
    |4 * Real.pi * dot 3 S.weights S.points (fun x => MvPolynomial.eval x p) -
      Spec.sphere 3 fun x => MvPolynomial.eval x p| ≤
        ∑ k ∈ range (d + 1), r.getD k 0 * ∑ j : Fin (E.level k).length, ‖c k j‖ := by
  obtain ⟨r', hr', hlen, hmax⟩ := C64_residuals S hE d
  obtain rfl : r' = r := Except.ok.inj (hr'.symm.trans hr)
  have hpoly : ∀ k, ∀ j : Fin (E.level k).length, PolyC (E.level k)[j] := by
    intro k j
    obtain ⟨p, q, -, -, h⟩ := hE.poly k _ (List.getElem_mem j.2)
    exact ⟨p, q, h⟩
  have h1 := errC_poly S p 0
  simp only [map_zero, Complex.ofReal_zero, zero_mul, add_zero] at h1
  have h0 : Spec.sphere 3 (fun _ => 0) = 0 := by simp [Spec.sphere]
  have h0' : dot 3 S.weights S.points (fun _ => 0) = 0 := by
    have := dot_smul S.weights S.points 0 (fun _ : Fin 3 → ℝ => 0)
    simpa using this
  rw [h0, h0'] at h1
  simp only [mul_zero, sub_zero, Complex.ofReal_zero, zero_mul, add_zero] at h1
  have h2 : errC S (fun x => ((MvPolynomial.eval x p : ℝ) : ℂ)) =
      ∑ k ∈ range (d + 1), ∑ j : Fin (E.level k).length, c k j * errC S (E.level k)[j] := by
    have e1 := errC_sum S (univ : Finset (Σ k : Fin (d + 1), Fin (E.level k).length))
      (fun a => c a.1 a.2) (fun a => (E.level a.1)[a.2]) (fun a _ => hpoly _ _)
    rw [Fintype.sum_sigma] at e1
    rw [Finset.sum_range]
    refine Eq.trans ?_ e1
    unfold errC
    have : ∀ x : Fin 3 → ℝ, ∑ i, x i ^ 2 = 1 → ((MvPolynomial.eval x p : ℝ) : ℂ) =
        ∑ a : (Σ k : Fin (d + 1), Fin (E.level k).length), c a.1 a.2 * (E.level a.1)[a.2] x := by
      intro x hx
      rw [hc x hx, Fintype.sum_sigma, Finset.sum_range]
    rw [ruleC_congr hu this, sphereC_congr this]
  have h3 := congrArg norm (h1.symm.trans h2)
  rw [Complex.norm_real, Real.norm_eq_abs] at h3
  rw [h3]
  refine (norm_sum_le _ _).trans (sum_le_sum fun k hk => ?_)
  have hk : k < r'.length := by rw [hlen]; exact mem_range.1 hk
  refine (norm_sum_le _ _).trans ?_
  rw [mul_sum]
  refine sum_le_sum fun j _ => ?_
  rw [norm_mul, mul_comm, List.getD_eq_getElem _ _ hk]
  exact mul_le_mul_of_nonneg_right ((hmax k hk).2 ⟨_, List.getElem_mem j.2, rfl⟩) (norm_nonneg _)

/-- All residuals up to `d` vanish if and only if the rule has degree `d`. -/
theorem C64_zero_iff {S : Scheme} (hS : S.WellShaped 3) (hu : ∀ x ∈ S.points, ∑ i, toVec 3 x i ^ 2 = 1)
    {E : Evaluator} (hE : E.Good) {d : ℕ} {r : List ℝ} (hr : computeResiduals S E d = .ok r) :
    (∀ e ∈ r, e = 0) ↔ ({ S with degree := d } : Scheme).ExactOnSphere 3 := by
  constructor
  · intro hz
    refine ⟨hS, fun p hp => ?_⟩
    obtain ⟨c, hc⟩ := hE.span d p hp
    have hb := C64_bound hu hE hr p c hc
    have h0 : ∀ k, r.getD k 0 = 0 := by
      intro k
      by_cases hk : k < r.length
      · rw [List.getD_eq_getElem _ _ hk]; exact hz _ (List.getElem_mem hk)
      · rw [List.getD_eq_default _ _ (not_lt.1 hk)]
    simp only [h0, zero_mul, sum_const_zero] at hb
    have := abs_nonpos_iff.1 hb
    rw [sphere_three]
    linarith
  · intro hx e he
    obtain ⟨r', hr', hlen, hmax⟩ := C64_residuals S hE d
    obtain rfl : r' = r := Except.ok.inj (hr'.symm.trans hr)
    obtain ⟨k, hk, rfl⟩ := List.mem_iff_getElem.1 he
    obtain ⟨Y, hY, h⟩ := (hmax k hk).1
    obtain ⟨p, q, hp, hq, hpq⟩ := hE.poly k Y hY
    have e1 : errC S Y = 0 := by
      have := errC_poly S p q
      have h1 := hx.2 p (hp.trans (by show k ≤ d; omega))
      have h2 := hx.2 q (hq.trans (by show k ≤ d; omega))
      rw [sphere_three] at h1 h2
      have h1' : 4 * Real.pi * dot 3 S.weights S.points (fun x => MvPolynomial.eval x p) -
        Spec.sphere 3 (fun x => MvPolynomial.eval x p) = 0 := sub_eq_zero.2 h1
      have h2' : 4 * Real.pi * dot 3 S.weights S.points (fun x => MvPolynomial.eval x q) -
        Spec.sphere 3 (fun x => MvPolynomial.eval x q) = 0 := sub_eq_zero.2 h2
      rw [h1', h2'] at this
      unfold errC at this ⊢
      rw [ruleC_congr hu hpq, sphereC_congr hpq, this]
      simp
    rw [h, e1, norm_zero]

/-- The degree of a rule is one less than the index of the first residual which does not vanish. -/
theorem C64_degree {S : Scheme} (hS : S.WellShaped 3) (hu : ∀ x ∈ S.points, ∑ i, toVec 3 x i ^ 2 = 1)
    {E : Evaluator} (hE : E.Good) {d : ℕ} {r : List ℝ} (hr : computeResiduals S E (d + 1) = .ok r) :
    ((∀ k ≤ d, r.getD k 0 = 0) ∧ r.getD (d + 1) 0 ≠ 0) ↔
      ({ S with degree := d } : Scheme).ExactOnSphere 3 ∧
        ¬ ({ S with degree := d + 1 } : Scheme).ExactOnSphere 3 := by
  obtain ⟨r', hr', hlen, hmax⟩ := C64_residuals S hE (d + 1)
  obtain rfl : r' = r := Except.ok.inj (hr'.symm.trans hr)
  obtain ⟨r₀, hr₀, hlen₀, hmax₀⟩ := C64_residuals S hE d
  have heq : ∀ k ≤ d, r'.getD k 0 = r₀.getD k 0 := by
    intro k hk
    rw [List.getD_eq_getElem _ _ (by omega), List.getD_eq_getElem _ _ (by omega)]
    exact (hmax k (by omega)).unique (hmax₀ k (by omega))
  have hall : ∀ (l : List ℝ) (n : ℕ), l.length = n + 1 → ((∀ e ∈ l, e = 0) ↔ ∀ k ≤ n, l.getD k 0 = 0) := by
    intro l n hl
    constructor
    · intro h k hk
      rw [List.getD_eq_getElem _ _ (by omega)]
      exact h _ (List.getElem_mem _)
    · intro h e he
      obtain ⟨k, hk, rfl⟩ := List.mem_iff_getElem.1 he
      have := h k (by omega)
      rwa [List.getD_eq_getElem _ _ hk] at this
  rw [← C64_zero_iff hS hu hE hr, ← C64_zero_iff hS hu hE hr₀, hall _ _ hlen, hall _ _ hlen₀]
  constructor
  · rintro ⟨h1, h2⟩
    exact ⟨fun k hk => (heq k hk).symm.trans (h1 k hk), fun h => h2 (h _ le_rfl)⟩
  · rintro ⟨h1, h2⟩
    have h1' : ∀ k ≤ d, r'.getD k 0 = 0 := fun k hk => (heq k hk).trans (h1 k hk)
    refine ⟨h1', fun h => h2 fun k hk => ?_⟩
    rcases Nat.lt_or_ge k (d + 1) with h' | h'
    · exact h1' k (by omega)
    · obtain rfl : k = d + 1 := by omega
      exact h

/-! ### An evaluator -/

/-- The exponents of degree k. -/
noncomputable def expo (k : ℕ) : List (Fin 3 → ℕ) := (Finset.piAntidiag univ k).toList

/-- The mean of a monomial on the sphere. -/
noncomputable def meanOf (α : Fin 3 → ℕ) : ℝ := Spec.sphere 3 (mono α) / (4 * Real.pi)

/-- The monomials minus their means. -/
noncomputable def meanFree : Evaluator where
  level k := if k = 0 then [fun _ => 1] else (expo k).map fun α x => ((mono α x - meanOf α : ℝ) : ℂ)
  int_p0 := 4 * Real.pi

theorem mem_expo {k : ℕ} {α : Fin 3 → ℕ} : α ∈ expo k ↔ ∑ i, α i = k := by
  simp [expo, Finset.mem_piAntidiag]

theorem eval_degrees {d : ℕ} {p : MvPolynomial (Fin 3) ℝ} (hp : p.totalDegree ≤ d)
    (g : (Fin 3 → ℕ) → ℝ) : ∑ a ∈ p.support, p.coeff a * g a =
      ∑ k ∈ range (d + 1), ∑ α ∈ Finset.piAntidiag univ k, p.coeff (Finsupp.equivFunOnFinite.symm α) * g α := by
  have hm : ∀ a ∈ p.support, ∑ i, a i ∈ range (d + 1) := by
    intro a ha
    have := MvPolynomial.le_totalDegree ha
    rw [Finsupp.sum_fintype _ _ (fun _ => rfl)] at this
    exact mem_range.2 (by omega)
  rw [← Finset.sum_fiberwise_of_maps_to hm]
  refine sum_congr rfl fun k _ => ?_
  refine Eq.trans ?_ (Finset.sum_map (Finset.piAntidiag univ k) Finsupp.equivFunOnFinite.symm.toEmbedding
    (fun a => p.coeff a * g a))
  refine sum_subset ?_ ?_
  · intro a ha
    obtain ⟨-, h⟩ := mem_filter.1 ha
    exact mem_map.2 ⟨a, by simp [Finset.mem_piAntidiag, h], by simp⟩
  · intro a ha h
    obtain ⟨α, hα, rfl⟩ := mem_map.1 ha
    have : p.coeff (Finsupp.equivFunOnFinite.symm α) = 0 := by
      by_contra hne
      refine h (mem_filter.2 ⟨MvPolynomial.mem_support_iff.2 hne, ?_⟩)
      simpa [Finset.mem_piAntidiag] using hα
    rw [Equiv.coe_toEmbedding, this, zero_mul]

theorem sum_expo {M : Type*} [AddCommMonoid M] (k : ℕ) (g : (Fin 3 → ℕ) → M) :
    ∑ j : Fin (expo k).length, g (expo k)[j] = ∑ α ∈ Finset.piAntidiag univ k, g α := by
  refine Eq.trans ?_ (Finset.sum_map_toList _ g)
  rw [← List.sum_ofFn]
  congr 1
  exact List.ext_getElem (by simp [expo]) fun i h1 h2 => by simp [expo]

theorem mono_eval (α : Fin 3 → ℕ) (c : ℝ) (x : Fin 3 → ℝ) :
    MvPolynomial.eval x (MvPolynomial.monomial (Finsupp.equivFunOnFinite.symm α) 1 - MvPolynomial.C c) =
      mono α x - c := by
  simp [MvPolynomial.eval_monomial, Finsupp.prod_fintype, mono]

/-- Such an evaluator exists. -/
theorem meanFree_good : meanFree.Good := by
  have h4 : (4 * Real.pi : ℝ) ≠ 0 := by positivity
  have hsub : ∀ (α : Fin 3 → ℕ) (c : ℝ), Spec.sphere 3 (fun x => mono α x - c) =
      Spec.sphere 3 (mono α) - 4 * Real.pi * c := by
    intro α c
    have h := poly_integrable (MvPolynomial.monomial (Finsupp.equivFunOnFinite.symm α) 1 - MvPolynomial.C 0)
    simp only [mono_eval, sub_zero] at h
    have h3 := sphere_three
    unfold Spec.sphere at h3 ⊢
    rw [integral_sub h (integrable_const _), ← h3, ← integral_mul_const]
    simp
  have hlev : ∀ k, k ≠ 0 → meanFree.level k = (expo k).map fun α x => ((mono α x - meanOf α : ℝ) : ℂ) := by
    intro k hk
    simp [meanFree, hk]
  have hlev0 : meanFree.level 0 = [fun _ => 1] := by simp [meanFree]
  have hcast : ∀ l l' : List ((Fin 3 → ℝ) → ℂ), l = l' → ∀ (c : ℕ → ℂ) x,
      ∑ j : Fin l.length, c j * l[j] x = ∑ j : Fin l'.length, c j * l'[j] x := by
    rintro l - rfl c x
    rfl
  have hC : ∀ f : (Fin 3 → ℝ) → ℝ, sphereC (fun x => (f x : ℂ)) = (Spec.sphere 3 f : ℝ) :=
    fun f => integral_ofReal
  refine ⟨fun k => ?_, fun k Y hY => ?_, fun Y hY => ?_, fun k hk Y hY => ?_, fun d p hp => ?_⟩
  · by_cases hk : k = 0
    · subst hk; simp [hlev0]
    · rw [hlev k hk]
      have : (Pi.single 0 k : Fin 3 → ℕ) ∈ expo k := mem_expo.2 (by simp)
      simp [List.ne_nil_of_mem this]
  · by_cases hk : k = 0
    · subst hk
      rw [hlev0, List.mem_singleton] at hY
      subst hY
      exact ⟨1, 0, by simp, by simp, fun x _ => by simp⟩
    · rw [hlev k hk] at hY
      obtain ⟨α, hα, rfl⟩ := List.mem_map.1 hY
      refine ⟨MvPolynomial.monomial (Finsupp.equivFunOnFinite.symm α) 1 - MvPolynomial.C (meanOf α), 0,
        ?_, by simp, fun x _ => by rw [mono_eval]; simp⟩
      refine (MvPolynomial.totalDegree_sub _ _).trans (max_le ?_ (by simp))
      refine (MvPolynomial.totalDegree_monomial_le _ _).trans ?_
      rw [Finsupp.sum_fintype _ _ (fun _ => rfl)]
      exact (mem_expo.1 hα).le
  · rw [hlev0, List.mem_singleton] at hY
    subst hY
    have := hC fun _ => 1
    rw [sphere_three] at this
    simpa [meanFree] using this
  · rw [hlev k hk] at hY
    obtain ⟨α, hα, rfl⟩ := List.mem_map.1 hY
    rw [hC, hsub, meanOf]
    rw [mul_div_cancel₀ _ h4]
    simp
  · refine ⟨fun k j => if k = 0 then ((∑ a ∈ p.support, p.coeff a * meanOf a : ℝ) : ℂ) else
      ((p.coeff (Finsupp.equivFunOnFinite.symm ((expo k).getD j 0)) : ℝ) : ℂ), fun x hx => ?_⟩
    have h0 : MvPolynomial.eval x p = ∑ a ∈ p.support, p.coeff a * mono a x := by
      rw [MvPolynomial.eval_eq']; rfl
    have h1 := eval_degrees hp fun α => mono α x - meanOf α
    simp only [mul_sub, sum_sub_distrib] at h1
    rw [← h0] at h1
    have h2 : MvPolynomial.eval x p = (∑ k ∈ range (d + 1), ∑ α ∈ Finset.piAntidiag univ k,
        p.coeff (Finsupp.equivFunOnFinite.symm α) * (mono α x - meanOf α)) +
          ∑ a ∈ p.support, p.coeff a * meanOf a := by
      simp only [mul_sub, sum_sub_distrib]
      linarith
    rw [h2, sum_range_succ', sum_range_succ']
    have hm0 : meanOf (0 : Fin 3 → ℕ) = 1 := by
      rw [meanOf, ← one_eq_mono, sphere_three, div_self h4]
    have h3 : ∑ α ∈ Finset.piAntidiag (univ : Finset (Fin 3)) 0,
        p.coeff (Finsupp.equivFunOnFinite.symm α) * (mono α x - meanOf α) = 0 := by
      simp [Finset.piAntidiag_zero, hm0, mono]
    rw [h3, add_zero]
    push_cast
    congr 1
    · refine sum_congr rfl fun k _ => ?_
      rw [← sum_expo (k + 1) fun α => ((p.coeff (Finsupp.equivFunOnFinite.symm α) : ℝ) : ℂ) *
        ((mono α x : ℝ) - (meanOf α : ℝ))]
      refine Eq.trans ?_ (hcast _ _ (hlev (k + 1) (by omega))
        (fun j => ((p.coeff (Finsupp.equivFunOnFinite.symm ((expo (k + 1)).getD j 0)) : ℝ) : ℂ)) x).symm
      refine Fintype.sum_equiv (finCongr (by rw [List.length_map])) _ _ fun j => ?_
      simp
      left
      erw [List.getElem_map]
      simp
    · refine Eq.trans ?_ (hcast _ _ hlev0 (fun _ => ∑ a ∈ p.support, ((p.coeff a : ℝ) : ℂ) * ((meanOf a : ℝ) : ℂ)) x).symm
      simp

/-- The six vertices of the octahedron with equal weights (lebedev_003a): the residuals 0 to 3 vanish and the next
one does not. -/
example : ∃ r, computeResiduals (Optimize.read 3 ⟨"octahedron", some "U3", 3, 1e-14, none, none,
    [(.a1, [[1 / 6]])]⟩) meanFree 4 = .ok r ∧ (∀ k ≤ 3, r.getD k 0 = 0) ∧ r.getD 4 0 ≠ 0 := by
  obtain ⟨r, hr, -, -⟩ := C64_residuals (Optimize.read 3 ⟨"octahedron", some "U3", 3, 1e-14, none, none,
    [(.a1, [[1 / 6]])]⟩) meanFree_good 4
  have h : ∀ d, Optimize.Content.Uses ⟨"octahedron", some "U3", d, 1e-14, none, none, [(.a1, [[1 / 6]])]⟩
      Optimize.octaKeys := by
    intro d kv hkv
    obtain rfl := List.mem_singleton.1 hkv
    exact ⟨by simp [Optimize.octaKeys], rfl,
      by simp [Optimize.fileEntry, Optimize.columns, SymKey.Accepts, SymKey.arities]⟩
  have hsph : ∀ x ∈ (Optimize.read 3 ⟨"octahedron", some "U3", 3, 1e-14, none, none,
      [(.a1, [[1 / 6]])]⟩).points, x.length = 3 ∧ ∑ i, toVec 3 x i ^ 2 = 1 := by
    simp [Optimize.read, expandSymmetries, Optimize.fileEntry, Optimize.columns, entryPoints, orbit,
      List.range, List.range.loop, toVec, Fin.sum_univ_three]
  refine ⟨r, hr, (C64_degree ⟨rfl, Optimize.read_length (h 3), fun x hx => (hsph x hx).1⟩
    (fun x hx => (hsph x hx).2) meanFree_good hr).2 ⟨?_, ?_⟩⟩
  · refine (Optimize.C63_u3 (h 3) (by simp [Optimize.fileEntry, Optimize.columns, SphereParams])).2 ?_
    intro i j k hkj hji hd
    have hd : i + j + k = 1 := hd
    obtain ⟨rfl, rfl, rfl⟩ : i = 1 ∧ j = 0 ∧ k = 0 := by omega
    norm_num [Optimize.quad, Optimize.read, expandSymmetries, Optimize.fileEntry, Optimize.columns, entryPoints,
      entryWeights, orbit, dot, toVec, List.range, List.range.loop, List.replicate]
  · intro hx
    have := (Optimize.C63_u3 (h 4) (by simp [Optimize.fileEntry, Optimize.columns, SphereParams])).1 hx 1 1 0
      (by norm_num) (by norm_num) rfl
    norm_num [Optimize.quad, Optimize.read, expandSymmetries, Optimize.fileEntry, Optimize.columns, entryPoints,
      entryWeights, orbit, dot, toVec, List.range, List.range.loop, List.replicate] at this

end Quadpy.Residuals
