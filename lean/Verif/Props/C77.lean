import Verif.Lemmas.WeakConv
import Verif.Props.C19
import Verif.Props.C62

/-!
# C77: Gauss-Laguerre and Gauss-Hermite rules converge
-/

namespace Quadpy

open MeasureTheory Filter Topology Spec Polynomial OneDim

namespace WeakConv

open Adaptive

/-- The rule as a measure: the masses `w` at the points `x`. -/
noncomputable def ruleMeasure : List ℝ → List ℝ → Measure ℝ
  | x :: P, w :: W => ENNReal.ofReal w • Measure.dirac x + ruleMeasure P W
  | _, _ => 0

theorem rule_integral (f : ℝ → ℝ) : ∀ (P W : List ℝ), (∀ w ∈ W, 0 ≤ w) →
    Integrable f (ruleMeasure P W) ∧ ∫ x, f x ∂(ruleMeasure P W) = vdot (P.map f) W
  | [], W, _ => by simp [ruleMeasure, vdot]
  | _ :: _, [], _ => by simp [ruleMeasure, vdot]
  | x :: P, w :: W, hW => by
    obtain ⟨h1, h2⟩ := rule_integral f P W fun v hv => hW v (List.mem_cons_of_mem _ hv)
    have hw := hW w (List.mem_cons_self ..)
    have h3 : Integrable f (ENNReal.ofReal w • Measure.dirac x) :=
      (integrable_dirac (by simp)).smul_measure ENNReal.ofReal_ne_top
    refine ⟨h3.add_measure h1, ?_⟩
    rw [ruleMeasure, integral_add_measure h3 h1, h2, integral_smul_measure, integral_dirac,
      ENNReal.toReal_ofReal hw, smul_eq_mul]
    simp only [vdot, List.map_cons, List.zipWith_cons_cons, List.sum_cons]
    ring

instance (P W : List ℝ) : IsFiniteMeasure (ruleMeasure P W) := by
  induction P generalizing W with
  | nil => rw [ruleMeasure]; infer_instance; simp
  | cons x P ih =>
    cases W with
    | nil => rw [ruleMeasure]; infer_instance; simp
    | cons w W =>
      rw [ruleMeasure]
      have := ih W
      have h1 : IsFiniteMeasure (ENNReal.ofReal w • Measure.dirac x) :=
        Measure.smul_finite _ ENNReal.ofReal_ne_top
      infer_instance

/-- The measure of a weight. -/
noncomputable def weightMeasure (s : Set ℝ) (w : ℝ → ℝ) : Measure ℝ :=
  (volume.restrict s).withDensity fun x => ENNReal.ofReal (w x)

variable {s : Set ℝ} {w : ℝ → ℝ}

theorem weight_integral (hs : MeasurableSet s) (hw : Measurable w) (hw0 : ∀ x ∈ s, 0 ≤ w x) (f : ℝ → ℝ) :
    ∫ x, f x ∂(weightMeasure s w) = ∫ x in s, f x * w x := by
  rw [weightMeasure, integral_withDensity_eq_integral_toReal_smul (by fun_prop) (by simp)]
  refine setIntegral_congr_fun hs fun x hx => ?_
  simp only [ENNReal.toReal_ofReal (hw0 x hx), smul_eq_mul]
  ring

theorem weight_integrable (hs : MeasurableSet s) (hw : Measurable w) (hw0 : ∀ x ∈ s, 0 ≤ w x) (f : ℝ → ℝ) :
    Integrable f (weightMeasure s w) ↔ IntegrableOn (fun x => f x * w x) s := by
  rw [weightMeasure, integrable_withDensity_iff_integrable_smul' (by fun_prop) (by simp)]
  refine integrableOn_congr_fun (fun x hx => ?_) hs
  simp only [ENNReal.toReal_ofReal (hw0 x hx), smul_eq_mul]
  ring

end WeakConv

open WeakConv Adaptive

/-- Rules with nonnegative weights whose degrees go to infinity, for a weight on the line with an exponential
moment: their values converge to the integral for every continuous function of polynomial growth. -/
theorem C77_weighted {s : Set ℝ} {w : ℝ → ℝ} (hs : MeasurableSet s) (hw : Measurable w)
    (hw0 : ∀ x ∈ s, 0 ≤ w x) {ρ : ℝ} (hρ : 0 < ρ)
    (hexp : IntegrableOn (fun x => Real.exp (ρ * |x|) * w x) s) (hpos : 0 < ∫ x in s, w x)
    {P W : ℕ → List ℝ} {d : ℕ → ℕ} (hPW : ∀ k, ExactL (P k) (W k) (d k) (weightInt s w))
    (hW : ∀ k, ∀ v ∈ W k, 0 ≤ v) (hd : Tendsto d atTop atTop) {f : ℝ → ℝ} (hf : Continuous f) {C : ℝ} {m : ℕ}
    (hC : ∀ x, |f x| ≤ C * (1 + x ^ 2) ^ m) :
    Tendsto (fun k => vdot ((P k).map f) (W k)) atTop (𝓝 (∫ x in s, f x * w x)) := by
  set V := ∫ x in s, w x with hV
  set μ := weightMeasure s w with hμ
  have hμi := weight_integral hs hw hw0
  have hμI := weight_integrable hs hw hw0
  have hexp' : Integrable (fun x : ℝ => Real.exp (ρ * |x|)) μ := (hμI _).2 hexp
  have hmom : ∀ j : ℕ, Integrable (fun x : ℝ => x ^ j) μ := fun j => by
    refine (integrable_pow_of_exp hρ hexp' j (r := 0) hρ).mono' (by fun_prop) (ae_of_all _ fun x => ?_)
    simp
  have hpoly : ∀ p : ℝ[X], Integrable (fun x => p.eval x) μ := fun p => by
    simp only [eval_eq_sum_range]
    exact integrable_finsetSum _ fun i _ => (hmom i).const_mul _
  have hone : Integrable (fun _ : ℝ => (1 : ℝ)) μ := by simpa using hmom 0
  have hfin : IsFiniteMeasure μ := (integrable_const_iff_isFiniteMeasure one_ne_zero).1 hone
  have hμ1 : ∫ _, (1 : ℝ) ∂μ = V := by rw [hμi]; simp [hV]
  have hex : ∀ k (p : ℝ[X]), p.natDegree ≤ d k → vdot ((P k).map fun x => p.eval x) (W k) = ∫ x, p.eval x ∂μ :=
    fun k p hp => by rw [(hPW k).2 p hp, weightInt, hμi]
  have hν := fun k (g : ℝ → ℝ) => rule_integral g (P k) (W k) (hW k)
  have hν1 : ∀ k, ∫ _, (1 : ℝ) ∂(ruleMeasure (P k) (W k)) = V := fun k => by
    have := hex k 1 (by simp)
    simp only [eval_one] at this
    rw [(hν k _).2, this, hμ1]
  -- normalise
  have hVr : (ENNReal.ofReal V⁻¹).toReal = V⁻¹ := ENNReal.toReal_ofReal (by positivity)
  have hprob : ∀ κ : Measure ℝ, IsFiniteMeasure κ → ∫ _, (1 : ℝ) ∂κ = V →
      IsProbabilityMeasure (ENNReal.ofReal V⁻¹ • κ) := fun κ hκ h1 => by
    refine ⟨?_⟩
    have h2 : κ.real Set.univ = V := by simpa using h1
    have h3 : κ Set.univ = ENNReal.ofReal V := by
      rw [← h2, measureReal_def, ENNReal.ofReal_toReal (measure_ne_top _ _)]
    rw [Measure.smul_apply, h3, smul_eq_mul, ← ENNReal.ofReal_mul (by positivity), inv_mul_cancel₀ hpos.ne',
      ENNReal.ofReal_one]
  have hint : ∀ (κ : Measure ℝ) (g : ℝ → ℝ), ∫ x, g x ∂(ENNReal.ofReal V⁻¹ • κ) = V⁻¹ * ∫ x, g x ∂κ :=
    fun κ g => by rw [integral_smul_measure, hVr, smul_eq_mul]
  have i1 := hprob μ hfin hμ1
  have i2 : ∀ k, IsProbabilityMeasure (ENNReal.ofReal V⁻¹ • ruleMeasure (P k) (W k)) := fun k =>
    hprob _ inferInstance (hν1 k)
  have hbdd : ∀ g : ℝ → ℝ, Continuous g → ∀ B : ℝ, (∀ x, |g x| ≤ B) →
      Tendsto (fun k => vdot ((P k).map g) (W k)) atTop (𝓝 (∫ x, g x ∂μ)) := fun g hg B hB => by
    have := bounded_tendsto (μ := ENNReal.ofReal V⁻¹ • μ)
      (ν := fun k => ENNReal.ofReal V⁻¹ • ruleMeasure (P k) (W k)) hρ
      (hexp'.smul_measure ENNReal.ofReal_ne_top)
      (fun k j => (hν k _).1.smul_measure ENNReal.ofReal_ne_top) (fun j => by
        filter_upwards [hd.eventually_ge_atTop j] with k hk
        rw [hint, hint, (hν k _).2]
        have := hex k (X ^ j) (by simpa using hk)
        simp only [eval_pow, eval_X] at this
        rw [this]) hg hB
    simp only [hint] at this
    have h2 := this.const_mul V
    simp only [← mul_assoc, mul_inv_cancel₀ hpos.ne', one_mul] at h2
    exact h2.congr fun k => (hν k g).2
  rw [← hμi]
  -- truncate
  set q : ℝ[X] := (Polynomial.C C * (1 + X ^ 2) ^ m) ^ 2 with hq
  have hqe : ∀ x, q.eval x = (C * (1 + x ^ 2) ^ m) ^ 2 := fun x => by simp [hq]
  have hfq : ∀ x, f x ^ 2 ≤ q.eval x := fun x => by
    rw [hqe, ← sq_abs (f x)]
    exact pow_le_pow_left₀ (abs_nonneg _) (hC x) 2
  have hfI : Integrable f μ := by
    refine ((hpoly q).add hone).mono' hf.aestronglyMeasurable (ae_of_all _ fun x => ?_)
    rw [Real.norm_eq_abs]
    have := hfq x
    simp only [Pi.add_apply]
    nlinarith [sq_abs (f x), sq_nonneg (|f x| - 1)]
  rw [Metric.tendsto_nhds]
  intro ε hε
  set M := ∫ x, q.eval x ∂μ with hM
  have hM0 : 0 ≤ M := integral_nonneg fun x => (sq_nonneg _).trans (hfq x)
  set R := 3 * M / ε + 1 with hR
  have hR0 : 0 < R := by positivity
  set g : ℝ → ℝ := fun x => max (-R) (min R (f x)) with hg
  have hgc : Continuous g := by fun_prop
  have hgb : ∀ x, |g x| ≤ R := fun x => by
    rw [abs_le]
    exact ⟨le_max_left _ _, max_le (by linarith) (min_le_left _ _)⟩
  have hfg : ∀ x, |f x - g x| ≤ (Polynomial.C R⁻¹ * q).eval x := fun x => by
    rw [eval_mul, eval_C, ← div_eq_inv_mul, le_div_iff₀ hR0]
    refine le_trans ?_ (hfq x)
    simp only [hg]
    rcases le_total R (f x) with h1 | h1
    · rw [min_eq_left h1, max_eq_right (by linarith), abs_of_nonneg (by linarith)]
      nlinarith
    · rw [min_eq_right h1]
      rcases le_total (-R) (f x) with h2 | h2
      · rw [max_eq_right h2, sub_self, abs_zero, zero_mul]
        positivity
      · rw [max_eq_left h2, abs_of_nonpos (by linarith)]
        nlinarith
  have hsmall : ∫ x, (Polynomial.C R⁻¹ * q).eval x ∂μ < ε / 3 := by
    simp only [eval_mul, eval_C]
    rw [integral_const_mul, ← hM, ← div_eq_inv_mul, div_lt_iff₀ hR0, hR]
    have : ε / 3 * (3 * M / ε + 1) = M + ε / 3 := by field_simp
    rw [this]
    linarith
  have hgI : Integrable g μ := (integrable_const R).mono' hgc.aestronglyMeasurable (ae_of_all _ hgb)
  have e1 : |(∫ x, f x ∂μ) - ∫ x, g x ∂μ| < ε / 3 := by
    rw [← integral_sub hfI hgI]
    refine lt_of_le_of_lt ?_ hsmall
    rw [← Real.norm_eq_abs]
    exact norm_integral_le_of_norm_le (hpoly _) (ae_of_all _ hfg)
  filter_upwards [hd.eventually_ge_atTop (Polynomial.C R⁻¹ * q).natDegree,
    (Metric.tendsto_nhds.1 (hbdd g hgc R hgb)) (ε / 3) (by positivity)] with k hk hk2
  have e2 : |vdot ((P k).map f) (W k) - vdot ((P k).map g) (W k)| < ε / 3 := by
    rw [← (hν k f).2, ← (hν k g).2, ← integral_sub (hν k f).1 (hν k g).1]
    refine lt_of_le_of_lt ?_ hsmall
    rw [← hex k _ hk, ← (hν k _).2, ← Real.norm_eq_abs]
    exact norm_integral_le_of_norm_le (hν k _).1 (ae_of_all _ hfg)
  rw [Real.dist_eq] at hk2 ⊢
  have h3 := abs_sub_le (vdot ((P k).map f) (W k)) (vdot ((P k).map g) (W k)) (∫ x, f x ∂μ)
  have h4 := abs_sub_le (vdot ((P k).map g) (W k)) (∫ x, g x ∂μ) (∫ x, f x ∂μ)
  rw [abs_sub_comm (∫ x, g x ∂μ)] at h4
  linarith

/-- `gauss_hermite(n)`: the values converge to the integral against `e^(-x^2)` for every continuous function
of polynomial growth. -/
theorem C77_hermite {P W : ℕ → List ℝ} (h : ∀ n, GaussHermite (n + 1) (P n) (W n)) {f : ℝ → ℝ}
    (hf : Continuous f) {C : ℝ} {m : ℕ} (hC : ∀ x, |f x| ≤ C * (1 + x ^ 2) ^ m) :
    Tendsto (fun n => vdot ((P n).map f) (W n)) atTop (𝓝 (∫ x, f x * Real.exp (-x ^ 2))) := by
  have hexp : Integrable fun x : ℝ => Real.exp (1 * |x|) * Real.exp (-x ^ 2) := by
    refine ((integrable_exp_neg_mul_sq (b := 1 / 2) (by norm_num)).const_mul (Real.exp (1 / 2))).mono'
      (by fun_prop) (ae_of_all _ fun x => ?_)
    rw [Real.norm_eq_abs, abs_of_pos (by positivity), ← Real.exp_add, ← Real.exp_add, Real.exp_le_exp]
    nlinarith [sq_nonneg (|x| - 1), sq_abs x]
  have := C77_weighted (s := Set.univ) MeasurableSet.univ (w := fun x => Real.exp (-x ^ 2)) (by fun_prop)
    (fun x _ => (Real.exp_pos _).le) one_pos hexp.integrableOn (by
      rw [setIntegral_univ]
      have := integral_gaussian 1
      simp only [neg_mul, one_mul] at this
      rw [this]
      positivity) (P := P) (W := W) (d := fun n => 2 * (n + 1) - 1) (fun n => by
        have := ((C19_gauss_hermite (n + 1)).2 _ _ (h n)).1
        refine ⟨this.1, fun p hp => ?_⟩
        rw [this.2 p hp, weightInt, setIntegral_univ])
    (fun n w hw => (((C19_gauss_hermite (n + 1)).2 _ _ (h n)).2.2.2.1 w hw).le)
    (tendsto_atTop_mono (fun n => (by omega : n ≤ 2 * (n + 1) - 1)) tendsto_id) hf hC
  rwa [setIntegral_univ] at this

/-- `gauss_laguerre(n, a)`: the values converge to the integral against `x^a e^(-x)` over the half line for every
function that is continuous and of polynomial growth there. -/
theorem C77_laguerre {a : ℝ} (ha : -1 < a) {P W : ℕ → List ℝ} (h : ∀ n, GaussLaguerre (n + 1) a (P n) (W n))
    {f : ℝ → ℝ} (hf : ContinuousOn f (Set.Ici 0)) {C : ℝ} {m : ℕ}
    (hC : ∀ x, 0 ≤ x → |f x| ≤ C * (1 + x ^ 2) ^ m) :
    Tendsto (fun n => vdot ((P n).map f) (W n)) atTop
      (𝓝 (∫ x in Set.Ioi 0, f x * (x ^ a * Real.exp (-x)))) := by
  have hC0 : 0 ≤ C := by simpa using (abs_nonneg _).trans (hC 0 le_rfl)
  have hexp : IntegrableOn (fun x : ℝ => Real.exp (1 / 2 * |x|) * (x ^ a * Real.exp (-x))) (Set.Ioi 0) := by
    have := integrableOn_rpow_mul_exp_neg_mul_rpow (s := a) (p := 1) (b := 1 / 2) ha one_pos (by norm_num)
    refine (integrableOn_congr_fun (fun x hx => ?_) measurableSet_Ioi).1 this
    simp only [Real.rpow_one]
    rw [abs_of_pos hx, mul_left_comm, ← Real.exp_add]
    congr 2
    ring
  have hm : Measurable fun x : ℝ => x ^ a * Real.exp (-x) := by fun_prop
  have hg : Continuous fun x => f (max x 0) := by
    rw [← continuousOn_univ]
    exact hf.comp (by fun_prop) fun x _ => Set.mem_Ici.2 (le_max_right x 0)
  have := C77_weighted measurableSet_Ioi hm
    (fun x hx => mul_nonneg (Real.rpow_nonneg (le_of_lt hx) _) (Real.exp_pos _).le)
    (by norm_num : (0 : ℝ) < 1 / 2) hexp (by
      have := laguerre_moment ha 0
      simp only [Nat.cast_zero, weightInt, pow_zero, eval_one, one_mul] at this
      rw [this]
      exact Real.Gamma_pos_of_pos (by linarith)) (P := P) (W := W) (d := fun n => 2 * (n + 1) - 1)
    (fun n => ((C19_gauss_laguerre (n + 1) ha).2 _ _ (h n)).1)
    (fun n w hw => (((C19_gauss_laguerre (n + 1) ha).2 _ _ (h n)).2.2.2.2.1 w hw).le)
    (tendsto_atTop_mono (fun n => (by omega : n ≤ 2 * (n + 1) - 1)) tendsto_id) hg (C := C) (m := m)
    (fun x => (hC _ (le_max_right _ _)).trans (by
      refine mul_le_mul_of_nonneg_left (pow_le_pow_left₀ (by positivity) ?_ m) hC0
      have : max x 0 ^ 2 ≤ x ^ 2 := by
        rcases le_total x 0 with hx | hx
        · rw [max_eq_right hx]; nlinarith [sq_nonneg x]
        · rw [max_eq_left hx]
      linarith))
  rw [setIntegral_congr_fun measurableSet_Ioi fun x (hx : 0 < x) => by
    simp only [max_eq_left hx.le]; rfl] at this
  refine this.congr fun n => ?_
  congr 1
  refine List.map_congr_left fun x hx => ?_
  rw [max_eq_left (((C19_gauss_laguerre (n + 1) ha).2 _ _ (h n)).2.2.2.1 x hx).le]

/-- `e1r.gauss_laguerre(n, a).integrate(lambda x: f(x[0]))` for growing `n`. -/
theorem C77_e1r {a : ℝ} (ha : -1 < a) {P W : ℕ → List ℝ} (h : ∀ n, GaussLaguerre (n + 1) a (P n) (W n))
    {f : ℝ → ℝ} (hf : ContinuousOn f (Set.Ici 0)) {C : ℝ} {m : ℕ}
    (hC : ∀ x, 0 ≤ x → |f x| ≤ C * (1 + x ^ 2) ^ m) :
    ∃ v : ℕ → ℝ, (∀ n, Unbounded.integrate1 (P n) (W n) (Unbounded.firstRow f) = .scalar (v n)) ∧
      Tendsto v atTop (𝓝 (∫ x in Set.Ioi 0, f x * (x ^ a * Real.exp (-x)))) :=
  ⟨_, fun _ => rfl, C77_laguerre ha h hf hC⟩

/-- `e1r2.gauss_hermite(n).integrate(lambda x: f(x[0]))` for growing `n`. -/
theorem C77_e1r2 {P W : ℕ → List ℝ} (h : ∀ n, GaussHermite (n + 1) (P n) (W n)) {f : ℝ → ℝ}
    (hf : Continuous f) {C : ℝ} {m : ℕ} (hC : ∀ x, |f x| ≤ C * (1 + x ^ 2) ^ m) :
    ∃ v : ℕ → ℝ, (∀ n, Unbounded.integrate1 (P n) (W n) (Unbounded.firstRow f) = .scalar (v n)) ∧
      Tendsto v atTop (𝓝 (∫ x, f x * Real.exp (-x ^ 2))) :=
  ⟨_, fun _ => rfl, C77_hermite h hf hC⟩

/-- Such rules exist, and the theorem applies to a function with a kink: `x ↦ |x| cos x`. -/
example : ∃ P W : ℕ → List ℝ, (∀ n, GaussHermite (n + 1) (P n) (W n)) ∧
    Tendsto (fun n => vdot ((P n).map fun x => |x| * Real.cos x) (W n)) atTop
      (𝓝 (∫ x, |x| * Real.cos x * Real.exp (-x ^ 2))) := by
  choose P W h using fun n : ℕ => (C19_gauss_hermite (n + 1)).1
  refine ⟨P, W, h, C77_hermite h (by fun_prop) (C := 1) (m := 1) fun x => ?_⟩
  rw [abs_mul, abs_abs, pow_one, one_mul]
  have := mul_le_mul_of_nonneg_left (Real.abs_cos_le_one x) (abs_nonneg x)
  nlinarith [sq_abs x, sq_nonneg (|x| - 1)]

end Quadpy
