import Verif.Props.C74
import Verif.Props.C17
import Verif.Props.C18
import Verif.Props.C72

/-!
# C74: positivity of the weights and convergence of the families
-/

namespace Quadpy
open Adaptive Spec Polynomial MeasureTheory OneDim Filter Real
open scoped Topology

/-! ### Positive weights of Clenshaw-Curtis and Fejér -/

/-- Coefficients of which only the first is positive. -/
theorem OneDim.dct_le {N : ℕ} (hN : 0 < N) {a : ℕ → ℝ} (ha : ∀ j, 0 < j → j < N → a j ≤ 0) (k : ℕ) :
    (∑ j ∈ Finset.range N, a j) / N ≤ dct N a k := by
  have hN' : (0 : ℝ) < N := by exact_mod_cast hN
  rw [dct]
  refine div_le_div_of_nonneg_right (Finset.sum_le_sum fun j hj => ?_) hN'.le
  rcases Nat.eq_zero_or_pos j with rfl | h
  · simp
  · nlinarith [ha j h (Finset.mem_range.1 hj), cos_le_one (2 * π * (j * k / N))]

theorem OneDim.ccV2_neg {N : ℕ} {j : ℕ} (h0 : 0 < j) (hj : j < N) : ccV2 N j < 0 := by
  have small : ∀ r, 0 < r → r < N / 2 → ccV2 N r < 0 := fun r h0 hr => by
    rw [ccV2_small hr]
    have : (1 : ℝ) ≤ r := by exact_mod_cast h0
    exact div_neg_of_pos_of_neg two_pos (by nlinarith)
  have mid : ccV2 N (N / 2) < 0 := by
    rw [ccV2_mid (by omega)]
    split_ifs with h
    · have : (3 : ℝ) ≤ N := by exact_mod_cast (by omega : 3 ≤ N)
      exact div_neg_of_neg_of_pos (by norm_num) (by linarith)
    · have : (2 : ℝ) ≤ N := by exact_mod_cast (by omega : 2 ≤ N)
      exact div_neg_of_neg_of_pos (by norm_num) (by linarith)
  rcases lt_trichotomy j (N / 2) with h | h | h
  · exact small j h0 h
  · rwa [h]
  · rw [← ccV2_symm hj]
    rcases Nat.lt_or_ge (N - j) (N / 2) with h' | h'
    · exact small _ (by omega) h'
    · rwa [show N - j = N / 2 by omega]

theorem OneDim.cc_neg {N : ℕ} {j : ℕ} (h0 : 0 < j) (hj : j < N) : ccV2 N j + ccG N j < 0 := by
  have hN2 : (2 : ℝ) ≤ N := by exact_mod_cast (by omega : 2 ≤ N)
  have hD : (0 : ℝ) < (N : ℝ) ^ 2 - 1 + (N % 2 : ℕ) := by
    have : (0 : ℝ) ≤ (N % 2 : ℕ) := by positivity
    nlinarith
  have small : ∀ r, 0 < r → r < N / 2 → ccV2 N r + ccG N r < 0 := fun r h0 hr => by
    refine add_neg_of_neg_of_nonpos (ccV2_neg h0 (by omega)) ?_
    rw [ccG_def, if_neg (by omega), if_neg (by omega)]
    exact div_nonpos_of_nonpos_of_nonneg (by norm_num) hD.le
  have mid : ccV2 N (N / 2) + ccG N (N / 2) < 0 := by
    rw [ccV2_mid (by omega), ccG_def, if_pos rfl]
    rcases Nat.mod_two_eq_zero_or_one N with h | h
    · rw [if_neg (by omega), if_pos (by omega), h]
      have e : -2 / ((N : ℝ) - 1) + (-1 + (N : ℝ) + N) / ((N : ℝ) ^ 2 - 1 + ((0 : ℕ) : ℝ)) =
          -3 / ((N - 1) * (N + 1)) := by
        have h1 : (N : ℝ) - 1 ≠ 0 := by linarith
        have h2 : (N : ℝ) + 1 ≠ 0 := by linarith
        rw [show (N : ℝ) ^ 2 - 1 + ((0 : ℕ) : ℝ) = (N - 1) * (N + 1) by push_cast; ring]
        field_simp
        ring
      rw [e]
      exact div_neg_of_neg_of_pos (by norm_num) (mul_pos (by linarith) (by linarith))
    · have hN3 : (3 : ℝ) ≤ N := by exact_mod_cast (by omega : 3 ≤ N)
      rw [if_pos h, if_neg (by omega), h]
      have h1 : (0 : ℝ) < N - 2 := by linarith
      have h2 : (0 : ℝ) < N := by linarith
      rw [show (N : ℝ) ^ 2 - 1 + ((1 : ℕ) : ℝ) = N ^ 2 by push_cast; ring,
        div_add_div _ _ h1.ne' (by positivity)]
      refine div_neg_of_neg_of_pos ?_ (by positivity)
      nlinarith
  rcases lt_trichotomy j (N / 2) with h | h | h
  · exact small j h0 h
  · rwa [h]
  · rw [← ccV2_symm hj, ← ccG_symm hj]
    rcases Nat.lt_or_ge (N - j) (N / 2) with h' | h'
    · exact small _ (by omega) h'
    · rwa [show N - j = N / 2 by omega]

/-- The weights of `clenshaw_curtis(n)` are positive. -/
theorem C74_positive_clenshaw_curtis {n : ℕ} (hn : 2 ≤ n) : ∀ w ∈ (clenshawCurtis n).2, 0 < w := by
  rcases Nat.lt_or_ge 2 n with h | h
  · obtain ⟨N, rfl⟩ : ∃ N, n = N + 1 := ⟨n - 1, by omega⟩
    have hN2 : (2 : ℝ) ≤ N := by exact_mod_cast (by omega : 2 ≤ N)
    rw [clenshawCurtis_eq (by omega)]
    intro w hw
    obtain ⟨i, rfl⟩ := (List.mem_ofFn' _ _).1 hw
    refine lt_of_lt_of_le ?_ (dct_le (by omega) (fun j h0 hj => (cc_neg h0 hj).le) _)
    rw [Finset.sum_add_distrib, ccV2_sum (by omega), ccG_sum (by omega), zero_add]
    have : (0 : ℝ) ≤ (N % 2 : ℕ) := by positivity
    exact div_pos (div_pos (by linarith) (by nlinarith)) (by linarith)
  · obtain rfl : n = 2 := by omega
    simp [clenshawCurtis]

/-- The weights of `fejer_2(n)` are positive. -/
theorem C74_positive_fejer_2 (n : ℕ) : ∀ w ∈ (fejer2 n).2, 0 < w := by
  rw [fejer2_eq]
  intro w hw
  obtain ⟨i, rfl⟩ := (List.mem_ofFn' _ _).1 hw
  have hn : 0 < n := i.pos
  have hi := i.2
  have hN' : (0 : ℝ) < ((n + 1 : ℕ) : ℝ) := by positivity
  have hs := ccV2_sum (N := n + 1) (by omega)
  show 0 < dct (n + 1) (ccV2 (n + 1)) (i + 1)
  rw [dct]
  refine div_pos ?_ hN'
  rw [← hs]
  have harg : 0 < 2 * π * (((1 : ℕ) : ℝ) * ((i + 1 : ℕ) : ℝ) / ((n + 1 : ℕ) : ℝ)) ∧
      2 * π * (((1 : ℕ) : ℝ) * ((i + 1 : ℕ) : ℝ) / ((n + 1 : ℕ) : ℝ)) < 2 * π := by
    have h1 : (((1 : ℕ) : ℝ) * ((i + 1 : ℕ) : ℝ)) / ((n + 1 : ℕ) : ℝ) < 1 := by
      rw [div_lt_one hN']
      rw [Nat.cast_one, one_mul]
      exact_mod_cast (by omega : (i : ℕ) + 1 < n + 1)
    have h2 : 0 < (((1 : ℕ) : ℝ) * ((i + 1 : ℕ) : ℝ)) / ((n + 1 : ℕ) : ℝ) := by positivity
    constructor
    · positivity
    · nlinarith [pi_pos]
  refine Finset.sum_lt_sum (fun j hj => ?_) ⟨1, Finset.mem_range.2 (by omega), ?_⟩
  · rcases Nat.eq_zero_or_pos j with rfl | h
    · simp
    · nlinarith [ccV2_neg h (Finset.mem_range.1 hj),
        cos_le_one (2 * π * ((j : ℝ) * ((i + 1 : ℕ) : ℝ) / ((n + 1 : ℕ) : ℝ)))]
  · have h1 := ccV2_neg (N := n + 1) (j := 1) one_pos (by omega)
    have h2 : cos (2 * π * (((1 : ℕ) : ℝ) * ((i + 1 : ℕ) : ℝ) / ((n + 1 : ℕ) : ℝ))) < 1 :=
      lt_of_le_of_ne (cos_le_one _) fun h =>
        harg.1.ne' ((cos_eq_one_iff_of_lt_of_lt (by linarith [harg.1, pi_pos]) harg.2).1 h)
    nlinarith

/-- The weights of `fejer_1(n)` are positive. -/
theorem C74_positive_fejer_1 (n : ℕ) : ∀ w ∈ (fejer1 n).2, 0 < w := by
  rw [fejer1]
  intro w hw
  obtain ⟨i, rfl⟩ := (List.mem_ofFn' _ _).1 hw
  have hn : 0 < n := i.pos
  have hn' : (0 : ℝ) < n := by exact_mod_cast hn
  show 0 < (ifft n (fejerV1 n) i).re
  rw [fejer_ifft hn, Complex.ofReal_re]
  refine div_pos ?_ hn'
  obtain ⟨q, hq⟩ : ∃ q, n - n / 2 = q + 1 := ⟨n - n / 2 - 1, by omega⟩
  have hs : ∑ j ∈ Finset.range n, fejerC n j = 1 + 1 / (2 * q + 1) := by
    rw [← Finset.sum_subset (s₁ := Finset.range (q + 1)) (fun i hi => by
      rw [Finset.mem_range] at *; omega) (fun i _ hi => by
      rw [Finset.mem_range] at hi
      rw [fejerC, if_neg (by omega)])]
    have := telescope q
    rw [← neg_inj, ← Finset.sum_neg_distrib, neg_add', ← this]
    refine Finset.sum_congr rfl fun j hj => ?_
    rw [fejerC, if_pos (by rw [hq]; exact Finset.mem_range.1 hj), div_div,
      show (1 - 4 * (j : ℝ) ^ 2) = -((2 * j + 1) * (2 * j + 1 - 2)) by ring, div_neg, neg_neg]
  have hle : ∑ j ∈ Finset.range n, fejerC n j ≤
      ∑ j ∈ Finset.range n, fejerC n j * cos (2 * j * (π * ((i : ℕ) + 1 / 2) / n)) := by
    refine Finset.sum_le_sum fun j _ => ?_
    rcases Nat.eq_zero_or_pos j with rfl | h
    · simp
    · have : fejerC n j ≤ 0 := by
        rw [fejerC]
        split_ifs
        · have : (1 : ℝ) ≤ j := by exact_mod_cast h
          exact div_nonpos_of_nonneg_of_nonpos two_pos.le (by nlinarith)
        · exact le_rfl
      nlinarith [cos_le_one (2 * j * (π * ((i : ℕ) + 1 / 2) / n))]
  rw [hs] at hle
  have : (0 : ℝ) < 1 / (2 * q + 1) := by positivity
  linarith

/-! ### Convergence of the rules on the interval -/

theorem exactC1_mono {P W : List ℝ} {d e : ℕ} (h : ExactC1 P W d) (he : e ≤ d) : ExactC1 P W e :=
  ⟨h.1, fun p hp => h.2 p (hp.trans he)⟩

theorem neg_cos_mem (x : ℝ) : -1 ≤ -cos x ∧ -cos x ≤ 1 :=
  ⟨neg_le_neg (cos_le_one x), by linarith [neg_one_le_cos x]⟩

/-- `clenshaw_curtis(n)` converges for every continuous function. -/
theorem C74_clenshaw_curtis {a b : ℝ} (hab : a ≤ b) {f : ℝ → ℝ} (hf : ContinuousOn f (Set.Icc a b)) :
    Tendsto (fun n => C1.integrate1 (clenshawCurtis n).1 (clenshawCurtis n).2 f a b) atTop
      (𝓝 (∫ x in a..b, f x)) := by
  rw [← tendsto_add_atTop_iff_nat 2]
  refine C74_tendsto_nonneg (d := fun n => n + 1) (fun n => ?_) (fun n x hx => ?_)
    (fun n w hw => (C74_positive_clenshaw_curtis (by omega) w hw).le) (tendsto_add_atTop_nat 1) hab hf
  · rcases Nat.even_or_odd (n + 2) with h | h
    · exact (C18_clenshaw_curtis_even_partial (by omega) h).1
    · exact exactC1_mono (C18_clenshaw_curtis_odd (by rcases h with ⟨k, hk⟩; omega) h) (by
        rw [fejerDegree]; omega)
  · obtain ⟨i, rfl⟩ := (List.mem_ofFn' _ _).1 hx
    exact neg_cos_mem _

/-- `fejer_1(n)` converges for every continuous function. -/
theorem C74_fejer_1 {a b : ℝ} (hab : a ≤ b) {f : ℝ → ℝ} (hf : ContinuousOn f (Set.Icc a b)) :
    Tendsto (fun n => C1.integrate1 (fejer1 n).1 (fejer1 n).2 f a b) atTop (𝓝 (∫ x in a..b, f x)) := by
  rw [← tendsto_add_atTop_iff_nat 1]
  refine C74_tendsto_nonneg (d := fun n => n) (fun n => ?_) (fun n x hx => ?_)
    (fun n w hw => (C74_positive_fejer_1 _ w hw).le) tendsto_id hab hf
  · rcases Nat.even_or_odd (n + 1) with h | h
    · exact (C18_fejer_1_even_partial (by omega) h).1
    · exact exactC1_mono (C18_fejer_1_odd h) (by rw [fejerDegree]; omega)
  · obtain ⟨i, rfl⟩ := (List.mem_ofFn' _ _).1 hx
    exact neg_cos_mem _

/-- `fejer_2(n)` converges for every continuous function. -/
theorem C74_fejer_2 {a b : ℝ} (hab : a ≤ b) {f : ℝ → ℝ} (hf : ContinuousOn f (Set.Icc a b)) :
    Tendsto (fun n => C1.integrate1 (fejer2 n).1 (fejer2 n).2 f a b) atTop (𝓝 (∫ x in a..b, f x)) := by
  rw [← tendsto_add_atTop_iff_nat 1]
  refine C74_tendsto_nonneg (d := fun n => n) (fun n => ?_) (fun n x hx => ?_)
    (fun n w hw => (C74_positive_fejer_2 _ w hw).le) tendsto_id hab hf
  · rcases Nat.even_or_odd (n + 1) with h | h
    · exact (C18_fejer_2_even_partial (by omega) h).1
    · exact exactC1_mono (C18_fejer_2_odd h) (by rw [fejerDegree]; omega)
  · obtain ⟨i, rfl⟩ := (List.mem_ofFn' _ _).1 hx
    exact neg_cos_mem _

/-- `gauss_legendre(n)` converges for every continuous function. -/
theorem C74_gauss_legendre {P W : ℕ → List ℝ} (h : ∀ n, GaussLegendre (n + 1) (P n) (W n)) {a b : ℝ}
    (hab : a ≤ b) {f : ℝ → ℝ} (hf : ContinuousOn f (Set.Icc a b)) :
    Tendsto (fun n => C1.integrate1 (P n) (W n) f a b) atTop (𝓝 (∫ x in a..b, f x)) := by
  refine C74_tendsto_nonneg (d := fun n => n) (fun n => ?_) (fun n x hx => ?_) (fun n w hw => ?_)
    tendsto_id hab hf
  · exact exactC1_mono ((C19_gauss_legendre (n + 1)).2 _ _ (h n)).1 (by omega)
  · have := ((C19_gauss_legendre (n + 1)).2 _ _ (h n)).2.2.2.1 x hx
    exact ⟨this.1.le, this.2.le⟩
  · exact (((C19_gauss_legendre (n + 1)).2 _ _ (h n)).2.2.2.2.1 w hw).le

/-! ### Rules with a weight function -/

/-- The error for a weight function. -/
theorem C74_weighted {P W : List ℝ} {d : ℕ} {w : ℝ → ℝ} (h : ExactL P W d (weightInt (Set.Ioo (-1) 1) w))
    (hw : IntegrableOn w (Set.Ioo (-1) 1)) (hw0 : ∀ x ∈ Set.Ioo (-1 : ℝ) 1, 0 ≤ w x)
    (hP : ∀ x ∈ P, -1 ≤ x ∧ x ≤ 1) (hW : ∀ v ∈ W, 0 ≤ v) {f : ℝ → ℝ} (hf : ContinuousOn f (Set.Icc (-1) 1))
    (p : ℝ[X]) (hp : p.natDegree ≤ d) {ε : ℝ} (he : ∀ x ∈ Set.Icc (-1 : ℝ) 1, |f x - p.eval x| ≤ ε) :
    |vdot (P.map f) W - ∫ x in Set.Ioo (-1) 1, f x * w x| ≤ 2 * (∫ x in Set.Ioo (-1) 1, w x) * ε := by
  have hε : 0 ≤ ε := (abs_nonneg _).trans (he 0 (by norm_num))
  have h1 := vdot_abs_le (P := P) (W := W) (g := fun x => f x - p.eval x) hε fun x hx => he x (hP x hx)
  have hsum : W.sum = ∫ x in Set.Ioo (-1) 1, w x := by
    have h0 := h.2 1 (by simp)
    simp only [weightInt, eval_one, one_mul] at h0
    rw [← h0]
    have : ∀ {P W : List ℝ}, P.length = W.length → vdot (P.map fun _ => (1 : ℝ)) W = W.sum := by
      intro P W hl
      induction P generalizing W with
      | nil => cases W <;> simp_all [vdot]
      | cons x P ih =>
        cases W with
        | nil => simp at hl
        | cons w W => rw [List.map_cons, vdot_cons, ih (by simpa using hl), List.sum_cons, one_mul]
    exact (this h.1).symm
  rw [vdot_map_sub', sum_abs_of_nonneg hW, hsum, h.2 p hp, weightInt] at h1
  have hint : ∀ g : ℝ → ℝ, ContinuousOn g (Set.Icc (-1) 1) →
      IntegrableOn (fun x => g x * w x) (Set.Ioo (-1) 1) := fun g hg => by
    obtain ⟨C, hC⟩ := (isCompact_Icc (a := (-1 : ℝ)) (b := 1)).exists_bound_of_continuousOn hg
    refine Integrable.bdd_mul (c := C) hw
      ((hg.mono Set.Ioo_subset_Icc_self).aestronglyMeasurable measurableSet_Ioo) ?_
    exact (ae_restrict_iff' measurableSet_Ioo).2 (Eventually.of_forall fun x hx =>
      hC x (Set.Ioo_subset_Icc_self hx))
  have h2 : |(∫ x in Set.Ioo (-1) 1, p.eval x * w x) - ∫ x in Set.Ioo (-1) 1, f x * w x| ≤
      ε * ∫ x in Set.Ioo (-1) 1, w x := by
    rw [← integral_sub (hint _ p.continuous.continuousOn) (hint _ hf), ← integral_const_mul]
    rw [← Real.norm_eq_abs]
    refine norm_integral_le_of_norm_le (hw.const_mul ε) ?_
    refine (ae_restrict_iff' measurableSet_Ioo).2 (Eventually.of_forall fun x hx => ?_)
    rw [← sub_mul, Real.norm_eq_abs, abs_mul, abs_of_nonneg (hw0 x hx), abs_sub_comm]
    exact mul_le_mul_of_nonneg_right (he x (Set.Ioo_subset_Icc_self hx)) (hw0 x hx)
  have := abs_sub_le (vdot (P.map f) W) (∫ x in Set.Ioo (-1) 1, p.eval x * w x)
    (∫ x in Set.Ioo (-1) 1, f x * w x)
  linarith

/-- Convergence for a weight function. -/
theorem C74_weighted_tendsto {P W : ℕ → List ℝ} {d : ℕ → ℕ} {w : ℝ → ℝ}
    (h : ∀ n, ExactL (P n) (W n) (d n) (weightInt (Set.Ioo (-1) 1) w))
    (hw : IntegrableOn w (Set.Ioo (-1) 1)) (hw0 : ∀ x ∈ Set.Ioo (-1 : ℝ) 1, 0 ≤ w x)
    (hP : ∀ n, ∀ x ∈ P n, -1 ≤ x ∧ x ≤ 1) (hW : ∀ n, ∀ v ∈ W n, 0 ≤ v) (hd : Tendsto d atTop atTop)
    {f : ℝ → ℝ} (hf : ContinuousOn f (Set.Icc (-1) 1)) :
    Tendsto (fun n => vdot ((P n).map f) (W n)) atTop (𝓝 (∫ x in Set.Ioo (-1) 1, f x * w x)) := by
  rw [Metric.tendsto_atTop]
  intro ε hε
  set c := 2 * ∫ x in Set.Ioo (-1) 1, w x with hc
  have hc0 : 0 ≤ c := mul_nonneg two_pos.le (setIntegral_nonneg measurableSet_Ioo hw0)
  obtain ⟨p, hp⟩ := exists_polynomial_near_of_continuousOn (-1) 1 f hf (ε / (c + 1)) (by positivity)
  obtain ⟨N, hN⟩ := (tendsto_atTop_atTop.1 hd) p.natDegree
  refine ⟨N, fun n hn => ?_⟩
  have he : ∀ x ∈ Set.Icc (-1 : ℝ) 1, |f x - p.eval x| ≤ ε / (c + 1) := fun x hx => by
    rw [abs_sub_comm]; exact (hp x hx).le
  have h1 := C74_weighted (h n) hw hw0 (hP n) (hW n) hf p (hN n hn) he
  rw [Real.dist_eq]
  refine lt_of_le_of_lt h1 ?_
  rw [← hc, mul_div_assoc', div_lt_iff₀ (by linarith)]
  nlinarith

theorem jacobi_weight_nonneg (a b : ℝ) : ∀ x ∈ Set.Ioo (-1 : ℝ) 1, 0 ≤ (1 - x) ^ a * (1 + x) ^ b :=
  fun _ hx => mul_nonneg (rpow_nonneg (by linarith [hx.2]) _) (rpow_nonneg (by linarith [hx.1]) _)

/-- `gauss_jacobi(n, a, b)` converges for every continuous function. -/
theorem C74_gauss_jacobi {a b : ℝ} (ha : -1 < a) (hb : -1 < b) {P W : ℕ → List ℝ}
    (h : ∀ n, GaussJacobi (n + 1) a b (P n) (W n)) {f : ℝ → ℝ} (hf : ContinuousOn f (Set.Icc (-1) 1)) :
    Tendsto (fun n => vdot ((P n).map f) (W n)) atTop
      (𝓝 (∫ x in Set.Ioo (-1) 1, f x * ((1 - x) ^ a * (1 + x) ^ b))) := by
  refine C74_weighted_tendsto (d := fun n => 2 * (n + 1) - 1)
    (fun n => ((C19_gauss_jacobi (n + 1) ha hb).2 _ _ (h n)).1) (jacobi_integrable0 ha hb)
    (jacobi_weight_nonneg a b) (fun n x hx => ?_) (fun n w hw => ?_)
    (tendsto_atTop_mono (fun n => by simp only [id]; omega) tendsto_id) hf
  · have := ((C19_gauss_jacobi (n + 1) ha hb).2 _ _ (h n)).2.2.2.1 x hx
    exact ⟨this.1.le, this.2.le⟩
  · exact (((C19_gauss_jacobi (n + 1) ha hb).2 _ _ (h n)).2.2.2.2.1 w hw).le

/-- `gauss_lobatto(n, a, b)` converges for every continuous function. -/
theorem C74_gauss_lobatto {a b : ℝ} (ha : -1 < a) (hb : -1 < b) {P W : ℕ → List ℝ}
    (h : ∀ n, GaussLobatto (n + 1) a b (P n) (W n)) {f : ℝ → ℝ} (hf : ContinuousOn f (Set.Icc (-1) 1)) :
    Tendsto (fun n => vdot ((P n).map f) (W n)) atTop
      (𝓝 (∫ x in Set.Ioo (-1) 1, f x * ((1 - x) ^ a * (1 + x) ^ b))) := by
  refine C74_weighted_tendsto (d := fun n => lobattoDegree (n + 1 + 1))
    (fun n => ((C20_gauss_lobatto (n + 1) ha hb).2 _ _ (h n)).1) (jacobi_integrable0 ha hb)
    (jacobi_weight_nonneg a b) (fun n x hx => ?_) (fun n w hw => ?_)
    (tendsto_atTop_mono (fun n => by unfold lobattoDegree; simp only [id]; omega) tendsto_id) hf
  · have := ((C20_gauss_lobatto (n + 1) ha hb).2 _ _ (h n)).2.2.2.2.2.1 x hx
    by_cases h1 : x = -1
    · rw [h1]; norm_num
    by_cases h2 : x = 1
    · rw [h2]; norm_num
    exact ⟨(this h1 h2).1.le, (this h1 h2).2.le⟩
  · exact (((C20_gauss_lobatto (n + 1) ha hb).2 _ _ (h n)).2.2.2.2.2.2 w hw).le

/-- `gauss_radau(n, a, b)` converges for every continuous function. -/
theorem C74_gauss_radau {a b : ℝ} (ha : -1 < a) (hb : -1 < b) {P W : ℕ → List ℝ}
    (h : ∀ n, GaussRadau (n + 1) a b (P n) (W n)) {f : ℝ → ℝ} (hf : ContinuousOn f (Set.Icc (-1) 1)) :
    Tendsto (fun n => vdot ((P n).map f) (W n)) atTop
      (𝓝 (∫ x in Set.Ioo (-1) 1, f x * ((1 - x) ^ a * (1 + x) ^ b))) := by
  refine C74_weighted_tendsto (d := fun n => radauDegree (n + 1 + 1) - 1)
    (fun n => ((C20_gauss_radau_partial (n + 1) ha hb).2 _ _ (h n)).1) (jacobi_integrable0 ha hb)
    (jacobi_weight_nonneg a b) (fun n x hx => ?_) (fun n w hw => ?_)
    (tendsto_atTop_mono (fun n => by unfold radauDegree; simp only [id]; omega) tendsto_id) hf
  · have := ((C20_gauss_radau_partial (n + 1) ha hb).2 _ _ (h n)).2.2.2.2.2.1 x hx
    by_cases h1 : x = -1
    · rw [h1]; norm_num
    exact ⟨(this h1).1.le, (this h1).2.le⟩
  · exact (((C20_gauss_radau_partial (n + 1) ha hb).2 _ _ (h n)).2.2.2.2.2.2 w hw).le

/-- `gauss_kronrod(n, a, b)` converges for every continuous function, if its points are in the interval. -/
theorem C74_gauss_kronrod {a b : ℝ} (ha : -1 < a) (hb : -1 < b) {P W : ℕ → List ℝ}
    (h : ∀ n, GaussKronrod (n + 1) a b (P n) (W n)) (hP : ∀ n, ∀ x ∈ P n, -1 ≤ x ∧ x ≤ 1) {f : ℝ → ℝ}
    (hf : ContinuousOn f (Set.Icc (-1) 1)) :
    Tendsto (fun n => vdot ((P n).map f) (W n)) atTop
      (𝓝 (∫ x in Set.Ioo (-1) 1, f x * ((1 - x) ^ a * (1 + x) ^ b))) :=
  C74_weighted_tendsto (d := fun n => 3 * (n + 1) + 1)
    (fun n => (C47_exact (Nat.succ_pos n) ha hb (h n)).2.2.2) (jacobi_integrable0 ha hb)
    (jacobi_weight_nonneg a b) hP (fun n w hw => (C47_exact (Nat.succ_pos n) ha hb (h n)).2.2.1 w hw)
    (tendsto_atTop_mono (fun n => by simp only [id]; omega) tendsto_id) hf

theorem cheb_weight {x : ℝ} (hx : x ∈ Set.Ioo (-1 : ℝ) 1) (s : ℝ) :
    (1 - x) ^ s * (1 + x) ^ s = (1 - x ^ 2) ^ s := by
  rw [← mul_rpow (by linarith [hx.2]) (by linarith [hx.1])]
  congr 1
  ring

/-- `chebyshev_gauss_1(n)` converges for every continuous function. -/
theorem C74_chebyshev_gauss_1 {f : ℝ → ℝ} (hf : ContinuousOn f (Set.Icc (-1) 1)) :
    Tendsto (fun n => vdot ((chebyshevGauss1 n).1.map f) (chebyshevGauss1 n).2) atTop
      (𝓝 (∫ x in (-1 : ℝ)..1, f x / √(1 - x ^ 2))) := by
  have hint : ∀ g : ℝ → ℝ, ∫ x in (-1 : ℝ)..1, g x / √(1 - x ^ 2) =
      ∫ x in Set.Ioo (-1 : ℝ) 1, g x * ((1 - x) ^ (-1 / 2 : ℝ) * (1 + x) ^ (-1 / 2 : ℝ)) := fun g => by
    rw [intervalIntegral.integral_of_le (by norm_num), integral_Ioc_eq_integral_Ioo]
    refine setIntegral_congr_fun measurableSet_Ioo fun x hx => ?_
    have : 0 ≤ 1 - x ^ 2 := by nlinarith [hx.1, hx.2]
    rw [cheb_weight hx, show (-1 / 2 : ℝ) = -(1 / 2) by norm_num, rpow_neg this, ← sqrt_eq_rpow, div_eq_mul_inv]
  rw [← tendsto_add_atTop_iff_nat 1, hint]
  refine C74_weighted_tendsto (d := fun n => 2 * (n + 1) - 1) (fun n => ?_)
    (jacobi_integrable0 (by norm_num) (by norm_num)) (jacobi_weight_nonneg _ _) (fun n x hx => ?_)
    (fun n w hw => ?_) (tendsto_atTop_mono (fun n => by simp only [id]; omega) tendsto_id) hf
  · have := C17_chebyshev_gauss_1_full (Nat.succ_pos n)
    exact ⟨this.1, fun p hp => (this.2 p hp).trans (hint _)⟩
  · obtain ⟨i, rfl⟩ := (List.mem_ofFn' _ _).1 hx
    exact ⟨neg_one_le_cos _, cos_le_one _⟩
  · obtain ⟨i, rfl⟩ := (List.mem_ofFn' _ _).1 hw
    positivity

/-- `chebyshev_gauss_2(n)` converges for every continuous function. -/
theorem C74_chebyshev_gauss_2 {f : ℝ → ℝ} (hf : ContinuousOn f (Set.Icc (-1) 1)) :
    Tendsto (fun n => vdot ((chebyshevGauss2 n).1.map f) (chebyshevGauss2 n).2) atTop
      (𝓝 (∫ x in (-1 : ℝ)..1, f x * √(1 - x ^ 2))) := by
  have hint : ∀ g : ℝ → ℝ, ∫ x in (-1 : ℝ)..1, g x * √(1 - x ^ 2) =
      ∫ x in Set.Ioo (-1 : ℝ) 1, g x * ((1 - x) ^ (1 / 2 : ℝ) * (1 + x) ^ (1 / 2 : ℝ)) := fun g => by
    rw [intervalIntegral.integral_of_le (by norm_num), integral_Ioc_eq_integral_Ioo]
    refine setIntegral_congr_fun measurableSet_Ioo fun x hx => ?_
    rw [cheb_weight hx, ← sqrt_eq_rpow]
  rw [← tendsto_add_atTop_iff_nat 1, hint]
  refine C74_weighted_tendsto (d := fun n => 2 * (n + 1) - 1) (fun n => ?_)
    (jacobi_integrable0 (by norm_num) (by norm_num)) (jacobi_weight_nonneg _ _) (fun n x hx => ?_)
    (fun n w hw => ?_) (tendsto_atTop_mono (fun n => by simp only [id]; omega) tendsto_id) hf
  · have := C17_chebyshev_gauss_2_full (Nat.succ_pos n)
    exact ⟨this.1, fun p hp => (this.2 p hp).trans (hint _)⟩
  · obtain ⟨i, rfl⟩ := (List.mem_ofFn' _ _).1 hx
    exact ⟨neg_one_le_cos _, cos_le_one _⟩
  · obtain ⟨i, rfl⟩ := (List.mem_ofFn' _ _).1 hw
    positivity

/-! Concrete cases: Clenshaw-Curtis for the exponential function, which is no polynomial; the composite rule
of Simpson for the same function. -/

example : Tendsto (fun n => C1.integrate1 (clenshawCurtis n).1 (clenshawCurtis n).2 exp 0 1) atTop
    (𝓝 (exp 1 - 1)) := by
  have := C74_clenshaw_curtis (a := 0) (b := 1) zero_le_one (f := exp) continuous_exp.continuousOn
  rwa [integral_exp, exp_zero] at this

example (N : ℕ) (hN : 0 < N) :
    |∑ i ∈ Finset.range N, C1.integrate1 [-1, 0, 1] [1 / 3, 4 / 3, 1 / 3] exp (0 + i * ((1 - 0) / N))
      (0 + (i + 1 : ℕ) * ((1 - 0) / N)) - (exp 1 - 1)| ≤ exp 1 / (3 * N ^ 4) := by
  have h : Spec.ExactC1 [-1, 0, 1] [1 / 3, 4 / 3, 1 / 3] 3 := exactC1_of_moments rfl fun k hk => by
    interval_cases k <;> norm_num [vdot]; decide
  have := C74_composite h (a := 0) (b := 1) (by norm_num) zero_lt_one (f := exp) contDiff_exp
    (M := exp 1) (fun x hx => by
      rw [iteratedDeriv_eq_iterate, iter_deriv_exp, abs_of_pos (exp_pos x)]
      exact exp_le_exp.2 hx.2) hN
  rw [integral_exp, exp_zero] at this
  refine this.trans (le_of_eq ?_)
  have hN' : (N : ℝ) ≠ 0 := by positivity
  have e : (List.map abs [(1 / 3 : ℝ), 4 / 3, 1 / 3]).sum = 2 := by
    simp only [List.map_cons, List.map_nil, List.sum_cons, List.sum_nil]
    rw [abs_of_pos (by norm_num), abs_of_pos (by norm_num)]
    norm_num
  rw [e]
  norm_num [Nat.factorial]
  field_simp
  norm_num

end Quadpy
