import Verif.Lemmas.Triangle
import Mathlib.Topology.Algebra.MvPolynomial

/-!
# C42: adaptive triangle integration
-/

namespace Quadpy
namespace T2
open Spec MeasureTheory

set_option linter.unusedSectionVars false

variable {ι : Type} [Fintype ι] {m : ℕ}

/-- When the call returns, the value is the sum of the scheme1 values over a partition of the given
triangles, and the error is the sum of the error estimates over the same partition. -/
theorem C42_returned (R : Rules) (f : (Fin m → ℝ) → ι → ℝ) (Ts : List (Tri m)) (eps : ℝ)
    (minArea : Option ℝ) (fuel : ℕ) (v e : ι → ℝ)
    (h : integrateAdaptive R f Ts eps minArea fuel = .returned v e) :
    ∃ L, Triforce Ts L ∧ (∀ i, v i = (L.map fun T => val1 R f T i).sum) ∧
      (∀ i, e i = (L.map fun T => |val1 R f T i - val2 R f T i|).sum) := by
  obtain ⟨k, s, hr, hb, rfl, rfl⟩ := loop_returned h
  obtain ⟨acc, hi⟩ := reach_inv hr (inv_init R f eps _ Ts)
  have := hi.part
  rw [hb, List.append_nil] at this
  exact ⟨acc, this, fun i => by rw [hi.vals]; rfl, fun i => by rw [hi.errs]; rfl⟩

/-- At every moment the accepted and the pending triangles are a partition, and the sums are those
of the accepted ones. -/
theorem C42_running (R : Rules) (f : (Fin m → ℝ) → ι → ℝ) (Ts : List (Tri m)) (eps : ℝ)
    (minArea : Option ℝ) (fuel : ℕ) (s : State m ι)
    (h : integrateAdaptive R f Ts eps minArea fuel = .running s) :
    ∃ acc, Triforce Ts (acc ++ s.bad) ∧ (∀ i, s.values i = (acc.map fun T => val1 R f T i).sum) ∧
      (∀ i, s.errors i = (acc.map fun T => |val1 R f T i - val2 R f T i|).sum) := by
  obtain ⟨hr, -⟩ := loop_running h
  obtain ⟨acc, hi⟩ := reach_inv hr (inv_init R f eps _ Ts)
  exact ⟨acc, hi.part, fun i => by rw [hi.vals]; rfl, fun i => by rw [hi.errs]; rfl⟩

/-- Cutting into four keeps the total area. -/
theorem C42_area {Ts L : List (Tri m)} (h : Triforce Ts L) :
    (L.map Tn.getVol).sum = (Ts.map Tn.getVol).sum := by
  refine triforce_total Tn.getVol (fun a b c => ?_) h
  obtain ⟨h1, h2, h3, h4⟩ := vol_parts a b c
  rw [h1, h2, h3, h4]
  ring

theorem triforce_ne_nil {Ts L : List (Tri m)} (h : Triforce Ts L) (hT : Ts ≠ []) : L ≠ [] := by
  induction h with
  | whole => exact hT
  | perm L L' _ hp ih => intro e; subst e; exact ih hp.eq_nil
  | cut => simp

/-- When the call returns, the error estimate is below `eps`. -/
theorem C42_error (R : Rules) (f : (Fin m → ℝ) → ι → ℝ) (Ts : List (Tri m)) (hT : Ts ≠ []) (eps : ℝ)
    (minArea : Option ℝ) (fuel : ℕ) (v e : ι → ℝ)
    (h : integrateAdaptive R f Ts eps minArea fuel = .returned v e) (i : ι) : e i < eps := by
  obtain ⟨k, s, hr, hb, rfl, rfl⟩ := loop_returned h
  obtain ⟨acc, hi⟩ := reach_inv hr (inv_init R f eps _ Ts)
  have hp := hi.part
  rw [hb, List.append_nil] at hp
  have hn := triforce_ne_nil hp hT
  have hA : (Ts.map Tn.getVol).sum ≠ 0 := by
    obtain ⟨T, hT⟩ := List.exists_mem_of_ne_nil _ hn
    have := hi.good T hT
    rw [good, decide_eq_true_iff] at this
    exact this.1
  rw [hi.errs, total]
  have h1 : (acc.map fun T => err R f T i).sum <
      (acc.map fun T => eps * Tn.getVol T / (Ts.map Tn.getVol).sum).sum := by
    refine List.sum_lt_sum_of_ne_nil hn _ _ fun T hT => ?_
    have := hi.good T hT
    rw [good, decide_eq_true_iff] at this
    exact this.2 i
  refine h1.trans_eq ?_
  have h2 : (acc.map fun T => eps * Tn.getVol T / (Ts.map Tn.getVol).sum).sum =
      eps / (Ts.map Tn.getVol).sum * (acc.map Tn.getVol).sum := by
    rw [← List.sum_map_mul_left]
    congr 1
    exact List.map_congr_left fun T _ => by ring
  rw [h2, C42_area hp]
  field_simp

/-- With the default minimum area the loop ends within ten rounds: it returns or the assertion
fails. -/
theorem C42_stops (R : Rules) (f : (Fin m → ℝ) → ι → ℝ) (Ts : List (Tri m)) (eps : ℝ) (fuel : ℕ)
    (hf : 10 ≤ fuel) (s : State m ι) : integrateAdaptive R f Ts eps none fuel ≠ .running s := by
  intro h
  obtain ⟨hr, hb⟩ := loop_running h
  obtain ⟨T, hT⟩ := List.exists_mem_of_ne_nil _ hb
  have hA : ∀ T ∈ (evaluate R f eps (Ts.map Tn.getVol).sum 0 0 Ts).bad,
      Tn.getVol T ≤ (Ts.map Tn.getVol).sum := by
    intro T hT
    refine List.single_le_sum ?_ _ (List.mem_map_of_mem (List.mem_filter.1 hT).1)
    intro x hx
    obtain ⟨T, -, rfl⟩ := List.mem_map.1 hx
    exact Tn.C12_nonneg T
  have hA0 : 0 ≤ (Ts.map Tn.getVol).sum := by
    refine List.sum_nonneg fun x hx => ?_
    obtain ⟨T, -, rfl⟩ := List.mem_map.1 hx
    exact Tn.C12_nonneg T
  have h1 := reach_vol hr hA T hT
  have h2 := reach_min hr (by omega) T hT
  simp only [Option.getD_none] at h2
  have h3 : (1 / 4 : ℝ) ^ fuel ≤ (1 / 4) ^ 10 := pow_le_pow_of_le_one (by norm_num) (by norm_num) hf
  have h4 := mul_le_mul_of_nonneg_left h3 hA0
  norm_num at h2 h4
  linarith

/-! ### The pieces cover the triangles and overlap only in null sets -/

theorem hull_eq (T : Tri m) : convexHull ℝ (Set.range T) =
    {x | ∃ l : Fin 3 → ℝ, (∀ i, 0 ≤ l i) ∧ l 0 + l 1 + l 2 = 1 ∧
      ∀ k, x k = l 0 * T 0 k + l 1 * T 1 k + l 2 * T 2 k} := by
  apply Set.Subset.antisymm
  · refine convexHull_min ?_ ?_
    · rintro _ ⟨i, rfl⟩
      refine ⟨Pi.single i 1, fun j => ?_, ?_, fun k => ?_⟩
      · rw [Pi.single_apply]; split_ifs <;> norm_num
      · fin_cases i <;> simp [Pi.single_apply]
      · fin_cases i <;> simp [Pi.single_apply]
    · rintro x ⟨l, h1, h2, h3⟩ y ⟨l', h1', h2', h3'⟩ a b ha hb hab
      refine ⟨fun i => a * l i + b * l' i, fun i => ?_, ?_, fun k => ?_⟩
      · exact add_nonneg (mul_nonneg ha (h1 i)) (mul_nonneg hb (h1' i))
      · linear_combination a * h2 + b * h2' + hab
      · simp only [Pi.add_apply, Pi.smul_apply, smul_eq_mul, h3, h3']; ring
  · rintro x ⟨l, h1, h2, h3⟩
    have : x = ∑ i, l i • T i := by
      funext k
      rw [h3, Fin.sum_univ_three]
      simp
    rw [this]
    refine (convex_convexHull ℝ _).sum_mem (fun i _ => h1 i) ?_
      (fun i _ => subset_convexHull ℝ _ ⟨i, rfl⟩)
    rw [Fin.sum_univ_three, h2]

theorem hull_parts (a b c : Fin m → ℝ) : convexHull ℝ (Set.range ![a, b, c]) =
    convexHull ℝ (Set.range ![a, mid a c, mid a b]) ∪
    (convexHull ℝ (Set.range ![b, mid a b, mid b c]) ∪
    (convexHull ℝ (Set.range ![c, mid b c, mid a c]) ∪
    convexHull ℝ (Set.range ![mid b c, mid a c, mid a b]))) := by
  simp only [hull_eq]
  ext x
  simp only [Set.mem_union, Set.mem_ofPred_eq, Matrix.cons_val_zero, Matrix.cons_val_one,
    Matrix.cons_val_two, Matrix.cons_val, mid]
  constructor
  · rintro ⟨l, h1, h2, h3⟩
    have e0 := h1 0
    have e1 := h1 1
    have e2 := h1 2
    by_cases c0 : 1 / 2 ≤ l 0
    · refine Or.inl ⟨![2 * l 0 - 1, 2 * l 2, 2 * l 1], ?_, ?_, ?_⟩
      · intro i; fin_cases i <;> simp <;> linarith
      · simp; linarith
      · intro k; rw [h3]; simp [mid]; linear_combination -a k * h2
    by_cases c1 : 1 / 2 ≤ l 1
    · refine Or.inr (Or.inl ⟨![2 * l 1 - 1, 2 * l 0, 2 * l 2], ?_, ?_, ?_⟩)
      · intro i; fin_cases i <;> simp <;> linarith
      · simp; linarith
      · intro k; rw [h3]; simp [mid]; linear_combination -b k * h2
    by_cases c2 : 1 / 2 ≤ l 2
    · refine Or.inr (Or.inr (Or.inl ⟨![2 * l 2 - 1, 2 * l 1, 2 * l 0], ?_, ?_, ?_⟩))
      · intro i; fin_cases i <;> simp <;> linarith
      · simp; linarith
      · intro k; rw [h3]; simp [mid]; linear_combination -c k * h2
    · push Not at c0 c1 c2
      refine Or.inr (Or.inr (Or.inr ⟨![1 - 2 * l 0, 1 - 2 * l 1, 1 - 2 * l 2], ?_, ?_, ?_⟩))
      · intro i; fin_cases i <;> simp <;> linarith
      · simp; linarith
      · intro k; rw [h3]; simp [mid]; linear_combination (a k + b k + c k) * h2
  · rintro (⟨l, h1, h2, h3⟩ | ⟨l, h1, h2, h3⟩ | ⟨l, h1, h2, h3⟩ | ⟨l, h1, h2, h3⟩) <;>
      have e0 := h1 0 <;> have e1 := h1 1 <;> have e2 := h1 2
    · refine ⟨![l 0 + (l 1 + l 2) / 2, l 2 / 2, l 1 / 2], ?_, ?_, ?_⟩
      · intro i; fin_cases i <;> simp <;> linarith
      · simp; linarith
      · intro k; rw [h3]; simp [mid]; ring
    · refine ⟨![l 1 / 2, l 0 + (l 1 + l 2) / 2, l 2 / 2], ?_, ?_, ?_⟩
      · intro i; fin_cases i <;> simp <;> linarith
      · simp; linarith
      · intro k; rw [h3]; simp [mid]; ring
    · refine ⟨![l 2 / 2, l 1 / 2, l 0 + (l 1 + l 2) / 2], ?_, ?_, ?_⟩
      · intro i; fin_cases i <;> simp <;> linarith
      · simp; linarith
      · intro k; rw [h3]; simp [mid]; ring
    · refine ⟨![(l 1 + l 2) / 2, (l 0 + l 2) / 2, (l 0 + l 1) / 2], ?_, ?_, ?_⟩
      · intro i; fin_cases i <;> simp <;> linarith
      · simp; linarith
      · intro k; rw [h3]; simp [mid]; ring

theorem integral_union_of_measure {A B : Set (Fin m → ℝ)} (hA : IsCompact A) (hB : IsCompact B)
    (h : volume.real A + volume.real B ≤ volume.real (A ∪ B)) {g : (Fin m → ℝ) → ℝ}
    (hgA : IntegrableOn g A) (hgB : IntegrableOn g B) :
    ∫ x in A ∪ B, g x = (∫ x in A, g x) + ∫ x in B, g x := by
  have h0 : volume (A ∩ B) = 0 := by
    have h1 := measureReal_union_add_inter (μ := (volume : Measure (Fin m → ℝ))) (s := A)
      hB.measurableSet hA.measure_lt_top.ne hB.measure_lt_top.ne
    have h2 : volume.real (A ∩ B) = 0 := le_antisymm (by linarith) measureReal_nonneg
    rw [measureReal_def, ENNReal.toReal_eq_zero_iff] at h2
    exact h2.resolve_right (measure_mono Set.inter_subset_left |>.trans_lt hA.measure_lt_top).ne
  exact setIntegral_union₀ h0 hB.measurableSet.nullMeasurableSet hgA hgB

/-- Cutting into four keeps the integral of every continuous function. -/
theorem C42_integral {Ts L : List (Tri 2)} (h : Triforce Ts L) (g : (Fin 2 → ℝ) → ℝ)
    (hg : Continuous g) :
    (L.map fun T => ∫ x in convexHull ℝ (Set.range T), g x).sum =
      (Ts.map fun T => ∫ x in convexHull ℝ (Set.range T), g x).sum := by
  refine triforce_total (fun T => ∫ x in convexHull ℝ (Set.range T), g x) (fun a b c => ?_) h
  have hc : ∀ T : Tri 2, IsCompact (convexHull ℝ (Set.range T)) := fun T =>
    (Set.finite_range T).isCompact_convexHull ℝ
  have hi : ∀ S : Set (Fin 2 → ℝ), IsCompact S → IntegrableOn g S := fun S hS =>
    hg.continuousOn.integrableOn_compact hS
  obtain ⟨h1, h2, h3, h4⟩ := vol_parts a b c
  rw [Tn.C11_volume, Tn.C11_volume, hull_parts a b c] at h1 h2 h3 h4
  simp only [← measureReal_def] at h1 h2 h3 h4
  rw [hull_parts a b c]
  set A := convexHull ℝ (Set.range ![a, mid a c, mid a b]) with hA
  set B := convexHull ℝ (Set.range ![b, mid a b, mid b c]) with hB
  set C := convexHull ℝ (Set.range ![c, mid b c, mid a c]) with hC
  set D := convexHull ℝ (Set.range ![mid b c, mid a c, mid a b]) with hD
  have cA : IsCompact A := hc _
  have cB : IsCompact B := hc _
  have cC : IsCompact C := hc _
  have cD : IsCompact D := hc _
  have u1 := measureReal_union_le (μ := (volume : Measure (Fin 2 → ℝ))) C D
  have u2 := measureReal_union_le (μ := (volume : Measure (Fin 2 → ℝ))) B (C ∪ D)
  have u3 := measureReal_union_le (μ := (volume : Measure (Fin 2 → ℝ))) A (B ∪ (C ∪ D))
  rw [integral_union_of_measure cA (cB.union (cC.union cD)) (by linarith) (hi _ cA)
      (hi _ (cB.union (cC.union cD))),
    integral_union_of_measure cB (cC.union cD) (by linarith) (hi _ cB) (hi _ (cC.union cD)),
    integral_union_of_measure cC cD (by linarith) (hi _ cC) (hi _ cD)]
  ring

/-- Polynomials that both rules integrate exactly: when the call returns, the value is the integral
over the given triangles and the error estimate is zero. -/
theorem C42_exact {S1 S2 : Scheme} (h1 : S1.ExactOnSimplex 2) (h2 : S2.ExactOnSimplex 2)
    (p : ι → MvPolynomial (Fin 2) ℝ) (hp1 : ∀ i, (p i).totalDegree ≤ S1.degree)
    (hp2 : ∀ i, (p i).totalDegree ≤ S2.degree) (Ts : List (Tri 2)) (eps : ℝ)
    (minArea : Option ℝ) (fuel : ℕ) (v e : ι → ℝ)
    (h : integrateAdaptive ⟨S1.weights, S1.points, S2.weights, S2.points⟩
      (fun x i => MvPolynomial.eval x (p i)) Ts eps minArea fuel = .returned v e) (i : ι) :
    v i = (Ts.map fun T => ∫ x in convexHull ℝ (Set.range T), MvPolynomial.eval x (p i)).sum ∧
      e i = 0 := by
  obtain ⟨L, hL, hv, he⟩ := C42_returned _ _ _ _ _ _ _ _ h
  constructor
  · rw [hv, ← C42_integral hL _ (MvPolynomial.continuous_eval (p := p i))]
    congr 1
    exact List.map_congr_left fun T _ => Tn.C11_exact h1 T (p i) (hp1 i)
  · rw [he]
    refine List.sum_eq_zero fun x hx => ?_
    obtain ⟨T, -, rfl⟩ := List.mem_map.1 hx
    rw [abs_eq_zero, sub_eq_zero]
    exact (Tn.C11_exact h1 T (p i) (hp1 i)).trans (Tn.C11_exact h2 T (p i) (hp2 i)).symm

/-- And the call does return, without refining, when `eps` is positive and no triangle is
degenerate. -/
theorem C42_exact_returns {S1 S2 : Scheme} (h1 : S1.ExactOnSimplex 2) (h2 : S2.ExactOnSimplex 2)
    (p : ι → MvPolynomial (Fin 2) ℝ) (hp1 : ∀ i, (p i).totalDegree ≤ S1.degree)
    (hp2 : ∀ i, (p i).totalDegree ≤ S2.degree) (Ts : List (Tri 2)) (eps : ℝ) (heps : 0 < eps)
    (hT : ∀ T ∈ Ts, AffineIndependent ℝ T) (minArea : Option ℝ) (fuel : ℕ) :
    ∃ v e, integrateAdaptive ⟨S1.weights, S1.points, S2.weights, S2.points⟩
      (fun x i => MvPolynomial.eval x (p i)) Ts eps minArea fuel = .returned v e := by
  have hpos : ∀ T ∈ Ts, 0 < Tn.getVol T := fun T h =>
    lt_of_le_of_ne (Tn.C12_nonneg T) fun e => (Tn.C12_zero_iff T).1 e.symm (hT T h)
  have hb : (evaluate ⟨S1.weights, S1.points, S2.weights, S2.points⟩
      (fun x i => MvPolynomial.eval x (p i)) eps (Ts.map Tn.getVol).sum 0 0 Ts).bad = [] := by
    simp only [evaluate, List.filter_eq_nil_iff, Bool.not_eq_true', Bool.not_eq_false]
    intro T hTs
    rw [good, decide_eq_true_iff]
    have hle : Tn.getVol T ≤ (Ts.map Tn.getVol).sum := by
      refine List.single_le_sum ?_ _ (List.mem_map_of_mem hTs)
      intro x hx
      obtain ⟨T, -, rfl⟩ := List.mem_map.1 hx
      exact Tn.C12_nonneg T
    have h0 := hpos T hTs
    have hA : 0 < (Ts.map Tn.getVol).sum := h0.trans_le hle
    refine ⟨hA.ne', fun i => ?_⟩
    have : err ⟨S1.weights, S1.points, S2.weights, S2.points⟩
        (fun x i => MvPolynomial.eval x (p i)) T i = 0 := by
      rw [err, abs_eq_zero, sub_eq_zero]
      exact (Tn.C11_exact h1 T (p i) (hp1 i)).trans (Tn.C11_exact h2 T (p i) (hp2 i)).symm
    rw [this]
    positivity
  rw [integrateAdaptive]
  cases fuel <;> rw [loop, if_pos hb] <;> exact ⟨_, _, rfl⟩

end T2
end Quadpy
