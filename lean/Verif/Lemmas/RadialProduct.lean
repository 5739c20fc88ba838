import Verif.Lemmas.PlainRules
import Verif.Lemmas.Radii

/-! Products of a radial rule and a plain sphere rule, with bounds for the errors. -/

namespace Quadpy
open Dec Finset MeasureTheory

theorem approxUpTo_mono {n d : ℕ} {eps : ℝ} {Q J : Spec.Functional n} (h : Spec.ApproxUpTo d eps Q J)
    (α : Fin n → ℕ) (hα : ∑ i, α i ≤ d) : |Q (mono α) - J (mono α)| ≤ eps := by
  have e : (fun x => MvPolynomial.eval x
      (MvPolynomial.monomial (Finsupp.equivFunOnFinite.symm α) (1 : ℝ))) = mono α := by
    funext x
    rw [MvPolynomial.eval_monomial, one_mul, Finsupp.prod_fintype _ _ (by simp)]
    rfl
  have := h (MvPolynomial.monomial (Finsupp.equivFunOnFinite.symm α) (1 : ℝ)) (by
    rw [MvPolynomial.totalDegree_monomial _ one_ne_zero, Finsupp.sum_fintype _ _ (by simp)]
    exact hα)
  rw [e, MvPolynomial.support_monomial, if_neg one_ne_zero] at this
  simpa using this

/-- Monomials are at most one on the sphere. -/
theorem sphMom_abs_le {n : ℕ} (hn : 0 < n) (α : Fin n → ℕ) : |sphMom α| ≤ 1 := by
  have h0 := sphereArea_pos hn
  have h1 : Spec.sphere n (fun _ => 1) = sphereArea n := by
    rw [one_eq_mono, sphere_mono' hn]
    have := (radial_symMom hn (fun _ => 1) rfl).zero
    simp only [radMom, one_mul] at this
    rw [this, mul_one]
  have h2 : |Spec.sphere n (mono α)| ≤ Spec.sphere n (fun _ => 1) := by
    simp only [Spec.sphere]
    have := norm_integral_le_of_norm_le_const
      (μ := (volume : Measure (EuclideanSpace ℝ (Fin n))).toSphere)
      (f := fun x : Metric.sphere (0 : EuclideanSpace ℝ (Fin n)) 1 => mono α fun i => x.1 i) (C := 1)
      (Filter.Eventually.of_forall fun x => ?_)
    · rw [integral_const]
      simpa using this
    · rw [mono, Real.norm_eq_abs, abs_prod]
      refine prod_le_one (fun _ _ => abs_nonneg _) fun i _ => ?_
      rw [abs_pow]
      refine pow_le_one₀ (abs_nonneg _) ?_
      have h3 := EuclideanSpace.norm_eq x.1
      rw [norm_eq_of_mem_sphere] at h3
      have h4 : ∑ i, ‖x.1 i‖ ^ 2 = 1 := by
        rw [← Real.sqrt_eq_one]; exact h3.symm
      have h5 : ‖x.1 i‖ ^ 2 ≤ 1 :=
        (single_le_sum (f := fun i => ‖x.1 i‖ ^ 2) (fun _ _ => by positivity) (mem_univ i)).trans h4.le
      rw [← Real.norm_eq_abs]
      exact abs_le_of_sq_le_sq' (by simpa using h5) zero_le_one |>.2
  rw [sphere_mono' hn, h1, abs_mul, abs_of_pos h0] at h2
  exact le_of_mul_le_mul_left (by simpa using h2) h0

/-- A larger bound. -/
theorem approxRel_le {S : Scheme} {n : ℕ} {J : Spec.Functional n} {eps eps' : ℝ} (h : S.ApproxRel n J eps)
    (h1 : 0 ≤ J fun _ => 1) (he : eps ≤ eps') : S.ApproxRel n J eps' :=
  ⟨h.1, fun p hp => (h.2 p hp).trans (mul_le_mul_of_nonneg_right (mul_le_mul_of_nonneg_left he h1)
    (sum_nonneg fun _ _ => abs_nonneg _))⟩

theorem toVec_scale (n : ℕ) (r : ℝ) (b : List ℝ) : toVec n (b.map fun x => r * x) = fun i => r * toVec n b i := by
  funext i
  simp only [toVec]
  rw [List.getD_eq_getElem?_getD, List.getD_eq_getElem?_getD, List.getElem?_map]
  cases b[(i : ℕ)]? <;> simp

/-- A radial rule with factors `c`, times a plain rule on the sphere. -/
theorem approx_radial {n deg : ℕ} (hn : 0 < n) {J : Spec.Functional n} {ρ : ℕ → ℝ} (hl : LinOnMono J)
    (h1 : 0 ≤ J fun _ => 1) (hm : ∀ α, J (mono α) = J (fun _ => 1) * radMom ρ α)
    {L : List (ℝ × ℝ)} {M : List (ℝ × List ℝ)} {eps δ K c : ℝ} (hM : ∀ p ∈ M, p.2.length = n)
    (hS : (schemeOfSym n [plainOf M] deg).ApproxRel n (Spec.sphere n) eps)
    (hR : ∀ k, 2 * k ≤ deg → |c * (L.map fun p => p.2 * p.1 ^ (2 * k)).sum - ρ (2 * k)| ≤ δ) (hδ : 0 ≤ δ)
    (hK : ∀ k ≤ deg, |c * (L.map fun p => p.2 * p.1 ^ k).sum| ≤ K)
    {N : List (ℝ × List ℝ)} (hN : N = L.flatMap fun p => M.map fun q => (c * p.2 * q.1, q.2.map fun x => p.1 * x)) :
    (schemeOfSym n [plainOf N] deg).ApproxRel n J (K * eps + δ) := by
  subst hN
  refine approx_plain hl ?_ fun α hα => ?_
  · intro p hp
    simp only [List.mem_flatMap, List.mem_map] at hp
    obtain ⟨a, -, q, hq, rfl⟩ := hp
    simpa using hM q hq
  have hr : ∀ e ∈ [plainOf M], e.Regular := by
    intro e he
    rw [List.mem_singleton.1 he]
    exact (plainOf_regular hM n).1
  have h2 : dot n (schemeOfSym n [plainOf M] deg).weights (schemeOfSym n [plainOf M] deg).points
    (mono α) = _ := expand_dot n n _ hr _
  rw [symSum_plainOf] at h2
  have h3 := approxUpTo_mono hS.2 α hα
  have h4 : Spec.sphere n (fun _ => 1) = sphereArea n := by
    rw [one_eq_mono, sphere_mono' hn]
    have := (radial_symMom hn (fun _ => 1) rfl).zero
    simp only [radMom, one_mul] at this
    rw [this, mul_one]
  have h0 := sphereArea_pos hn
  beta_reduce at h3
  rw [h2, sphere_mono' hn, h4, ← mul_sub, abs_mul, abs_of_pos h0] at h3
  have h3 := le_of_mul_le_mul_left h3 h0
  have e1 : fsum n (L.flatMap fun p => M.map fun q => (c * p.2 * q.1, q.2.map fun x => p.1 * x)) (mono α) =
      (c * (L.map fun p => p.2 * p.1 ^ (∑ i, α i)).sum) * fsum n M (mono α) := by
    rw [fsum, sum_flatMap_mul L M _ _ (fun p => c * (p.2 * p.1 ^ ∑ i, α i)) (fun q => q.1 * mono α (toVec n q.2)),
      List.sum_map_mul_left]
    · rfl
    intro p _ q _
    beta_reduce
    rw [toVec_scale, mono_smul]
    ring
  rw [e1, hm, radMom, ← mul_sub, abs_mul, abs_of_nonneg h1]
  refine mul_le_mul_of_nonneg_left ?_ h1
  have h5 := hK _ hα
  have h6 := sphMom_abs_le hn α
  rcases Nat.even_or_odd (∑ i, α i) with ⟨k, hk⟩ | ho
  · have h7 := hR k (by omega)
    rw [two_mul, ← hk] at h7
    generalize c * (L.map fun p => p.2 * p.1 ^ (∑ i, α i)).sum = R at *
    rw [show R * fsum n M (mono α) - ρ (∑ i, α i) * sphMom α =
      R * (fsum n M (mono α) - sphMom α) + (R - ρ (∑ i, α i)) * sphMom α by ring]
    refine (abs_add_le _ _).trans (add_le_add ?_ ?_)
    · rw [abs_mul]; exact mul_le_mul h5 h3 (abs_nonneg _) ((abs_nonneg _).trans h5)
    · rw [abs_mul]
      calc _ ≤ δ * 1 := mul_le_mul h7 h6 (abs_nonneg _) hδ
        _ = δ := mul_one _
  · have h8 := sphMom_odd_sum hn α ho
    rw [h8] at h3 ⊢
    rw [mul_zero, sub_zero, abs_mul]
    rw [sub_zero] at h3
    exact (mul_le_mul h5 h3 (abs_nonneg _) ((abs_nonneg _).trans h5)).trans (le_add_of_nonneg_right hδ)

end Quadpy
