import Verif.Lemmas.Coefficients
import Verif.Lemmas.Householder
import Verif.Props.C19

/-!
C51: `coefficients_from_gauss` inverts `scheme_from_rc`.
-/

namespace Quadpy

open OneDim Spec Polynomial Matrix

/-- The rule as a functional on polynomials. -/
noncomputable def OneDim.ruleL (P W : List ℝ) : ℝ[X] →ₗ[ℝ] ℝ :=
  ∑ i : Fin P.length, W.getD i 0 • (Polynomial.aeval (P.getD i 0)).toLinearMap

theorem OneDim.ruleL_apply {P W : List ℝ} (h : P.length = W.length) (f : ℝ[X]) :
    ruleL P W f = Adaptive.vdot (P.map fun x => f.eval x) W := by
  have e1 : P = List.ofFn fun i : Fin P.length => P.getD i 0 := by
    refine List.ext_getElem (by simp) fun i h1 h2 => ?_
    simp [h1]
  have e2 : W = List.ofFn fun i : Fin P.length => W.getD i 0 := by
    refine List.ext_getElem (by simp [h]) fun i h1 h2 => ?_
    simp [h1]
  conv_rhs => rw [e1, e2]
  rw [vdot_ofFn, ruleL, LinearMap.sum_apply]
  refine Finset.sum_congr rfl fun i _ => ?_
  simp [mul_comm, aeval_def, eval₂_eq_eval_map]

/-- The coefficients of a rule made by `scheme_from_rc` are recurrence coefficients of the rule. -/
theorem OneDim.schemeFromRc_recurrence {n : ℕ} [NeZero n] {α β : ℕ → ℝ} {i1 : ℝ} {P W : List ℝ}
    (h : SchemeFromRc n α β i1 P W) : IsRecurrence (ruleL P W) α β n := by
  obtain ⟨l1, l2⟩ := schemeFromRc_length h
  intro j k hjk hk
  rw [ruleL_apply (by rw [l1, l2]), schemeFromRc_vdot h, ← recPoly_sqrt h.1 j (by omega),
    ← recPoly_sqrt h.1 k hk, corner_recPoly _ _ (by omega) hk, if_neg (by omega), mul_zero]

/-- A rule with distinct points and positive weights is positive on squares of low degree. -/
theorem OneDim.ruleL_pos {P W : List ℝ} (hl : P.length = W.length) (hP : P.Pairwise (· < ·))
    (hW : ∀ w ∈ W, 0 < w) {f : ℝ[X]} (hf : f ≠ 0) (hd : f.degree < P.length) :
    0 < ruleL P W (f * f) := by
  have hw : ∀ i : Fin P.length, 0 < W.getD i 0 := by
    intro i
    have hi : i.val < W.length := hl ▸ i.2
    have : W.getD i 0 = W[i.val] := by simp [hi]
    rw [this]
    exact hW _ (List.getElem_mem _)
  rw [ruleL, LinearMap.sum_apply]
  have hex : ∃ i : Fin P.length, f.eval (P.getD i 0) ≠ 0 := by
    by_contra hno
    push Not at hno
    refine hf (Polynomial.eq_zero_of_natDegree_lt_card_of_eval_eq_zero f
      (f := fun i : Fin P.length => P.getD i 0) ?_ hno ?_)
    · intro i j hij
      by_contra hne
      rcases Nat.lt_or_gt_of_ne (fun h => hne (Fin.ext h)) with hlt | hlt
      · have := List.pairwise_iff_getElem.1 hP i j i.2 j.2 hlt
        simp at hij; linarith
      · have := List.pairwise_iff_getElem.1 hP j i j.2 i.2 hlt
        simp at hij; linarith
    · rw [Fintype.card_fin]
      rw [degree_eq_natDegree hf] at hd
      exact_mod_cast hd
  obtain ⟨i, hi⟩ := hex
  refine Finset.sum_pos' (fun j _ => ?_) ⟨i, Finset.mem_univ _, ?_⟩
  · have := hw j
    simp [aeval_def, eval₂_eq_eval_map]
    exact mul_nonneg (by simpa using this.le) (mul_self_nonneg _)
  · have := hw i
    simp [aeval_def, eval₂_eq_eval_map]
    exact mul_pos (by simpa using this) (mul_self_pos.2 (by simpa using hi))

/-- Recurrence coefficients are determined by the functional. -/
theorem OneDim.recurrence_unique {n : ℕ} {L : ℝ[X] →ₗ[ℝ] ℝ} {α β α' β' : ℕ → ℝ}
    (hpos : ∀ f : ℝ[X], f ≠ 0 → f.degree < n → 0 < L (f * f))
    (h : IsRecurrence L α β n) (h' : IsRecurrence L α' β' n) :
    (∀ k < n, α k = α' k) ∧ ∀ k, 0 < k → k < n → β k = β' k := by
  have hp : ∀ k ≤ n, recPoly α β k = recPoly α' β' k := by
    intro k hk
    by_contra hne
    have hdeg : (recPoly α β k - recPoly α' β' k).degree < k := by
      have d1 := recPoly_natDegree α β k
      have d2 := recPoly_natDegree α' β' k
      have m1 := recPoly_monic α β k
      have m2 := recPoly_monic α' β' k
      have := degree_sub_lt_left (p := recPoly α β k) (q := recPoly α' β' k)
        (by rw [degree_eq_natDegree m1.ne_zero, degree_eq_natDegree m2.ne_zero, d1, d2]) m1.ne_zero
        (by rw [m1.leadingCoeff, m2.leadingCoeff])
      rwa [degree_eq_natDegree m1.ne_zero, d1] at this
    have z1 : L (recPoly α β k * (recPoly α β k - recPoly α' β' k)) = 0 :=
      linear_mul_recPoly L _ k (fun j hj => by rw [mul_comm]; exact h j k hj hk) _ hdeg
    have z2 : L (recPoly α' β' k * (recPoly α β k - recPoly α' β' k)) = 0 :=
      linear_mul_recPoly L _ k (fun j hj => by rw [mul_comm]; exact h' j k hj hk) _ hdeg
    have := hpos _ (sub_ne_zero.2 hne) (lt_of_lt_of_le hdeg (by exact_mod_cast hk))
    rw [sub_mul, map_sub, z1, z2, sub_zero] at this
    exact lt_irrefl _ this
  have hone : α 0 = α' 0 ∨ n = 0 := by
    rcases Nat.eq_zero_or_pos n with h0 | h0
    · exact Or.inr h0
    · left
      have := hp 1 h0
      simp only [recPoly, sub_right_inj, C_inj] at this
      exact this
  have hstep : ∀ k, k + 2 ≤ n → α (k + 1) = α' (k + 1) ∧ β (k + 1) = β' (k + 1) := by
    intro k hk
    have e2 := hp (k + 2) hk
    rw [recPoly, recPoly, ← hp (k + 1) (by omega), ← hp k (by omega)] at e2
    have e3 : C (α' (k + 1) - α (k + 1)) * recPoly α β (k + 1) =
        C (β (k + 1) - β' (k + 1)) * recPoly α β k := by
      simp only [C_sub]; linear_combination e2
    have c1 := congrArg (fun p => p.coeff (k + 1)) e3
    have m1 : (recPoly α β (k + 1)).coeff (k + 1) = 1 := by
      have := (recPoly_monic α β (k + 1)).coeff_natDegree; rwa [recPoly_natDegree] at this
    have m0 : (recPoly α β k).coeff k = 1 := by
      have := (recPoly_monic α β k).coeff_natDegree; rwa [recPoly_natDegree] at this
    have n0 : (recPoly α β k).coeff (k + 1) = 0 :=
      coeff_eq_zero_of_natDegree_lt (by rw [recPoly_natDegree]; omega)
    simp only [coeff_C_mul, m1, n0, mul_one, mul_zero] at c1
    rw [c1, C_0, zero_mul] at e3
    have c0 := congrArg (fun p => p.coeff k) e3
    simp only [coeff_C_mul, m0, mul_one, coeff_zero] at c0
    exact ⟨by linarith, by linarith⟩
  constructor
  · intro k hk
    match k with
    | 0 => exact hone.resolve_right (by omega)
    | k + 1 => exact (hstep k (by omega)).1
  · intro k h0 hk
    obtain ⟨k, rfl⟩ : ∃ j, k = j + 1 := ⟨k - 1, by omega⟩
    exact (hstep k (by omega)).2

/-- The coefficient `beta[k]`; the first one is `nan` and not used. -/
def OneDim.betaAt (beta : List (Option ℝ)) (k : ℕ) : ℝ := (beta.getD k none).getD 0

/-- What `coefficients_from_gauss` returns, in terms of the output of `sytrd`. -/
theorem OneDim.coefficients_out {P W alpha : List ℝ} {beta : List (Option ℝ)} {int1 : ℝ}
    (h : CoefficientsFromGauss P W alpha beta int1) :
    0 < P.length ∧ alpha.length = P.length ∧ beta.length = P.length ∧ beta.head? = some none ∧
    (∀ k, 0 < k → k < P.length → (beta.getD k none).isSome) ∧
    ∃ d e, IsSytrd (gaussMatrix P W) d e ∧ int1 = e (P.length - 1) ^ 2 ∧
      (∀ k < P.length, alpha.getD k 0 = d (P.length - 1 - k)) ∧
      ∀ k, 0 < k → k < P.length → betaAt beta k = e (P.length - 1 - k) ^ 2 := by
  obtain ⟨-, -, d, e, hs, rfl, hb, rfl⟩ := h
  have hpos : 0 < P.length := by
    rcases Nat.eq_zero_or_pos P.length with h0 | h0
    · rw [h0] at hb; simp at hb
    · exact h0
  refine ⟨hpos, by simp, by simp, ?_, ?_, d, e, hs, ?_, ?_, ?_⟩
  · rw [List.head?_eq_getElem?, List.getElem?_set_self (by simpa using hpos)]
  · intro k h0 hk
    simp [List.getElem?_set, h0.ne, hk]
  · rw [List.head?_eq_getElem?] at hb
    simp [hpos] at hb
    exact hb.symm
  · intro k hk
    simp [hk, List.getElem_reverse]
  · intro k h0 hk
    simp [betaAt, List.getElem?_set, h0.ne, hk]

/-- C51: for any rule with points in ascending order and nonnegative weights, `scheme_from_rc` applied
to the result of `coefficients_from_gauss` gives back the rule. -/
theorem C51_roundtrip {P W alpha : List ℝ} {beta : List (Option ℝ)} {int1 : ℝ} [NeZero P.length]
    (hP : P.Pairwise (· ≤ ·)) (h : CoefficientsFromGauss P W alpha beta int1) :
    SchemeFromRc P.length (alpha.getD · 0) (betaAt beta) int1 P W := by
  obtain ⟨hpos, -, -, -, -, d, e, hs, hi, ha, hb⟩ := coefficients_out h
  obtain ⟨hl, hw, -⟩ := h
  obtain ⟨V, hV, hwt⟩ := sytrd_eigh hs hP
  refine ⟨fun k h0 hk => by rw [hb k h0 hk]; positivity, fun i => P.getD i 0, V, ?_, ?_, ?_⟩
  · have : tridiag P.length (alpha.getD · 0) (fun k => √(betaAt beta k)) =
        tridiag P.length (fun k => d (P.length - 1 - k)) fun k => |e (P.length - 1 - k)| := by
      ext i j
      have hi := i.2
      have hj := j.2
      simp only [tridiag, of_apply]
      split_ifs
      · exact ha i hi
      · rw [hb j (by omega) hj, Real.sqrt_sq_eq_abs]
      · rw [hb i (by omega) hi, Real.sqrt_sq_eq_abs]
      · rfl
    rw [this]
    exact hV
  · refine List.ext_getElem (by simp) fun i h1 h2 => ?_
    simp [h1]
  · refine List.ext_getElem (by simp [hl]) fun i h1 h2 => ?_
    have hi' : i < P.length := by omega
    have h3 := hwt ⟨i, hi'⟩
    have h4 : W.getD i 0 = W[i] := by simp [h1]
    have h5 : 0 ≤ W[i] := hw _ (List.getElem_mem _)
    rw [h4] at h3
    have h6 : int1 * V 0 ⟨i, hi'⟩ ^ 2 = W[i] := by
      rw [hi, ← mul_pow, ← h3, Real.sq_sqrt h5]
    rw [List.getElem_ofFn]
    exact h6.symm

/-- C51: the result belongs to the rule: `int_1` is the sum of the weights, and the polynomials of the
recurrence are orthogonal with respect to the rule; for distinct points and positive weights all
`beta` are positive. -/
theorem C51_recurrence {P W alpha : List ℝ} {beta : List (Option ℝ)} {int1 : ℝ}
    (hP : P.Pairwise (· < ·)) (hW : ∀ w ∈ W, 0 < w) (h : CoefficientsFromGauss P W alpha beta int1) :
    alpha.length = P.length ∧ beta.length = P.length ∧ int1 = W.sum ∧
    IsRecurrence (fun f => Adaptive.vdot (P.map fun x => f.eval x) W) (alpha.getD · 0) (betaAt beta)
      P.length ∧
    ∀ k, 0 < k → k < P.length → 0 < betaAt beta k := by
  obtain ⟨hpos, l1, l2, -, -, -⟩ := coefficients_out h
  have : NeZero P.length := ⟨hpos.ne'⟩
  have hs := C51_roundtrip (hP.imp fun h => h.le) h
  have hrec := schemeFromRc_recurrence hs
  refine ⟨l1, l2, (schemeFromRc_sum hs).symm, fun j k hjk hk => ?_, fun k h0 hk => ?_⟩
  · have := hrec j k hjk hk
    rwa [ruleL_apply h.1] at this
  · obtain ⟨k, rfl⟩ : ∃ j, k = j + 1 := ⟨k - 1, by omega⟩
    have hp : ∀ j < P.length, 0 < ruleL P W (recPoly (alpha.getD · 0) (betaAt beta) j *
        recPoly (alpha.getD · 0) (betaAt beta) j) := fun j hj =>
      ruleL_pos h.1 hP hW (recPoly_monic _ _ _).ne_zero (by
        rw [degree_eq_natDegree (recPoly_monic _ _ _).ne_zero, recPoly_natDegree]
        exact_mod_cast hj)
    have p1 := hp (k + 1) hk
    have p0 := hp k (by omega)
    rw [recPoly_norm _ hrec _ hk, Finset.prod_range_succ] at p1
    rw [recPoly_norm _ hrec _ (by omega)] at p0
    have : (∏ i ∈ Finset.range k, betaAt beta (i + 1)) * betaAt beta (k + 1) * ruleL P W 1 =
      betaAt beta (k + 1) * ((∏ i ∈ Finset.range k, betaAt beta (i + 1)) * ruleL P W 1) := by ring
    rw [this] at p1
    exact pos_of_mul_pos_left p1 p0.le

/-- C51: `coefficients_from_gauss` applied to a rule of `scheme_from_rc` gives back its coefficients. -/
theorem C51_inverse {n : ℕ} [NeZero n] {α β : ℕ → ℝ} {i1 : ℝ} {P W alpha : List ℝ}
    {beta : List (Option ℝ)} {int1 : ℝ} (hβ : ∀ k, 0 < k → k < n → 0 < β k) (hi : 0 < i1)
    (hs : SchemeFromRc n α β i1 P W) (h : CoefficientsFromGauss P W alpha beta int1) :
    int1 = i1 ∧ alpha = (List.range n).map α ∧
      beta = (List.range n).map fun k => if k = 0 then none else some (β k) := by
  obtain ⟨rfl, lw⟩ := schemeFromRc_length hs
  have hP := schemeFromRc_sorted hβ hs
  have hW := schemeFromRc_pos hβ hi hs
  obtain ⟨hpos, l1, l2, hh, hsome, -⟩ := coefficients_out h
  have hr := C51_roundtrip (hP.imp fun h => h.le) h
  have hu := recurrence_unique (fun f hf hd => ruleL_pos h.1 hP hW hf hd) (schemeFromRc_recurrence hr)
    (schemeFromRc_recurrence hs)
  refine ⟨(schemeFromRc_sum hr).symm.trans (schemeFromRc_sum hs), ?_, ?_⟩
  · refine List.ext_getElem (by simp [l1]) fun k h1 h2 => ?_
    have := hu.1 k (by omega)
    simp [h1] at this
    simp [this]
  · refine List.ext_getElem (by simp [l2]) fun k h1 h2 => ?_
    rcases Nat.eq_zero_or_pos k with rfl | h0
    · rw [List.head?_eq_getElem?, List.getElem?_eq_getElem h1] at hh
      simpa using hh
    · have e1 := hsome k h0 (by omega)
      have e2 := hu.2 k h0 (by omega)
      simp [betaAt, h1] at e1 e2
      obtain ⟨v, hv⟩ := Option.isSome_iff_exists.1 e1
      rw [hv] at e2
      simp at e2
      simp [hv, e2, h0.ne']

/-- C51: a result exists for every rule with at least one point and nonnegative weights. -/
theorem C51_exists {P W : List ℝ} (hl : P.length = W.length) (h0 : 0 < P.length) (hW : ∀ w ∈ W, 0 ≤ w) :
    ∃ alpha beta int1, CoefficientsFromGauss P W alpha beta int1 := by
  have hA : (gaussMatrix P W)ᵀ = gaussMatrix P W := by
    ext i j
    simp only [gaussMatrix, transpose_apply, of_apply]
    split_ifs <;> first | rfl | (exfalso; omega) | skip
    all_goals first | (subst_vars; rfl) | (exfalso; simp_all; done) | simp_all
  obtain ⟨d, e, h⟩ := isSytrd_exists _ hA
  refine ⟨_, _, e (P.length - 1) ^ 2, hl, hW, d, e, h, rfl, ?_, rfl⟩
  rw [List.head?_eq_getElem?]
  simp [h0]

/-- The two-point Gauss-Legendre rule has the coefficients `0, 0` and `nan, 1/3`. -/
example {alpha beta int1} (h : CoefficientsFromGauss [-√(1 / 3), √(1 / 3)] [1, 1] alpha beta int1) :
    int1 = 2 ∧ alpha = [0, 0] ∧ beta = [none, some (1 / 3)] := by
  have hs : SchemeFromRc 2 (fun _ => 0) (fun _ => 1 / 3) 2 [-√(1 / 3), √(1 / 3)] [1, 1] := by
    have h2 : √(1 / 2 : ℝ) * √(1 / 2) = 1 / 2 := Real.mul_self_sqrt (by norm_num)
    refine ⟨fun _ _ _ => by norm_num, ![-√(1 / 3), √(1 / 3)],
      !![√(1 / 2), √(1 / 2); -√(1 / 2), √(1 / 2)], ⟨?_, ?_, ?_⟩, by simp, ?_⟩
    · ext i j; fin_cases i <;> fin_cases j <;> simp [Matrix.mul_apply, Fin.sum_univ_two] <;>
        simp at h2 <;> linarith
    · ext i j
      fin_cases i <;> fin_cases j <;> simp [Matrix.mul_apply, Fin.sum_univ_two, tridiag] <;> ring
    · intro i j hij
      fin_cases i <;> fin_cases j <;> simp at hij ⊢
    · simp
  have := C51_inverse (fun _ _ _ => by norm_num) (by norm_num) hs h
  simpa [List.range_succ] using this

/-- The coefficients of a rule that is not a Gauss rule of a classical weight: Simpson's. -/
example : ∃ alpha beta int1, CoefficientsFromGauss [-1, 0, 1] [1 / 3, 4 / 3, 1 / 3] alpha beta int1 ∧
    int1 = 2 ∧ alpha.length = 3 := by
  obtain ⟨alpha, beta, int1, h⟩ := C51_exists (P := [-1, 0, 1]) (W := [1 / 3, 4 / 3, 1 / 3]) rfl
    (by simp) (by intro w hw; simp at hw; rcases hw with rfl | rfl | rfl <;> norm_num)
  have := C51_recurrence (by simp) (by intro w hw; simp at hw; rcases hw with rfl | rfl | rfl <;> norm_num) h
  refine ⟨alpha, beta, int1, h, ?_, this.1⟩
  rw [this.2.2.1]; norm_num

end Quadpy
