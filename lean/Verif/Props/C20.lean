import Verif.Lemmas.GaussEnd

/-!
C20: Gauss-Lobatto and Gauss-Radau rules contain their endpoints and have the degree they claim.
-/

namespace Quadpy

open OneDim Spec Polynomial

/-- Where a test polynomial `q` is positive in the mean, the points outside of its zeros are. -/
theorem OneDim.points_sign {n d : ℕ} {x w : Fin n → ℝ} {L : ℝ[X] → ℝ} (hw : ∀ i, 0 < w i)
    (he : ExactL (List.ofFn x) (List.ofFn w) d L) (q : ℝ[X]) (E : Finset (Fin n))
    (hE : ∀ i ∈ E, q.eval (x i) = 0) (hd : q.natDegree + 2 * (n - 1 - E.card) ≤ d)
    (hL : ∀ f : ℝ[X], f ≠ 0 → 0 < L (q * (f * f))) : ∀ i ∉ E, 0 < q.eval (x i) := by
  classical
  intro i hi
  set f : ℝ[X] := ∏ j ∈ (Finset.univ \ E).erase i, (X - C (x j)) with hf
  have hmon : f.Monic := monic_prod_of_monic _ _ fun j _ => monic_X_sub_C _
  have hdeg : f.natDegree = n - 1 - E.card := by
    rw [hf, natDegree_prod_of_monic _ _ fun j _ => monic_X_sub_C _]
    simp only [natDegree_X_sub_C, Finset.sum_const, smul_eq_mul, mul_one]
    rw [Finset.card_erase_of_mem (by simp [hi]), Finset.card_sdiff_of_subset (Finset.subset_univ _)]
    simp only [Finset.card_univ, Fintype.card_fin]
    omega
  have hq := he.2 (q * (f * f)) (by
    refine natDegree_mul_le.trans ?_
    have := natDegree_mul_le (p := f) (q := f)
    omega)
  have hLpos := hL f hmon.ne_zero
  rw [← hq, vdot_ofFn, Finset.sum_eq_single i] at hLpos
  · simp only [eval_mul] at hLpos
    have h2 : 0 ≤ eval (x i) f * eval (x i) f := mul_self_nonneg _
    by_contra hle
    push Not at hle
    have := mul_nonpos_of_nonpos_of_nonneg hle h2
    have := hw i
    nlinarith
  · intro j _ hj
    by_cases hjE : j ∈ E
    · simp [hE j hjE]
    · have : eval (x j) f = 0 := by
        rw [hf, eval_prod]
        exact Finset.prod_eq_zero (Finset.mem_erase.2 ⟨hj, by simp [hjE]⟩) (by simp)
      simp [this]
  · simp

/-- A bound on the degree: no rule is exact for a polynomial that vanishes on its points and has
positive integral. -/
theorem OneDim.not_exact {n d : ℕ} {x w : Fin n → ℝ} {L : ℝ[X] → ℝ}
    (q : ℝ[X]) (E : Finset (Fin n))
    (hE : ∀ i ∈ E, q.eval (x i) = 0) (hd : q.natDegree + 2 * (n - E.card) ≤ d)
    (hL : ∀ f : ℝ[X], f ≠ 0 → 0 < L (q * (f * f))) : ¬ ExactL (List.ofFn x) (List.ofFn w) d L := by
  classical
  intro he
  set f : ℝ[X] := ∏ j ∈ Finset.univ \ E, (X - C (x j)) with hf
  have hmon : f.Monic := monic_prod_of_monic _ _ fun j _ => monic_X_sub_C _
  have hdeg : f.natDegree = n - E.card := by
    rw [hf, natDegree_prod_of_monic _ _ fun j _ => monic_X_sub_C _]
    simp only [natDegree_X_sub_C, Finset.sum_const, smul_eq_mul, mul_one]
    rw [Finset.card_sdiff_of_subset (Finset.subset_univ _)]
    simp only [Finset.card_univ, Fintype.card_fin]
  have hq := he.2 (q * (f * f)) (by
    refine natDegree_mul_le.trans ?_
    have := natDegree_mul_le (p := f) (q := f)
    omega)
  have hLpos := hL f hmon.ne_zero
  rw [← hq, vdot_ofFn, Finset.sum_eq_zero] at hLpos
  · exact lt_irrefl _ hLpos
  · intro j _
    by_cases hjE : j ∈ E
    · simp [hE j hjE]
    · have : eval (x j) f = 0 := by
        rw [hf, eval_prod]
        exact Finset.prod_eq_zero (i := j) (by simp [hjE]) (by simp)
      simp [this]

section Jacobi

variable {a b : ℝ} (ha : -1 < a) (hb : -1 < b)
include ha hb

/-- The weight function of the Jacobi rules, as a linear functional. -/
theorem OneDim.jacobi_functional : ∃ L : ℝ[X] →ₗ[ℝ] ℝ,
    (∀ p, L p = weightInt (Set.Ioo (-1) 1) (fun x => (1 - x) ^ a * (1 + x) ^ b) p) ∧
    (∀ m, IsRecurrence L (jacobiAlpha a b) (jacobiBeta a b) m) ∧
    (∀ q : ℝ[X], q ≠ 0 → (∀ x ∈ Set.Ioo (-1 : ℝ) 1, 0 ≤ q.eval x) → 0 < L q) ∧
    L 1 = jacobiInt a b ∧ ∀ k, 0 < k → 0 < jacobiBeta a b k := by
  have hi := jacobi_integrable ha hb
  obtain ⟨L, hL⟩ := weightInt_linear hi
  have hpos : ∀ q : ℝ[X], q ≠ 0 → (∀ x ∈ Set.Ioo (-1 : ℝ) 1, 0 ≤ q.eval x) → 0 < L q := by
    intro q hq h0
    rw [hL]
    exact weightInt_pos hi isOpen_Ioo ⟨0, by norm_num⟩ (fun x hx =>
      mul_pos (Real.rpow_pos_of_pos (by linarith [hx.2]) _) (Real.rpow_pos_of_pos (by linarith [hx.1]) _))
      q hq h0
  have hrec : ∀ m, IsRecurrence L (jacobiAlpha a b) (jacobiBeta a b) m := fun m j k h1 h2 => by
    rw [hL]; exact jacobi_isRecurrence ha hb m j k h1 h2
  refine ⟨L, hL, hrec, hpos, ?_, fun k hk => ?_⟩
  · rw [hL, weightInt, ← jacobi_int ha hb]; simp
  · refine beta_pos (hrec (k + 1)) (fun f hf => hpos _ (mul_ne_zero hf hf) fun x _ => ?_) k hk (by omega)
    rw [eval_mul]; exact mul_self_nonneg _

/-- The Jacobi polynomials at the endpoints. -/
theorem OneDim.jacobi_endpoints (m : ℕ) :
    0 < (recPoly (jacobiAlpha a b) (jacobiBeta a b) m).eval 1 ∧
    0 < (-1) ^ m * (recPoly (jacobiAlpha a b) (jacobiBeta a b) m).eval (-1) := by
  rcases Nat.eq_zero_or_pos m with rfl | hm
  · simp [recPoly]
  have : NeZero m := ⟨hm.ne'⟩
  obtain ⟨L, -, -, -, -, hβ⟩ := jacobi_functional ha hb
  obtain ⟨⟨P, W, h⟩, h2⟩ := C19_gauss_jacobi m ha hb
  obtain ⟨-, -, -, hin, -⟩ := h2 P W h
  obtain ⟨-, x, V, hV, rfl, -⟩ := h
  have hx : ∀ i, -1 < x i ∧ x i < 1 := fun i => hin _ ((List.mem_ofFn' _ _).2 ⟨i, rfl⟩)
  rw [recPoly_eq_prod (fun k h1 _ => hβ k h1) hV, eval_prod, eval_prod]
  constructor
  · exact Finset.prod_pos fun i _ => by have := (hx i).2; simp; linarith
  · have e : ((-1 : ℝ)) ^ m = ∏ _i : Fin m, (-1 : ℝ) := by simp
    rw [e, ← Finset.prod_mul_distrib]
    exact Finset.prod_pos fun i _ => by have := (hx i).1; simp; linarith

end Jacobi

/-- Changing the last coefficients does not change the polynomials before. -/
theorem OneDim.recPoly_update (α β : ℕ → ℝ) (m : ℕ) (a' b' : ℝ) : ∀ k ≤ m,
    recPoly (Function.update α m a') (Function.update β m b') k = recPoly α β k :=
  recPoly_congr m (fun k hk => Function.update_of_ne (by omega) _ _)
    fun k _ hk => Function.update_of_ne (by omega) _ _

theorem OneDim.recPoly_update_last (α β : ℕ → ℝ) (m : ℕ) [NeZero m] (a' b' ξ : ℝ) :
    (recPoly (Function.update α m a') (Function.update β m b') (m + 1)).eval ξ =
      (ξ - a') * (recPoly α β m).eval ξ - b' * (recPoly α β (m - 1)).eval ξ := by
  obtain ⟨k, rfl⟩ : ∃ k, m = k + 1 := ⟨m - 1, by have := NeZero.ne m; omega⟩
  rw [recPoly, recPoly_update α β _ _ _ (k + 1) le_rfl, recPoly_update α β _ _ _ k (by omega)]
  simp

/-- C20: `gauss_lobatto(n)` (here `n = m + 1 ≥ 2`) has a result; its `n` points are in ascending order,
both endpoints are among them and the other points are strictly inside; the weights are positive; and
it integrates every polynomial of its degree `2n - 3` exactly. -/
theorem C20_gauss_lobatto (m : ℕ) [NeZero m] {a b : ℝ} (ha : -1 < a) (hb : -1 < b) :
    (∃ P W, GaussLobatto m a b P W) ∧ ∀ P W, GaussLobatto m a b P W →
      ExactL P W (lobattoDegree (m + 1))
        (weightInt (Set.Ioo (-1) 1) fun x => (1 - x) ^ a * (1 + x) ^ b) ∧
      P.length = m + 1 ∧ P.Pairwise (· < ·) ∧ -1 ∈ P ∧ 1 ∈ P ∧
      (∀ x ∈ P, x ≠ -1 → x ≠ 1 → -1 < x ∧ x < 1) ∧ (∀ w ∈ W, 0 < w) := by
  obtain ⟨L, hL, hrec, hpos, h1, hβ⟩ := jacobi_functional ha hb
  have hm : 0 < m := Nat.pos_of_ne_zero (NeZero.ne m)
  set α := jacobiAlpha a b
  set β := jacobiBeta a b
  have hone : (fun i => 1 * lastUnit m i) = lastUnit m := by simp
  -- the sign of the two last entries
  have hends := jacobi_endpoints ha hb m
  have hends' := jacobi_endpoints ha hb (m - 1)
  have hsgn : ((-1 : ℝ)) ^ m = -(-1) ^ (m - 1) := by
    obtain ⟨k, rfl⟩ : ∃ k, m = k + 1 := ⟨m - 1, by omega⟩
    rw [pow_succ, Nat.add_sub_cancel]; ring
  have hl1 : ∀ g : Fin m → ℝ, SolveBanded α β (-1) (lastUnit m) g →
      0 < lastEntry g ∧ (recPoly α β m).eval (-1) * lastEntry g = -(recPoly α β (m - 1)).eval (-1) := by
    intro g hg
    have e := solveBanded_last (c := 1) (fun k h1 _ => hβ k h1) (by rw [hone]; exact hg)
    rw [one_mul] at e
    refine ⟨?_, e⟩
    have p1 := hends.2
    have p2 := hends'.2
    rw [hsgn] at p1
    have : (-(-1) ^ (m - 1) * eval (-1) (recPoly α β m)) * lastEntry g =
        (-1) ^ (m - 1) * eval (-1) (recPoly α β (m - 1)) := by
      rw [mul_assoc, e]; ring
    rw [← this] at p2
    exact pos_of_mul_pos_right p2 p1.le
  have hl2 : ∀ g : Fin m → ℝ, SolveBanded α β 1 (lastUnit m) g →
      lastEntry g < 0 ∧ (recPoly α β m).eval 1 * lastEntry g = -(recPoly α β (m - 1)).eval 1 := by
    intro g hg
    have e := solveBanded_last (c := 1) (fun k h1 _ => hβ k h1) (by rw [hone]; exact hg)
    rw [one_mul] at e
    refine ⟨?_, e⟩
    have p1 := hends.1
    have p2 := hends'.1
    by_contra hle
    push Not at hle
    have := mul_nonneg p1.le hle
    rw [e] at this
    linarith
  have hne1 : (recPoly α β m).eval (-1) ≠ 0 := fun h => by
    have := hends.2; rw [show eval (-1) (recPoly (jacobiAlpha a b) (jacobiBeta a b) m) = 0 from h] at this
    simp at this
  have hβ' : ∀ b', 0 < b' → ∀ k, 0 < k → k < m + 1 → 0 < Function.update β m b' k := by
    intro b' hb' k hk _
    by_cases hkm : k = m
    · rw [hkm, Function.update_self]; exact hb'
    · rw [Function.update_of_ne hkm]; exact hβ k hk
  constructor
  · obtain ⟨g1, hg1⟩ := solveBanded_exists (fun k h1 _ => hβ k h1) hne1 (lastUnit m)
    obtain ⟨g2, hg2⟩ := solveBanded_exists (fun k h1 _ => hβ k h1) hends.1.ne' (lastUnit m)
    obtain ⟨p1, -⟩ := hl1 g1 hg1
    obtain ⟨p2, -⟩ := hl2 g2 hg2
    have hd : 0 < lastEntry g1 - lastEntry g2 := by linarith
    obtain ⟨P, W, h⟩ := schemeFromRc_exists (m + 1)
      (Function.update α m (-1 + lastEntry g1 * (2 / (lastEntry g1 - lastEntry g2))))
      (Function.update β m (2 / (lastEntry g1 - lastEntry g2))) (jacobiInt a b)
      fun k h1 h2 => (hβ' _ (by positivity) k h1 h2).le
    refine ⟨P, W, g1, g2, _, _, hg1, hg2, by linarith, ?_, ?_, h⟩
    · ring
    · field_simp; ring
  · rintro P W ⟨g1, g2, a', b', hg1, hg2, -, e1, e2, h⟩
    obtain ⟨p1, q1⟩ := hl1 g1 hg1
    obtain ⟨p2, q2⟩ := hl2 g2 hg2
    have hb' : 0 < b' := by
      by_contra hle
      push Not at hle
      nlinarith
    have hβ'' := hβ' b' hb'
    have hLpos : 0 < L 1 := hpos 1 one_ne_zero fun x _ => by simp
    rw [← h1] at h
    have hrec' : IsRecurrence L (Function.update α m a') (Function.update β m b') m := by
      intro j k hjk hkm
      rw [recPoly_update _ _ _ _ _ j (by omega), recPoly_update _ _ _ _ _ k hkm]
      exact hrec m j k hjk hkm
    have hex := schemeFromRc_exact L hm (by omega) hrec' h
    have hlen := (schemeFromRc_length h).1
    have hsort := schemeFromRc_sorted hβ'' h
    have hwpos := schemeFromRc_pos hβ'' hLpos h
    have hroots := schemeFromRc_roots hβ'' h
    have hm1 : (-1 : ℝ) ∈ P := by
      rw [hroots, recPoly_update_last, ← e1]
      rw [e1]
      have : a' = -1 + lastEntry g1 * b' := by linarith
      rw [this]; linear_combination (-b') * q1
    have hp1 : (1 : ℝ) ∈ P := by
      rw [hroots, recPoly_update_last]
      have : a' = 1 + lastEntry g2 * b' := by linarith
      rw [this]; linear_combination (-b') * q2
    have eL : (L : ℝ[X] → ℝ) = weightInt (Set.Ioo (-1) 1) fun x => (1 - x) ^ a * (1 + x) ^ b :=
      funext hL
    refine ⟨?_, hlen, hsort, hm1, hp1, ?_, hwpos⟩
    · rw [← eL, lobattoDegree, show 2 * (m + 1) - 3 = 2 * m - 1 by omega]; exact hex
    · obtain ⟨-, x, V, hV, rfl, rfl⟩ := h
      obtain ⟨i1, hi1⟩ := (List.mem_ofFn' _ _).1 hm1
      obtain ⟨i2, hi2⟩ := (List.mem_ofFn' _ _).1 hp1
      have hi12 : i1 ≠ i2 := fun h => by rw [h, hi2] at hi1; norm_num at hi1
      intro y hy hy1 hy2
      obtain ⟨i, rfl⟩ := (List.mem_ofFn' _ _).1 hy
      have := points_sign (fun i => hwpos _ ((List.mem_ofFn' _ _).2 ⟨i, rfl⟩)) hex (1 - X ^ 2) {i1, i2}
        (by
          intro j hj
          simp only [Finset.mem_insert, Finset.mem_singleton] at hj
          rcases hj with rfl | rfl
          · simp [hi1]
          · simp [hi2])
        (by
          have : (1 - X ^ 2 : ℝ[X]).natDegree ≤ 2 := by compute_degree
          rw [Finset.card_pair hi12]
          have h3 : ({i1, i2, i} : Finset (Fin (m + 1))).card = 3 := by
            rw [Finset.card_eq_three]
            exact ⟨i1, i2, i, hi12, fun h => hy1 (by rw [← h, hi1]), fun h => hy2 (by rw [← h, hi2]), rfl⟩
          have := Finset.card_le_univ ({i1, i2, i} : Finset (Fin (m + 1)))
          rw [h3, Fintype.card_fin] at this
          omega)
        (fun f hf => hpos _ (mul_ne_zero (fun h => by
            have := congrArg (fun p => eval 0 p) h; simp at this) (mul_ne_zero hf hf)) fun x hx => by
          rw [eval_mul, eval_mul]
          refine mul_nonneg ?_ (mul_self_nonneg _)
          simp only [eval_sub, eval_one, eval_pow, eval_X]
          nlinarith [hx.1, hx.2]) i (by
            simp only [Finset.mem_insert, Finset.mem_singleton, not_or]
            exact ⟨fun h => hy1 (by rw [h, hi1]), fun h => hy2 (by rw [h, hi2])⟩)
      simp only [eval_sub, eval_one, eval_pow, eval_X] at this
      constructor <;> nlinarith

/-- C20: `gauss_radau(n)` (here `n = m + 1 ≥ 2`) has a result; its `n` points are in ascending order, the
left endpoint is among them and the other points are strictly inside; the weights are positive. It
integrates every polynomial of degree `2n - 2` exactly, but never those of the degree `2n - 1` that it
claims. -/
theorem C20_gauss_radau_partial (m : ℕ) [NeZero m] {a b : ℝ} (ha : -1 < a) (hb : -1 < b) :
    (∃ P W, GaussRadau m a b P W) ∧ ∀ P W, GaussRadau m a b P W →
      ExactL P W (radauDegree (m + 1) - 1)
        (weightInt (Set.Ioo (-1) 1) fun x => (1 - x) ^ a * (1 + x) ^ b) ∧
      ¬ ExactL P W (radauDegree (m + 1))
        (weightInt (Set.Ioo (-1) 1) fun x => (1 - x) ^ a * (1 + x) ^ b) ∧
      P.length = m + 1 ∧ P.Pairwise (· < ·) ∧ -1 ∈ P ∧
      (∀ x ∈ P, x ≠ -1 → -1 < x ∧ x < 1) ∧ (∀ w ∈ W, 0 < w) := by
  obtain ⟨L, hL, hrec, hpos, h1, hβ⟩ := jacobi_functional ha hb
  have hm : 0 < m := Nat.pos_of_ne_zero (NeZero.ne m)
  set α := jacobiAlpha a b
  set β := jacobiBeta a b
  have hends := jacobi_endpoints ha hb m
  have hne1 : (recPoly α β m).eval (-1) ≠ 0 := fun h => by
    have := hends.2; rw [show eval (-1) (recPoly (jacobiAlpha a b) (jacobiBeta a b) m) = 0 from h] at this
    simp at this
  constructor
  · obtain ⟨g, hg⟩ := solveBanded_exists (fun k h1 _ => hβ k h1) hne1 (fun i => β m * lastUnit m i)
    obtain ⟨P, W, h⟩ := schemeFromRc_exists (m + 1) (Function.update α m (-1 + lastEntry g)) β
      (jacobiInt a b) fun k h1 h2 => (hβ k h1).le
    exact ⟨P, W, g, hg, h⟩
  · rintro P W ⟨g, hg, h⟩
    have q1 := solveBanded_last (fun k h1 _ => hβ k h1) hg
    have hLpos : 0 < L 1 := hpos 1 one_ne_zero fun x _ => by simp
    rw [← h1] at h
    have hβu : Function.update β m (β m) = β := Function.update_eq_self m β
    have h : SchemeFromRc (m + 1) (Function.update α m (-1 + lastEntry g))
        (Function.update β m (β m)) (L 1) P W := by rw [hβu]; exact h
    have hrec' : IsRecurrence L (Function.update α m (-1 + lastEntry g)) (Function.update β m (β m)) m := by
      intro j k hjk hkm
      rw [recPoly_update _ _ _ _ _ j (by omega), recPoly_update _ _ _ _ _ k hkm]
      exact hrec m j k hjk hkm
    have hβ'' : ∀ k, 0 < k → k < m + 1 → 0 < Function.update β m (β m) k := fun k hk _ => by
      rw [hβu]; exact hβ k hk
    have hex := schemeFromRc_exact_even L hm (by omega) hrec' (by
      rw [recPoly_update _ _ _ _ _ m le_rfl, hβu]
      exact recPoly_norm L (hrec (m + 1)) m (by omega)) h
    have hlen := (schemeFromRc_length h).1
    have hsort := schemeFromRc_sorted hβ'' h
    have hwpos := schemeFromRc_pos hβ'' hLpos h
    have hroots := schemeFromRc_roots hβ'' h
    have hm1 : (-1 : ℝ) ∈ P := by
      rw [hroots, recPoly_update_last]
      linear_combination (-1) * q1
    have eL : (L : ℝ[X] → ℝ) = weightInt (Set.Ioo (-1) 1) fun x => (1 - x) ^ a * (1 + x) ^ b :=
      funext hL
    obtain ⟨-, x, V, hV, rfl, rfl⟩ := h
    obtain ⟨i1, hi1⟩ := (List.mem_ofFn' _ _).1 hm1
    refine ⟨?_, ?_, hlen, hsort, hm1, ?_, hwpos⟩
    · rw [← eL, radauDegree, show 2 * (m + 1) - 1 - 1 = 2 * m by omega]; exact hex
    · rw [← eL, radauDegree]
      refine not_exact (1 + X) {i1} (fun j hj => ?_) ?_ fun f hf => hpos _ (mul_ne_zero (fun h => by
            have := congrArg (fun p => eval 0 p) h; simp at this) (mul_ne_zero hf hf)) fun x hx => ?_
      · rw [Finset.mem_singleton.1 hj]; simp [hi1]
      · have : (1 + X : ℝ[X]).natDegree ≤ 1 := by compute_degree
        rw [Finset.card_singleton]; omega
      · rw [eval_mul, eval_mul]
        refine mul_nonneg ?_ (mul_self_nonneg _)
        simp only [eval_add, eval_one, eval_X]
        linarith [hx.1]
    · intro y hy hy1
      obtain ⟨i, rfl⟩ := (List.mem_ofFn' _ _).1 hy
      have hii : i ∉ ({i1} : Finset (Fin (m + 1))) := fun h => by
        rw [Finset.mem_singleton.1 h] at hy1; exact hy1 hi1
      have := points_sign (fun i => hwpos _ ((List.mem_ofFn' _ _).2 ⟨i, rfl⟩)) hex (1 - X ^ 2) {i1}
        (fun j hj => by rw [Finset.mem_singleton.1 hj]; simp [hi1])
        (by
          have : (1 - X ^ 2 : ℝ[X]).natDegree ≤ 2 := by compute_degree
          rw [Finset.card_singleton]
          omega)
        (fun f hf => hpos _ (mul_ne_zero (fun h => by
            have := congrArg (fun p => eval 0 p) h; simp at this) (mul_ne_zero hf hf)) fun x hx => by
          rw [eval_mul, eval_mul]
          refine mul_nonneg ?_ (mul_self_nonneg _)
          simp only [eval_sub, eval_one, eval_pow, eval_X]
          nlinarith [hx.1, hx.2]) i hii
      simp only [eval_sub, eval_one, eval_pow, eval_X] at this
      constructor <;> nlinarith

/-! Concrete cases: four Lobatto points and three Radau points integrate `x^4` exactly. -/

example : ∃ P W, GaussLobatto 3 0 0 P W ∧ P.length = 4 ∧ -1 ∈ P ∧ 1 ∈ P ∧
    Adaptive.vdot (P.map fun x => x ^ 4) W = 2 / 5 := by
  obtain ⟨⟨P, W, h⟩, h2⟩ := C20_gauss_lobatto 3 (a := 0) (b := 0) (by norm_num) (by norm_num)
  obtain ⟨a1, a2, -, a3, a4, -⟩ := h2 P W h
  refine ⟨P, W, h, a2, a3, a4, ?_⟩
  have := a1.2 (X ^ 4) (by simp [lobattoDegree])
  simp only [eval_pow, eval_X] at this
  rw [this, weightInt, ← MeasureTheory.integral_Ioc_eq_integral_Ioo,
    ← intervalIntegral.integral_of_le (by norm_num)]
  simp [integral_pow]; norm_num

example : ∃ P W, GaussRadau 2 0 0 P W ∧ P.length = 3 ∧ -1 ∈ P ∧
    Adaptive.vdot (P.map fun x => x ^ 4) W = 2 / 5 := by
  obtain ⟨⟨P, W, h⟩, h2⟩ := C20_gauss_radau_partial 2 (a := 0) (b := 0) (by norm_num) (by norm_num)
  obtain ⟨a1, -, a2, -, a3, -⟩ := h2 P W h
  refine ⟨P, W, h, a2, a3, ?_⟩
  have := a1.2 (X ^ 4) (by simp [radauDegree])
  simp only [eval_pow, eval_X] at this
  rw [this, weightInt, ← MeasureTheory.integral_Ioc_eq_integral_Ioo,
    ← intervalIntegral.integral_of_le (by norm_num)]
  simp [integral_pow]; norm_num

end Quadpy
