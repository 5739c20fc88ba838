import Verif.Lemmas.WeightInt

/-!
C19: rules built from recurrence coefficients are exact to degree 2n - 1.
-/

namespace Quadpy

open OneDim Spec Polynomial

/-- The coefficients `β` of a positive weight are positive. -/
theorem OneDim.beta_pos {L : ℝ[X] →ₗ[ℝ] ℝ} {α β : ℕ → ℝ} {n : ℕ} (hL : IsRecurrence L α β n)
    (hpos : ∀ f : ℝ[X], f ≠ 0 → 0 < L (f * f)) : ∀ k, 0 < k → k < n → 0 < β k := by
  intro k hk hkn
  obtain ⟨k, rfl⟩ : ∃ j, k = j + 1 := ⟨k - 1, by omega⟩
  have h1 := recPoly_norm L hL (k + 1) hkn
  have h0 := recPoly_norm L hL k (by omega)
  rw [Finset.prod_range_succ] at h1
  have p1 := hpos _ (recPoly_monic α β (k + 1)).ne_zero
  have p0 := hpos _ (recPoly_monic α β k).ne_zero
  have e : L (recPoly α β (k + 1) * recPoly α β (k + 1)) = β (k + 1) * L (recPoly α β k * recPoly α β k) := by
    rw [h1, h0]; ring
  rw [e] at p1
  exact pos_of_mul_pos_left p1 p0.le |> fun h => h

/-- C19: given the recurrence coefficients of a weight, `scheme_from_rc` returns `n` points and `n`
weights that integrate every polynomial of degree at most `2n - 1` exactly; the weights add up to
`int_1`, and are nonnegative if `int_1` is. -/
theorem C19_scheme_from_rc {n : ℕ} [NeZero n] {α β : ℕ → ℝ} {P W : List ℝ} (L : ℝ[X] →ₗ[ℝ] ℝ)
    (hL : IsRecurrence L α β n) (h : SchemeFromRc n α β (L 1) P W) :
    ExactL P W (2 * n - 1) L ∧ P.length = n ∧ W.sum = L 1 ∧ (0 ≤ L 1 → ∀ w ∈ W, 0 ≤ w) := by
  refine ⟨schemeFromRc_exact L (Nat.pos_of_ne_zero (NeZero.ne n)) le_rfl hL h,
    (schemeFromRc_length h).1, schemeFromRc_sum h, fun h1 w hw => ?_⟩
  obtain ⟨-, x, V, -, -, rfl⟩ := h
  obtain ⟨i, rfl⟩ := (List.mem_ofFn' _ _).1 hw
  positivity

/-- C19: for a positive weight the points are distinct and in ascending order, they are the roots of
the orthogonal polynomial, and the weights are positive. -/
theorem C19_positive {n : ℕ} [NeZero n] {α β : ℕ → ℝ} {P W : List ℝ} (L : ℝ[X] →ₗ[ℝ] ℝ)
    (hL : IsRecurrence L α β n) (hpos : ∀ f : ℝ[X], f ≠ 0 → 0 < L (f * f))
    (h : SchemeFromRc n α β (L 1) P W) :
    P.Pairwise (· < ·) ∧ (∀ w ∈ W, 0 < w) ∧ ∀ ξ, ξ ∈ P ↔ (recPoly α β n).eval ξ = 0 := by
  have hβ := beta_pos hL hpos
  have h1 : 0 < L 1 := by simpa using hpos 1 one_ne_zero
  exact ⟨schemeFromRc_sorted hβ h, schemeFromRc_pos hβ h1 h, schemeFromRc_roots hβ h⟩

/-- C19: every positive weight has recurrence coefficients, and `scheme_from_rc` has a result for each
number of points. -/
theorem C19_exists (L : ℝ[X] →ₗ[ℝ] ℝ) (hpos : ∀ f : ℝ[X], f ≠ 0 → 0 < L (f * f)) :
    ∃ α β : ℕ → ℝ, ∀ n, IsRecurrence L α β n ∧
      ∀ [NeZero n], ∃ P W, SchemeFromRc n α β (L 1) P W := by
  refine ⟨stAlpha L, stBeta L, fun n => ⟨stieltjes L hpos n, fun {_} => ?_⟩⟩
  exact schemeFromRc_exists n _ _ _ fun k _ _ => (stieltjes_beta_pos L hpos k).le

/-- A rule for a weight on an open set `s` on which `l x + c` is positive. -/
theorem OneDim.weight_scheme {s : Set ℝ} {w : ℝ → ℝ} {α β : ℕ → ℝ} {n : ℕ} [NeZero n] {i1 : ℝ}
    {P W : List ℝ}
    (hi : ∀ k : ℕ, MeasureTheory.IntegrableOn (fun x => x ^ k * w x) s) (hs : IsOpen s)
    (hne : s.Nonempty) (hw : ∀ x ∈ s, 0 < w x) (hrec : IsRecurrence (weightInt s w) α β n)
    (h1 : weightInt s w 1 = i1) (h : SchemeFromRc n α β i1 P W) :
    ExactL P W (2 * n - 1) (weightInt s w) ∧ P.length = n ∧ P.Pairwise (· < ·) ∧
    (∀ w ∈ W, 0 < w) ∧ W.sum = i1 ∧
    (∀ l c : ℝ, (l ≠ 0 ∨ c ≠ 0) → (∀ x ∈ s, 0 ≤ l * x + c) → ∀ y ∈ P, 0 < l * y + c) := by
  obtain ⟨L, hL⟩ := weightInt_linear hi
  have hrec' : IsRecurrence L α β n := fun j k a b => by rw [hL]; exact hrec j k a b
  have hpos : ∀ f : ℝ[X], f ≠ 0 → 0 < L (f * f) := fun f hf => by
    rw [hL]
    exact weightInt_pos hi hs hne hw _ (mul_ne_zero hf hf) fun x _ => by
      rw [eval_mul]; exact mul_self_nonneg _
  have e1 : L 1 = i1 := by rw [hL, h1]
  rw [← e1] at h ⊢
  obtain ⟨a1, a2, a3, -⟩ := C19_scheme_from_rc L hrec' h
  obtain ⟨b1, b2, -⟩ := C19_positive L hrec' hpos h
  have eL : (L : ℝ[X] → ℝ) = weightInt s w := funext hL
  refine ⟨eL ▸ a1, a2, b1, b2, a3, fun l c hlc h0 => ?_⟩
  refine schemeFromRc_inside L (beta_pos hrec' hpos) h (by simpa using hpos 1 one_ne_zero) a1 l c ?_
  intro f hf _
  rw [hL]
  refine weightInt_pos hi hs hne hw _ (mul_ne_zero ?_ (mul_ne_zero hf hf)) fun x hx => ?_
  · intro h
    have c0 := congrArg (fun p => coeff p 0) h
    have c1 := congrArg (fun p => coeff p 1) h
    simp at c0 c1
    rcases hlc with h | h
    · exact h c1
    · exact h c0
  · rw [eval_mul, eval_mul]
    refine mul_nonneg ?_ (mul_self_nonneg _)
    simpa using h0 x hx

/-- C19: `gauss_jacobi(n, a, b)` has degree `2n - 1` for the weight `(1 - x)^a (1 + x)^b`; the points
are distinct and inside the interval, the weights are positive. -/
theorem C19_gauss_jacobi (n : ℕ) [NeZero n] {a b : ℝ} (ha : -1 < a) (hb : -1 < b) :
    (∃ P W, GaussJacobi n a b P W) ∧ ∀ P W, GaussJacobi n a b P W →
      ExactL P W (2 * n - 1) (weightInt (Set.Ioo (-1) 1) fun x => (1 - x) ^ a * (1 + x) ^ b) ∧
      P.length = n ∧ P.Pairwise (· < ·) ∧ (∀ x ∈ P, -1 < x ∧ x < 1) ∧ (∀ w ∈ W, 0 < w) ∧
      W.sum = jacobiInt a b := by
  have hw : ∀ x ∈ Set.Ioo (-1 : ℝ) 1, 0 < (1 - x) ^ a * (1 + x) ^ b := fun x hx =>
    mul_pos (Real.rpow_pos_of_pos (by linarith [hx.2]) _) (Real.rpow_pos_of_pos (by linarith [hx.1]) _)
  have hne : (Set.Ioo (-1 : ℝ) 1).Nonempty := ⟨0, by norm_num⟩
  have hi := jacobi_integrable ha hb
  have hrec := jacobi_isRecurrence ha hb n
  constructor
  · obtain ⟨L, hL⟩ := weightInt_linear hi
    refine schemeFromRc_exists n _ _ _ fun k h1 h2 => (beta_pos (L := L) (n := n) (α := jacobiAlpha a b)
      (fun j k h1 h2 => by rw [hL]; exact hrec j k h1 h2) (fun f hf => ?_) k h1 h2).le
    rw [hL]
    exact weightInt_pos hi isOpen_Ioo hne hw _ (mul_ne_zero hf hf) fun x _ => by
      rw [eval_mul]; exact mul_self_nonneg _
  · intro P W h
    have h1 : weightInt (Set.Ioo (-1) 1) (fun x => (1 - x) ^ a * (1 + x) ^ b) 1 = jacobiInt a b := by
      rw [weightInt, ← jacobi_int ha hb]; simp
    obtain ⟨a1, a2, a3, a4, a5, a6⟩ := weight_scheme hi isOpen_Ioo hne hw hrec h1 h
    refine ⟨a1, a2, a3, fun x hx => ⟨?_, ?_⟩, a4, a5⟩
    · have := a6 1 1 (by norm_num) (fun x hx => by linarith [hx.1]) x hx; linarith
    · have := a6 (-1) 1 (by norm_num) (fun x hx => by linarith [hx.2]) x hx; linarith

/-- C19: `gauss_laguerre(n, a)` has degree `2n - 1` for the weight `x^a e^(-x)` on the half line; the
points are distinct and positive, the weights are positive. -/
theorem C19_gauss_laguerre (n : ℕ) [NeZero n] {a : ℝ} (ha : -1 < a) :
    (∃ P W, GaussLaguerre n a P W) ∧ ∀ P W, GaussLaguerre n a P W →
      ExactL P W (2 * n - 1) (weightInt (Set.Ioi 0) fun x => x ^ a * Real.exp (-x)) ∧
      P.length = n ∧ P.Pairwise (· < ·) ∧ (∀ x ∈ P, 0 < x) ∧ (∀ w ∈ W, 0 < w) ∧
      W.sum = Real.Gamma (a + 1) := by
  constructor
  · refine schemeFromRc_exists n _ _ _ fun k h1 _ => ?_
    have : (1 : ℝ) ≤ k := by exact_mod_cast h1
    have : 0 ≤ (k : ℝ) + a := by linarith
    positivity
  · intro P W h
    have h1 : weightInt (Set.Ioi 0) (fun x => x ^ a * Real.exp (-x)) 1 = Real.Gamma (a + 1) := by
      have := laguerre_moment ha 0
      simpa using this
    obtain ⟨a1, a2, a3, a4, a5, a6⟩ := weight_scheme (laguerre_integrable ha) isOpen_Ioi ⟨1, by simp⟩
      (fun x hx => mul_pos (Real.rpow_pos_of_pos hx _) (Real.exp_pos _))
      (laguerre_isRecurrence ha n) h1 h
    refine ⟨a1, a2, a3, fun x hx => ?_, a4, a5⟩
    have := a6 1 0 (by norm_num) (fun x (hx : 0 < x) => by linarith) x hx; linarith

/-- C19: `gauss_hermite(n)` has degree `2n - 1` for the weight `e^(-x^2)`; the points are distinct, the
weights are positive. -/
theorem C19_gauss_hermite (n : ℕ) [NeZero n] :
    (∃ P W, GaussHermite n P W) ∧ ∀ P W, GaussHermite n P W →
      ExactL P W (2 * n - 1) (fun p => ∫ x, p.eval x * Real.exp (-x ^ 2)) ∧
      P.length = n ∧ P.Pairwise (· < ·) ∧ (∀ w ∈ W, 0 < w) ∧ W.sum = √Real.pi := by
  constructor
  · exact schemeFromRc_exists n _ _ _ fun k h1 _ => by positivity
  · intro P W h
    have h1 : weightInt Set.univ (fun x => Real.exp (-x ^ 2)) 1 = √Real.pi := by
      have := hermite_moment 0
      simpa [g1_zero] using this
    obtain ⟨a1, a2, a3, a4, a5, -⟩ := weight_scheme hermite_integrable isOpen_univ ⟨1, by simp⟩
      (fun x hx => Real.exp_pos _) (hermite_isRecurrence n) h1 h
    refine ⟨⟨a1.1, fun p hp => ?_⟩, a2, a3, a4, a5⟩
    rw [a1.2 p hp, weightInt, MeasureTheory.setIntegral_univ]

/-- The Legendre coefficients are those of the Jacobi weight with `a = b = 0`. -/
theorem OneDim.gaussLegendre_iff {n : ℕ} [NeZero n] {P W : List ℝ} :
    GaussLegendre n P W ↔ GaussJacobi n 0 0 P W := by
  have ha : jacobiAlpha 0 0 = fun _ => 0 := by
    funext k; cases k <;> simp [jacobiAlpha]
  have hb : ∀ k, 0 < k → jacobiBeta 0 0 k = (k : ℝ) ^ 2 / (4 * k ^ 2 - 1) := by
    intro k hk
    match k with
    | 1 => norm_num [jacobiBeta]
    | k + 2 =>
      simp only [jacobiBeta]
      have hk : (0 : ℝ) ≤ k := Nat.cast_nonneg k
      push_cast
      have h1 : 2 * ((k : ℝ) + 2) ≠ 0 := by positivity
      have h2 : 2 * ((k : ℝ) + 2) + 1 ≠ 0 := by positivity
      have h3 : 2 * ((k : ℝ) + 2) - 1 ≠ 0 := by linarith
      have h4 : 4 * ((k : ℝ) + 2) ^ 2 - 1 ≠ 0 := by nlinarith
      rw [add_zero, add_zero, add_zero, add_zero, div_eq_div_iff (by positivity) h4]
      ring
  have hi : jacobiInt 0 0 = 2 := by
    norm_num [jacobiInt]
  have hm : (tridiag n (fun _ => 0) fun k => √((k : ℝ) ^ 2 / (4 * k ^ 2 - 1))) =
      tridiag n (jacobiAlpha 0 0) fun k => √(jacobiBeta 0 0 k) := by
    rw [ha]
    ext i j
    simp only [tridiag, Matrix.of_apply]
    split_ifs with h1 h2 h3
    · rfl
    · rw [hb _ (by omega)]
    · rw [hb _ (by omega)]
    · rfl
  unfold GaussLegendre GaussJacobi SchemeFromRc
  rw [hm, hi]
  refine and_congr_left fun _ => forall_congr' fun k => forall_congr' fun hk => ?_
  rw [hb k hk]

/-- C19: `gauss_legendre(n)` has degree `2n - 1` on `[-1, 1]`; the points are distinct and inside the
interval, the weights are positive and add up to 2. -/
theorem C19_gauss_legendre (n : ℕ) [NeZero n] :
    (∃ P W, GaussLegendre n P W) ∧ ∀ P W, GaussLegendre n P W →
      ExactC1 P W (2 * n - 1) ∧ P.length = n ∧ P.Pairwise (· < ·) ∧ (∀ x ∈ P, -1 < x ∧ x < 1) ∧
      (∀ w ∈ W, 0 < w) ∧ W.sum = 2 := by
  have h := C19_gauss_jacobi n (a := 0) (b := 0) (by norm_num) (by norm_num)
  constructor
  · obtain ⟨P, W, hP⟩ := h.1
    exact ⟨P, W, gaussLegendre_iff.2 hP⟩
  · intro P W hP
    obtain ⟨a1, a2, a3, a4, a5, -⟩ := h.2 P W (gaussLegendre_iff.1 hP)
    refine ⟨⟨a1.1, fun p hp => ?_⟩, a2, a3, a4, a5, schemeFromRc_sum hP⟩
    rw [a1.2 p hp, weightInt, intervalIntegral.integral_of_le (by norm_num),
      MeasureTheory.integral_Ioc_eq_integral_Ioo]
    simp

/-! Concrete cases: five Gauss points integrate `x^8` over `[-1, 1]` to `2/9`, and three Hermite
points integrate `x^4 e^(-x^2)` to `3/4 √π`. -/

example : ∃ P W, GaussLegendre 5 P W ∧ P.length = 5 ∧
    Adaptive.vdot (P.map fun x => x ^ 8) W = 2 / 9 := by
  obtain ⟨⟨P, W, h⟩, h2⟩ := C19_gauss_legendre 5
  obtain ⟨a1, a2, -⟩ := h2 P W h
  refine ⟨P, W, h, a2, ?_⟩
  have := a1.2 (X ^ 8) (by simp)
  simp only [eval_pow, eval_X] at this
  rw [this, integral_pow]; norm_num

example : ∃ P W, GaussHermite 3 P W ∧
    Adaptive.vdot (P.map fun x => x ^ 4) W = 3 / 4 * √Real.pi := by
  obtain ⟨⟨P, W, h⟩, h2⟩ := C19_gauss_hermite 3
  obtain ⟨a1, -⟩ := h2 P W h
  refine ⟨P, W, h, ?_⟩
  have := a1.2 (X ^ 4) (by simp)
  simp only [eval_pow, eval_X] at this
  rw [this, integral_pow_gauss, g1_succ, g1_succ, g1_zero]; norm_num; ring

end Quadpy
