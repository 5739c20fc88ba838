import Verif.Spec.OneDim
import Verif.Model.OneDim
import Verif.Lemmas.C1Exact
import Mathlib.Algebra.Polynomial.Monic
import Mathlib.Algebra.Polynomial.Div
import Mathlib.Analysis.Matrix.Spectrum
import Mathlib.LinearAlgebra.Matrix.Hermitian

/-!
# Gauss rules from recurrence coefficients
-/

namespace Quadpy
namespace OneDim

open Matrix Polynomial Spec

/-! ### The polynomials of the recurrence -/

section Rec

variable (α β : ℕ → ℝ)

theorem recPoly_monic_degree (k : ℕ) : (recPoly α β k).Monic ∧ (recPoly α β k).natDegree = k := by
  induction k using Nat.strong_induction_on with
  | _ k ih =>
    match k with
    | 0 => exact ⟨monic_one, natDegree_one⟩
    | 1 => exact ⟨monic_X_sub_C _, natDegree_X_sub_C _⟩
    | k + 2 =>
      obtain ⟨m1, d1⟩ := ih (k + 1) (by omega)
      obtain ⟨m0, d0⟩ := ih k (by omega)
      have hm : ((X - C (α (k + 1))) * recPoly α β (k + 1)).Monic := (monic_X_sub_C _).mul m1
      have hd : ((X - C (α (k + 1))) * recPoly α β (k + 1)).natDegree = k + 2 := by
        rw [(monic_X_sub_C _).natDegree_mul m1, natDegree_X_sub_C, d1]; omega
      have hlt : (C (β (k + 1)) * recPoly α β k).natDegree < k + 2 :=
        lt_of_le_of_lt (natDegree_C_mul_le _ _) (by omega)
      have hdeg : (C (β (k + 1)) * recPoly α β k).degree <
          ((X - C (α (k + 1))) * recPoly α β (k + 1)).degree := by
        rw [degree_eq_natDegree hm.ne_zero, hd]
        exact lt_of_le_of_lt degree_le_natDegree (by exact_mod_cast hlt)
      rw [recPoly]
      exact ⟨hm.sub_of_left hdeg, by rw [natDegree_sub_eq_left_of_natDegree_lt (by omega), hd]⟩

theorem recPoly_monic (k : ℕ) : (recPoly α β k).Monic := (recPoly_monic_degree α β k).1

theorem recPoly_natDegree (k : ℕ) : (recPoly α β k).natDegree = k := (recPoly_monic_degree α β k).2

variable {α β}

/-- The first polynomials depend only on the first coefficients. -/
theorem recPoly_congr {α' β' : ℕ → ℝ} (n : ℕ) (ha : ∀ k < n, α k = α' k)
    (hb : ∀ k, 0 < k → k < n → β k = β' k) : ∀ k ≤ n, recPoly α β k = recPoly α' β' k := by
  intro k
  induction k using Nat.strong_induction_on with
  | _ k ih =>
    intro hk
    match k with
    | 0 => rfl
    | 1 => rw [recPoly, recPoly, ha 0 (by omega)]
    | k + 2 =>
      rw [recPoly, recPoly, ih (k + 1) (by omega) (by omega), ih k (by omega) (by omega),
        ha (k + 1) (by omega), hb (k + 1) (by omega) (by omega)]

/-- A functional that vanishes on `p 0, …, p (m - 1)` vanishes on everything of degree below `m`. -/
theorem linear_of_recPoly (D : ℝ[X] →ₗ[ℝ] ℝ) (m : ℕ) (h : ∀ k < m, D (recPoly α β k) = 0) :
    ∀ q : ℝ[X], q.degree < m → D q = 0 := by
  induction m with
  | zero =>
    intro q hq
    have : q = 0 := by simpa using hq
    rw [this, map_zero]
  | succ m ih =>
    intro q hq
    have hm := recPoly_monic α β m
    have hd := recPoly_natDegree α β m
    have e : q = q.coeff m • recPoly α β m + (q - q.coeff m • recPoly α β m) := by ring
    rw [e, map_add, map_smul, h m (by omega), smul_zero, zero_add]
    apply ih (fun k hk => h k (by omega))
    rw [degree_lt_iff_coeff_zero]
    intro i hi
    rw [coeff_sub, coeff_smul, smul_eq_mul]
    rcases Nat.lt_or_ge m i with hlt | hge
    · rw [(degree_lt_iff_coeff_zero q (m + 1)).1 hq i (by omega),
        coeff_eq_zero_of_natDegree_lt (p := recPoly α β m) (n := i) (by omega)]
      ring
    · obtain rfl : m = i := by omega
      have : (recPoly α β m).coeff m = 1 := by
        have := hm.coeff_natDegree; rwa [hd] at this
      rw [this]; ring

theorem linear_mul_recPoly (D : ℝ[X] →ₗ[ℝ] ℝ) (g : ℝ[X]) (m : ℕ)
    (h : ∀ k < m, D (g * recPoly α β k) = 0) (q : ℝ[X]) (hq : q.degree < m) : D (g * q) = 0 :=
  linear_of_recPoly (D ∘ₗ LinearMap.mulLeft ℝ g) m (by simpa using h) q hq

/-- Two functionals that agree on the products `p j * p k` with `j < m`, `k ≤ m` agree up to degree
`2 m - 1`. -/
theorem functional_ext (D : ℝ[X] →ₗ[ℝ] ℝ) (m : ℕ)
    (h : ∀ j < m, ∀ k ≤ m, D (recPoly α β j * recPoly α β k) = 0) (f : ℝ[X])
    (hf : f.degree < (2 * m : ℕ)) : D f = 0 := by
  rcases Nat.eq_zero_or_pos m with rfl | hm
  · have : f = 0 := by simpa using hf
    rw [this, map_zero]
  have hmon := recPoly_monic α β m
  rw [← modByMonic_add_div f (recPoly α β m), map_add]
  have h1 : D (f %ₘ recPoly α β m) = 0 := by
    refine linear_of_recPoly (α := α) (β := β) D m (fun k hk => ?_) _ ?_
    · have := h 0 hm k hk.le
      rwa [recPoly, one_mul] at this
    · have := degree_modByMonic_lt f hmon
      rwa [degree_eq_natDegree hmon.ne_zero, recPoly_natDegree] at this
  have h2 : D (recPoly α β m * (f /ₘ recPoly α β m)) = 0 := by
    refine linear_mul_recPoly (α := α) (β := β) D _ m (fun k hk => ?_) _ ?_
    · rw [mul_comm]; exact h k hk m le_rfl
    · by_cases hz : f /ₘ recPoly α β m = 0
      · rw [hz, degree_zero]; exact WithBot.bot_lt_coe _
      · rw [degree_eq_natDegree hz, natDegree_divByMonic f hmon, recPoly_natDegree]
        have : f.natDegree < 2 * m := by
          have hf0 : f ≠ 0 := by rintro rfl; simp at hz
          rw [degree_eq_natDegree hf0] at hf
          exact_mod_cast hf
        exact_mod_cast (by omega : f.natDegree - m < m)
  rw [h1, h2, add_zero]

end Rec

/-! ### The tridiagonal matrix -/

/-- The unit vector number `k`; zero if there are not so many entries. -/
def evec (n k : ℕ) : Fin n → ℝ := fun i => if i.val = k then 1 else 0

theorem tridiag_symm (n : ℕ) (a b : ℕ → ℝ) : (tridiag n a b)ᵀ = tridiag n a b := by
  ext i j
  simp only [tridiag, transpose_apply, of_apply]
  split_ifs <;> first | rfl | (exfalso; omega) | skip
  rename_i h _
  rw [h]

theorem mulVec_evec {n : ℕ} (A : Matrix (Fin n) (Fin n) ℝ) {k : ℕ} (hk : k < n) (i : Fin n) :
    (A *ᵥ evec n k) i = A i ⟨k, hk⟩ := by
  rw [mulVec, dotProduct, Finset.sum_eq_single ⟨k, hk⟩]
  · simp [evec]
  · intro j _ hj
    have : j.val ≠ k := fun h => hj (Fin.ext h)
    simp [evec, this]
  · simp

theorem tridiag_evec {n : ℕ} (a b : ℕ → ℝ) {k : ℕ} (hk : k < n) :
    tridiag n a b *ᵥ evec n k = a k • evec n k + b (k + 1) • evec n (k + 1) +
      (if k = 0 then 0 else b k • evec n (k - 1)) := by
  ext i
  rw [mulVec_evec _ hk]
  simp only [tridiag, of_apply, Pi.add_apply, Pi.smul_apply, evec, smul_eq_mul]
  rcases Nat.eq_zero_or_pos k with rfl | hp
  · simp only [if_true, Pi.zero_apply]
    by_cases h1 : i.val = 0
    · simp [h1]
    · by_cases h2 : i.val = 1
      · simp [h2]
      · have h3 : ¬ (0 + 1 = i.val) := by omega
        simp [h1, h2]; intro h; omega
  · rw [if_neg hp.ne']
    simp only [Pi.smul_apply, smul_eq_mul, evec]
    by_cases h1 : i.val = k
    · have : ¬ (i.val = k + 1) := by omega
      have : ¬ (i.val = k - 1) := by omega
      have : ¬ (k = k - 1) := by omega
      simp [*]
    · by_cases h2 : i.val = k + 1
      · have h3 : ¬ (i.val + 1 = k) := by omega
        have h4 : ¬ (k + 1 + 1 = k) := by omega
        have h5 : ¬ (k + 1 = k - 1) := by omega
        simp [h2, h4, h5]
      · by_cases h3 : i.val = k - 1
        · have h4 : i.val + 1 = k := by omega
          have h5 : ¬ (k - 1 = k) := by omega
          have h6 : k - 1 + 1 = k := by omega
          have h7 : ¬ (k - 1 = k + 1) := by omega
          simp [h3, h5, h6, h7]
        · have h4 : ¬ (i.val + 1 = k) := by omega
          have h5 : ¬ (k + 1 = i.val) := by omega
          simp [h1, h2, h3, h4, h5]

/-- `p k (J) e_0` is a multiple of `e_k`. -/
theorem aeval_recPoly {n : ℕ} (α b : ℕ → ℝ) (k : ℕ) (hk : k ≤ n) :
    aeval (tridiag n α b) (recPoly α (fun i => b i ^ 2) k) *ᵥ evec n 0 =
      (∏ i ∈ Finset.range k, b (i + 1)) • evec n k := by
  induction k using Nat.strong_induction_on with
  | _ k ih =>
    match k with
    | 0 => simp [recPoly]
    | 1 =>
      have := tridiag_evec α b (n := n) (k := 0) (by omega)
      simp only [recPoly, map_sub, aeval_X, aeval_C, Matrix.sub_mulVec]
      rw [this, Algebra.algebraMap_eq_smul_one, Matrix.smul_mulVec, one_mulVec]
      simp
    | k + 2 =>
      have h1 := ih (k + 1) (by omega) (by omega)
      have h0 := ih k (by omega) (by omega)
      have := tridiag_evec α b (n := n) (k := k + 1) (by omega)
      rw [recPoly, map_sub, map_mul, map_mul, map_sub, aeval_X, aeval_C, aeval_C, Matrix.sub_mulVec,
        ← Matrix.mulVec_mulVec, ← Matrix.mulVec_mulVec, h1, h0, Matrix.sub_mulVec, mulVec_smul,
        mulVec_smul, this, Algebra.algebraMap_eq_smul_one, Algebra.algebraMap_eq_smul_one,
        Matrix.smul_mulVec, one_mulVec, mulVec_smul, Matrix.smul_mulVec, one_mulVec,
        Finset.prod_range_succ _ (k + 1), Finset.prod_range_succ _ k]
      simp only [Nat.add_eq_zero_iff, one_ne_zero, and_false, if_false, Nat.add_sub_cancel]
      ext i
      simp only [Pi.sub_apply, Pi.add_apply, Pi.smul_apply, smul_eq_mul]
      ring

theorem aeval_symm {n : ℕ} {A : Matrix (Fin n) (Fin n) ℝ} (hA : Aᵀ = A) (f : ℝ[X]) :
    (aeval A f)ᵀ = aeval A f := by
  induction f using Polynomial.induction_on' with
  | add p q hp hq => rw [map_add, transpose_add, hp, hq]
  | monomial k c =>
    rw [aeval_monomial, Algebra.algebraMap_eq_smul_one, smul_mul_assoc, one_mul, transpose_smul,
      transpose_pow, hA]

theorem evec_dot {n : ℕ} (j k : ℕ) : evec n j ⬝ᵥ evec n k = if j = k ∧ k < n then 1 else 0 := by
  rcases Nat.lt_or_ge k n with hk | hk
  · rw [dotProduct, Finset.sum_eq_single ⟨k, hk⟩]
    · simp [evec, hk, eq_comm]
    · intro i _ hi
      have : i.val ≠ k := fun h => hi (Fin.ext h)
      simp [evec, this]
    · simp
  · rw [if_neg (by omega), dotProduct]
    refine Finset.sum_eq_zero fun i _ => ?_
    have : i.val ≠ k := by omega
    simp [evec, this]

/-- The functional `f ↦ (f (A))[0, 0]`. -/
noncomputable def corner {n : ℕ} (A : Matrix (Fin n) (Fin n) ℝ) : ℝ[X] →ₗ[ℝ] ℝ where
  toFun f := evec n 0 ⬝ᵥ (aeval A f *ᵥ evec n 0)
  map_add' f g := by rw [map_add, add_mulVec, dotProduct_add]
  map_smul' c f := by rw [map_smul, smul_mulVec, dotProduct_smul, RingHom.id_apply]

theorem corner_mul {n : ℕ} {A : Matrix (Fin n) (Fin n) ℝ} (hA : Aᵀ = A) (f g : ℝ[X]) :
    corner A (f * g) = (aeval A f *ᵥ evec n 0) ⬝ᵥ (aeval A g *ᵥ evec n 0) := by
  change evec n 0 ⬝ᵥ (aeval A (f * g) *ᵥ evec n 0) = _
  rw [map_mul, ← Matrix.mulVec_mulVec, dotProduct_mulVec, ← mulVec_transpose, aeval_symm hA]

theorem corner_recPoly {n : ℕ} (α b : ℕ → ℝ) {j k : ℕ} (hj : j ≤ n) (hk : k ≤ n) :
    corner (tridiag n α b) (recPoly α (fun i => b i ^ 2) j * recPoly α (fun i => b i ^ 2) k) =
      if j = k ∧ k < n then ∏ i ∈ Finset.range k, b (i + 1) ^ 2 else 0 := by
  rw [corner_mul (tridiag_symm _ _ _), aeval_recPoly _ _ _ hj, aeval_recPoly _ _ _ hk,
    smul_dotProduct, dotProduct_smul, evec_dot]
  split_ifs with h
  · rw [h.1, smul_eq_mul, smul_eq_mul, mul_one, Finset.prod_pow]; ring
  · simp

/-! ### From the eigenvectors to the rule -/

theorem aeval_eigh {n : ℕ} {A : Matrix (Fin n) (Fin n) ℝ} {x : Fin n → ℝ}
    {V : Matrix (Fin n) (Fin n) ℝ} (h : IsEigh A x V) (f : ℝ[X]) :
    aeval A f = V * diagonal (fun i => f.eval (x i)) * Vᵀ := by
  have h1 : ∀ k, A ^ k * V = V * diagonal (fun i => x i ^ k) := by
    intro k
    induction k with
    | zero => simp
    | succ k ih =>
      rw [pow_succ, Matrix.mul_assoc, h.eig, ← Matrix.mul_assoc, ih, Matrix.mul_assoc,
        diagonal_mul_diagonal]
      simp [pow_succ]
  have h2 : aeval A f * V = V * diagonal (fun i => f.eval (x i)) := by
    induction f using Polynomial.induction_on' with
    | add p q hp hq =>
      rw [map_add, add_mul, hp, hq, ← mul_add, diagonal_add]; simp
    | monomial k c =>
      rw [aeval_monomial, Algebra.algebraMap_eq_smul_one, smul_mul_assoc, one_mul, smul_mul_assoc,
        h1, ← mul_smul_comm]
      congr 1
      ext i j
      by_cases hij : i = j
      · subst hij; simp
      · simp [hij]
  rw [← h2, Matrix.mul_assoc, mul_eq_one_comm.1 h.orth, mul_one]

theorem corner_eigh {n : ℕ} [NeZero n] {A : Matrix (Fin n) (Fin n) ℝ} {x : Fin n → ℝ}
    {V : Matrix (Fin n) (Fin n) ℝ} (h : IsEigh A x V) (f : ℝ[X]) :
    corner A f = ∑ i, V 0 i ^ 2 * f.eval (x i) := by
  have hn : 0 < n := Nat.pos_of_ne_zero (NeZero.ne n)
  have e : evec n 0 = Pi.single (0 : Fin n) 1 := by
    ext i
    by_cases hi : i = 0
    · subst hi; simp [evec]
    · have : i.val ≠ 0 := fun h => hi (Fin.ext (by simpa using h))
      simp [evec, this, hi]
  change evec n 0 ⬝ᵥ (aeval A f *ᵥ evec n 0) = _
  rw [e, single_one_dotProduct, mulVec_single_one, aeval_eigh h, col_apply, Matrix.mul_apply]
  refine Finset.sum_congr rfl fun i _ => ?_
  rw [mul_diagonal, transpose_apply]; ring

theorem vdot_ofFn {n : ℕ} (g : ℝ → ℝ) (x w : Fin n → ℝ) :
    Adaptive.vdot ((List.ofFn x).map g) (List.ofFn w) = ∑ i, g (x i) * w i := by
  induction n with
  | zero => simp [Adaptive.vdot]
  | succ n ih =>
    rw [List.ofFn_succ, List.ofFn_succ, List.map_cons, vdot_cons, ih, Fin.sum_univ_succ]

theorem schemeFromRc_vdot {n : ℕ} [NeZero n] {α β : ℕ → ℝ} {int1 : ℝ} {P W : List ℝ}
    (h : SchemeFromRc n α β int1 P W) (f : ℝ[X]) :
    Adaptive.vdot (P.map fun x => f.eval x) W =
      int1 * corner (tridiag n α fun k => √(β k)) f := by
  obtain ⟨-, x, V, hV, rfl, rfl⟩ := h
  rw [vdot_ofFn, corner_eigh hV, Finset.mul_sum]
  refine Finset.sum_congr rfl fun i _ => ?_
  ring

theorem schemeFromRc_length {n : ℕ} [NeZero n] {α β : ℕ → ℝ} {int1 : ℝ} {P W : List ℝ}
    (h : SchemeFromRc n α β int1 P W) : P.length = n ∧ W.length = n := by
  obtain ⟨-, x, V, -, rfl, rfl⟩ := h
  simp

/-- The polynomials only see the squares of the entries next to the diagonal. -/
theorem recPoly_sqrt {n : ℕ} {α β : ℕ → ℝ} (hβ : ∀ k, 0 < k → k < n → 0 ≤ β k) :
    ∀ k ≤ n, recPoly α (fun i => √(β i) ^ 2) k = recPoly α β k :=
  recPoly_congr n (fun _ _ => rfl) fun k h1 h2 => Real.sq_sqrt (hβ k h1 h2)

/-- The norms of the orthogonal polynomials. -/
theorem recPoly_norm {m : ℕ} {α β : ℕ → ℝ} (L : ℝ[X] →ₗ[ℝ] ℝ) (hL : IsRecurrence L α β m) :
    ∀ k < m, L (recPoly α β k * recPoly α β k) = (∏ i ∈ Finset.range k, β (i + 1)) * L 1 := by
  intro k
  induction k with
  | zero => intro _; simp [recPoly]
  | succ k ih =>
    intro hk
    have h2 := hL k (k + 2) (by omega) (by omega)
    have h1 := hL k (k + 1) (by omega) (by omega)
    have e1 : recPoly α β k * recPoly α β (k + 2) = X * recPoly α β k * recPoly α β (k + 1) -
        α (k + 1) • (recPoly α β k * recPoly α β (k + 1)) - β (k + 1) • (recPoly α β k * recPoly α β k) := by
      rw [recPoly, smul_eq_C_mul, smul_eq_C_mul]; ring
    rw [e1, map_sub, map_sub, map_smul, map_smul, h1, ih (by omega), smul_zero, sub_zero] at h2
    have e2 : L (recPoly α β (k + 1) * recPoly α β (k + 1)) =
        L (X * recPoly α β k * recPoly α β (k + 1)) := by
      match k with
      | 0 =>
        have e : recPoly α β 1 * recPoly α β 1 = X * recPoly α β 0 * recPoly α β 1 -
            α 0 • (recPoly α β 0 * recPoly α β 1) := by
          simp only [recPoly, smul_eq_C_mul]; ring
        rw [e, map_sub, map_smul, h1, smul_zero, sub_zero]
      | k + 1 =>
        have h0 := hL k (k + 2) (by omega) (by omega)
        have e : recPoly α β (k + 2) * recPoly α β (k + 2) =
            X * recPoly α β (k + 1) * recPoly α β (k + 2) -
            α (k + 1) • (recPoly α β (k + 1) * recPoly α β (k + 2)) -
            β (k + 1) • (recPoly α β k * recPoly α β (k + 2)) := by
          nth_rewrite 1 [recPoly]
          rw [smul_eq_C_mul, smul_eq_C_mul]; ring
        rw [e, map_sub, map_sub, map_smul, map_smul, h1, h0, smul_zero, smul_zero, sub_zero, sub_zero]
    rw [e2, Finset.prod_range_succ]
    rw [smul_eq_mul] at h2
    linarith

/-- If the first `m` of the `n` pairs of coefficients belong to the weight `L`, then the rule is exact
up to degree `2 m - 1`. -/
theorem schemeFromRc_exact {n m : ℕ} [NeZero n] {α β : ℕ → ℝ} {P W : List ℝ} (L : ℝ[X] →ₗ[ℝ] ℝ)
    (hm : 0 < m) (hmn : m ≤ n) (hL : IsRecurrence L α β m) (h : SchemeFromRc n α β (L 1) P W) :
    ExactL P W (2 * m - 1) L := by
  obtain ⟨l1, l2⟩ := schemeFromRc_length h
  refine ⟨by rw [l1, l2], fun p hp => ?_⟩
  rw [schemeFromRc_vdot h]
  have hsq := recPoly_sqrt h.1 (α := α)
  have key := functional_ext (α := α) (β := β)
    (L 1 • corner (tridiag n α fun k => √(β k)) - L) m ?_ p ?_
  · simpa [sub_eq_zero] using key
  · intro j hj k hk
    rw [LinearMap.sub_apply, LinearMap.smul_apply, smul_eq_mul, ← hsq j (by omega),
      ← hsq k (by omega), corner_recPoly _ _ (by omega) (by omega), hsq j (by omega),
      hsq k (by omega)]
    rcases lt_trichotomy j k with hjk | rfl | hjk
    · rw [if_neg (by omega), hL j k hjk hk]; ring
    · rw [if_pos ⟨rfl, by omega⟩]
      have e : ∏ i ∈ Finset.range j, √(β (i + 1)) ^ 2 = ∏ i ∈ Finset.range j, β (i + 1) :=
        Finset.prod_congr rfl fun i hi =>
          Real.sq_sqrt (h.1 _ (by omega) (by simp at hi; omega))
      rw [e]
      rw [recPoly_norm L hL j hj]; ring
    · rw [if_neg (by omega), mul_comm (recPoly α β j), hL k j hjk (by omega)]; ring
  · rcases eq_or_ne p 0 with rfl | h0
    · rw [degree_zero]; exact WithBot.bot_lt_coe _
    · rw [degree_eq_natDegree h0]; exact_mod_cast (by omega : p.natDegree < 2 * m)

end OneDim
end Quadpy
