import Verif.Lemmas.GaussMirror
import Verif.Lemmas.C1Exact
import Verif.Model.C1
import Verif.Props.C19
import Verif.Props.C20
import Verif.Props.C72

/-!
# C73: one-dimensional rules are determined by their parameters, and symmetric for symmetric weights
-/

namespace Quadpy

open OneDim Spec Polynomial Matrix

/-- The rule is symmetric to 0: `points == -points[::-1]` and `weights == weights[::-1]`. -/
def Spec.SymmetricRule (P W : List ℝ) : Prop := (P.map Neg.neg).reverse = P ∧ W.reverse = W

/-- The second rule is the first one reflected at 0. -/
def Spec.ReflectedRule (P W P' W' : List ℝ) : Prop := P' = (P.map Neg.neg).reverse ∧ W' = W.reverse

/-! ### Consequences -/

theorem vdot_reverse : ∀ {v w : List ℝ}, v.length = w.length →
    Adaptive.vdot v.reverse w.reverse = Adaptive.vdot v w := by
  intro v w h
  rw [Adaptive.vdot, ← List.reverse_zipWith h, List.sum_reverse, Adaptive.vdot]

/-- A reflected rule gives on `[a, b]` what the rule gives for the reflected function. -/
theorem C73_integrate {P W P' W' : List ℝ} (hl : P.length = W.length) (h : ReflectedRule P W P' W')
    (f : ℝ → ℝ) (a b : ℝ) : C1.integrate1 P' W' f a b = C1.integrate1 P W (fun x => f (a + b - x)) a b := by
  obtain ⟨rfl, rfl⟩ := h
  simp only [C1.integrate1, C1.integrate]
  congr 1
  rw [List.map_reverse, vdot_reverse (by simpa using hl), List.map_map]
  congr 1
  refine List.map_congr_left fun x _ => ?_
  simp only [Function.comp, Adaptive.affine]
  congr 1
  ring

/-- A symmetric rule integrates every function which is antisymmetric about the midpoint of the interval
to zero. -/
theorem C73_odd {P W : List ℝ} (hl : P.length = W.length) (h : SymmetricRule P W) (f : ℝ → ℝ) (a b : ℝ)
    (hf : ∀ x, f (a + b - x) = -f x) : C1.integrate1 P W f a b = 0 := by
  have h1 := C73_integrate hl ⟨h.1.symm, h.2.symm⟩ f a b
  simp only [hf] at h1
  have h2 : C1.integrate1 P W (fun x => -f x) a b = -C1.integrate1 P W f a b := by
    simp only [C1.integrate1, C1.integrate]
    rw [← mul_neg]
    congr 1
    have := vdot_map_mul P (-1) (fun x => f (Adaptive.affine (fun _ : Unit => a, fun _ => b) x ())) W
    simpa using this
  linarith

/-- The middle point of a symmetric rule with an odd number of points is 0. -/
theorem C73_middle {P W : List ℝ} {m : ℕ} (h : SymmetricRule P W) (hm : P.length = 2 * m + 1) :
    P[m]? = some 0 := by
  have h1 : (P.map Neg.neg).reverse[m]? = P[m]? := by rw [h.1]
  rw [List.getElem?_reverse (by simp; omega), List.length_map, hm,
    show 2 * m + 1 - 1 - m = m by omega, List.getElem?_map] at h1
  rw [List.getElem?_eq_getElem (by omega)] at h1 ⊢
  simp only [Option.map_some, Option.some.injEq] at h1 ⊢
  linarith

/-! ### The rules -/

theorem OneDim.jacobiAlpha_swap (a b : ℝ) (k : ℕ) : jacobiAlpha b a k = -jacobiAlpha a b k := by
  cases k with
  | zero => simp only [jacobiAlpha]; rw [add_comm b a]; ring
  | succ k =>
    simp only [jacobiAlpha]
    rw [← neg_div]
    congr 1
    · ring
    · ring

theorem OneDim.jacobiBeta_swap (a b : ℝ) (k : ℕ) : jacobiBeta b a k = jacobiBeta a b k := by
  match k with
  | 0 => rfl
  | 1 => simp only [jacobiBeta]; congr 1 <;> ring
  | k + 2 => simp only [jacobiBeta]; congr 1 <;> ring

theorem OneDim.jacobiInt_swap (a b : ℝ) : jacobiInt b a = jacobiInt a b := by
  rw [jacobiInt, jacobiInt, add_comm b a, mul_comm (Real.Gamma (b + 1))]

/-- gauss_jacobi(n, a, b): determined by its arguments, and reflected when `a` and `b` are exchanged. -/
theorem C73_gauss_jacobi {n : ℕ} [NeZero n] {a b : ℝ} (ha : -1 < a) (hb : -1 < b) {P W P' W' : List ℝ}
    (h : GaussJacobi n a b P W) :
    (GaussJacobi n a b P' W' → P' = P ∧ W' = W) ∧ (GaussJacobi n b a P' W' → ReflectedRule P W P' W') := by
  obtain ⟨L, hL, hrec, hpos, h1, hβ⟩ := jacobi_functional ha hb
  refine ⟨fun h' => schemeFromRc_unique (fun k h0 _ => hβ k h0) h h', fun h' => ?_⟩
  have e1 : jacobiAlpha b a = fun k => -jacobiAlpha a b k := funext (jacobiAlpha_swap a b)
  have e2 : jacobiBeta b a = jacobiBeta a b := funext (jacobiBeta_swap a b)
  rw [GaussJacobi, e1, e2, jacobiInt_swap] at h'
  exact schemeFromRc_unique (fun k h0 _ => hβ k h0) (schemeFromRc_neg h) h'

/-- gauss_jacobi(n, a, a) is symmetric. -/
theorem C73_gegenbauer {n : ℕ} [NeZero n] {a : ℝ} (ha : -1 < a) {P W : List ℝ}
    (h : GaussJacobi n a a P W) : SymmetricRule P W := by
  obtain ⟨h1, h2⟩ := (C73_gauss_jacobi (P' := P) (W' := W) ha ha h).2 h
  exact ⟨h1.symm, h2.symm⟩

theorem C73_gauss_legendre {n : ℕ} [NeZero n] {P W : List ℝ} (h : GaussLegendre n P W) :
    SymmetricRule P W ∧ ∀ P' W', GaussLegendre n P' W' → P' = P ∧ W' = W :=
  ⟨C73_gegenbauer (by norm_num) (gaussLegendre_iff.1 h), fun _ _ h' =>
    (C73_gauss_jacobi (by norm_num) (by norm_num) (gaussLegendre_iff.1 h)).1 (gaussLegendre_iff.1 h')⟩

theorem C73_gauss_hermite {n : ℕ} [NeZero n] {P W : List ℝ} (h : GaussHermite n P W) :
    SymmetricRule P W ∧ ∀ P' W', GaussHermite n P' W' → P' = P ∧ W' = W := by
  have hβ : ∀ k : ℕ, 0 < k → k < n → (0 : ℝ) < (k : ℝ) / 2 := fun k h0 _ => by
    have : (0 : ℝ) < k := by exact_mod_cast h0
    positivity
  exact ⟨schemeFromRc_symm hβ (fun _ _ => rfl) h, fun _ _ h' => schemeFromRc_unique hβ h h'⟩

theorem C73_gauss_laguerre {n : ℕ} [NeZero n] {a : ℝ} (ha : -1 < a) {P W P' W' : List ℝ}
    (h : GaussLaguerre n a P W) (h' : GaussLaguerre n a P' W') : P' = P ∧ W' = W := by
  refine schemeFromRc_unique (fun k h0 _ => ?_) h h'
  have : (1 : ℝ) ≤ k := by exact_mod_cast h0
  have : 0 < k + a := by linarith
  positivity

/-- gauss_lobatto(m + 1, a, b): determined by its arguments, and reflected when `a` and `b` are exchanged. -/
theorem C73_gauss_lobatto {m : ℕ} [NeZero m] {a b : ℝ} (ha : -1 < a) (hb : -1 < b) {P W P' W' : List ℝ}
    (h : GaussLobatto m a b P W) :
    (GaussLobatto m a b P' W' → P' = P ∧ W' = W) ∧ (GaussLobatto m b a P' W' → ReflectedRule P W P' W') := by
  obtain ⟨-, -, hs, -, -, -, hw⟩ := (C20_gauss_lobatto m ha hb).2 P W h
  constructor
  · intro h'
    obtain ⟨-, -, hs', -, -, -, hw'⟩ := (C20_gauss_lobatto m ha hb).2 P' W' h'
    exact lobatto_unique hs hs' hw hw' h h'
  · intro h'
    obtain ⟨-, -, hs', -, -, -, hw'⟩ := (C20_gauss_lobatto m hb ha).2 P' W' h'
    have e1 : jacobiAlpha b a = fun k => -jacobiAlpha a b k := funext (jacobiAlpha_swap a b)
    have e2 : jacobiBeta b a = jacobiBeta a b := funext (jacobiBeta_swap a b)
    rw [GaussLobatto, e1, e2, jacobiInt_swap] at h'
    refine lobatto_unique ?_ hs' ?_ hw' (lobatto_neg h) h'
    · rw [List.pairwise_reverse, List.pairwise_map]
      exact hs.imp fun h => neg_lt_neg h
    · simpa using hw

theorem C73_gauss_lobatto_symmetric {m : ℕ} [NeZero m] {a : ℝ} (ha : -1 < a) {P W : List ℝ}
    (h : GaussLobatto m a a P W) : SymmetricRule P W := by
  obtain ⟨h1, h2⟩ := (C73_gauss_lobatto (P' := P) (W' := W) ha ha h).2 h
  exact ⟨h1.symm, h2.symm⟩

/-! ### Gauss-Kronrod rules -/

/-- In a symmetric problem every second mixed moment is zero; here after the step `m`. -/
def OneDim.KSymm (st : KState) (m : ℕ) : Prop :=
  (∀ i, st.a i = 0) ∧ (m % 2 = 0 → ∀ i, st.s i = 0) ∧ (m % 2 = 1 → ∀ i, st.t i = 0)

theorem OneDim.kSymm_step1 {n m : ℕ} {st : KState} (h : KSymm st m) : KSymm (kronrodStep1 n st m) (m + 1) := by
  obtain ⟨ha, hs, ht⟩ := h
  refine ⟨ha, fun hm i => ht (by omega) i, fun hm i => ?_⟩
  simp only [kronrodStep1]
  split_ifs
  · exact Finset.sum_eq_zero fun k _ => by simp [ha, hs (by omega)]
  · exact hs (by omega) i

theorem OneDim.kSymm_step2 {n m : ℕ} {st : KState} (h : KSymm st m) : KSymm (kronrodStep2 n st m) (m + 1) := by
  obtain ⟨ha, hs, ht⟩ := h
  have hz : m % 2 = 0 → ∀ i, (kronrodStep2 n st m).t i = 0 := fun hm i => by
    simp only [kronrodStep2]
    split_ifs
    · exact Finset.sum_eq_zero fun k _ => by simp [ha, hs hm]
    · exact hs hm i
  refine ⟨fun i => ?_, fun hm i => ht (by omega) i, fun hm i => hz (by omega) i⟩
  by_cases hm : m % 2 = 0
  · have h1 := hz hm
    simp only [kronrodStep2] at h1 ⊢
    rw [if_pos hm]
    by_cases hi : i = (m + 1) / 2 + n + 1
    · rw [hi, Function.update_self, h1, h1, ha]; simp
    · rw [Function.update_of_ne hi]; exact ha i
  · simp only [kronrodStep2]
    rw [if_neg hm]
    exact ha i

/-- For a weight which is symmetric to 0 the diagonal of the Kronrod matrix is zero. -/
theorem OneDim.rKronrod_diag {n : ℕ} (hn : 0 < n) {a0 b0 : ℕ → ℝ} (h0 : ∀ i, a0 i = 0) (i : ℕ) :
    (rKronrod n a0 b0).1 i = 0 := by
  have hi : KSymm (kronrodInit n a0 b0) 0 := by
    refine ⟨fun i => ?_, fun _ _ => rfl, fun h => by omega⟩
    simp [kronrodInit, h0]
  have h1 : ∀ j, KSymm ((List.range j).foldl (kronrodStep1 n) (kronrodInit n a0 b0)) j := by
    intro j
    induction j with
    | zero => exact hi
    | succ j ih =>
      rw [List.range_succ, List.foldl_append]
      exact kSymm_step1 ih
  have h2 : KSymm (kronrodShift n ((List.range (n - 1)).foldl (kronrodStep1 n) (kronrodInit n a0 b0))) (n - 1) := by
    obtain ⟨ha, hs, ht⟩ := h1 (n - 1)
    refine ⟨ha, fun hm i => ?_, ht⟩
    simp only [kronrodShift]
    split_ifs <;> exact hs hm _
  have h3 : ∀ j, KSymm ((List.range' (n - 1) j).foldl (kronrodStep2 n) (kronrodShift n
      ((List.range (n - 1)).foldl (kronrodStep1 n) (kronrodInit n a0 b0)))) (n - 1 + j) := by
    intro j
    induction j with
    | zero => exact h2
    | succ j ih =>
      rw [List.range'_1_concat, List.foldl_append]
      exact kSymm_step2 ih
  obtain ⟨ha, hs, -⟩ := h3 (n - 1)
  simp only [rKronrod]
  by_cases hk : i = 2 * n
  · rw [hk, Function.update_self, ha, hs (by omega)]; simp
  · rw [Function.update_of_ne hk]; exact ha i

/-- gauss_kronrod(n, a, b), where its computation divides by no zero, is determined by its arguments. -/
theorem C73_gauss_kronrod_unique {n : ℕ} {a b : ℝ} (ha : -1 < a) (hb : -1 < b)
    (hr : KronrodRegular n (jacobiAlpha a b) (Function.update (jacobiBeta a b) 0 (jacobiInt a b)))
    {P W P' W' : List ℝ} (h : GaussKronrod n a b P W) (h' : GaussKronrod n a b P' W') : P' = P ∧ W' = W := by
  obtain ⟨L, hL, hrec, hpos, h1, hβ⟩ := jacobi_functional ha hb
  refine schemeFromRc_unique (fun k h0 hk => (h.1 k h0 hk).lt_of_ne ?_) h h'
  refine (C72_coefficients _ _ (fun i _ hi => ?_) hr k h0 (by omega)).symm
  rw [Function.update_of_ne (by omega)]
  exact (hβ i hi).ne'

/-- gauss_kronrod(n, a, a) is symmetric. -/
theorem C73_gauss_kronrod {n : ℕ} (hn : 0 < n) {a : ℝ} (ha : -1 < a)
    (hr : KronrodRegular n (jacobiAlpha a a) (Function.update (jacobiBeta a a) 0 (jacobiInt a a)))
    {P W : List ℝ} (h : GaussKronrod n a a P W) : SymmetricRule P W := by
  obtain ⟨L, hL, hrec, hpos, h1, hβ⟩ := jacobi_functional ha ha
  refine schemeFromRc_symm (fun k h0 hk => (h.1 k h0 hk).lt_of_ne ?_)
    (fun k _ => rKronrod_diag hn (fun i => ?_) k) h
  · refine (C72_coefficients _ _ (fun i _ hi => ?_) hr k h0 (by omega)).symm
    rw [Function.update_of_ne (by omega)]
    exact (hβ i hi).ne'
  · have := jacobiAlpha_swap a a i
    linarith

/-- A matrix with a zero diagonal gives a rule which integrates the odd powers to zero. -/
theorem OneDim.schemeFromRc_odd {n : ℕ} [NeZero n] {α β : ℕ → ℝ} {int1 : ℝ} {P W : List ℝ}
    (hα : ∀ k, α k = 0) (h : SchemeFromRc n α β int1 P W) {k : ℕ} (hk : Odd k) :
    Adaptive.vdot (P.map fun x => (X ^ k : ℝ[X]).eval x) W = 0 := by
  have h' := schemeFromRc_neg h
  rw [show (fun k => -α k) = α from funext fun k => by rw [hα]; simp] at h'
  obtain ⟨l1, l2⟩ := schemeFromRc_length h
  have e := (schemeFromRc_vdot h' (X ^ k)).trans (schemeFromRc_vdot h (X ^ k)).symm
  rw [List.map_reverse, vdot_reverse (by simp [l1, l2]), List.map_map] at e
  have e2 : P.map ((fun x => (X ^ k : ℝ[X]).eval x) ∘ Neg.neg) = P.map fun x => -1 * (X ^ k : ℝ[X]).eval x :=
    List.map_congr_left fun x _ => by simp [hk.neg_pow]
  rw [e2, vdot_map_mul] at e
  linarith

/-- For odd `n` and a weight symmetric to 0, gauss_kronrod(n, a, a) is exact for one degree more than in
`C47_exact`, that is for the degree `3 n + 2`. -/
theorem C47_exact_odd {n : ℕ} (hn : Odd n) {a : ℝ} (ha : -1 < a) {P W : List ℝ}
    (h : GaussKronrod n a a P W) : ExactL P W (3 * n + 2)
      (weightInt (Set.Ioo (-1) 1) fun x => (1 - x) ^ a * (1 + x) ^ a) := by
  obtain ⟨-, -, -, hl, he⟩ := C47_exact hn.pos ha ha h
  obtain ⟨L, hL, hrec, hpos, h1, hβ⟩ := jacobi_functional ha ha
  have eL : (L : ℝ[X] → ℝ) = weightInt (Set.Ioo (-1) 1) fun x => (1 - x) ^ a * (1 + x) ^ a := funext hL
  rw [← eL] at he ⊢
  have hodd : Odd (3 * n + 2) := by
    obtain ⟨k, rfl⟩ := hn
    exact ⟨3 * k + 2, by ring⟩
  refine ⟨hl, fun p hp => ?_⟩
  have hz : L (X ^ (3 * n + 2)) = 0 := by
    rw [hL, weightInt, ← MeasureTheory.integral_Ioc_eq_integral_Ioo,
      ← intervalIntegral.integral_of_le (by norm_num)]
    have e := intervalIntegral.integral_comp_neg (a := -1) (b := 1)
      fun x : ℝ => eval x (X ^ (3 * n + 2)) * ((1 - x) ^ a * (1 + x) ^ a)
    have e2 : (fun x : ℝ => eval (-x) (X ^ (3 * n + 2)) * ((1 - -x) ^ a * (1 + -x) ^ a)) =
        fun x : ℝ => -(eval x (X ^ (3 * n + 2)) * ((1 - x) ^ a * (1 + x) ^ a)) := by
      funext x
      simp only [eval_pow, eval_X, hodd.neg_pow]
      rw [sub_neg_eq_add, ← sub_eq_add_neg]
      ring
    rw [e2, intervalIntegral.integral_neg, neg_neg] at e
    linarith
  have hv := schemeFromRc_odd (fun k => rKronrod_diag hn.pos (fun i => by
    have := jacobiAlpha_swap a a i
    linarith) k) h hodd
  have hq := he (p.erase (3 * n + 2)) (by
    refine natDegree_le_iff_coeff_eq_zero.2 fun N hN => ?_
    rw [coeff_erase]
    split_ifs with hN2
    · rfl
    · exact coeff_eq_zero_of_natDegree_lt (by omega))
  have ep : p = p.erase (3 * n + 2) + p.coeff (3 * n + 2) • X ^ (3 * n + 2) := by
    rw [smul_X_eq_monomial, add_comm, monomial_add_erase]
  rw [ep, map_add, map_smul, hz, smul_zero, add_zero, ← hq]
  have hm : (P.map fun x => (p.erase (3 * n + 2) + p.coeff (3 * n + 2) • X ^ (3 * n + 2)).eval x) =
      P.map fun x => ∑ i : Fin 2, ![fun x => (p.erase (3 * n + 2)).eval x,
        fun x => p.coeff (3 * n + 2) * (X ^ (3 * n + 2) : ℝ[X]).eval x] i x :=
    List.map_congr_left fun x _ => by simp
  rw [hm, vdot_map_sum, Fin.sum_univ_two]
  simp only [cons_val_zero, cons_val_one]
  rw [vdot_map_mul, hv, mul_zero, add_zero]

/-- A case: gauss_legendre(5) integrates the sine over `[-2, 2]` to 0, and its middle point is 0. -/
example : (∃ P W, GaussLegendre 5 P W) ∧ ∀ P W, GaussLegendre 5 P W →
    C1.integrate1 P W Real.sin (-2) 2 = 0 ∧ P[2]? = some 0 := by
  refine ⟨(C19_gauss_legendre 5).1, fun P W h => ?_⟩
  obtain ⟨l1, l2⟩ := schemeFromRc_length h
  have hs := (C73_gauss_legendre h).1
  exact ⟨C73_odd (by rw [l1, l2]) hs _ _ _ fun x => by simp [Real.sin_neg], C73_middle hs l1⟩

/-- A case: gauss_kronrod(1) is symmetric, so its middle point is 0 (the point of gauss_legendre(1)), and
it has the degree 5. -/
example : (∃ P W, GaussKronrod 1 0 0 P W) ∧ ∀ P W, GaussKronrod 1 0 0 P W → P[1]? = some 0 ∧
    ExactL P W 5 (weightInt (Set.Ioo (-1) 1) fun x => (1 - x) ^ (0 : ℝ) * (1 + x) ^ (0 : ℝ)) := by
  refine ⟨(C47_degree_refuted (by norm_num) (by norm_num)).1, fun P W h => ?_⟩
  have hr : KronrodRegular 1 (jacobiAlpha 0 0) (Function.update (jacobiBeta 0 0) 0 (jacobiInt 0 0)) := by
    refine ⟨fun j hj => by omega, ?_⟩
    simp [kronrodShift, kronrodInit, kronrodLength, jacobiBeta]
    norm_num
  exact ⟨C73_middle (C73_gauss_kronrod one_pos (by norm_num) hr h) (schemeFromRc_length h).1,
    C47_exact_odd odd_one (by norm_num) h⟩

/-- A case: gauss_jacobi(2, 1, 0) is gauss_jacobi(2, 0, 1) reflected; on `[0, 1]` it gives for `x³` what the
other one gives for `(1 - x)³`. -/
example {P W P' W' : List ℝ} (h : GaussJacobi 2 0 1 P W) (h' : GaussJacobi 2 1 0 P' W') :
    C1.integrate1 P' W' (fun x => x ^ 3) 0 1 = C1.integrate1 P W (fun x => (1 - x) ^ 3) 0 1 := by
  obtain ⟨l1, l2⟩ := schemeFromRc_length h
  have := C73_integrate (by rw [l1, l2]) ((C73_gauss_jacobi (by norm_num) (by norm_num) h).2 h')
    (fun x => x ^ 3) 0 1
  simpa using this

end Quadpy
