import Verif.Model.Silvester
import Verif.Lemmas.SimplexGroups
import Verif.Props.C03
import Mathlib.RingTheory.MvPolynomial.Homogeneous
import Mathlib.LinearAlgebra.Matrix.NonsingularInverse

/-!
# C49: Silvester's rules have the degree they claim
-/

namespace Quadpy.Tn
open Finset MvPolynomial

/-! ### `integrate_bary` -/

theorem decFirst_spec : ∀ l : List ℕ, l.sum ≠ 0 → ∃ b, b < l.length ∧ 0 < firstNonzero l ∧
    l.getD b 0 = firstNonzero l ∧ (decFirstPos l).length = l.length ∧
    ∀ j, (decFirstPos l).getD j 0 + (if j = b then 1 else 0) = l.getD j 0
  | [], h => by simp at h
  | 0 :: l, h => by
    simp only [List.sum_cons, zero_add] at h
    obtain ⟨b, h1, h2, h3, h4, h5⟩ := decFirst_spec l h
    refine ⟨b + 1, by simpa using h1, h2, by simpa [firstNonzero] using h3,
      by simpa [decFirstPos] using h4, fun j => ?_⟩
    cases j with
    | zero => simp [decFirstPos]
    | succ j => simpa [decFirstPos] using h5 j
  | (k + 1) :: l, _ => by
    refine ⟨0, by simp, by simp [firstNonzero], by simp [firstNonzero], by simp [decFirstPos], fun j => ?_⟩
    cases j with
    | zero => simp [decFirstPos]
    | succ j => simp [decFirstPos]

theorem ofFn_getD {N : ℕ} {l : List ℕ} (h : l.length = N) :
    List.ofFn (fun j : Fin N => l.getD j 0) = l := by
  apply List.ext_getElem
  · simp [h]
  · intro i h1 h2; simp [h2]

theorem getD_ofFn {N : ℕ} (f : Fin N → ℕ) (j : Fin N) : (List.ofFn f).getD j 0 = f j := by
  have h : (j : ℕ) < (List.ofFn f).length := by simp
  rw [List.getD_eq_getElem _ _ h, List.getElem_ofFn]

theorem baryMom_succ {n : ℕ} (β : Fin (n + 1) → ℕ) (b : Fin (n + 1)) :
    baryMom (β + Pi.single b 1) = baryMom β * ((β b : ℝ) + 1) / (n + ∑ i, β i + 1) := by
  unfold baryMom
  have h1 : ∑ i, (β + Pi.single b 1 : Fin (n + 1) → ℕ) i = ∑ i, β i + 1 := by
    simp only [Pi.add_apply, sum_add_distrib]; simp [Pi.single_apply]
  have h2 : ∏ i, (((β + Pi.single b 1 : Fin (n + 1) → ℕ) i).factorial : ℝ) =
      (∏ i, ((β i).factorial : ℝ)) * (β b + 1) := by
    rw [← mul_prod_erase univ _ (mem_univ b), ← mul_prod_erase univ _ (mem_univ b)]
    rw [prod_congr rfl (g := fun i => ((β i).factorial : ℝ)) fun i hi => by
      simp [ne_of_mem_erase hi]]
    simp [Nat.factorial_succ]
    ring
  rw [h1, h2, show n + 1 - 1 + (∑ i, β i + 1) = (n + ∑ i, β i) + 1 by omega,
    show n + 1 - 1 + ∑ i, β i = n + ∑ i, β i by omega, Nat.factorial_succ]
  push_cast
  have : (0 : ℝ) ≤ ∑ i, (β i : ℝ) := by positivity
  have h3 : ((n : ℝ) + ∑ i, (β i : ℝ) + 1) ≠ 0 := by positivity
  field_simp

/-- `integrate_bary` gives the normalised moments of the simplex. -/
theorem integrateBary_eq {n : ℕ} : ∀ (s : ℕ) (l : List ℕ), l.length = n + 1 → l.sum = s →
    integrateBary l = baryMom fun j : Fin (n + 1) => l.getD j 0 := by
  intro s
  induction s with
  | zero =>
    intro l hl hs
    rw [integrateBary, dif_pos hs]
    have h0 : (fun j : Fin (n + 1) => l.getD j 0) = 0 := by
      have h := hs
      rw [← ofFn_getD hl, List.sum_ofFn] at h
      funext j
      have := Finset.sum_eq_zero_iff.1 h j (mem_univ _)
      simpa using this
    rw [h0, baryMom]
    have : (n.factorial : ℝ) ≠ 0 := by positivity
    simp [this]
  | succ s ih =>
    intro l hl hs
    rw [integrateBary, dif_neg (by omega)]
    obtain ⟨b, h1, h2, h3, h4, h5⟩ := decFirst_spec l (by omega)
    have hsum := decFirstPos_sum l (by omega)
    rw [ih (decFirstPos l) (by omega) (by omega)]
    set β : Fin (n + 1) → ℕ := fun j => (decFirstPos l).getD j 0 with hβ
    have e : (fun j : Fin (n + 1) => l.getD j 0) = β + Pi.single (⟨b, by omega⟩ : Fin (n + 1)) 1 := by
      funext j
      rw [← h5 j, Pi.add_apply, Pi.single_apply]
      simp [hβ, Fin.ext_iff]
    have hsm : ∑ i, β i = s := by
      have : (decFirstPos l).sum = s := by omega
      rw [← ofFn_getD (N := n + 1) (l := decFirstPos l) (by omega), List.sum_ofFn] at this
      exact this
    have hb : β ⟨b, by omega⟩ + 1 = firstNonzero l := by
      have := h5 b
      rw [if_pos rfl, h3] at this
      exact this
    rw [e, baryMom_succ, ← hb, hs, hl, hsm]
    push_cast
    have : (s : ℝ) + 1 + (n + 1 - 1) = n + s + 1 := by ring
    rw [this]; ring

/-! ### The moment functional -/

/-- The normalised integral over the simplex of a polynomial in barycentric coordinates. -/
noncomputable def momL {N : ℕ} : MvPolynomial (Fin N) ℝ →ₗ[ℝ] ℝ :=
  (basisMonomials (Fin N) ℝ).constr ℝ fun e => baryMom fun i => e i

theorem momL_monomial {N : ℕ} (e : Fin N →₀ ℕ) (c : ℝ) :
    momL (monomial e c) = c * baryMom fun i => e i := by
  rw [show monomial e c = c • basisMonomials (Fin N) ℝ e by
    rw [coe_basisMonomials, smul_monomial, smul_eq_mul, mul_one], map_smul, momL, Module.Basis.constr_basis,
    smul_eq_mul]

theorem momL_eq {N : ℕ} (p : MvPolynomial (Fin N) ℝ) :
    momL p = ∑ e ∈ p.support, p.coeff e * baryMom fun i => e i := by
  conv_lhs => rw [p.as_sum]
  rw [map_sum]
  exact sum_congr rfl fun e _ => momL_monomial e _

/-- The sum of the barycentric coordinates. -/
noncomputable def sumX (N : ℕ) : MvPolynomial (Fin N) ℝ := ∑ i, X i

theorem momL_mul_sumX {n : ℕ} (p : MvPolynomial (Fin (n + 1)) ℝ) : momL (p * sumX (n + 1)) = momL p := by
  induction p using MvPolynomial.induction_on' with
  | monomial e c =>
    rw [sumX, mul_sum, map_sum, momL_monomial, baryMom_sum, mul_sum]
    refine sum_congr rfl fun b _ => ?_
    rw [X, monomial_mul, momL_monomial, mul_one]
    congr 2
    funext i
    rw [Finsupp.add_apply, Pi.add_apply, Finsupp.single_apply, Pi.single_apply]
    simp [eq_comm]
  | add p q hp hq => rw [add_mul, map_add, map_add, hp, hq]

theorem momL_congr {n : ℕ} {p q : MvPolynomial (Fin (n + 1)) ℝ}
    (h : Ideal.Quotient.mk (Ideal.span {sumX (n + 1) - 1}) p =
      Ideal.Quotient.mk (Ideal.span {sumX (n + 1) - 1}) q) : momL p = momL q := by
  rw [Ideal.Quotient.eq, Ideal.mem_span_singleton] at h
  obtain ⟨r, hr⟩ := h
  have h2 : momL (p - q) = 0 := by
    rw [hr, mul_comm, mul_sub, mul_one, map_sub, momL_mul_sumX, sub_self]
  rwa [map_sub, sub_eq_zero] at h2

theorem mk_sumX (N : ℕ) :
    Ideal.Quotient.mk (Ideal.span {sumX N - 1}) (sumX N) = 1 := by
  rw [← map_one (Ideal.Quotient.mk (Ideal.span {sumX N - 1})), Ideal.Quotient.eq]
  exact Ideal.subset_span rfl

/-! ### The interpolating polynomials -/

/-- The homogeneous form of the polynomial of the code. -/
noncomputable def homPoly (N : ℕ) (pt : ℕ → ℝ) (m : Fin N → ℕ) : MvPolynomial (Fin N) ℝ :=
  ∏ i : Fin N, ((List.range (m i)).map fun k =>
    C (1 / (pt (m i) - pt k)) * (X i - C (pt k) * sumX N)).prod

theorem momL_homPoly {n : ℕ} (pt : ℕ → ℝ) (idx : List ℕ) :
    momL (homPoly (n + 1) pt fun i => idx.getD i 0) = momL (silvesterPoly (n + 1) pt idx) := by
  apply momL_congr
  rw [homPoly, silvesterPoly, map_prod, map_prod]
  refine prod_congr rfl fun i _ => ?_
  rw [map_list_prod, map_list_prod, List.map_map, List.map_map]
  congr 2
  funext k
  simp only [Function.comp, map_mul, map_sub, mk_sumX, mul_one]

theorem isHomogeneous_sumX (N : ℕ) : (sumX N).IsHomogeneous 1 :=
  IsHomogeneous.sum _ _ _ fun i _ => isHomogeneous_X _ i

theorem isHomogeneous_list {N : ℕ} (l : List ℕ) (f : ℕ → MvPolynomial (Fin N) ℝ)
    (h : ∀ k, (f k).IsHomogeneous 1) : (l.map f).prod.IsHomogeneous l.length := by
  induction l with
  | nil => exact isHomogeneous_one _ _
  | cons a l ih =>
    rw [List.map_cons, List.prod_cons, List.length_cons, add_comm]
    exact (h a).mul ih

theorem isHomogeneous_homPoly (N : ℕ) (pt : ℕ → ℝ) (m : Fin N → ℕ) :
    (homPoly N pt m).IsHomogeneous (∑ i, m i) := by
  refine IsHomogeneous.prod _ _ _ fun i _ => ?_
  have := isHomogeneous_list (N := N) (List.range (m i))
    (fun k => C (1 / (pt (m i) - pt k)) * (X i - C (pt k) * sumX N)) fun k => by
      have h1 : (X i - C (pt k) * sumX N : MvPolynomial (Fin N) ℝ).IsHomogeneous 1 := by
        refine (isHomogeneous_X _ i).sub ?_
        have := (isHomogeneous_C (Fin N) (pt k)).mul (isHomogeneous_sumX N)
        rwa [zero_add] at this
      have := (isHomogeneous_C (Fin N) (1 / (pt (m i) - pt k))).mul h1
      rwa [zero_add] at this
  rwa [List.length_range] at this

theorem eval_homPoly (N : ℕ) (pt : ℕ → ℝ) (m : Fin N → ℕ) (x : Fin N → ℝ) (hx : ∑ i, x i = 1) :
    eval x (homPoly N pt m) =
      ∏ i, ((List.range (m i)).map fun k => (1 / (pt (m i) - pt k)) * (x i - pt k)).prod := by
  rw [homPoly, map_prod]
  refine prod_congr rfl fun i _ => ?_
  rw [map_list_prod, List.map_map]
  congr 2
  funext k
  simp [sumX, hx]

/-- The interpolating polynomials are one at their own point and zero at the others. -/
theorem eval_homPoly_point {N n : ℕ} (pt : ℕ → ℝ) (hinj : Function.Injective pt)
    (hsum : ∀ m : Fin N → ℕ, ∑ i, m i = n → ∑ i, pt (m i) = 1) (m m' : Fin N → ℕ)
    (hm : ∑ i, m i = n) (hm' : ∑ i, m' i = n) :
    eval (fun i => pt (m' i)) (homPoly N pt m) = if m = m' then 1 else 0 := by
  rw [eval_homPoly _ _ _ _ (hsum m' hm')]
  split_ifs with h
  · subst h
    refine prod_eq_one fun i _ => List.prod_eq_one fun y hy => ?_
    obtain ⟨k, hk, rfl⟩ := List.mem_map.1 hy
    have hk := List.mem_range.1 hk
    have : pt (m i) - pt k ≠ 0 := sub_ne_zero.2 fun e => by have := hinj e; omega
    field_simp
  · have : ∃ i, m' i < m i := by
      by_contra hc
      push Not at hc
      apply h
      have hle : ∀ i ∈ (univ : Finset (Fin N)), m i ≤ m' i := fun i _ => hc i
      have := (Finset.sum_eq_sum_iff_of_le hle).1 (by rw [hm, hm'])
      funext i; exact this i (mem_univ i)
    obtain ⟨i, hi⟩ := this
    refine prod_eq_zero (mem_univ i) (List.prod_eq_zero (List.mem_map.2 ⟨m' i, List.mem_range.2 hi, ?_⟩))
    simp

/-! ### Exactness -/

/-- Moments of the rule with the interpolating polynomials as weights. -/
theorem interpolation_moment {N n : ℕ} (pt : ℕ → ℝ) (hinj : Function.Injective pt)
    (hsum : ∀ m : Fin N → ℕ, ∑ i, m i = n → ∑ i, pt (m i) = 1) (b : Fin N →₀ ℕ)
    (hb : b ∈ finsuppAntidiag (univ : Finset (Fin N)) n) :
    ∑ m ∈ finsuppAntidiag (univ : Finset (Fin N)) n,
      momL (homPoly N pt m) * mono (fun i => b i) (fun i => pt (m i)) = baryMom fun i => b i := by
  classical
  set I := finsuppAntidiag (univ : Finset (Fin N)) n with hI
  have hmem : ∀ e, e ∈ I ↔ ∑ i, e i = n := fun e => by
    rw [hI, mem_finsuppAntidiag]; simp
  let A : Matrix I I ℝ := fun m a => mono (fun i => (a : Fin N →₀ ℕ) i) fun i => pt ((m : Fin N →₀ ℕ) i)
  let B : Matrix I I ℝ := fun a m => (homPoly N pt (m : Fin N →₀ ℕ)).coeff a
  have hsupp : ∀ m ∈ I, (homPoly N pt m).support ⊆ I := by
    intro m hm e he
    rw [hmem]
    have := isHomogeneous_homPoly N pt m (mem_support_iff.1 he)
    rw [Finsupp.weight_apply, Finsupp.sum_fintype _ _ (by simp)] at this
    simpa [(hmem m).1 hm] using this
  have hAB : A * B = 1 := by
    ext m m'
    rw [Matrix.mul_apply, Matrix.one_apply]
    have h := eval_homPoly_point pt hinj hsum (m' : Fin N →₀ ℕ) (m : Fin N →₀ ℕ)
      ((hmem _).1 m'.2) ((hmem _).1 m.2)
    rw [eval_eq', Finset.sum_subset (hsupp m' m'.2) (by
      intro e _ he
      rw [notMem_support_iff.1 he, zero_mul]), ← Finset.sum_coe_sort] at h
    rw [show (if m = m' then (1 : ℝ) else 0) = if ((m' : Fin N →₀ ℕ) : Fin N → ℕ) = (m : Fin N →₀ ℕ) then 1
      else 0 by
        congr 1
        rw [eq_iff_iff, DFunLike.coe_fn_eq, Subtype.ext_iff, eq_comm], ← h]
    exact sum_congr rfl fun a _ => mul_comm _ _
  have hBA : B * A = 1 := mul_eq_one_comm.1 hAB
  have hw : ∀ m : I, momL (homPoly N pt (m : Fin N →₀ ℕ)) =
      ∑ a : I, B a m * baryMom fun i => (a : Fin N →₀ ℕ) i := by
    intro m
    rw [momL_eq, Finset.sum_subset (hsupp m m.2) (by
      intro e _ he
      rw [notMem_support_iff.1 he, zero_mul]), ← Finset.sum_coe_sort]
  rw [← Finset.sum_coe_sort]
  have e1 : ∀ m : I, momL (homPoly N pt (m : Fin N →₀ ℕ)) *
      mono (fun i => b i) (fun i => pt ((m : Fin N →₀ ℕ) i)) =
      ∑ a : I, (baryMom fun i => (a : Fin N →₀ ℕ) i) * (B a m * A m ⟨b, hb⟩) := by
    intro m
    rw [hw m, sum_mul]
    exact sum_congr rfl fun a _ => by ring
  rw [sum_congr rfl fun m _ => e1 m, sum_comm]
  have e2 : ∀ a : I, ∑ m : I, (baryMom fun i => (a : Fin N →₀ ℕ) i) * (B a m * A m ⟨b, hb⟩) =
      (baryMom fun i => (a : Fin N →₀ ℕ) i) * (1 : Matrix I I ℝ) a ⟨b, hb⟩ := by
    intro a
    rw [← mul_sum, ← hBA, Matrix.mul_apply]
  rw [sum_congr rfl fun a _ => e2 a]
  simp [Matrix.one_apply]

theorem rule_moment {N n : ℕ} (pt : ℕ → ℝ) (hinj : Function.Injective pt)
    (hsum : ∀ m : Fin (N + 1) → ℕ, ∑ i, m i = n → ∑ i, pt (m i) = 1) (β : Fin (N + 1) → ℕ)
    (hβ : ∑ i, β i ≤ n) :
    ∑ m ∈ finsuppAntidiag (univ : Finset (Fin (N + 1))) n,
      momL (homPoly (N + 1) pt m) * mono β (fun i => pt (m i)) = baryMom β := by
  classical
  set k := n - ∑ i, β i with hk
  set e : Fin (N + 1) →₀ ℕ := Finsupp.equivFunOnFinite.symm β with he
  set p : MvPolynomial (Fin (N + 1)) ℝ := monomial e 1 * sumX (N + 1) ^ k with hp
  have hmom : ∀ k, momL (monomial e 1 * sumX (N + 1) ^ k) = baryMom β := by
    intro k
    induction k with
    | zero => rw [pow_zero, mul_one, momL_monomial, one_mul]; rfl
    | succ k ih => rw [pow_succ, ← mul_assoc, momL_mul_sumX, ih]
  have hhom : p.IsHomogeneous n := by
    have h1 : (monomial e (1 : ℝ)).IsHomogeneous (∑ i, β i) := by
      apply isHomogeneous_monomial
      rw [Finsupp.degree_eq_sum]
      rfl
    have := h1.mul ((isHomogeneous_sumX (N + 1)).pow k)
    rwa [one_mul, hk, Nat.add_sub_cancel' hβ] at this
  have hsupp : ∀ b ∈ p.support, b ∈ finsuppAntidiag (univ : Finset (Fin (N + 1))) n := by
    intro b hb
    rw [mem_finsuppAntidiag]
    refine ⟨?_, fun _ _ => mem_univ _⟩
    have := hhom (mem_support_iff.1 hb)
    rw [Finsupp.weight_apply, Finsupp.sum_fintype _ _ (by simp)] at this
    simpa using this
  have heval : ∀ m ∈ finsuppAntidiag (univ : Finset (Fin (N + 1))) n,
      mono β (fun i => pt (m i)) = eval (fun i => pt (m i)) p := by
    intro m hm
    rw [mem_finsuppAntidiag] at hm
    rw [hp, map_mul, map_pow, sumX, map_sum]
    simp only [eval_X]
    rw [hsum m hm.1, one_pow, mul_one, eval_monomial, one_mul, Finsupp.prod_fintype _ _ (by simp)]
    rfl
  rw [sum_congr rfl fun m hm => by rw [heval m hm, eval_eq', mul_sum], sum_comm, ← hmom k, momL_eq]
  refine sum_congr rfl fun b hb => ?_
  rw [← interpolation_moment pt hinj hsum b (hsupp b hb), mul_sum]
  exact sum_congr rfl fun m _ => by rw [mono]; ring

theorem silvesterPoint_injective {dim n : ℕ} (v : SilvesterVariant) (hn : 0 < n) :
    Function.Injective (silvesterPoint dim v n) := by
  intro a b h
  have hn' : (0 : ℝ) < n := by exact_mod_cast hn
  cases v with
  | closed =>
    simp only [silvesterPoint] at h
    field_simp at h
    exact_mod_cast h
  | opened =>
    simp only [silvesterPoint] at h
    field_simp at h
    have : (a : ℝ) = b := by linarith
    exact_mod_cast this

theorem silvesterPoint_sum {dim n : ℕ} (v : SilvesterVariant) (hn : 0 < n) (m : Fin (dim + 1) → ℕ)
    (hm : ∑ i, m i = n) : ∑ i, silvesterPoint dim v n (m i) = 1 := by
  have hn' : (0 : ℝ) < n := by exact_mod_cast hn
  have hm' : ∑ i, (m i : ℝ) = n := by exact_mod_cast hm
  cases v with
  | closed =>
    simp only [silvesterPoint]
    rw [← sum_div, hm', div_self hn'.ne']
  | opened =>
    simp only [silvesterPoint]
    rw [← sum_div, sum_add_distrib, hm', div_eq_one_iff_eq (by positivity)]
    simp; ring

theorem silvesterWeight_eq {N : ℕ} (pt : ℕ → ℝ) (idx : List ℕ) :
    silvesterWeight (N + 1) pt idx = momL (homPoly (N + 1) pt fun i => idx.getD i 0) := by
  rw [momL_homPoly, momL_eq, silvesterWeight]
  refine sum_congr rfl fun e _ => ?_
  rw [integrateBary_eq (n := N) _ _ (by rw [List.length_ofFn]) rfl]
  congr 2
  funext j
  exact getD_ofFn _ j

/-- C49: whenever `silvester(dim, variant, n)` returns a scheme, it integrates every polynomial of
degree at most `n` exactly over the simplex, and that is the degree it claims. -/
theorem C49_silvester {dim n : ℕ} {v : SilvesterVariant} {S : Scheme} (h : silvester dim v n = some S) :
    S.ExactOnSimplex dim ∧ S.degree = n := by
  classical
  rw [silvester] at h
  split_ifs at h with h0
  have hn : 0 < n := by omega
  simp only [Option.some.injEq] at h
  obtain ⟨L, hL, hnd, hmem⟩ := C03_get_all_exponents (dim + 1) n n le_rfl
  have hlast : ((getAllExponents (dim + 1) n).getLast?).getD [] = L := by
    rw [List.getLast?_eq_getElem?, C03_length, Nat.add_sub_cancel, hL]; rfl
  rw [hlast] at h
  subst h
  refine ⟨exactOnSimplex_of_moments _ rfl (by simp) ?_ ?_, rfl⟩
  · intro x hx
    obtain ⟨idx, hidx, rfl⟩ := List.mem_map.1 hx
    obtain ⟨h1, h2⟩ := (hmem idx).1 hidx
    refine ⟨by simp [h1], ?_⟩
    conv_lhs => rw [← ofFn_getD h1, List.map_ofFn, List.sum_ofFn]
    refine silvesterPoint_sum v hn _ ?_
    rw [← h2]
    conv_rhs => rw [← ofFn_getD h1, List.sum_ofFn]
  · intro β hβ
    set pt := silvesterPoint dim v n with hpt
    rw [← rule_moment pt (silvesterPoint_injective v hn) (silvesterPoint_sum v hn) β hβ]
    change dot (dim + 1) (L.map _) (L.map _) _ = _
    rw [dot, List.zipWith_map, List.zipWith_self, ← List.sum_toFinset _ hnd]
    refine Finset.sum_bij' (fun e _ => Finsupp.equivFunOnFinite.symm fun j : Fin (dim + 1) => e.getD j 0)
      (fun f _ => List.ofFn f) ?_ ?_ ?_ ?_ ?_
    · intro e he
      rw [List.mem_toFinset, hmem] at he
      rw [mem_finsuppAntidiag]
      refine ⟨?_, fun _ _ => mem_univ _⟩
      rw [← he.2]
      conv_rhs => rw [← ofFn_getD he.1, List.sum_ofFn]
      simp
    · intro f hf
      rw [mem_finsuppAntidiag] at hf
      rw [List.mem_toFinset, hmem]
      exact ⟨by simp, by rw [List.sum_ofFn]; exact hf.1⟩
    · intro e he
      rw [List.mem_toFinset, hmem] at he
      exact ofFn_getD he.1
    · intro f _
      ext j
      exact getD_ofFn _ j
    · intro e he
      rw [List.mem_toFinset, hmem] at he
      rw [silvesterWeight_eq]
      congr 2
      funext j
      have : (j : ℕ) < e.length := by rw [he.1]; exact j.2
      simp [toVec, this]

/-- C49: there is a result for every `n ≥ 1`. -/
theorem C49_silvester_returns (dim : ℕ) (v : SilvesterVariant) {n : ℕ} (hn : 0 < n) :
    ∃ S, silvester dim v n = some S :=
  ⟨_, if_neg (by omega)⟩

/-- C49: `silvester(dim, variant, 0)` fails. -/
theorem C49_silvester_zero (dim : ℕ) (v : SilvesterVariant) : silvester dim v 0 = none := rfl

/-- A concrete case: the closed rule with `n = 2` on the triangle integrates `x y`. -/
example : ∃ S, silvester 2 .closed 2 = some S ∧
    1 / ((2 : ℕ).factorial : ℝ) * dot 3 S.weights S.points (fun xi => xi 1 * xi 2) = 1 / 24 := by
  obtain ⟨S, hS⟩ := C49_silvester_returns 2 .closed (n := 2) (by norm_num)
  obtain ⟨⟨_, hex⟩, hd⟩ := C49_silvester hS
  refine ⟨S, hS, ?_⟩
  have h := hex (X 0 * X 1) (by
    rw [hd]
    exact (totalDegree_mul _ _).trans (by simp [totalDegree_X]))
  simp only [eval_X, map_mul] at h
  have h2 := simplex_mono (n := 2) ![1, 1]
  rw [show (fun x : Fin 2 → ℝ => x 0 * x 1) = mono ![1, 1] by
    funext x; simp [mono, Fin.prod_univ_two], h2] at h
  refine h.trans ?_
  norm_num [Nat.factorial, Fin.sum_univ_two, Fin.prod_univ_two]

end Quadpy.Tn
