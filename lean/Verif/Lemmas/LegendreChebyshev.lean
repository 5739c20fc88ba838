import Mathlib.RingTheory.Polynomial.Chebyshev
import Mathlib.Analysis.Calculus.Deriv.Polynomial
import Mathlib.Topology.Algebra.Polynomial
import Mathlib.Algebra.Polynomial.Eval.SMul
import Mathlib.MeasureTheory.Integral.IntervalIntegral.FundThmCalculus
import Mathlib.Analysis.SpecialFunctions.Integrals.Basic
import Verif.Lemmas.KaluzaTwo

/-!
# Legendre polynomials against Chebyshev polynomials

`∫ p U_{l-1}` over `(-1, 1)` for a polynomial `p` orthogonal to all polynomials of smaller degree.
-/

namespace Quadpy

open Polynomial Finset

namespace Legendre

open Polynomial.Chebyshev (T U)

/-- The integral over `(-1, 1)`. -/
noncomputable def legInt : ℝ[X] →ₗ[ℝ] ℝ where
  toFun p := ∫ x in (-1 : ℝ)..1, p.eval x
  map_add' p q := by
    simp only [eval_add]
    exact intervalIntegral.integral_add (p.continuous.intervalIntegrable _ _) (q.continuous.intervalIntegrable _ _)
  map_smul' c p := by
    simp only [eval_smul, RingHom.id_apply]
    exact intervalIntegral.integral_smul c fun x => p.eval x

theorem legInt_derivative (p : ℝ[X]) : legInt (derivative p) = p.eval 1 - p.eval (-1) :=
  intervalIntegral.integral_eq_sub_of_hasDerivAt (fun x _ => p.hasDerivAt x)
    ((derivative p).continuous.intervalIntegrable _ _)

theorem legInt_sq_pos {p : ℝ[X]} (hp : p ≠ 0) : 0 < legInt (p * p) := by
  have h0 : (∫ x in (-1 : ℝ)..1, (p * p).eval x) = ∫ x in (-1 : ℝ)..1, p.eval x * p.eval x := by simp only [eval_mul]
  show 0 < ∫ x in (-1 : ℝ)..1, (p * p).eval x
  rw [h0]
  obtain ⟨x, hx, hx0⟩ : ∃ x ∈ Set.Ioo (-1 : ℝ) 1, p.eval x ≠ 0 := by
    by_contra hcon
    push Not at hcon
    exact hp (p.eq_zero_of_infinite_isRoot ((Set.Ioo_infinite (by norm_num : (-1 : ℝ) < 1)).mono fun x hx => hcon x hx))
  exact intervalIntegral.integral_pos (by norm_num) (p.continuous.mul p.continuous).continuousOn (fun x _ => mul_self_nonneg _)
    ⟨x, Set.Ioo_subset_Icc_self hx, mul_self_pos.2 hx0⟩

/-- Legendre's differential operator. -/
noncomputable def op (q : ℝ[X]) : ℝ[X] := derivative ((1 - X ^ 2) * derivative q)

theorem op_symm (u v : ℝ[X]) : legInt (op u * v) = legInt (u * op v) := by
  have h1 := legInt_derivative ((1 - X ^ 2) * derivative u * v)
  have h2 := legInt_derivative (u * ((1 - X ^ 2) * derivative v))
  simp only [eval_mul, eval_sub, eval_one, eval_pow, eval_X] at h1 h2
  rw [derivative_mul] at h1 h2
  rw [map_add, ← op] at h1
  rw [map_add, ← op] at h2
  norm_num at h1 h2
  have e : (1 - X ^ 2) * derivative u * derivative v = derivative u * ((1 - X ^ 2) * derivative v) := by ring
  rw [e] at h1
  linarith

theorem op_degree (q : ℝ[X]) : (op q).natDegree ≤ q.natDegree := by
  rcases Nat.eq_zero_or_pos q.natDegree with h | h
  · rw [eq_C_of_natDegree_eq_zero h]; simp [op]
  · refine (natDegree_derivative_le _).trans ?_
    have h1 : ((1 : ℝ[X]) - X ^ 2).natDegree ≤ 2 := by
      refine (natDegree_sub_le _ _).trans ?_
      simp
    have := (natDegree_mul_le (p := (1 : ℝ[X]) - X ^ 2) (q := derivative q))
    have := natDegree_derivative_le q
    omega

theorem op_coeff (q : ℝ[X]) (k : ℕ) (hk : q.natDegree ≤ k) : (op q).coeff k = -(k * (k + 1)) * q.coeff k := by
  have h2 : q.coeff (k + 1 + 1) = 0 := coeff_eq_zero_of_natDegree_lt (by omega)
  rw [op, coeff_derivative, sub_mul, one_mul, coeff_sub]
  rcases k with _ | k
  · rw [show X ^ 2 * derivative q = X * (X * derivative q) by ring, zero_add, coeff_X_mul, coeff_X_mul_zero,
      coeff_derivative]
    rw [show (1 : ℕ) + 1 = 0 + 1 + 1 by rfl, h2]
    simp
  · rw [show X ^ 2 * derivative q = X * (X * derivative q) by ring, coeff_X_mul, coeff_X_mul, coeff_derivative,
      coeff_derivative, h2]
    push_cast
    ring

section

variable {n : ℕ} {p : ℝ[X]} (hp : p.natDegree = n) (ho : ∀ q : ℝ[X], q.degree < n → legInt (p * q) = 0)

include hp ho

/-- Legendre's differential equation. -/
theorem op_eq : op p = -C ((n * (n + 1) : ℕ) : ℝ) * p := by
  set d := op p + C ((n * (n + 1) : ℕ) : ℝ) * p with hd
  have hc : ∀ k, n ≤ k → d.coeff k = 0 := fun k hk => by
    rw [hd, coeff_add, op_coeff p k (by omega), coeff_C_mul]
    rcases eq_or_lt_of_le hk with rfl | h
    · push_cast; ring
    · rw [coeff_eq_zero_of_natDegree_lt (by omega : p.natDegree < k)]; ring
  have hdeg : d.degree < n := (degree_lt_iff_coeff_zero _ _).2 hc
  have hd0 : d = 0 := by
    by_contra h
    have h1 := legInt_sq_pos h
    have hopd : (op d).degree < n := by
      refine (degree_lt_iff_coeff_zero _ _).2 fun k hk => coeff_eq_zero_of_natDegree_lt ?_
      exact (op_degree d).trans_lt (((natDegree_lt_iff_degree_lt h).2 hdeg).trans_le hk)
    have h2 : legInt (d * d) = 0 := by
      conv_lhs => rw [hd]
      rw [← hd, add_mul, map_add, op_symm, ho _ hopd, mul_assoc, ← smul_eq_C_mul, map_smul, ho _ hdeg]
      simp
    linarith
  have := eq_neg_of_add_eq_zero_left (hd.symm.trans hd0)
  rw [this, neg_mul]

/-- `∫ p U_{l-1}` -/
theorem rec_U (l : ℤ) : ((l + 1 - n) * (l + n + 2) : ℝ) * legInt (p * U ℝ (l + 1)) =
    ((l - n) * (l + n + 1)) * legInt (p * U ℝ (l - 1)) := by
  set m := l + 1 with hm
  have h := op_symm p (T ℝ m)
  have hT : op (T ℝ m) = -(X * derivative (T ℝ m)) - (m ^ 2 : ℝ[X]) * T ℝ m := by
    have := Chebyshev.one_sub_X_sq_mul_derivative_derivative_T_eq_poly_in_T (R := ℝ) m
    rw [Function.iterate_succ, Function.iterate_one, Function.comp_apply] at this
    rw [op, derivative_mul, this]
    simp
    ring
  have h1 : 2 * T ℝ m = U ℝ m - U ℝ (m - 2) := by
    have := Chebyshev.two_mul_T_eq_U_sub_U ℝ (m - 2)
    rwa [sub_add_cancel] at this
  have h2 : 2 * (X * U ℝ (m - 1)) = U ℝ m + U ℝ (m - 2) := by
    rw [Chebyshev.U_eq ℝ m]; ring
  rw [op_eq hp ho, hT, Chebyshev.T_derivative_eq_U] at h
  have e : C (2 : ℝ) * (p * (-(X * ((m : ℝ[X]) * U ℝ (m - 1))) - (m ^ 2 : ℝ[X]) * T ℝ m)) =
      C (-(m : ℝ) - m ^ 2) * (p * U ℝ m) + C (-(m : ℝ) + m ^ 2) * (p * U ℝ (m - 2)) := by
    have hC : C (2 : ℝ) = 2 := rfl
    have hm' : (m : ℝ[X]) = C (m : ℝ) := by simp
    simp only [map_add, map_sub, map_neg, map_pow, ← hm', hC]
    linear_combination (-(m : ℝ[X]) * p) * h2 - ((m : ℝ[X]) ^ 2 * p) * h1
  have e2 : C (2 : ℝ) * (-C ((n * (n + 1) : ℕ) : ℝ) * p * T ℝ m) =
      C (-((n * (n + 1) : ℕ) : ℝ)) * (p * U ℝ m) + C ((n * (n + 1) : ℕ) : ℝ) * (p * U ℝ (m - 2)) := by
    have hC : C (2 : ℝ) = 2 := rfl
    rw [hC, C_neg]
    linear_combination (-C ((n * (n + 1) : ℕ) : ℝ) * p) * h1
  have h' : legInt (C (2 : ℝ) * (-C ((n * (n + 1) : ℕ) : ℝ) * p * T ℝ m)) =
      legInt (C (2 : ℝ) * (p * (-(X * ((m : ℝ[X]) * U ℝ (m - 1))) - (m ^ 2 : ℝ[X]) * T ℝ m))) := by
    rw [← smul_eq_C_mul, ← smul_eq_C_mul, map_smul, map_smul, h]
  rw [e, e2] at h'
  simp only [LinearMap.map_add, ← smul_eq_C_mul, LinearMap.map_smul, smul_eq_mul] at h'
  rw [show m - 2 = l - 1 by omega] at h'
  have hml : (m : ℝ) = l + 1 := by rw [hm]; push_cast; ring
  rw [hml] at h'
  push_cast at h'
  linear_combination h'

omit hp in
theorem U_small {l : ℤ} (h1 : -n ≤ l) (h2 : l ≤ n) : legInt (p * U ℝ (l - 1)) = 0 := by
  have key : ∀ k : ℕ, k ≤ n → legInt (p * U ℝ ((k : ℤ) - 1)) = 0 := fun k hk => by
    rcases k with _ | k
    · simp
    · refine ho _ ?_
      rw [show ((k + 1 : ℕ) : ℤ) - 1 = k by push_cast; ring, Chebyshev.degree_U_natCast]
      exact_mod_cast hk
  rcases le_total 0 l with h | h
  · obtain ⟨k, rfl⟩ := Int.eq_ofNat_of_zero_le h
    exact key k (by exact_mod_cast h2)
  · obtain ⟨k, hk⟩ := Int.eq_ofNat_of_zero_le (show 0 ≤ -l by omega)
    have := key k (by omega)
    rw [← hk, show -l - 1 = -l - 1 by rfl, Chebyshev.U_neg_sub_one] at this
    simpa using this

theorem U_parity (k : ℕ) : legInt (p * U ℝ (n + 2 * k - 1)) = 0 := by
  induction k with
  | zero => simpa using U_small ho (l := n) (by omega) le_rfl
  | succ k ih =>
    have h := rec_U hp ho (n + 2 * k)
    rw [ih, mul_zero] at h
    rw [show (n : ℤ) + 2 * ((k + 1 : ℕ) : ℤ) - 1 = n + 2 * k + 1 by push_cast; ring]
    refine (mul_eq_zero.1 h).resolve_left ?_
    push_cast
    rw [show (n : ℝ) + 2 * k + 1 - n = 2 * k + 1 by ring]
    positivity

theorem U_top (hn : 0 < n) : legInt (p * U ℝ n) ≠ 0 := by
  have hp0 : p ≠ 0 := by rintro rfl; simp at hp; omega
  have hl : p.leadingCoeff ≠ 0 := leadingCoeff_ne_zero.2 hp0
  set c := (2 : ℝ) ^ n / p.leadingCoeff with hc
  have hd : (U ℝ n - C c * p).degree < n := by
    refine (degree_lt_iff_coeff_zero _ _).2 fun k hk => ?_
    rw [coeff_sub, coeff_C_mul]
    rcases eq_or_lt_of_le hk with rfl | h
    · have h1 : (U ℝ n).coeff n = 2 ^ n := by
        have := Chebyshev.leadingCoeff_U_natCast ℝ n
        rwa [leadingCoeff, Chebyshev.natDegree_U_natCast] at this
      have h2 : p.coeff n = p.leadingCoeff := by rw [leadingCoeff, hp]
      rw [h1, h2, hc, div_mul_cancel₀ _ hl, sub_self]
    · rw [coeff_eq_zero_of_natDegree_lt (by rw [Chebyshev.natDegree_U_natCast]; exact h),
        coeff_eq_zero_of_natDegree_lt (by omega : p.natDegree < k)]
      ring
  have h := ho _ hd
  rw [mul_sub, map_sub, show p * (C c * p) = C c * (p * p) by ring, ← smul_eq_C_mul, map_smul, sub_eq_zero] at h
  rw [h, smul_eq_mul]
  exact mul_ne_zero (div_ne_zero (by positivity) hl) (legInt_sq_pos hp0).ne'

end

/-- The quotients of successive integrals. -/
noncomputable def quo (n : ℕ) (k : ℕ) : ℝ :=
  ((2 * k + 1) * (2 * n + 2 * k + 2)) / ((2 * k + 2) * (2 * n + 2 * k + 3))

theorem one_sub_quo (n k : ℕ) : 1 - quo n k =
    (n / (2 * n + 1)) / (k + 1) + ((n + 1) / (2 * n + 1)) / (k + n + 3 / 2) := by
  have h1 : (k : ℝ) + n + 3 / 2 ≠ 0 := by positivity
  have h2 : (2 * (n : ℝ) + 2 * k + 3) ≠ 0 := by positivity
  have h3 : (2 * (k : ℝ) + 2) ≠ 0 := by positivity
  rw [quo]
  have e : (k : ℝ) + n + 3 / 2 = (2 * n + 2 * k + 3) / 2 := by ring
  rw [e]
  field_simp
  ring

theorem sum_logConvex {A B t s : ℝ} (hA : 0 ≤ A) (hB : 0 ≤ B) (ht : 0 < t) (hs : 0 < s) :
    (A / (t + 1) + B / (s + 1)) ^ 2 ≤ (A / t + B / s) * (A / (t + 2) + B / (s + 2)) := by
  have h1 : (1 / (t + 1)) * (1 / (t + 1)) ≤ 1 / t * (1 / (t + 2)) := by
    rw [one_div_mul_one_div, one_div_mul_one_div]
    exact one_div_le_one_div_of_le (by positivity) (by nlinarith)
  have h2 : (1 / (s + 1)) * (1 / (s + 1)) ≤ 1 / s * (1 / (s + 2)) := by
    rw [one_div_mul_one_div, one_div_mul_one_div]
    exact one_div_le_one_div_of_le (by positivity) (by nlinarith)
  have h3 : 2 * ((1 / (t + 1)) * (1 / (s + 1))) ≤ 1 / t * (1 / (s + 2)) + 1 / s * (1 / (t + 2)) := by
    rw [← sub_nonneg]
    have e : 1 / t * (1 / (s + 2)) + 1 / s * (1 / (t + 2)) - 2 * ((1 / (t + 1)) * (1 / (s + 1))) =
        (2 * (t - s) ^ 2 + 2 * t * s + 2 * (t + s)) / (t * (s + 2) * (s * (t + 2)) * ((t + 1) * (s + 1))) := by
      field_simp
      ring
    rw [e]
    positivity
  have e : (A / t + B / s) * (A / (t + 2) + B / (s + 2)) - (A / (t + 1) + B / (s + 1)) ^ 2 =
      A ^ 2 * (1 / t * (1 / (t + 2)) - (1 / (t + 1)) * (1 / (t + 1))) +
      B ^ 2 * (1 / s * (1 / (s + 2)) - (1 / (s + 1)) * (1 / (s + 1))) +
      A * B * (1 / t * (1 / (s + 2)) + 1 / s * (1 / (t + 2)) - 2 * ((1 / (t + 1)) * (1 / (s + 1)))) := by
    ring
  have := mul_nonneg (sq_nonneg A) (sub_nonneg.2 h1)
  have := mul_nonneg (sq_nonneg B) (sub_nonneg.2 h2)
  have := mul_nonneg (mul_nonneg hA hB) (sub_nonneg.2 h3)
  linarith

theorem quo_quot (n : ℕ) : Kaluza.Quot (quo n) where
  pos k := by rw [quo]; positivity
  lt_one k := by
    have : 0 < 1 - quo n k := by rw [one_sub_quo]; positivity
    linarith
  mono k := by
    have h : 1 - quo n (k + 1) < 1 - quo n k := by
      rw [one_sub_quo, one_sub_quo]
      refine add_lt_add_of_le_of_lt ?_ ?_
      · exact div_le_div_of_nonneg_left (by positivity) (by positivity) (by push_cast; linarith)
      · exact div_lt_div_of_pos_left (by positivity) (by positivity) (by push_cast; linarith)
    linarith
  logConvex k := by
    rw [one_sub_quo, one_sub_quo, one_sub_quo]
    have := sum_logConvex (A := n / (2 * n + 1)) (B := (n + 1) / (2 * n + 1)) (t := k + 1) (s := k + n + 3 / 2)
      (by positivity) (by positivity) (by positivity) (by positivity)
    push_cast
    refine (le_of_eq ?_).trans (this.trans (le_of_eq ?_))
    · congr 3
      ring
    · congr 3 <;> ring

/-- Twice the product of Chebyshev polynomials of both kinds. -/
theorem two_T_mul_U (m k : ℤ) : 2 * T ℝ k * U ℝ (m - 1) = U ℝ (m + k - 1) + U ℝ (m - k - 1) := by
  induction k using Polynomial.Chebyshev.induct with
  | zero => simp [two_mul]
  | one => rw [Chebyshev.T_one, show m + 1 - 1 = m - 1 + 1 by ring, Chebyshev.U_add_one]; ring_nf
  | add_two k ih1 ih2 =>
    have h1 := Chebyshev.T_add_two ℝ k
    have h2 := Chebyshev.U_add_two ℝ (m + k - 1)
    have h3 := Chebyshev.U_sub_two ℝ (m - k - 1)
    linear_combination (norm := ring_nf) 2 * U ℝ (m - 1) * h1 - h2 - h3 - ih2 + 2 * (X : ℝ[X]) * ih1
  | neg_add_one k ih1 ih2 =>
    have h1 := Chebyshev.T_add_two ℝ (-k - 1)
    have h2 := Chebyshev.U_add_two ℝ (m - k - 2)
    have h3 := Chebyshev.U_sub_two ℝ (m + k)
    linear_combination (norm := ring_nf) 2 * U ℝ (m - 1) * h1 - h2 - h3 - ih2 + 2 * (X : ℝ[X]) * ih1

theorem exists_T_expand : ∀ (d : ℕ) (E : ℝ[X]), E.natDegree ≤ d →
    ∃ e : ℕ → ℝ, E = ∑ j ∈ range (d + 1), C (e j) * T ℝ j
  | 0, E, h => ⟨fun _ => E.coeff 0, by
      simp only [zero_add, range_one, sum_singleton, Nat.cast_zero, Chebyshev.T_zero, mul_one]
      exact eq_C_of_natDegree_le_zero h⟩
  | d + 1, E, h => by
    set c := E.coeff (d + 1) / (T ℝ (d + 1 : ℕ)).leadingCoeff with hc
    have hT : (T ℝ (d + 1 : ℕ)).natDegree = d + 1 := by rw [Chebyshev.natDegree_T]; omega
    have hl : (T ℝ (d + 1 : ℕ)).leadingCoeff ≠ 0 := leadingCoeff_ne_zero.2 (Chebyshev.T_ne_zero ℝ _)
    obtain ⟨e, he⟩ := exists_T_expand d (E - C c * T ℝ (d + 1 : ℕ)) (by
      refine natDegree_le_iff_coeff_eq_zero.2 fun k hk => ?_
      rw [coeff_sub, coeff_C_mul]
      rcases eq_or_lt_of_le (show d + 1 ≤ k from hk) with rfl | h'
      · have : (T ℝ (d + 1 : ℕ)).coeff (d + 1) = (T ℝ (d + 1 : ℕ)).leadingCoeff := by rw [leadingCoeff, hT]
        rw [this, hc, div_mul_cancel₀ _ hl, sub_self]
      · rw [coeff_eq_zero_of_natDegree_lt (by omega : E.natDegree < k),
          coeff_eq_zero_of_natDegree_lt (by omega : (T ℝ (d + 1 : ℕ)).natDegree < k)]
        ring)
    refine ⟨Function.update e (d + 1) c, ?_⟩
    rw [sum_range_succ, Function.update_self, sum_congr rfl fun j hj => by
      rw [Function.update_of_ne (by have := mem_range.1 hj; omega)], ← he]
    ring

theorem T_expand_top {d : ℕ} {e : ℕ → ℝ}
    (h : (∑ j ∈ range (d + 1 + 1), C (e j) * T ℝ j).natDegree = d + 1) : e (d + 1) ≠ 0 := by
  intro h0
  rw [sum_range_succ, h0, C_0, zero_mul, add_zero] at h
  have : (∑ j ∈ range (d + 1), C (e j) * T ℝ j).natDegree ≤ d := natDegree_sum_le_of_forall_le _ _ fun j hj => by
    refine (natDegree_C_mul_le _ _).trans ?_
    rw [Chebyshev.natDegree_T]
    have := mem_range.1 hj
    simp
    omega
  omega

theorem sum_range_two (g : ℕ → ℝ) (K : ℕ) : ∑ i ∈ range (2 * K), g i = ∑ ν ∈ range K, (g (2 * ν) + g (2 * ν + 1)) := by
  induction K with
  | zero => simp
  | succ K ih => rw [show 2 * (K + 1) = 2 * K + 1 + 1 by ring, sum_range_succ, sum_range_succ, ih, sum_range_succ]; ring

section

variable {n : ℕ} {p : ℝ[X]} (hn : 0 < n) (hp : p.natDegree = n)
  (ho : ∀ q : ℝ[X], q.degree < n → legInt (p * q) = 0)

include hp ho in
theorem U_even {l : ℤ} (h1 : -n ≤ l) (h2 : Even (l - n)) : legInt (p * U ℝ (l - 1)) = 0 := by
  rcases le_total l n with h | h
  · exact U_small ho h1 h
  · obtain ⟨k, hk⟩ := h2
    obtain ⟨j, rfl⟩ := Int.eq_ofNat_of_zero_le (show 0 ≤ k by omega)
    have := U_parity hp ho j
    rwa [show (n : ℤ) + 2 * (j : ℤ) - 1 = l - 1 by omega] at this

/-- The integrals, divided by the first that is not zero. -/
noncomputable def phi (n : ℕ) (p : ℝ[X]) (k : ℤ) : ℝ := legInt (p * U ℝ (n + 2 * k)) / legInt (p * U ℝ n)

include ho in
theorem phi_neg {k : ℤ} (h1 : -n ≤ k) (h2 : k < 0) : phi n p k = 0 := by
  have := U_small ho (l := n + 2 * k + 1) (by omega) (by omega)
  rw [phi, show (n : ℤ) + 2 * k = n + 2 * k + 1 - 1 by ring, this, zero_div]

include hn hp ho

theorem phi_zero : phi n p 0 = 1 := by
  rw [phi, mul_zero, add_zero, div_self (U_top hp ho hn)]

theorem phi_succ (k : ℕ) : phi n p ((k + 1 : ℕ) : ℤ) = quo n k * phi n p k := by
  have h := rec_U hp ho (n + 2 * k + 1)
  rw [show (n : ℤ) + 2 * k + 1 + 1 = n + 2 * ((k + 1 : ℕ) : ℤ) by push_cast; ring,
    show (n : ℤ) + 2 * k + 1 - 1 = n + 2 * (k : ℤ) by ring] at h
  push_cast at h
  have e : ((n : ℝ) + 2 * k + 1 + 1 - n) * (n + 2 * k + 1 + n + 2) = (2 * k + 2) * (2 * n + 2 * k + 3) := by ring
  have e' : ((n : ℝ) + 2 * k + 1 - n) * (n + 2 * k + 1 + n + 1) = (2 * k + 1) * (2 * n + 2 * k + 2) := by ring
  rw [e, e'] at h
  rw [phi, phi, quo, ← mul_div_assoc, div_mul_eq_mul_div]
  congr 1
  rw [eq_div_iff (by positivity), mul_comm]
  push_cast
  exact h

/-- The orthogonality of a polynomial `E` of degree `n + 1`, in terms of its Chebyshev coefficients. -/
theorem orth_cond {e : ℕ → ℝ} {E : ℝ[X]} (hE : E = ∑ j ∈ range (n + 2), C (e j) * T ℝ j) {μ : ℕ} (hμ : 0 < μ)
    (h : legInt (p * (E * U ℝ (2 * μ - 1))) = 0) :
    ∑ ν ∈ range ((n + 1) / 2 + 1), e (n + 1 - 2 * ν) * (phi n p (μ - ν) + phi n p (μ + ν - n - 1)) = 0 := by
  have h1 : ∑ j ∈ range (n + 2), e j * (legInt (p * U ℝ (2 * μ + j - 1)) + legInt (p * U ℝ (2 * μ - j - 1))) = 0 := by
    have e1 : C (2 : ℝ) * (p * (E * U ℝ (2 * μ - 1))) =
        ∑ j ∈ range (n + 2), C (e j) * (p * U ℝ (2 * μ + j - 1) + p * U ℝ (2 * μ - j - 1)) := by
      rw [hE, sum_mul, mul_sum, mul_sum]
      refine sum_congr rfl fun j _ => ?_
      have := two_T_mul_U (2 * μ) j
      have hC : C (2 : ℝ) = 2 := rfl
      rw [hC]
      linear_combination (C (e j) * p) * this
    have e2 : legInt (C (2 : ℝ) * (p * (E * U ℝ (2 * μ - 1)))) = 0 := by
      rw [← smul_eq_C_mul, LinearMap.map_smul, h, smul_zero]
    rw [e1, map_sum] at e2
    rw [← e2]
    refine sum_congr rfl fun j _ => ?_
    rw [← smul_eq_C_mul, LinearMap.map_smul, LinearMap.map_add, smul_eq_mul]
  set g : ℕ → ℝ := fun i => if i < n + 2 then e (n + 1 - i) *
    (legInt (p * U ℝ (2 * μ + n + 1 - i - 1)) + legInt (p * U ℝ (2 * μ - n - 1 + i - 1))) else 0 with hg
  have h2 : ∑ i ∈ range (2 * ((n + 1) / 2 + 1)), g i = 0 := by
    have e1 : ∑ i ∈ range (2 * ((n + 1) / 2 + 1)), g i = ∑ i ∈ range (n + 2), g i := by
      refine (sum_subset (range_subset_range.2 (by omega)) fun i _ hi => ?_).symm
      exact if_neg (by simpa using hi)
    rw [e1, ← h1, ← sum_range_reflect]
    refine sum_congr rfl fun j hj => ?_
    have := mem_range.1 hj
    simp only [hg]
    rw [if_pos (by omega), show n + 1 - (n + 2 - 1 - j) = j by omega]
    congr 4
    · congr 1; omega
    · congr 1; omega
  rw [sum_range_two] at h2
  have h3 : ∑ ν ∈ range ((n + 1) / 2 + 1), (g (2 * ν) + g (2 * ν + 1)) = legInt (p * U ℝ n) *
      ∑ ν ∈ range ((n + 1) / 2 + 1), e (n + 1 - 2 * ν) * (phi n p (μ - ν) + phi n p (μ + ν - n - 1)) := by
    rw [mul_sum]
    refine sum_congr rfl fun ν hν => ?_
    have := mem_range.1 hν
    have h0 : g (2 * ν + 1) = 0 := by
      simp only [hg]
      split_ifs with hlt
      · rw [U_even hp ho (l := 2 * μ + n + 1 - ((2 * ν + 1 : ℕ) : ℤ)) (by omega) ⟨μ - ν, by push_cast; ring⟩,
          U_even hp ho (l := 2 * μ - n - 1 + ((2 * ν + 1 : ℕ) : ℤ)) (by omega) ⟨μ - n + ν, by push_cast; ring⟩]
        ring
      · rfl
    have ht := U_top hp ho hn
    rw [h0, add_zero]
    simp only [hg, phi]
    rw [if_pos (by omega), show 2 * (μ : ℤ) + n + 1 - ((2 * ν : ℕ) : ℤ) - 1 = n + 2 * (μ - ν) by push_cast; ring,
      show 2 * (μ : ℤ) - n - 1 + ((2 * ν : ℕ) : ℤ) - 1 = n + 2 * (μ + ν - n - 1) by push_cast; ring]
    field_simp
  rw [h3] at h2
  exact (mul_eq_zero.1 h2).resolve_left (U_top hp ho hn)

omit hn hp ho in
/-- The convolution with the integrals. -/
theorem conv_phi {a : ℕ → ℝ} {k : ℕ} (hk : k ≤ n) :
    Kaluza.conv a (fun ν : ℕ => phi n p ν) k = ∑ ν ∈ range (k + 1), a ν * phi n p (k - ν) := by
  refine sum_congr rfl fun ν hν => ?_
  have := mem_range.1 hν
  simp only
  rw [Nat.cast_sub (by omega)]

/-- No polynomial of degree `n + 1` makes `p E` orthogonal to all polynomials of degree `n + 1` (even `n`) or
`n + 2` (odd `n`). -/
theorem no_stieltjes (h2 : 2 ≤ n) {E : ℝ[X]} (hE : E.natDegree = n + 1) :
    ¬ ∀ q : ℝ[X], q.natDegree ≤ n + 1 + n % 2 → legInt (p * (E * q)) = 0 := by
  intro h
  obtain ⟨e, he⟩ := exists_T_expand (n + 1) E hE.le
  have he0 : e (n + 1) ≠ 0 := T_expand_top (by rw [← he]; exact hE)
  set α : ℕ → ℝ := fun ν => e (n + 1 - 2 * ν) / e (n + 1) with hα
  have hα0 : α 0 = 1 := by simp only [hα, mul_zero, Nat.sub_zero]; exact div_self he0
  have hcond : ∀ μ, 0 < μ → μ ≤ (n + 1) / 2 + 1 →
      ∑ ν ∈ range ((n + 1) / 2 + 1), α ν * (phi n p (μ - ν) + phi n p (μ + ν - n - 1)) = 0 := fun μ h0 hμ => by
    have h1 := orth_cond hn hp ho he h0 (h _ (by
      rw [show 2 * (μ : ℤ) - 1 = ((2 * μ - 1 : ℕ) : ℤ) by omega, Chebyshev.natDegree_U_natCast]
      omega))
    have : ∑ ν ∈ range ((n + 1) / 2 + 1), α ν * (phi n p (μ - ν) + phi n p (μ + ν - n - 1)) =
        (∑ ν ∈ range ((n + 1) / 2 + 1), e (n + 1 - 2 * ν) * (phi n p (μ - ν) + phi n p (μ + ν - n - 1))) /
          e (n + 1) := by
      rw [sum_div]
      exact sum_congr rfl fun ν _ => by simp only [hα]; ring
    rw [this, h1, zero_div]
  have hφ0 := phi_zero hn hp ho
  have hφn : ∀ k : ℤ, -n ≤ k → k < 0 → phi n p k = 0 := fun k h1 h2 => phi_neg ho h1 h2
  have hpos := fun (a : ℕ → ℝ) (M : ℕ) (ha0 : a 0 = 1) (ha : ∀ k, 0 < k → k ≤ M →
      Kaluza.conv a (fun ν : ℕ => phi n p ν) k = 0) => Kaluza.bdiff_pos (quo_quot n)
    (f := fun ν : ℕ => phi n p ν) (by exact_mod_cast hφ0) (phi_succ hn hp ho) ha0 ha
  rcases Nat.even_or_odd' n with ⟨N, hN | hN⟩
  · -- even
    have hK : (n + 1) / 2 = N := by omega
    rw [hK] at hcond
    have := hpos (fun ν => if ν ≤ N then α ν else α N) (N + 1) (by simpa using hα0) (fun k h0 hk => by
      have hc := hcond k h0 (by omega)
      rw [conv_phi (by omega)]
      rcases Nat.lt_or_ge N k with hlt | hge
      · obtain rfl : k = N + 1 := by omega
        rw [sum_range_succ, if_neg (by omega), sub_self, hφ0, ← hc]
        have e1 : ∑ ν ∈ range (N + 1), α ν * phi n p (((N + 1 : ℕ) : ℤ) + ν - n - 1) = α N * 1 := by
          rw [sum_range_succ, sum_eq_zero fun ν hν => by
            have := mem_range.1 hν
            rw [hφn _ (by omega) (by omega), mul_zero], zero_add,
            show ((N + 1 : ℕ) : ℤ) + N - n - 1 = 0 by omega, hφ0]
        rw [← e1, ← sum_add_distrib]
        refine sum_congr rfl fun ν hν => ?_
        have := mem_range.1 hν
        rw [if_pos (by omega)]
        ring
      · rw [← hc]
        rw [← sum_subset (range_subset_range.2 (show k + 1 ≤ N + 1 by omega)) fun ν hν hν' => by
          have := mem_range.1 hν
          have : ¬ ν < k + 1 := by simpa using hν'
          rw [hφn _ (by omega) (by omega), hφn _ (by omega) (by omega)]; ring]
        refine sum_congr rfl fun ν hν => ?_
        have := mem_range.1 hν
        rw [if_pos (by omega), hφn (k + ν - n - 1) (by omega) (by omega), add_zero]) (N + 1) (by omega) le_rfl
    simp only [Kaluza.bdiff] at this
    rw [if_neg (by omega), if_pos le_rfl, sub_self] at this
    exact lt_irrefl _ this
  · -- odd
    obtain ⟨K, rfl⟩ : ∃ K, N = K + 1 := ⟨N - 1, by omega⟩
    have hK : (n + 1) / 2 = K + 2 := by omega
    rw [hK] at hcond
    set a : ℕ → ℝ := fun ν => if ν ≤ K + 1 then α ν else if ν = K + 2 then 2 * α (K + 2) else α (K + 1) with ha
    have hpos' := hpos a (K + 3) (by simpa [ha] using hα0) (fun k h0 hk => by
      have hc := hcond k h0 (by omega)
      rw [conv_phi (by omega)]
      rcases Nat.lt_trichotomy k (K + 2) with hlt | rfl | hgt
      · rw [← hc]
        rw [← sum_subset (range_subset_range.2 (show k + 1 ≤ K + 2 + 1 by omega)) fun ν hν hν' => by
          have := mem_range.1 hν
          have : ¬ ν < k + 1 := by simpa using hν'
          rw [hφn _ (by omega) (by omega), hφn _ (by omega) (by omega)]; ring]
        refine sum_congr rfl fun ν hν => ?_
        have := mem_range.1 hν
        simp only [ha]
        rw [if_pos (by omega), hφn (k + ν - n - 1) (by omega) (by omega), add_zero]
      · rw [sum_range_succ] at hc ⊢
        have e1 : ∑ ν ∈ range (K + 2), α ν * (phi n p (((K + 2 : ℕ) : ℤ) - ν) +
            phi n p (((K + 2 : ℕ) : ℤ) + ν - n - 1)) =
            ∑ ν ∈ range (K + 2), a ν * phi n p (((K + 2 : ℕ) : ℤ) - ν) := sum_congr rfl fun ν hν => by
          have := mem_range.1 hν
          simp only [ha]
          rw [if_pos (by omega), hφn (((K + 2 : ℕ) : ℤ) + ν - n - 1) (by omega) (by omega), add_zero]
        rw [e1, sub_self, show ((K + 2 : ℕ) : ℤ) + ((K + 2 : ℕ) : ℤ) - n - 1 = 0 by omega, hφ0] at hc
        rw [sub_self, hφ0, ← hc]
        have a2 : a (K + 2) = 2 * α (K + 2) := by simp [ha]
        rw [a2]
        ring
      · obtain rfl : k = K + 3 := by omega
        rw [sum_range_succ, sum_range_succ] at hc
        rw [sum_range_succ, sum_range_succ, sum_range_succ]
        have e1 : ∑ ν ∈ range (K + 1), α ν * (phi n p (((K + 3 : ℕ) : ℤ) - ν) +
            phi n p (((K + 3 : ℕ) : ℤ) + ν - n - 1)) =
            ∑ ν ∈ range (K + 1), a ν * phi n p (((K + 3 : ℕ) : ℤ) - ν) := sum_congr rfl fun ν hν => by
          have := mem_range.1 hν
          simp only [ha]
          rw [if_pos (by omega), hφn (((K + 3 : ℕ) : ℤ) + ν - n - 1) (by omega) (by omega), add_zero]
        have a1 : a (K + 1) = α (K + 1) := if_pos le_rfl
        have a2 : a (K + 2) = 2 * α (K + 2) := by simp [ha]
        have a3 : a (K + 3) = α (K + 1) := by simp [ha]
        rw [e1, show ((K + 3 : ℕ) : ℤ) + ((K + 1 : ℕ) : ℤ) - n - 1 = 0 by omega,
          show ((K + 3 : ℕ) : ℤ) + ((K + 2 : ℕ) : ℤ) - n - 1 = 1 by omega,
          show ((K + 3 : ℕ) : ℤ) - ((K + 2 : ℕ) : ℤ) = 1 by omega, hφ0] at hc
        rw [a1, a2, a3, sub_self, hφ0, show ((K + 3 : ℕ) : ℤ) - ((K + 2 : ℕ) : ℤ) = 1 by omega]
        linarith)
    have h3 := hpos' (K + 3) (by omega) le_rfl
    have h4 := hpos' (K + 2) (by omega) (by omega)
    have a1 : a (K + 1) = α (K + 1) := if_pos le_rfl
    have a3 : a (K + 3) = α (K + 1) := by simp [ha]
    simp only [Kaluza.bdiff] at h3 h4
    linarith

end

end Legendre

end Quadpy
