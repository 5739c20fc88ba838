import Verif.Props.C18
import Verif.Model.NewtonCotes
import Mathlib.LinearAlgebra.Lagrange

/-!
C16: Newton-Cotes rules have the degree they claim.
-/

namespace Quadpy

open OneDim Spec Polynomial Polynomial.Chebyshev

namespace OneDim

/-- Interpolatory rules. -/
theorem interpolatory (s : Finset ℕ) (v : ℕ → ℝ) (hv : Set.InjOn v s) (p : ℝ[X])
    (hp : p.degree < s.card) :
    ∫ x in (-1 : ℝ)..1, p.eval x =
      ∑ r ∈ s, p.eval (v r) * ∫ x in (-1 : ℝ)..1, (Lagrange.basis s v r).eval x := by
  have h := Lagrange.eq_interpolate hv hp
  have : ∀ x, p.eval x = ∑ r ∈ s, p.eval (v r) * (Lagrange.basis s v r).eval x := by
    intro x
    conv_lhs => rw [h]
    rw [Lagrange.interpolate_apply, eval_finsetSum]
    exact Finset.sum_congr rfl fun r _ => by rw [eval_mul, eval_C]
  rw [intervalIntegral.integral_congr (fun x _ => this x), intervalIntegral.integral_finsetSum
    (fun r _ => (Continuous.intervalIntegrable (by fun_prop) _ _))]
  refine Finset.sum_congr rfl fun r _ => ?_
  rw [← intervalIntegral.integral_const_mul]

/-- The weights of interpolatory rules with symmetric points are symmetric. -/
theorem basis_symm (s : Finset ℕ) (v : ℕ → ℝ) (n : ℕ) (hs : ∀ i ∈ s, i ≤ n ∧ n - i ∈ s)
    (hv : ∀ i ∈ s, v (n - i) = -v i) (r : ℕ) (hr : r ∈ s) :
    ∫ x in (-1 : ℝ)..1, (Lagrange.basis s v (n - r)).eval x =
      ∫ x in (-1 : ℝ)..1, (Lagrange.basis s v r).eval x := by
  have h : ∀ x : ℝ, (Lagrange.basis s v (n - r)).eval x = (Lagrange.basis s v r).eval (-x) := by
    intro x
    rw [Lagrange.basis, Lagrange.basis, eval_prod, eval_prod]
    refine Finset.prod_bij' (fun i _ => n - i) (fun i _ => n - i) ?_ ?_ ?_ ?_ ?_
    · intro i hi
      obtain ⟨h1, h2⟩ := Finset.mem_erase.1 hi
      have := hs i h2
      have := hs r hr
      exact Finset.mem_erase.2 ⟨by omega, (hs i h2).2⟩
    · intro i hi
      obtain ⟨h1, h2⟩ := Finset.mem_erase.1 hi
      have := hs i h2
      have := hs r hr
      exact Finset.mem_erase.2 ⟨by omega, (hs i h2).2⟩
    · intro i hi
      have := hs i (Finset.mem_erase.1 hi).2
      omega
    · intro i hi
      have := hs i (Finset.mem_erase.1 hi).2
      omega
    · intro i hi
      have h2 := (Finset.mem_erase.1 hi).2
      simp only [Lagrange.basisDivisor, eval_mul, eval_C, eval_sub, eval_X]
      rw [hv r hr, hv i h2, show -v r - v i = -(v r - -v i) by ring, show -x - -v i = -(x - v i) by ring,
        inv_neg]
      ring
  simp_rw [h]
  rw [intervalIntegral.integral_comp_neg (f := fun x => (Lagrange.basis s v r).eval x)]
  simp

theorem prod_filter_range (n r : ℕ) (hr : r ≤ n) :
    ∏ i ∈ (Finset.range (n + 1)).filter (· ≠ r), ((r : ℝ) - i) =
      (-1) ^ (n - r) * (r.factorial * (n - r).factorial) := by
  have e : (Finset.range (n + 1)).filter (· ≠ r) = Finset.range r ∪ Finset.Ico (r + 1) (n + 1) := by
    ext i; simp; omega
  have h1 : ∏ i ∈ Finset.range r, ((r : ℝ) - i) = r.factorial := by
    rw [← Finset.prod_range_reflect, ← Finset.prod_range_add_one_eq_factorial]
    push_cast
    refine Finset.prod_congr rfl fun i hi => ?_
    have := Finset.mem_range.1 hi
    rw [Nat.cast_sub (by omega), Nat.cast_sub (by omega)]; push_cast; ring
  have h2 : ∏ i ∈ Finset.Ico (r + 1) (n + 1), ((r : ℝ) - i) = (-1) ^ (n - r) * (n - r).factorial := by
    rw [Finset.prod_Ico_eq_prod_range, ← Finset.prod_range_add_one_eq_factorial,
      show n + 1 - (r + 1) = n - r by omega]
    push_cast
    have : ((-1 : ℝ)) ^ (n - r) = ∏ _i ∈ Finset.range (n - r), (-1 : ℝ) := by simp
    rw [this, ← Finset.prod_mul_distrib]
    exact Finset.prod_congr rfl fun i _ => by ring
  rw [e, Finset.prod_union, h1, h2]
  · ring
  · rw [Finset.disjoint_left]; intro i h1 h2; simp at h1 h2; omega

/-- Lagrange polynomials of equidistant points, in the variable that is integer at the points. -/
theorem basis_integral (s : Finset ℕ) (n r : ℕ) (hn : 0 < n) :
    ∫ x in (-1 : ℝ)..1, (Lagrange.basis s (fun i : ℕ => -1 + 2 * (i : ℝ) / n) r).eval x =
      2 / n * ((∏ i ∈ s.filter (· ≠ r), ((r : ℝ) - i))⁻¹ *
        ∫ t in (0 : ℝ)..n, ∏ i ∈ s.filter (· ≠ r), (t - i)) := by
  have hn' : (n : ℝ) ≠ 0 := by positivity
  have h2 : (2 / n : ℝ) ≠ 0 := by positivity
  have hsub := intervalIntegral.integral_comp_mul_add (a := 0) (b := n)
    (fun x => (Lagrange.basis s (fun i : ℕ => -1 + 2 * (i : ℝ) / n) r).eval x) h2 (-1)
  rw [show (2 / n : ℝ) * 0 + -1 = -1 by ring, show (2 / n : ℝ) * n + -1 = 1 by field_simp; norm_num,
    smul_eq_mul] at hsub
  have h3 : ∫ x in (-1 : ℝ)..1, (Lagrange.basis s (fun i : ℕ => -1 + 2 * (i : ℝ) / n) r).eval x =
      2 / n * ∫ t in (0 : ℝ)..n, (Lagrange.basis s (fun i : ℕ => -1 + 2 * (i : ℝ) / n) r).eval (2 / n * t + -1) := by
    rw [hsub]; field_simp
  rw [h3]
  congr 1
  rw [← intervalIntegral.integral_const_mul]
  refine intervalIntegral.integral_congr fun t _ => ?_
  simp only [Lagrange.basis, eval_prod, Lagrange.basisDivisor, eval_mul, eval_C, eval_sub, eval_X]
  rw [← Finset.prod_inv_distrib, ← Finset.prod_mul_distrib,
    show s.erase r = s.filter (· ≠ r) by ext i; simp [and_comm]]
  refine Finset.prod_congr rfl fun i hi => ?_
  have hne : i ≠ r := by simpa using (Finset.mem_filter.1 hi).2
  have : (r : ℝ) - i ≠ 0 := sub_ne_zero.2 (by exact_mod_cast hne.symm)
  rw [show -1 + 2 * (r : ℝ) / n - (-1 + 2 * (i : ℝ) / n) = 2 * (r - i) / n by ring,
    show 2 / (n : ℝ) * t + -1 - (-1 + 2 * (i : ℝ) / n) = 2 * (t - i) / n by ring]
  field_simp

theorem affine_inj {n : ℕ} (hn : 0 < n) (s : Set ℕ) : Set.InjOn (fun i : ℕ => -1 + 2 * (i : ℝ) / n) s := by
  intro i _ j _ h
  have hn' : (n : ℝ) ≠ 0 := by positivity
  simp only at h
  field_simp at h
  have : (i : ℝ) = j := by linarith
  exact_mod_cast this

/-- One degree more for symmetric rules with an odd number of points. -/
theorem exactC1_succ {n d : ℕ} (x w : Fin n → ℝ) (hx : ∀ i, x (Fin.rev i) = -x i)
    (hw : ∀ i, w (Fin.rev i) = w i) (hd : Even d) (h : ExactC1 (List.ofFn x) (List.ofFn w) d) :
    ExactC1 (List.ofFn x) (List.ofFn w) (d + 1) := by
  refine exactL_of_T x w intC1 fun l hl => ?_
  rcases Nat.lt_or_ge d l with hlt | hge
  · obtain rfl : l = d + 1 := by omega
    rw [intC1_T, if_neg (by rw [Nat.not_even_iff_odd]; exact hd.add_one)]
    exact sum_odd_zero x w hx hw _ hd.add_one
  · have := h.2 (T ℝ (l : ℤ)) (by rw [natDegree_T]; simpa using hge)
    rw [vdot_ofFn] at this
    exact this

end OneDim

/-- C16: `newton_cotes_closed(index)` integrates every polynomial of its degree exactly: the degree is
the number of intervals, and one more if that is even. -/
theorem C16_newton_cotes_closed {index : ℕ} (hn : 0 < index) :
    ExactC1 (newtonCotesClosed index).1 (newtonCotesClosed index).2 (newtonCotesClosedDegree index) := by
  set n := index with hidx
  have hn' : (n : ℝ) ≠ 0 := by positivity
  set v : ℕ → ℝ := fun i => -1 + 2 * (i : ℝ) / n with hv
  set s := Finset.range (n + 1) with hs
  have hw : ∀ r ∈ s, newtonCotesClosedWeight n r = ∫ x in (-1 : ℝ)..1, (Lagrange.basis s v r).eval x := by
    intro r hr
    have hr := Finset.mem_range.1 hr
    rw [hv, basis_integral s n r hn, prod_filter_range n r (by omega), newtonCotesClosedWeight]
    have h1 : ((-1 : ℝ)) ^ (n - r) ≠ 0 := by simp
    have h2 : ((-1 : ℝ)) ^ (n - r) * (-1) ^ (n - r) = 1 := by rw [← mul_pow]; simp
    have f1 : (r.factorial : ℝ) ≠ 0 := by positivity
    have f2 : ((n - r).factorial : ℝ) ≠ 0 := by positivity
    field_simp
    linear_combination (∫ t in (0 : ℝ)..n, ∏ i ∈ Finset.range (n + 1) with i ≠ r, (t - (i : ℝ))) * h2
  have hbase : ExactC1 (newtonCotesClosed n).1 (newtonCotesClosed n).2 n := by
    refine ⟨by simp [newtonCotesClosed], fun p hp => ?_⟩
    rw [interpolatory s v (affine_inj hn _) p (by
      rw [hs, Finset.card_range]
      exact degree_le_natDegree.trans_lt (by exact_mod_cast Nat.lt_succ_of_le hp)),
      newtonCotesClosed, vdot_ofFn, hs, Finset.sum_range]
    exact Finset.sum_congr rfl fun i _ => by rw [hw i (Finset.mem_range.2 i.2)]
  rw [newtonCotesClosedDegree]
  split_ifs with he
  · refine exactC1_succ _ _ (fun i => ?_) (fun i => ?_) (Nat.even_iff.2 he) hbase
    · have hi := i.2
      rw [Fin.val_rev, show n + 1 - (i + 1) = n - i by omega, Nat.cast_sub (by omega)]
      field_simp; ring
    · have hi := i.2
      rw [Fin.val_rev, show n + 1 - (i + 1) = n - i by omega, hw _ (Finset.mem_range.2 (by omega)),
        hw _ (Finset.mem_range.2 (by omega))]
      refine basis_symm s v n (fun j hj => ?_) (fun j hj => ?_) i (Finset.mem_range.2 (by omega))
      · have := Finset.mem_range.1 hj
        exact ⟨by omega, Finset.mem_range.2 (by omega)⟩
      · have := Finset.mem_range.1 hj
        simp only [hv]
        rw [Nat.cast_sub (by omega)]; field_simp; ring
  · exact hbase

/-- C16: `newton_cotes_open(index)` integrates every polynomial of its degree exactly: the degree is one
less than the number of points, and one more if that number is odd. -/
theorem C16_newton_cotes_open {index : ℕ} (hi : 0 < index) :
    ExactC1 (newtonCotesOpen index).1 (newtonCotesOpen index).2 (newtonCotesOpenDegree index) := by
  set n := index + 1 with hidx
  have hn : 0 < n := by omega
  have hn' : (n : ℝ) ≠ 0 := by positivity
  set v : ℕ → ℝ := fun i => -1 + 2 * (i : ℝ) / n with hv
  set s := Finset.Ico 1 n with hs
  have hprod : ∀ r ∈ s, ∏ i ∈ s.filter (· ≠ r), ((r : ℝ) - i) =
      (-1) ^ (n - 1 - r) * ((r - 1).factorial * (n - 1 - r).factorial) := by
    intro r hr
    have hr := Finset.mem_Ico.1 hr
    have h := prod_filter_range (n - 2) (r - 1) (by omega)
    rw [show n - 2 - (r - 1) = n - 1 - r by omega] at h
    rw [← h]
    refine Finset.prod_bij' (fun i _ => i - 1) (fun i _ => i + 1) ?_ ?_ ?_ ?_ ?_
    · intro i hi; simp [hs] at hi ⊢; omega
    · intro i hi; simp [hs] at hi ⊢; omega
    · intro i hi; simp [hs] at hi; omega
    · intro i hi; omega
    · intro i hi
      simp [hs] at hi
      rw [Nat.cast_sub (by omega), Nat.cast_sub (by omega)]; ring
  have hw : ∀ r ∈ s, newtonCotesOpenWeight n r = ∫ x in (-1 : ℝ)..1, (Lagrange.basis s v r).eval x := by
    intro r hr
    rw [hv, basis_integral s n r hn, hprod r hr, newtonCotesOpenWeight]
    have hr := Finset.mem_Ico.1 hr
    have h1 : ((-1 : ℝ)) ^ (n - 1 - r) ≠ 0 := by simp
    have h2 : ((-1 : ℝ)) ^ (n - r + 1) * (-1) ^ (n - 1 - r) = 1 := by
      rw [← pow_add, show n - r + 1 + (n - 1 - r) = 2 * (n - r) by omega, pow_mul]; simp
    have f1 : ((r - 1).factorial : ℝ) ≠ 0 := by positivity
    have f2 : ((n - 1 - r).factorial : ℝ) ≠ 0 := by positivity
    field_simp
    linear_combination (∫ t in (0 : ℝ)..n, ∏ i ∈ Finset.Ico 1 n with i ≠ r, (t - (i : ℝ))) * h2
  have hbase : ExactC1 (newtonCotesOpen index).1 (newtonCotesOpen index).2 (index - 1) := by
    refine ⟨by simp [newtonCotesOpen], fun p hp => ?_⟩
    rw [interpolatory s v (affine_inj hn _) p (by
      rw [hs, Nat.card_Ico]
      exact degree_le_natDegree.trans_lt (by exact_mod_cast (by omega : p.natDegree < n - 1))),
      newtonCotesOpen, vdot_ofFn, hs, Finset.sum_Ico_eq_sum_range, Finset.sum_range]
    refine Finset.sum_congr rfl fun i _ => ?_
    have := i.2
    rw [add_comm 1, hw (i + 1) (Finset.mem_Ico.2 (by omega))]
  rw [newtonCotesOpenDegree]
  split_ifs with he
  · have hfin : ExactC1 (newtonCotesOpen index).1 (newtonCotesOpen index).2 (index - 1 + 1) := by
     refine exactC1_succ _ _ (fun i => ?_) (fun i => ?_) (by rw [Nat.even_iff]; omega) hbase
     · have hi := i.2
       rw [Fin.val_rev, show index - (i + 1) + 1 = n - (i + 1) by omega, Nat.cast_sub (by omega)]
       field_simp; ring
     · have hi := i.2
       rw [Fin.val_rev, show index - (i + 1) + 1 = n - (i + 1) by omega,
         hw _ (Finset.mem_Ico.2 (by omega)), hw _ (Finset.mem_Ico.2 (by omega))]
       refine basis_symm s v n (fun j hj => ?_) (fun j hj => ?_) (i + 1) (Finset.mem_Ico.2 (by omega))
       · have := Finset.mem_Ico.1 hj
         exact ⟨by omega, Finset.mem_Ico.2 (by omega)⟩
       · have := Finset.mem_Ico.1 hj
         simp only [hv]
         rw [Nat.cast_sub (by omega)]; field_simp; ring
    rwa [Nat.sub_add_cancel (by omega)] at hfin
  · exact hbase

/-- C16: the midpoint and the trapezoidal rule have degree 1. -/
theorem C16_midpoint_trapezoidal :
    ExactC1 midpoint.1 midpoint.2 1 ∧ ExactC1 trapezoidal.1 trapezoidal.2 1 := by
  constructor
  · have h := exactC1_of_even (n := 1) (d := 1) ![0] ![2] (by simp) (by
      intro i; fin_cases i; rfl) (fun r hr => by
        obtain rfl : r = 0 := by omega
        simp)
    exact h
  · have h := exactC1_of_even (n := 2) (d := 1) ![-1, 1] ![1, 1] (by
      intro i; fin_cases i <;> simp [Fin.rev]) (by
      intro i; fin_cases i <;> simp [Fin.rev]) (fun r hr => by
        obtain rfl : r = 0 := by omega
        simp [Fin.sum_univ_two]; norm_num)
    exact h

/-! Concrete cases: five closed points (Boole's rule) integrate `x^4 + x^5`, three open points
integrate `x^2`. -/

example : Adaptive.vdot ((newtonCotesClosed 4).1.map fun x => x ^ 4 + x ^ 5) (newtonCotesClosed 4).2 =
    2 / 5 := by
  have h := (C16_newton_cotes_closed (index := 4) (by norm_num)).2 (X ^ 4 + X ^ 5) (by
    rw [newtonCotesClosedDegree, if_pos (by norm_num)]; compute_degree)
  simp only [eval_add, eval_pow, eval_X] at h
  rw [h, intervalIntegral.integral_add (by simp) (by simp), integral_pow, integral_pow]; norm_num

example : Adaptive.vdot ((newtonCotesOpen 3).1.map fun x => x ^ 2) (newtonCotesOpen 3).2 = 2 / 3 := by
  have h := (C16_newton_cotes_open (index := 3) (by norm_num)).2 (X ^ 2) (by
    rw [newtonCotesOpenDegree, if_pos (by norm_num)]; compute_degree!)
  simp only [eval_pow, eval_X] at h
  rw [h, integral_pow]; norm_num

end Quadpy
