import Verif.Lemmas.CosSum

/-!
C18: Clenshaw-Curtis and Fejér rules have the degree they claim.
-/

namespace Quadpy

open OneDim Spec Polynomial Polynomial.Chebyshev Real

namespace OneDim

/-- The cosine transform. -/
noncomputable def dct (N : ℕ) (a : ℕ → ℝ) (k : ℕ) : ℝ :=
  (∑ j ∈ Finset.range N, a j * cos (2 * π * (j * k / N))) / N

theorem exp_re (N : ℕ) (j k : ℕ) :
    Complex.exp (2 * π * Complex.I * (j * k / N)) =
      (cos (2 * π * (j * k / N)) : ℝ) + (sin (2 * π * (j * k / N)) : ℝ) * Complex.I := by
  rw [show 2 * π * Complex.I * (j * k / N : ℂ) = ((2 * π * (j * k / N) : ℝ) : ℂ) * Complex.I by
    push_cast; ring, Complex.exp_mul_I, Complex.ofReal_cos, Complex.ofReal_sin]

theorem ifft_re (N : ℕ) (a : ℕ → ℝ) (k : ℕ) : (ifft N (fun j => (a j : ℂ)) k).re = dct N a k := by
  rw [ifft, dct, Complex.div_natCast_re, Complex.re_sum]
  congr 1
  refine Finset.sum_congr rfl fun j _ => ?_
  rw [exp_re, Complex.re_ofReal_mul]
  simp only [Complex.add_re, Complex.ofReal_re, Complex.mul_re, Complex.ofReal_im, Complex.I_re,
    Complex.I_im]
  ring

theorem ifft_im {N : ℕ} {a : ℕ → ℝ} (ha : ∀ j, 0 < j → j < N → a (N - j) = a j) (k : ℕ) :
    (ifft N (fun j => (a j : ℂ)) k).im = 0 := by
  rcases Nat.eq_zero_or_pos N with rfl | hN
  · simp [ifft]
  rw [ifft, Complex.div_natCast_im, Complex.im_sum]
  have e : ∀ j : ℕ, (((a j : ℝ) : ℂ) * Complex.exp (2 * π * Complex.I * (j * k / N))).im =
      a j * sin (2 * π * (j * k / N)) := fun j => by
    rw [exp_re, Complex.im_ofReal_mul]
    simp only [Complex.add_im, Complex.ofReal_re, Complex.mul_im, Complex.ofReal_im, Complex.I_re,
      Complex.I_im]
    ring
  simp_rw [e]
  have hN' : (N : ℝ) ≠ 0 := by positivity
  set S := ∑ j ∈ Finset.range N, a j * sin (2 * π * (j * k / N)) with hS
  have h : S = -S := by
    obtain ⟨M, rfl⟩ : ∃ M, N = M + 1 := ⟨N - 1, by omega⟩
    rw [Finset.sum_range_succ'] at hS
    simp only [Nat.cast_zero, zero_mul, zero_div, mul_zero, sin_zero, add_zero] at hS
    rw [hS, ← Finset.sum_neg_distrib, ← Finset.sum_range_reflect]
    refine Finset.sum_congr rfl fun j hj => ?_
    have hj := Finset.mem_range.1 hj
    have h1 := ha (j + 1) (by omega) (by omega)
    rw [show M - 1 - j + 1 = M + 1 - (j + 1) by omega, h1, Nat.cast_sub (by omega)]
    rw [show 2 * π * ((((M + 1 : ℕ) : ℝ) - ((j + 1 : ℕ) : ℝ)) * k / ((M + 1 : ℕ) : ℝ)) =
      k * (2 * π) - 2 * π * (((j + 1 : ℕ) : ℝ) * k / ((M + 1 : ℕ) : ℝ)) by field_simp,
      sin_nat_mul_two_pi_sub]
    ring
  have : S = 0 := by linarith
  rw [this, zero_div]

theorem dct_symm (N : ℕ) [NeZero N] (a : ℕ → ℝ) (k : ℕ) (hk : k ≤ N) : dct N a (N - k) = dct N a k := by
  have hN' : (N : ℝ) ≠ 0 := Nat.cast_ne_zero.2 (NeZero.ne N)
  rw [dct, dct]
  congr 1
  refine Finset.sum_congr rfl fun j _ => ?_
  rw [Nat.cast_sub hk, show 2 * π * (j * ((N : ℝ) - k) / N) = j * (2 * π) - 2 * π * (j * k / N) by
    field_simp, cos_nat_mul_two_pi_sub]

theorem dct_zero (N : ℕ) (a : ℕ → ℝ) : dct N a 0 = (∑ j ∈ Finset.range N, a j) / N := by
  simp [dct]

/-- Inversion of the cosine transform. -/
theorem dct_inv (N : ℕ) [NeZero N] (a : ℕ → ℝ) (ha : ∀ j, 0 < j → j < N → a (N - j) = a j)
    (r : ℕ) (hr : r < N) :
    ∑ k ∈ Finset.range N, dct N a k * cos (2 * π * (r * k / N)) = a r := by
  have hN' : (N : ℝ) ≠ 0 := Nat.cast_ne_zero.2 (NeZero.ne N)
  have e : ∀ k, dct N a k * cos (2 * π * (r * k / N)) =
      (∑ j ∈ Finset.range N, a j * (cos (2 * π * (((j : ℤ) + r : ℤ) * k / N)) +
        cos (2 * π * (((j : ℤ) - r : ℤ) * k / N)))) / (2 * N) := by
    intro k
    rw [dct, div_mul_eq_mul_div, Finset.sum_mul, div_eq_div_iff hN' (by positivity), Finset.sum_mul,
      Finset.sum_mul]
    refine Finset.sum_congr rfl fun j _ => ?_
    push_cast
    rw [show 2 * π * (((j : ℝ) + r) * k / N) = 2 * π * (j * k / N) + 2 * π * (r * k / N) by ring,
      show 2 * π * (((j : ℝ) - r) * k / N) = 2 * π * (j * k / N) - 2 * π * (r * k / N) by ring,
      cos_add, cos_sub]
    ring
  simp_rw [e]
  rw [← Finset.sum_div, Finset.sum_comm]
  simp_rw [← Finset.mul_sum, Finset.sum_add_distrib, cos_sum, mul_add]
  rw [Finset.sum_add_distrib]
  have h2 : ∑ j ∈ Finset.range N, a j * (if (N : ℤ) ∣ (j : ℤ) - r then (N : ℝ) else 0) = a r * N := by
    rw [Finset.sum_eq_single r]
    · simp
    · intro j hj hne
      have := Finset.mem_range.1 hj
      rw [if_neg, mul_zero]
      intro hd
      have := Int.eq_zero_of_abs_lt_dvd hd (by rw [abs_lt]; omega)
      omega
    · intro h; exact absurd (Finset.mem_range.2 hr) h
  have h1 : ∑ j ∈ Finset.range N, a j * (if (N : ℤ) ∣ (j : ℤ) + r then (N : ℝ) else 0) = a r * N := by
    rcases Nat.eq_zero_or_pos r with rfl | hr0
    · simpa using h2
    rw [Finset.sum_eq_single (N - r)]
    · rw [if_pos, ha r hr0 hr]
      rw [Nat.cast_sub hr.le]; simp
    · intro j hj hne
      have := Finset.mem_range.1 hj
      rw [if_neg, mul_zero]
      rintro ⟨q, hq⟩
      have h1 : 0 < q := by
        by_contra h
        have : (N : ℤ) * q ≤ 0 := mul_nonpos_of_nonneg_of_nonpos (by omega) (by omega)
        omega
      have h2 : q < 2 := by
        by_contra h
        have : (N : ℤ) * 2 ≤ N * q := mul_le_mul_of_nonneg_left (by omega) (by omega)
        omega
      have : q = 1 := by omega
      rw [this] at hq
      omega
    · intro h; exact absurd (Finset.mem_range.2 (by omega)) h
  rw [h1, h2]
  field_simp
  ring

/-- Mirroring a symmetric array. -/
theorem mirror_ofFn {N : ℕ} (hN : 0 < N) (w : ℕ → ℝ) (hw : ∀ k ≤ N, w (N - k) = w k) :
    mirror N (List.ofFn fun k : Fin (N / 2 + 1) => w k) = List.ofFn fun k : Fin (N + 1) => w k := by
  apply List.ext_getElem
  · rw [mirror]; split_ifs <;> simp <;> omega
  · intro i h1 h2
    simp only [List.length_ofFn] at h2
    rw [List.getElem_ofFn]
    simp only [mirror]
    split_ifs with h
    · rw [List.getElem_append]
      split_ifs with h3
      · rw [List.getElem_ofFn]
      · simp only [List.length_ofFn] at h3
        rw [List.getElem_reverse, List.getElem_ofFn]
        simp only [List.length_ofFn]
        rw [← hw i (by omega)]; congr 1; omega
    · rw [List.getElem_append]
      split_ifs with h3
      · rw [List.getElem_ofFn]
      · simp only [List.length_ofFn] at h3
        rw [List.getElem_reverse, List.getElem_dropLast, List.getElem_ofFn]
        simp only [List.length_ofFn, List.length_dropLast]
        rw [← hw i (by omega)]; congr 1; omega

theorem mirror_ihfft {N : ℕ} (hN : 0 < N) (a : ℕ → ℝ) :
    mirror N (ihfftReal N a) = List.ofFn fun k : Fin (N + 1) => dct N a k := by
  have : NeZero N := ⟨by omega⟩
  rw [← mirror_ofFn hN (dct N a) fun k hk => dct_symm N a k hk, ihfftReal]
  simp_rw [ifft_re]

/-- A Chebyshev polynomial at a negated cosine. -/
theorem T_neg_cos (l : ℕ) (θ : ℝ) : (T ℝ (l : ℤ)).eval (-cos θ) = (-1) ^ l * cos (l * θ) := by
  rw [← cos_pi_sub, T_real_cos]
  push_cast
  rw [mul_sub, cos_sub, cos_nat_mul_pi, sin_nat_mul_pi]; ring

/-- Odd functions have the sum 0 for symmetric weights. -/
theorem sum_odd_zero {n : ℕ} (x w : Fin n → ℝ) (hx : ∀ i, x (Fin.rev i) = -x i)
    (hw : ∀ i, w (Fin.rev i) = w i) (l : ℕ) (hl : Odd l) :
    ∑ i, (T ℝ (l : ℤ)).eval (x i) * w i = 0 := by
  set S := ∑ i, (T ℝ (l : ℤ)).eval (x i) * w i with hS
  have hodd : ∀ y, (T ℝ (l : ℤ)).eval (-y) = -(T ℝ (l : ℤ)).eval y := by
    intro y
    have := T_eval_neg ℝ (l : ℤ) y
    rw [this, Int.negOnePow_odd _ (by exact_mod_cast hl)]
    simp
  have h : S = -S := by
    rw [hS, ← Finset.sum_neg_distrib, ← Equiv.sum_comp Fin.revPerm]
    refine Finset.sum_congr rfl fun i _ => ?_
    rw [Fin.revPerm_apply, hx, hw, hodd]; ring
  linarith

/-- A symmetric rule that is exact for the even Chebyshev polynomials. -/
theorem exactC1_of_even {n d : ℕ} (x w : Fin n → ℝ) (hx : ∀ i, x (Fin.rev i) = -x i)
    (hw : ∀ i, w (Fin.rev i) = w i)
    (h : ∀ r, 2 * r ≤ d → ∑ i, (T ℝ ((2 * r : ℕ) : ℤ)).eval (x i) * w i = 2 / (1 - 4 * (r : ℝ) ^ 2)) :
    ExactC1 (List.ofFn x) (List.ofFn w) d := by
  refine exactL_of_T x w intC1 fun l hl => ?_
  rw [intC1_T]
  split_ifs with he
  · obtain ⟨r, rfl⟩ := he
    have := h r (by omega)
    rw [← two_mul, this]; push_cast; ring
  · exact sum_odd_zero x w hx hw l (Nat.not_even_iff_odd.1 he)

/-- A rule that fails for one Chebyshev polynomial. -/
theorem not_exactC1 {n d r : ℕ} (x w : Fin n → ℝ) (hr : 2 * r ≤ d)
    (h : ∑ i, (T ℝ ((2 * r : ℕ) : ℤ)).eval (x i) * w i ≠ 2 / (1 - 4 * (r : ℝ) ^ 2)) :
    ¬ ExactC1 (List.ofFn x) (List.ofFn w) d := by
  intro he
  apply h
  have h1 := he.2 (T ℝ ((2 * r : ℕ) : ℤ)) (by rw [natDegree_T]; simp; omega)
  rw [vdot_ofFn] at h1
  rw [h1]
  have := intC1_T (2 * r)
  rw [if_pos (even_two_mul r)] at this
  exact this.trans (by push_cast; ring)

theorem telescope (q : ℕ) :
    ∑ i ∈ Finset.range (q + 1), (2 : ℝ) / (2 * i + 1) / ((2 * i + 1) - 2) = -1 - 1 / (2 * q + 1) := by
  induction q with
  | zero => norm_num
  | succ q ih =>
    rw [Finset.sum_range_succ, ih]
    push_cast
    have h1 : (2 * (q : ℝ) + 1) ≠ 0 := by positivity
    have h2 : (2 * ((q : ℝ) + 1) + 1) ≠ 0 := by positivity
    have h3 : (2 * ((q : ℝ) + 1) + 1 - 2) = 2 * q + 1 := by ring
    rw [h3]
    field_simp
    ring

theorem ccV0_def (n i : ℕ) : ccV0 n i =
    if i < n / 2 then (2 : ℝ) / (2 * i + 1) / ((2 * i + 1) - 2)
    else if i = n / 2 then 1 / (2 * (n / 2 - 1 : ℕ) + 1) else 0 := rfl

theorem ccG_def (n i : ℕ) : ccG n i =
    (-1 + (if i = n / 2 then (n : ℝ) else 0) + (if i = n - n / 2 then (n : ℝ) else 0)) /
    ((n : ℝ) ^ 2 - 1 + (n % 2 : ℕ)) := rfl

theorem ccV0_sum {N : ℕ} (hN : 2 ≤ N) : ∑ i ∈ Finset.range (N + 1), ccV0 N i = -1 := by
  obtain ⟨q, hq⟩ : ∃ q, N / 2 = q + 1 := ⟨N / 2 - 1, by omega⟩
  rw [← Finset.sum_subset (s₁ := Finset.range (q + 1 + 1)) (fun i hi => by
    rw [Finset.mem_range] at *; omega) (fun i _ hi => by
    rw [Finset.mem_range] at hi
    rw [ccV0_def, hq]
    rw [if_neg (by omega), if_neg (by omega)])]
  have e : ∑ i ∈ Finset.range (q + 1), ccV0 N i =
      ∑ i ∈ Finset.range (q + 1), (2 : ℝ) / (2 * i + 1) / ((2 * i + 1) - 2) :=
    Finset.sum_congr rfl fun i hi => by
      rw [ccV0_def, hq, if_pos (Finset.mem_range.1 hi)]
  rw [Finset.sum_range_succ, e, telescope]
  rw [ccV0_def, hq]; simp

theorem ccV2_sum {N : ℕ} (hN : 2 ≤ N) : ∑ i ∈ Finset.range N, ccV2 N i = 0 := by
  have h := ccV0_sum hN
  have h1 := h
  rw [Finset.sum_range_succ] at h1
  rw [Finset.sum_range_succ'] at h
  have hr : ∑ i ∈ Finset.range N, ccV0 N (N - i) = ∑ i ∈ Finset.range N, ccV0 N (i + 1) := by
    rw [← Finset.sum_range_reflect]
    refine Finset.sum_congr rfl fun i hi => ?_
    have := Finset.mem_range.1 hi
    congr 1; omega
  have hlast : ccV0 N N = 0 := by
    rw [ccV0_def]; rw [if_neg (by omega), if_neg (by omega)]
  have h0 : ccV0 N 0 = -2 := by
    rw [ccV0_def]; rw [if_pos (by omega)]; norm_num
  simp only [ccV2]
  rw [Finset.sum_sub_distrib, Finset.sum_neg_distrib, hr]
  rw [hlast] at h1
  rw [h0] at h
  linarith

theorem ccV2_symm {N j : ℕ} (hj : j < N) : ccV2 N (N - j) = ccV2 N j := by
  simp only [ccV2]
  rw [show N - (N - j) = j by omega]; ring

theorem ccV2_small {N r : ℕ} (hr : r < N / 2) : ccV2 N r = 2 / (1 - 4 * (r : ℝ) ^ 2) := by
  have h1 : ccV0 N (N - r) = 0 := by
    rw [ccV0_def]; rw [if_neg (by omega), if_neg (by omega)]
  simp only [ccV2]
  rw [h1]
  rw [ccV0_def]
  rw [if_pos hr, div_div, show (1 - 4 * (r : ℝ) ^ 2) = -((2 * r + 1) * (2 * r + 1 - 2)) by ring, div_neg]
  ring

theorem ccV2_mid {N : ℕ} (hN : 2 ≤ N) :
    ccV2 N (N / 2) = if N % 2 = 1 then -1 / (N - 2 : ℝ) else -2 / (N - 1 : ℝ) := by
  obtain ⟨q, hq⟩ : ∃ q, N / 2 = q + 1 := ⟨N / 2 - 1, by omega⟩
  have h0 : ccV0 N (N / 2) = 1 / (2 * q + 1) := by
    rw [ccV0_def, hq]; simp
  split_ifs with h
  · have h1 : ccV0 N (N - N / 2) = 0 := by
      rw [ccV0_def]; rw [if_neg (by omega), if_neg (by omega)]
    simp only [ccV2]
    rw [h0, h1]
    have : (N : ℝ) = 2 * q + 3 := by exact_mod_cast (by omega : N = 2 * q + 3)
    rw [this, show (2 * (q : ℝ) + 3 - 2) = 2 * q + 1 by ring]; ring
  · have h1 : N - N / 2 = N / 2 := by omega
    simp only [ccV2]
    rw [h1, h0]
    have : (N : ℝ) = 2 * q + 2 := by exact_mod_cast (by omega : N = 2 * q + 2)
    rw [this, show (2 * (q : ℝ) + 2 - 1) = 2 * q + 1 by ring]; ring

theorem ccG_symm {N j : ℕ} (hj : j < N) : ccG N (N - j) = ccG N j := by
  simp only [ccG_def]
  have e1 : (N - j = N / 2) ↔ (j = N - N / 2) := by omega
  have e2 : (N - j = N - N / 2) ↔ (j = N / 2) := by omega
  simp only [e1, e2]
  rw [add_right_comm]

theorem ccG_sum {N : ℕ} (hN : 2 ≤ N) :
    ∑ i ∈ Finset.range N, ccG N i = N / ((N : ℝ) ^ 2 - 1 + (N % 2 : ℕ)) := by
  simp only [ccG_def]
  rw [← Finset.sum_div, Finset.sum_add_distrib, Finset.sum_add_distrib, Finset.sum_ite_eq',
    Finset.sum_ite_eq', if_pos (Finset.mem_range.2 (by omega)), if_pos (Finset.mem_range.2 (by omega))]
  simp

/-- The sum of an even Chebyshev polynomial over the equidistant angles with endpoints. -/
theorem cc_sum {N : ℕ} [NeZero N] (a : ℕ → ℝ) (ha : ∀ j, 0 < j → j < N → a (N - j) = a j) (r : ℕ)
    (hr : r < N) :
    ∑ i : Fin (N + 1), (T ℝ ((2 * r : ℕ) : ℤ)).eval (-cos (π * (i : ℕ) / N)) * dct N a i =
      a r + (∑ j ∈ Finset.range N, a j) / N := by
  have hN' : (N : ℝ) ≠ 0 := Nat.cast_ne_zero.2 (NeZero.ne N)
  rw [Fin.sum_univ_eq_sum_range (fun i => (T ℝ ((2 * r : ℕ) : ℤ)).eval (-cos (π * (i : ℕ) / N)) * dct N a i),
    Finset.sum_range_succ, ← dct_inv N a ha r hr, ← dct_zero]
  congr 1
  · refine Finset.sum_congr rfl fun k _ => ?_
    rw [T_neg_cos, (even_two_mul r).neg_one_pow, one_mul, mul_comm]
    congr 2; push_cast; ring
  · rw [T_neg_cos, (even_two_mul r).neg_one_pow, one_mul, ← dct_symm N a 0 (by omega), Nat.sub_zero]
    have : ((2 * r : ℕ) : ℝ) * (π * N / N) = r * (2 * π) := by push_cast; field_simp
    rw [this, cos_nat_mul_two_pi, one_mul]

theorem cc_point_rev {N : ℕ} (hN : 0 < N) (i : Fin (N + 1)) :
    -cos (π * (Fin.rev i : ℕ) / N) = - -cos (π * (i : ℕ) / N) := by
  have hN' : (N : ℝ) ≠ 0 := by positivity
  have hi := i.2
  rw [Fin.val_rev, show N + 1 - (i + 1) = N - i by omega, Nat.cast_sub (by omega),
    show π * ((N : ℝ) - (i : ℕ)) / N = π - π * (i : ℕ) / N by field_simp, cos_pi_sub]

end OneDim

/-- The weights of `clenshaw_curtis(n)`. -/
theorem OneDim.clenshawCurtis_eq {N : ℕ} (hN : 2 ≤ N) :
    clenshawCurtis (N + 1) = (List.ofFn fun i : Fin (N + 1) => -cos (π * (i : ℕ) / N),
      List.ofFn fun i : Fin (N + 1) => dct N (fun i => ccV2 N i + ccG N i) i) := by
  rw [clenshawCurtis, if_neg (by omega)]
  simp only [Nat.add_sub_cancel]
  rw [mirror_ihfft (by omega)]

theorem OneDim.clenshawCurtis_sum {N : ℕ} (hN : 2 ≤ N) (r : ℕ) (hr : 2 * r ≤ N) :
    ∑ i : Fin (N + 1), (T ℝ ((2 * r : ℕ) : ℤ)).eval (-cos (π * (i : ℕ) / N)) *
      dct N (fun i => ccV2 N i + ccG N i) i = 2 / (1 - 4 * (r : ℝ) ^ 2) := by
  have : NeZero N := ⟨by omega⟩
  have hN2 : (2 : ℝ) ≤ N := by exact_mod_cast hN
  have hsq : (N : ℝ) ^ 2 - 1 ≠ 0 := by nlinarith
  rw [cc_sum _ (fun j _ hj => by rw [ccV2_symm hj, ccG_symm hj]) r (by omega), Finset.sum_add_distrib,
    ccV2_sum hN, ccG_sum hN, zero_add]
  have hden : (N : ℝ) ^ 2 - 1 + (N % 2 : ℕ) ≠ 0 := by
    have : (0 : ℝ) ≤ (N % 2 : ℕ) := by positivity
    nlinarith
  rcases Nat.lt_or_ge r (N / 2) with hlt | hge
  · rw [ccV2_small hlt]
    simp only [ccG_def]
    rw [if_neg (by omega), if_neg (by omega)]
    field_simp
    ring
  · obtain rfl : r = N / 2 := by omega
    rw [ccV2_mid hN]
    simp only [ccG_def]
    split_ifs with h1 h2 h2
    · omega
    · obtain ⟨q, hq⟩ : ∃ q, N = 2 * q + 3 := ⟨N / 2 - 1, by omega⟩
      have e1 : N / 2 = q + 1 := by omega
      have e2 : N % 2 = 1 := by omega
      rw [e1, e2, hq]
      push_cast
      have a1 : (2 * (q : ℝ) + 3 - 2) ≠ 0 := by rw [show (2 * (q : ℝ) + 3 - 2) = 2 * q + 1 by ring]; positivity
      have a2 : (1 - 4 * ((q : ℝ) + 1) ^ 2) = -((2 * q + 1) * (2 * q + 3)) := by ring
      rw [a2, show (2 * (q : ℝ) + 3 - 2) = 2 * q + 1 by ring,
        show ((2 * (q : ℝ) + 3) ^ 2 - 1 + 1) = (2 * q + 3) ^ 2 by ring]
      field_simp
      ring
    · obtain ⟨q, hq⟩ : ∃ q, N = 2 * q + 2 := ⟨N / 2 - 1, by omega⟩
      have e1 : N / 2 = q + 1 := by omega
      have e2 : N % 2 = 0 := by omega
      rw [e1, e2, hq]
      push_cast
      rw [show (1 - 4 * ((q : ℝ) + 1) ^ 2) = -((2 * q + 1) * (2 * q + 3)) by ring,
        show (2 * (q : ℝ) + 2 - 1) = 2 * q + 1 by ring,
        show ((2 * (q : ℝ) + 2) ^ 2 - 1 + 0) = (2 * q + 1) * (2 * q + 3) by ring]
      field_simp
      ring
    · omega

/-- C18: `clenshaw_curtis(n)` with odd `n` has the degree `n` that it claims. -/
theorem C18_clenshaw_curtis_odd {n : ℕ} (hn : 3 ≤ n) (ho : Odd n) :
    ExactC1 (clenshawCurtis n).1 (clenshawCurtis n).2 (fejerDegree n) := by
  obtain ⟨N, rfl⟩ : ∃ N, n = N + 1 := ⟨n - 1, by omega⟩
  have : NeZero N := ⟨by omega⟩
  rw [clenshawCurtis_eq (by omega)]
  refine exactC1_of_even _ _ (cc_point_rev (by omega)) (fun i => ?_) fun r hr =>
    clenshawCurtis_sum (by omega) r ?_
  · rw [Fin.val_rev, show N + 1 - (i + 1) = N - i by omega, dct_symm _ _ _ (by omega)]
  · obtain ⟨q, hq⟩ := ho
    rw [fejerDegree] at hr
    omega

/-- C18: `clenshaw_curtis(n)` with even `n` has the degree `n - 1` only. -/
theorem C18_clenshaw_curtis_even_partial {n : ℕ} (hn : 2 ≤ n) (he : Even n) :
    ExactC1 (clenshawCurtis n).1 (clenshawCurtis n).2 (fejerDegree n - 1) ∧
    ¬ ExactC1 (clenshawCurtis n).1 (clenshawCurtis n).2 (fejerDegree n) := by
  rcases Nat.lt_or_ge 2 n with hlt | hge
  · obtain ⟨N, rfl⟩ : ∃ N, n = N + 1 := ⟨n - 1, by omega⟩
    have : NeZero N := ⟨by omega⟩
    rw [clenshawCurtis_eq (by omega)]
    obtain ⟨q, hq⟩ : ∃ q, N = 2 * q + 3 := by obtain ⟨k, hk⟩ := he; exact ⟨k - 2, by omega⟩
    constructor
    · refine exactC1_of_even _ _ (cc_point_rev (by omega)) (fun i => ?_) fun r hr =>
        clenshawCurtis_sum (by omega) r ?_
      · rw [Fin.val_rev, show N + 1 - (i + 1) = N - i by omega, dct_symm _ _ _ (by omega)]
      · rw [fejerDegree] at hr; omega
    · refine not_exactC1 (r := q + 2) _ _ (by rw [fejerDegree]; omega) ?_
      -- the polynomial of degree `N + 1` looks like the one of degree `N - 1`
      have hal : ∀ i : ℕ, (T ℝ ((2 * (q + 2) : ℕ) : ℤ)).eval (-cos (π * i / N)) =
          (T ℝ ((2 * (q + 1) : ℕ) : ℤ)).eval (-cos (π * i / N)) := by
        intro i
        rw [T_neg_cos, T_neg_cos, (even_two_mul _).neg_one_pow, (even_two_mul _).neg_one_pow]
        have h0 : (N : ℝ) ≠ 0 := Nat.cast_ne_zero.2 (NeZero.ne N)
        have hNq : (N : ℝ) = 2 * q + 3 := by rw [hq]; push_cast; ring
        have : ((2 * (q + 2) : ℕ) : ℝ) * (π * i / N) = i * (2 * π) - ((2 * (q + 1) : ℕ) : ℝ) * (π * i / N) := by
          push_cast; field_simp; rw [hNq]; ring
        rw [this, cos_nat_mul_two_pi_sub]
      simp_rw [hal]
      rw [clenshawCurtis_sum (by omega) (q + 1) (by omega)]
      push_cast
      rw [show (1 - 4 * ((q : ℝ) + 1) ^ 2) = -((2 * q + 1) * (2 * q + 3)) by ring,
        show (1 - 4 * ((q : ℝ) + 2) ^ 2) = -((2 * q + 3) * (2 * q + 5)) by ring, Ne,
        div_eq_div_iff (by positivity |> neg_ne_zero.2) (by positivity |> neg_ne_zero.2)]
      intro h
      have hq0 : (0 : ℝ) ≤ q := Nat.cast_nonneg q
      nlinarith
  · obtain rfl : n = 2 := by omega
    have hcc : clenshawCurtis 2 = (List.ofFn ![(-1 : ℝ), 1], List.ofFn ![(1 : ℝ), 1]) := by
      simp [clenshawCurtis]
    rw [hcc]
    constructor
    · refine exactC1_of_even _ _ (fun i => ?_) (fun i => ?_) fun r hr => ?_
      · fin_cases i <;> simp [Fin.rev]
      · fin_cases i <;> simp [Fin.rev]
      · obtain rfl : r = 0 := by rw [fejerDegree] at hr; omega
        simp [Fin.sum_univ_two]; norm_num
    · refine not_exactC1 (r := 1) _ _ (by rw [fejerDegree]) ?_
      simp [Fin.sum_univ_two]; norm_num

/-- C18: the imaginary parts that are dropped are zero. -/
theorem C18_clenshaw_curtis_real (n k : ℕ) :
    (ifft (n - 1) (fun i => ((ccV2 (n - 1) i + ccG (n - 1) i : ℝ) : ℂ)) k).im = 0 :=
  ifft_im (fun j _ hj => by rw [ccV2_symm hj, ccG_symm hj]) k

/-- The weights of `fejer_2(n)`. -/
theorem OneDim.fejer2_eq (n : ℕ) :
    fejer2 n = (List.ofFn fun i : Fin n => -cos (π * ((i : ℕ) + 1 : ℝ) / (n + 1)),
      List.ofFn fun i : Fin n => dct (n + 1) (ccV2 (n + 1)) (i + 1)) := by
  rw [fejer2, mirror_ihfft (by omega)]
  congr 1
  apply List.ext_getElem
  · simp
  · intro i h1 h2
    rw [List.getElem_dropLast, List.getElem_tail, List.getElem_ofFn, List.getElem_ofFn]

theorem OneDim.fejer2_sum {n : ℕ} (hn : 0 < n) (r : ℕ) (hr : r < n + 1) :
    ∑ i : Fin n, (T ℝ ((2 * r : ℕ) : ℤ)).eval (-cos (π * ((i : ℕ) + 1 : ℝ) / (n + 1))) *
      dct (n + 1) (ccV2 (n + 1)) (i + 1) = ccV2 (n + 1) r := by
  have h := cc_sum (N := n + 1) (ccV2 (n + 1)) (fun j _ hj => ccV2_symm hj) r hr
  have h0 : dct (n + 1) (ccV2 (n + 1)) 0 = 0 := by
    rw [dct_zero, ccV2_sum (by omega), zero_div]
  have hN : dct (n + 1) (ccV2 (n + 1)) (n + 1) = 0 := by
    rw [← h0, ← dct_symm (n + 1) _ 0 (by omega), Nat.sub_zero]
  rw [ccV2_sum (by omega), zero_div, add_zero, Fin.sum_univ_castSucc, Fin.sum_univ_succ] at h
  simp only [Fin.val_last, hN, mul_zero, add_zero, Fin.val_castSucc, Fin.val_zero, h0, zero_add,
    Fin.val_succ] at h
  rw [← h]
  refine Finset.sum_congr rfl fun i _ => ?_
  push_cast
  rfl

theorem OneDim.fejer2_symm {n : ℕ} (i : Fin n) :
    -cos (π * ((Fin.rev i : ℕ) + 1 : ℝ) / (n + 1)) = - -cos (π * ((i : ℕ) + 1 : ℝ) / (n + 1)) ∧
    dct (n + 1) (ccV2 (n + 1)) ((Fin.rev i : ℕ) + 1) = dct (n + 1) (ccV2 (n + 1)) (i + 1) := by
  have hi := i.2
  have e : (Fin.rev i : ℕ) + 1 = n + 1 - (i + 1) := by rw [Fin.val_rev]; omega
  constructor
  · have e' : ((Fin.rev i : ℕ) : ℝ) + 1 = (n + 1) - ((i : ℕ) + 1) := by
      have : (((Fin.rev i : ℕ) + 1 : ℕ) : ℝ) = ((n + 1 - (i + 1) : ℕ) : ℝ) := by rw [e]
      rw [Nat.cast_sub (by omega)] at this
      push_cast at this ⊢
      exact this
    have hN' : (n + 1 : ℝ) ≠ 0 := by positivity
    rw [e', show π * ((n + 1 : ℝ) - ((i : ℕ) + 1)) / (n + 1) = π - π * ((i : ℕ) + 1) / (n + 1) by
      field_simp, cos_pi_sub]
  · rw [e, dct_symm _ _ _ (by omega)]

/-- C18: `fejer_2(n)` with odd `n` has the degree `n` that it claims. -/
theorem C18_fejer_2_odd {n : ℕ} (ho : Odd n) :
    ExactC1 (fejer2 n).1 (fejer2 n).2 (fejerDegree n) := by
  obtain ⟨q, hq⟩ := ho
  rw [fejer2_eq]
  refine exactC1_of_even _ _ (fun i => (fejer2_symm i).1) (fun i => (fejer2_symm i).2) fun r hr => ?_
  rw [fejerDegree] at hr
  rw [fejer2_sum (by omega) r (by omega), ccV2_small (by omega)]

/-- C18: `fejer_2(n)` with even `n` has the degree `n - 1` only. -/
theorem C18_fejer_2_even_partial {n : ℕ} (hn : 0 < n) (he : Even n) :
    ExactC1 (fejer2 n).1 (fejer2 n).2 (fejerDegree n - 1) ∧
    ¬ ExactC1 (fejer2 n).1 (fejer2 n).2 (fejerDegree n) := by
  obtain ⟨q, hq⟩ := he
  rw [fejer2_eq]
  constructor
  · refine exactC1_of_even _ _ (fun i => (fejer2_symm i).1) (fun i => (fejer2_symm i).2) fun r hr => ?_
    rw [fejerDegree] at hr
    rw [fejer2_sum (by omega) r (by omega), ccV2_small (by omega)]
  · refine not_exactC1 (r := q) _ _ (by rw [fejerDegree]; omega) ?_
    rw [fejer2_sum hn q (by omega)]
    have e1 : q = (n + 1) / 2 := by omega
    have h := ccV2_mid (N := n + 1) (by omega)
    rw [← e1, if_pos (by omega)] at h
    obtain ⟨k, rfl⟩ : ∃ k, q = k + 1 := ⟨q - 1, by omega⟩
    have : (n : ℝ) = 2 * k + 2 := by rw [hq]; push_cast; ring
    rw [h]
    push_cast
    rw [this, show (2 * (k : ℝ) + 2 + 1 - 2) = 2 * k + 1 by ring,
      show (1 - 4 * ((k : ℝ) + 1) ^ 2) = -((2 * k + 1) * (2 * k + 3)) by ring, Ne,
      div_eq_div_iff (by positivity) (by positivity |> neg_ne_zero.2)]
    intro h
    have hk0 : (0 : ℝ) ≤ k := Nat.cast_nonneg k
    nlinarith

/-- C18: the imaginary parts that are dropped are zero. -/
theorem C18_fejer_2_real (n k : ℕ) : (ifft (n + 1) (fun i => (ccV2 (n + 1) i : ℂ)) k).im = 0 :=
  ifft_im (fun j _ hj => ccV2_symm hj) k

/-! ### The first Fejér rule -/

namespace OneDim

/-- The coefficients, without the factor of modulus 1. -/
noncomputable def fejerC (n j : ℕ) : ℝ := if j < n - n / 2 then 2 / (1 - 4 * (j : ℝ) ^ 2) else 0

/-- One term of the inverse transform. -/
noncomputable def fejerZ (n k j : ℕ) : ℂ :=
  fejerV0 n j * Complex.exp (2 * π * Complex.I * (j * k / n))

theorem fejerZ_eq (n k j : ℕ) : fejerZ n k j =
    (fejerC n j * cos (2 * j * (π * (k + 1 / 2) / n)) : ℝ) +
    (fejerC n j * sin (2 * j * (π * (k + 1 / 2) / n)) : ℝ) * Complex.I := by
  rw [fejerZ, fejerV0, fejerC]
  change (if j < n - n / 2 then _ else _) * _ = _
  split_ifs with h
  · have : Complex.exp (Complex.I * π * j / n) * Complex.exp (2 * π * Complex.I * (j * k / n)) =
        (cos (2 * j * (π * (k + 1 / 2) / n)) : ℝ) + (sin (2 * j * (π * (k + 1 / 2) / n)) : ℝ) * Complex.I := by
      rw [← Complex.exp_add, show Complex.I * π * j / n + 2 * π * Complex.I * (j * k / n : ℂ) =
        ((2 * j * (π * (k + 1 / 2) / n) : ℝ) : ℂ) * Complex.I by push_cast; ring, Complex.exp_mul_I,
        Complex.ofReal_cos, Complex.ofReal_sin]
    rw [div_mul_eq_mul_div, mul_assoc, this]
    push_cast
    ring
  · simp

theorem fejer_ifft {n : ℕ} (hn : 0 < n) (k : ℕ) :
    ifft n (fejerV1 n) k =
      (((2 * ∑ j ∈ Finset.range n, fejerC n j * cos (2 * j * (π * (k + 1 / 2) / n)) - 2) / n : ℝ) : ℂ) := by
  have hn' : (n : ℂ) ≠ 0 := Nat.cast_ne_zero.2 hn.ne'
  have hzn : fejerZ n k n = 0 := by
    have : fejerC n n = 0 := if_neg (by omega)
    rw [fejerZ_eq, this]; simp
  have hz0 : fejerZ n k 0 = 2 := by
    have : fejerC n 0 = 2 := by rw [fejerC, if_pos (by omega)]; norm_num
    rw [fejerZ_eq, this]; simp
  have hterm : ∀ j ∈ Finset.range n, fejerV1 n j * Complex.exp (2 * π * Complex.I * (j * k / n)) =
      fejerZ n k j + starRingEnd ℂ (fejerZ n k (n - j)) := by
    intro j hj
    have hj := Finset.mem_range.1 hj
    rw [fejerV1, add_mul, fejerZ, fejerZ, map_mul, ← Complex.exp_conj]
    congr 2
    rw [Nat.cast_sub hj.le]
    simp only [map_mul, map_div₀, map_sub, map_natCast, Complex.conj_I, Complex.conj_ofReal, map_ofNat]
    have h1 : Complex.exp (k * (2 * π * Complex.I)) = 1 := by
      exact_mod_cast Complex.exp_int_mul_two_pi_mul_I k
    have h2 : 2 * (π : ℂ) * -Complex.I * ((n - j) * k / n) =
        2 * π * Complex.I * (j * k / n) - k * (2 * π * Complex.I) := by field_simp; ring
    rw [h2, Complex.exp_sub, h1, div_one]
  rw [ifft, Finset.sum_congr rfl hterm, Finset.sum_add_distrib]
  have hr : ∑ j ∈ Finset.range n, starRingEnd ℂ (fejerZ n k (n - j)) =
      starRingEnd ℂ (∑ j ∈ Finset.range n, fejerZ n k j) - 2 := by
    rw [map_sum]
    have e1 : ∑ j ∈ Finset.range n, starRingEnd ℂ (fejerZ n k (n - j)) =
        ∑ j ∈ Finset.range n, starRingEnd ℂ (fejerZ n k (j + 1)) := by
      rw [← Finset.sum_range_reflect]
      refine Finset.sum_congr rfl fun j hj => ?_
      have := Finset.mem_range.1 hj
      congr 2; omega
    have e2 := Finset.sum_range_succ' (fun j => starRingEnd ℂ (fejerZ n k j)) n
    rw [Finset.sum_range_succ, hzn, hz0] at e2
    rw [e1]
    simp only [map_zero, map_ofNat] at e2
    linear_combination -e2
  rw [hr]
  set S := ∑ j ∈ Finset.range n, fejerZ n k j with hS
  have hSre : S.re = ∑ j ∈ Finset.range n, fejerC n j * cos (2 * j * (π * (k + 1 / 2) / n)) := by
    rw [hS, Complex.re_sum]
    refine Finset.sum_congr rfl fun j _ => ?_
    rw [fejerZ_eq]
    simp only [Complex.add_re, Complex.ofReal_re, Complex.mul_re, Complex.ofReal_im, Complex.I_re,
      Complex.I_im]
    ring
  rw [show S + (starRingEnd ℂ S - 2) = (S + starRingEnd ℂ S) - 2 by ring, Complex.add_conj, hSre]
  push_cast
  ring

/-- Orthogonality on the midpoints. -/
theorem cos_mid_sum {n : ℕ} (hn : 0 < n) (l : ℤ) (hl : l ≠ 0 → ¬ (n : ℤ) ∣ l) :
    ∑ k : Fin n, cos (2 * l * (π * ((k : ℕ) + 1 / 2) / n)) = if l = 0 then (n : ℝ) else 0 := by
  split_ifs with h1
  · subst h1; simp
  · have h2 := hl h1
    have h := sumZeroes_T_of_not_dvd (n := n) (k := 2 * l) (by
      rintro ⟨q, hq⟩
      exact h2 ⟨q, by linarith⟩)
    have hn' : (n : ℝ) ≠ 0 := by positivity
    rw [sumZeroes, mul_eq_zero] at h
    have h := h.resolve_left (by positivity)
    rw [Finset.sum_range] at h
    rw [← h]
    refine Finset.sum_congr rfl fun k _ => ?_
    rw [T_real_cos]
    congr 1; push_cast; field_simp

theorem fejer1_sum {n : ℕ} (hn : 0 < n) (r : ℕ) (hr : r < n - n / 2) :
    ∑ i : Fin n, (T ℝ ((2 * r : ℕ) : ℤ)).eval (-cos (π * ((i : ℕ) + 0.5 : ℝ) / n)) *
      (ifft n (fejerV1 n) i).re = 2 / (1 - 4 * (r : ℝ) ^ 2) := by
  have hn' : (n : ℝ) ≠ 0 := by positivity
  have hc0 : fejerC n 0 = 2 := by rw [fejerC, if_pos (by omega)]; norm_num
  have hcr : fejerC n r = 2 / (1 - 4 * (r : ℝ) ^ 2) := by rw [fejerC, if_pos hr]
  set θ : Fin n → ℝ := fun i => π * ((i : ℕ) + 1 / 2) / n with hθ
  -- products of cosines
  have horth : ∀ j : ℕ, j < n - n / 2 → ∑ i : Fin n, cos (2 * (r : ℝ) * θ i) * cos (2 * (j : ℝ) * θ i) =
      if j = r then (if r = 0 then (n : ℝ) else n / 2) else 0 := by
    intro j hj
    have e : ∀ i, cos (2 * (r : ℝ) * θ i) * cos (2 * (j : ℝ) * θ i) =
        (cos (2 * ((j + r : ℤ) : ℝ) * θ i) + cos (2 * ((j - r : ℤ) : ℝ) * θ i)) / 2 := by
      intro i
      push_cast
      rw [show 2 * ((j : ℝ) + r) * θ i = 2 * j * θ i + 2 * r * θ i by ring,
        show 2 * ((j : ℝ) - r) * θ i = 2 * j * θ i - 2 * r * θ i by ring, cos_add, cos_sub]
      ring
    simp_rw [e]
    have nd1 : (j : ℤ) + r ≠ 0 → ¬ (n : ℤ) ∣ (j : ℤ) + r := fun h hd => by
      have := Int.le_of_dvd (by omega) hd
      omega
    have nd2 : (j : ℤ) - r ≠ 0 → ¬ (n : ℤ) ∣ (j : ℤ) - r := fun h hd => by
      have := Int.eq_zero_of_abs_lt_dvd hd (by rw [abs_lt]; omega)
      exact h this
    rw [← Finset.sum_div, Finset.sum_add_distrib, cos_mid_sum hn _ nd1, cos_mid_sum hn _ nd2]
    by_cases hjr : j = r
    · subst hjr
      rw [if_pos rfl, if_pos (sub_self _)]
      by_cases hj0 : j = 0
      · subst hj0; simp
      · rw [if_neg (by omega), if_neg hj0]; ring
    · rw [if_neg hjr, if_neg (by omega), if_neg (by omega)]; ring
  have hterm : ∀ i : Fin n, (T ℝ ((2 * r : ℕ) : ℤ)).eval (-cos (π * ((i : ℕ) + 0.5 : ℝ) / n)) *
      (ifft n (fejerV1 n) i).re = (2 * ∑ j ∈ Finset.range n,
        fejerC n j * (cos (2 * (r : ℝ) * θ i) * cos (2 * (j : ℝ) * θ i)) -
        2 * cos (2 * (r : ℝ) * θ i)) / n := by
    intro i
    rw [fejer_ifft hn, Complex.ofReal_re, T_neg_cos, (even_two_mul r).neg_one_pow, one_mul]
    have : ((2 * r : ℕ) : ℝ) * (π * ((i : ℕ) + 0.5) / n) = 2 * (r : ℝ) * θ i := by
      simp only [hθ]; push_cast; norm_num
    rw [this, mul_div_assoc', mul_sub, Finset.mul_sum, Finset.mul_sum, Finset.mul_sum]
    congr 2
    · exact Finset.sum_congr rfl fun j _ => by simp only [hθ]; ring
    · ring
  simp_rw [hterm]
  rw [← Finset.sum_div, Finset.sum_sub_distrib, ← Finset.mul_sum, ← Finset.mul_sum, Finset.sum_comm]
  simp_rw [← Finset.mul_sum]
  have h1 : ∑ j ∈ Finset.range n, fejerC n j *
      ∑ i : Fin n, cos (2 * (r : ℝ) * θ i) * cos (2 * (j : ℝ) * θ i) =
      fejerC n r * (if r = 0 then (n : ℝ) else n / 2) := by
    rw [Finset.sum_eq_single r]
    · rw [horth r hr, if_pos rfl]
    · intro j _ hjr
      by_cases hj : j < n - n / 2
      · rw [horth j hj, if_neg hjr, mul_zero]
      · rw [fejerC, if_neg hj, zero_mul]
    · intro h; exact absurd (Finset.mem_range.2 (by omega)) h
  have h2 : ∑ i : Fin n, cos (2 * (r : ℝ) * θ i) = if r = 0 then (n : ℝ) else 0 := by
    have := horth 0 (by omega)
    simp only [Nat.cast_zero, mul_zero, zero_mul, cos_zero, mul_one] at this
    rw [this]
    by_cases h : r = 0
    · rw [if_pos h.symm, if_pos h, if_pos h]
    · rw [if_neg (fun e => h e.symm), if_neg h]
  rw [h1, h2, hcr]
  split_ifs with h0
  · subst h0; field_simp; norm_num
  · field_simp; ring

theorem fejer1_symm {n : ℕ} (hn : 0 < n) (i : Fin n) :
    -cos (π * ((Fin.rev i : ℕ) + 0.5 : ℝ) / n) = - -cos (π * ((i : ℕ) + 0.5 : ℝ) / n) ∧
    (ifft n (fejerV1 n) (Fin.rev i)).re = (ifft n (fejerV1 n) i).re := by
  have hi := i.2
  have hn' : (n : ℝ) ≠ 0 := by positivity
  have e : ((Fin.rev i : ℕ) : ℝ) = n - (i : ℕ) - 1 := by
    rw [Fin.val_rev, Nat.cast_sub (by omega)]; push_cast; ring
  constructor
  · rw [e, show π * ((n : ℝ) - (i : ℕ) - 1 + 0.5) / n = π - π * ((i : ℕ) + 0.5) / n by
      field_simp; norm_num; ring, cos_pi_sub]
  · rw [fejer_ifft hn, fejer_ifft hn, Complex.ofReal_re, Complex.ofReal_re]
    congr 3
    refine Finset.sum_congr rfl fun j _ => ?_
    rw [e, show 2 * (j : ℝ) * (π * ((n : ℝ) - (i : ℕ) - 1 + 1 / 2) / n) =
      j * (2 * π) - 2 * j * (π * ((i : ℕ) + 1 / 2) / n) by field_simp; ring, cos_nat_mul_two_pi_sub]

end OneDim

/-- C18: `fejer_1(n)` with odd `n` has the degree `n` that it claims. -/
theorem C18_fejer_1_odd {n : ℕ} (ho : Odd n) :
    ExactC1 (fejer1 n).1 (fejer1 n).2 (fejerDegree n) := by
  obtain ⟨q, hq⟩ := ho
  have hn : 0 < n := by omega
  rw [fejer1]
  refine exactC1_of_even _ _ (fun i => (fejer1_symm hn i).1) (fun i => (fejer1_symm hn i).2) fun r hr => ?_
  rw [fejerDegree] at hr
  exact fejer1_sum hn r (by omega)

/-- C18: `fejer_1(n)` with even `n` has the degree `n - 1` only. -/
theorem C18_fejer_1_even_partial {n : ℕ} (hn : 0 < n) (he : Even n) :
    ExactC1 (fejer1 n).1 (fejer1 n).2 (fejerDegree n - 1) ∧
    ¬ ExactC1 (fejer1 n).1 (fejer1 n).2 (fejerDegree n) := by
  obtain ⟨q, hq⟩ := he
  rw [fejer1]
  constructor
  · refine exactC1_of_even _ _ (fun i => (fejer1_symm hn i).1) (fun i => (fejer1_symm hn i).2) fun r hr => ?_
    rw [fejerDegree] at hr
    exact fejer1_sum hn r (by omega)
  · refine not_exactC1 (r := q) _ _ (by rw [fejerDegree]; omega) ?_
    -- the polynomial of degree `n` vanishes at all points
    rw [Finset.sum_eq_zero]
    · obtain ⟨k, rfl⟩ : ∃ k, q = k + 1 := ⟨q - 1, by omega⟩
      push_cast
      rw [show (1 - 4 * ((k : ℝ) + 1) ^ 2) = -((2 * k + 1) * (2 * k + 3)) by ring]
      have : (0 : ℝ) < (2 * k + 1) * (2 * k + 3) := by positivity
      exact (div_ne_zero two_ne_zero (neg_ne_zero.2 this.ne')).symm
    · intro i _
      have hn' : (n : ℝ) ≠ 0 := by positivity
      rw [T_neg_cos, (even_two_mul q).neg_one_pow, one_mul]
      have : ((2 * q : ℕ) : ℝ) * (π * ((i : ℕ) + 0.5) / n) = (2 * ((i : ℕ) : ℤ) + 1) * π / 2 := by
        have : (n : ℝ) = 2 * q := by rw [hq]; push_cast; ring
        have hq0 : (q : ℝ) ≠ 0 := by exact_mod_cast (by omega : q ≠ 0)
        rw [this]
        push_cast; field_simp; norm_num; ring
      rw [cos_eq_zero_iff.2 ⟨_, this⟩, zero_mul]

/-- C18: the imaginary parts that are dropped are zero. -/
theorem C18_fejer_1_real {n : ℕ} (hn : 0 < n) (k : ℕ) : (ifft n (fejerV1 n) k).im = 0 := by
  rw [fejer_ifft hn, Complex.ofReal_im]

/-! A concrete case: Clenshaw-Curtis with three points is Simpson's rule and integrates `x^3 + x^2`;
with four points it fails for a polynomial of degree 4. -/

example : Adaptive.vdot ((clenshawCurtis 3).1.map fun x => x ^ 3 + x ^ 2) (clenshawCurtis 3).2 = 2 / 3 := by
  have h := (C18_clenshaw_curtis_odd (n := 3) (by norm_num) ⟨1, rfl⟩).2 (X ^ 3 + X ^ 2) (by
    rw [fejerDegree]; compute_degree)
  simp only [eval_add, eval_pow, eval_X] at h
  rw [h, intervalIntegral.integral_add (by simp) (by simp), integral_pow, integral_pow]; norm_num

example : ¬ ExactC1 (clenshawCurtis 4).1 (clenshawCurtis 4).2 4 :=
  (C18_clenshaw_curtis_even_partial (n := 4) (by norm_num) ⟨2, rfl⟩).2

end Quadpy
