import Verif.Lemmas.Radii
import Mathlib.Data.Nat.Choose.Multinomial
import Mathlib.Algebra.MvPolynomial.Funext

/-! A rule is exact when the powers of all linear forms are integrated exactly. -/

namespace Quadpy
open Finset

theorem dot_finset_sum {n : ℕ} {ι : Type*} (w : List ℝ) (pts : List (List ℝ)) (s : Finset ι)
    (c : ι → ℝ) (f : ι → (Fin n → ℝ) → ℝ) :
    dot n w pts (fun x => ∑ a ∈ s, c a * f a x) = ∑ a ∈ s, c a * dot n w pts (f a) := by
  unfold dot
  induction w generalizing pts with
  | nil => simp
  | cons b w ih =>
    cases pts with
    | nil => simp
    | cons x pts =>
      simp only [List.zipWith_cons_cons, List.sum_cons]
      rw [ih pts, mul_sum]
      simp only [mul_add, sum_add_distrib]
      congr 1
      exact sum_congr rfl fun _ _ => by ring

/-- `J(⟨·, y⟩^k)` for the moments `M`. -/
noncomputable def powForm {n : ℕ} (M : (Fin n → ℕ) → ℝ) (k : ℕ) (y : Fin n → ℝ) : ℝ :=
  ∑ α ∈ piAntidiag univ k, (Nat.multinomial univ α : ℝ) * mono α y * M α

theorem dot_powForm {n : ℕ} (w : List ℝ) (pts : List (List ℝ)) (k : ℕ) (y : Fin n → ℝ) :
    dot n w pts (fun x => (∑ i, x i * y i) ^ k) = powForm (fun α => dot n w pts (mono α)) k y := by
  have e : (fun x : Fin n → ℝ => (∑ i, x i * y i) ^ k) = fun x =>
      ∑ α ∈ piAntidiag univ k, ((Nat.multinomial univ α : ℝ) * mono α y) * mono α x := by
    funext x
    rw [sum_pow_eq_sum_piAntidiag]
    refine sum_congr rfl fun α _ => ?_
    simp only [mono, mul_pow, prod_mul_distrib]; ring
  rw [e, dot_finset_sum]
  rfl

theorem powForm_inj {n k : ℕ} {D M : (Fin n → ℕ) → ℝ} (h : ∀ y, powForm D k y = powForm M k y)
    (α : Fin n → ℕ) (hα : ∑ i, α i = k) : D α = M α := by
  let P : MvPolynomial (Fin n) ℝ := ∑ β ∈ piAntidiag univ k,
    MvPolynomial.monomial (Finsupp.equivFunOnFinite.symm β) ((Nat.multinomial univ β : ℝ) * (D β - M β))
  have hP : P = 0 := by
    apply MvPolynomial.funext
    intro y
    have := h y
    unfold powForm at this
    simp only [P, map_sum, map_zero, MvPolynomial.eval_monomial]
    rw [← sub_eq_zero, ← sum_sub_distrib] at this
    rw [← this]
    refine sum_congr rfl fun β _ => ?_
    rw [Finsupp.prod_fintype _ _ (by simp)]
    simp only [Finsupp.equivFunOnFinite_symm_apply_apply, mono]
    ring
  have hc : P.coeff (Finsupp.equivFunOnFinite.symm α) =
      (Nat.multinomial univ α : ℝ) * (D α - M α) := by
    simp only [P, MvPolynomial.coeff_sum, MvPolynomial.coeff_monomial]
    rw [sum_eq_single α]
    · simp
    · intro β _ hβ
      rw [if_neg]
      intro he
      exact hβ (Finsupp.equivFunOnFinite.symm.injective he)
    · intro hn; exact absurd (by simp [hα]) hn
  rw [hP, MvPolynomial.coeff_zero] at hc
  have : (Nat.multinomial univ α : ℝ) ≠ 0 := by
    exact_mod_cast (Nat.multinomial_pos univ α).ne'
  have := (mul_eq_zero.1 hc.symm).resolve_left this
  linarith

theorem g1_even (b : ℕ) : g1 (2 * b) = ((2 * b).factorial : ℝ) / (4 ^ b * b.factorial) := by
  induction b with
  | zero => simp [g1_zero]
  | succ b ih =>
    rw [show 2 * (b + 1) = 2 * b + 2 by ring, g1_succ, ih, Nat.factorial_succ, Nat.factorial_succ,
      Nat.factorial_succ]
    have : (b.factorial : ℝ) ≠ 0 := by positivity
    push_cast
    field_simp
    ring

theorem powForm_g1 {n : ℕ} (m : ℕ) (y : Fin n → ℝ) :
    powForm (fun α => ∏ i, g1 (α i)) (2 * m) y =
      ((2 * m).factorial : ℝ) / (4 ^ m * m.factorial) * (∑ i, y i ^ 2) ^ m := by
  unfold powForm
  have h1 : ∀ α ∈ piAntidiag univ (2 * m), α ∉ (piAntidiag univ (2 * m)).filter
      (fun α : Fin n → ℕ => ∀ i, 2 ∣ α i) → (Nat.multinomial univ α : ℝ) * mono α y *
        ∏ i, g1 (α i) = 0 := by
    intro α ha hα
    simp only [mem_filter, not_and] at hα
    have := hα ha
    push Not at this
    obtain ⟨i, hi⟩ := this
    rw [prod_eq_zero (mem_univ i) (g1_odd (Nat.not_even_iff_odd.1 fun h => hi h.two_dvd)), mul_zero]
  have hmap : (piAntidiag univ (2 * m)).filter (fun α : Fin n → ℕ => ∀ i, 2 ∣ α i) =
      (piAntidiag univ m).map ⟨(2 • ·), nsmul_right_injective two_ne_zero⟩ := by
    rw [map_nsmul_piAntidiag_univ m two_ne_zero]
    ext α
    simp only [mem_filter]
  rw [← sum_subset (filter_subset (fun α : Fin n → ℕ => ∀ i, 2 ∣ α i) _) h1, hmap, sum_map, sum_pow_eq_sum_piAntidiag, mul_sum]
  refine sum_congr rfl fun β hβ => ?_
  have hs : ∑ i, β i = m := by simpa using hβ
  have hs2 : ∑ i, 2 * β i = 2 * m := by rw [← mul_sum, hs]
  have e : ∀ i, (2 • β) i = 2 * β i := fun i => by simp
  have m1 := Nat.multinomial_spec univ β
  have m2 := Nat.multinomial_spec univ (2 • β)
  simp only [e, hs, hs2] at m1 m2
  have m1' : (∏ i, ((β i).factorial : ℝ)) * (Nat.multinomial univ β : ℝ) = (m.factorial : ℝ) := by
    exact_mod_cast m1
  have m2' : (∏ i, ((2 * β i).factorial : ℝ)) * (Nat.multinomial univ (2 • β) : ℝ) =
      ((2 * m).factorial : ℝ) := by exact_mod_cast m2
  have hp : ∏ i, ((β i).factorial : ℝ) ≠ 0 := by
    rw [prod_ne_zero_iff]; intro i _; positivity
  have hm : (m.factorial : ℝ) ≠ 0 := by positivity
  have h4 : ∏ i : Fin n, (4 : ℝ) ^ β i = 4 ^ m := by rw [prod_pow_eq_pow_sum, hs]
  have hy : mono (2 • β) y = ∏ i, (y i ^ 2) ^ β i := by
    unfold mono; exact prod_congr rfl fun i _ => by rw [e, pow_mul]
  simp only [Function.Embedding.coeFn_mk]
  have hg : ∏ i, g1 ((2 • β) i) = (∏ i, ((2 * β i).factorial : ℝ)) /
      (4 ^ m * ∏ i, ((β i).factorial : ℝ)) := by
    rw [← h4, ← prod_mul_distrib, ← prod_div_distrib]
    exact prod_congr rfl fun i _ => by rw [e, g1_even]
  rw [hy, hg, ← m2', ← m1']
  rw [← m1'] at hm
  have hm2 := right_ne_zero_of_mul hm
  generalize (Nat.multinomial univ (2 • β) : ℝ) = A
  generalize (Nat.multinomial univ β : ℝ) = B at *
  generalize (∏ i, ((β i).factorial : ℝ)) = C at *
  generalize (∏ i, ((2 * β i).factorial : ℝ)) = D at *
  generalize (∏ i, (y i ^ 2) ^ β i) = Y
  field_simp

/-- `∏_{j<m} (2j+1)/(n+2j)`: the mean of `⟨x, y⟩^(2m)` over the unit sphere, for a unit vector `y`. -/
noncomputable def sphK (n m : ℕ) : ℝ := ∏ j ∈ range m, (2 * (j : ℝ) + 1) / (n + 2 * j)

theorem gamma_ratio {n : ℕ} (hn : 0 < n) (m : ℕ) :
    Real.Gamma ((n : ℝ) / 2) / Real.Gamma ((n + (2 * m : ℕ)) / 2) =
      ∏ j ∈ range m, 2 / ((n : ℝ) + 2 * j) := by
  have h0 : (0 : ℝ) < n := by exact_mod_cast hn
  have h1 : Real.Gamma ((n : ℝ) / 2) ≠ 0 := (Real.Gamma_pos_of_pos (by positivity)).ne'
  induction m with
  | zero => simp [h1]
  | succ m ih =>
    rw [prod_range_succ, ← ih]
    have : ((n : ℝ) + (2 * (m + 1) : ℕ)) / 2 = (n + (2 * m : ℕ)) / 2 + 1 := by push_cast; ring
    rw [this, Real.Gamma_add_one (by positivity)]
    have h2 : Real.Gamma (((n : ℝ) + (2 * m : ℕ)) / 2) ≠ 0 :=
      (Real.Gamma_pos_of_pos (by positivity)).ne'
    push_cast at h2 ⊢
    field_simp

theorem fact_ratio (m : ℕ) : ((2 * m).factorial : ℝ) / (4 ^ m * m.factorial) =
    ∏ j ∈ range m, (2 * (j : ℝ) + 1) / 2 := by
  rw [← g1_even]
  induction m with
  | zero => simp [g1_zero]
  | succ m ih =>
    rw [prod_range_succ, ← ih, show 2 * (m + 1) = 2 * m + 2 by ring, g1_succ]
    push_cast; ring

theorem powForm_smul {n k : ℕ} (c : ℝ) (M M' : (Fin n → ℕ) → ℝ)
    (h : ∀ α, ∑ i, α i = k → M' α = c * M α) (y : Fin n → ℝ) :
    powForm M' k y = c * powForm M k y := by
  unfold powForm
  rw [mul_sum]
  refine sum_congr rfl fun α hα => ?_
  rw [h α (by simpa using hα)]; ring

theorem powForm_radial {n : ℕ} (hn : 0 < n) (ρ : ℕ → ℝ) (m : ℕ) (y : Fin n → ℝ) :
    powForm (radMom ρ) (2 * m) y = ρ (2 * m) * sphK n m * (∑ i, y i ^ 2) ^ m := by
  rw [powForm_smul (ρ (2 * m) * (Real.Gamma (n / 2) / Real.Gamma ((n + (2 * m : ℕ)) / 2)))
    (fun α => ∏ i, g1 (α i)), powForm_g1, gamma_ratio hn, fact_ratio, sphK]
  · have : ∏ j ∈ range m, (2 * (j : ℝ) + 1) / (n + 2 * j) =
        (∏ j ∈ range m, 2 / ((n : ℝ) + 2 * j)) * ∏ j ∈ range m, (2 * (j : ℝ) + 1) / 2 := by
      rw [← prod_mul_distrib]
      exact prod_congr rfl fun j _ => by ring
    rw [this]; ring
  · intro α hα
    rw [radMom, sphMom_eq α _ hα, hα]; ring

theorem powForm_radial_odd {n : ℕ} (hn : 0 < n) (ρ : ℕ → ℝ) {k : ℕ} (hk : Odd k) (y : Fin n → ℝ) :
    powForm (radMom ρ) k y = 0 := by
  unfold powForm
  refine sum_eq_zero fun α hα => ?_
  have : ∑ i, α i = k := by simpa using hα
  rw [radMom, sphMom_odd_sum hn α (by rwa [this])]; ring

/-- Exactness for a radial functional, from the powers of linear forms. -/
theorem radial_exact_of_powers {n : ℕ} (hn : 0 < n) {J : Spec.Functional n} {ρ : ℕ → ℝ}
    (hl : LinOnMono J) (hm : ∀ α, J (mono α) = J (fun _ => 1) * radMom ρ α) (S : Scheme)
    (hs : S.WellShaped n)
    (hodd : ∀ k, Odd k → k ≤ S.degree → ∀ y : Fin n → ℝ,
      dot n S.weights S.points (fun x => (∑ i, x i * y i) ^ k) = 0)
    (heven : ∀ m, 2 * m ≤ S.degree → ∀ y : Fin n → ℝ,
      dot n S.weights S.points (fun x => (∑ i, x i * y i) ^ (2 * m)) =
        ρ (2 * m) * sphK n m * (∑ i, y i ^ 2) ^ m) : S.ExactRel n J := by
  refine exactRel_of_moments S hl hm hs fun α hα => ?_
  refine powForm_inj (k := ∑ i, α i) (D := fun α => dot n S.weights S.points (mono α)) (fun y => ?_) α rfl
  rw [← dot_powForm]
  rcases Nat.even_or_odd' (∑ i, α i) with ⟨m, hk | hk⟩
  · rw [hk, powForm_radial hn, heven m (by omega)]
  · rw [powForm_radial_odd hn ρ ⟨m, hk⟩, hodd _ ⟨m, hk⟩ hα]

end Quadpy
