import Verif.Lemmas.Groups
import Verif.Lemmas.SimplexMoments
import Verif.Model.Cn

/-!
# Symmetric rules in barycentric coordinates

Only the moments `λ^β` without an exponent one have to be checked.
-/

namespace Quadpy
open Finset

/-- The number of exponents equal to one. -/
def numOnes {N : ℕ} (β : Fin N → ℕ) : ℕ := #{i | β i = 1}

theorem bary_reduce {N d : ℕ} (D : (Fin N → ℕ) → ℝ)
    (hperm : ∀ β (σ : Equiv.Perm (Fin N)), D (β ∘ σ) = D β)
    (hsum : ∀ β, D β = ∑ b, D (β + Pi.single b 1))
    (h : ∀ β, ∑ i, β i ≤ d → (∀ i, β i ≠ 1) → D β = 0) :
    ∀ β, ∑ i, β i ≤ d → D β = 0 := by
  have main : ∀ k u : ℕ, k ≤ d → ∀ β : Fin N → ℕ, ∑ i, β i = k → numOnes β = u → D β = 0 := by
    intro k
    induction k with
    | zero =>
      intro u _ β hβ _
      refine h β (by omega) fun i hi => ?_
      have := (sum_eq_zero_iff.1 hβ) i (mem_univ i)
      omega
    | succ k ihk =>
      intro u
      induction u using Nat.strong_induction_on with
      | _ u ihu =>
      intro hk β hβ hu
      by_cases hone : ∀ i, β i ≠ 1
      · exact h β (by omega) hone
      · push Not at hone
        obtain ⟨a, ha⟩ := hone
        set γ : Fin N → ℕ := Function.update β a 0 with hγ
        have hβγ : β = γ + Pi.single a 1 := by
          funext i
          by_cases hi : i = a
          · subst hi; simp [hγ, ha]
          · simp [hγ, hi]
        have hγa : γ a = 0 := by simp [hγ]
        have hγs : ∑ i, γ i = k := by
          have : ∑ i, β i = ∑ i, γ i + 1 := by
            rw [hβγ]; simp only [Pi.add_apply, sum_add_distrib]; simp [Pi.single_apply]
          omega
        have hDγ : D γ = 0 := ihk (numOnes γ) (by omega) γ hγs rfl
        have honeβ : numOnes β = numOnes γ + 1 := by
          unfold numOnes
          have : (univ.filter fun i => β i = 1) = insert a (univ.filter fun i => γ i = 1) := by
            ext i
            by_cases hi : i = a
            · subst hi; simp [ha]
            · simp [hi, hγ]
          rw [this, card_insert_of_notMem (by simp [hγa])]
        rw [hsum γ] at hDγ
        have hzero : ∀ b, γ b = 0 → D (γ + Pi.single b 1) = D β := by
          intro b hb
          rw [← hperm β (Equiv.swap a b), hβγ]
          congr 1
          funext i
          simp only [Pi.add_apply, Function.comp_apply, Pi.single_apply]
          by_cases hia : i = a
          · subst hia
            by_cases hib : i = b
            · subst hib; simp [hγa]
            · simp [hγa, hb, hib, Ne.symm hib]
          · by_cases hib : i = b
            · subst hib; simp [hγa, hb]
            · simp [Equiv.swap_apply_of_ne_of_ne hia hib, hia, hib]
        have hpos : ∀ b, γ b ≠ 0 → D (γ + Pi.single b 1) = 0 := by
          intro b hb
          have hle : numOnes (γ + Pi.single b 1) ≤ numOnes γ := by
            unfold numOnes
            apply card_le_card
            intro i hi
            simp only [mem_filter, mem_univ, true_and, Pi.add_apply, Pi.single_apply] at hi ⊢
            split_ifs at hi with hib
            · subst hib; omega
            · omega
          refine ihu (numOnes (γ + Pi.single b 1)) (by omega) hk _ ?_ rfl
          simp only [Pi.add_apply, sum_add_distrib]
          simp [hγs, Pi.single_apply]
        have hsplit : ∑ b, D (γ + Pi.single b 1) = #{b | γ b = 0} * D β := by
          rw [← sum_filter_add_sum_filter_not univ (fun b => γ b = 0),
            sum_congr rfl (fun b hb => hzero b (mem_filter.1 hb).2),
            sum_congr rfl (fun b hb => hpos b (mem_filter.1 hb).2)]
          simp
        rw [hsplit] at hDγ
        rcases mul_eq_zero.1 hDγ with h0 | h0
        · exfalso
          have : #{b | γ b = 0} = 0 := by exact_mod_cast h0
          rw [card_eq_zero] at this
          have hmem : a ∈ (univ.filter fun b => γ b = 0) := by simp [hγa]
          rw [this] at hmem
          simp at hmem
        · exact h0
  exact fun β hβ => main _ _ hβ β rfl rfl

/-- Splitting off a nonzero exponent. -/
theorem split_exponent {N : ℕ} (β : Fin N → ℕ) (h : β ≠ 0) (h1 : ∀ i, β i ≠ 1) :
    ∃ (a : Fin N) (k : ℕ) (β' : Fin N → ℕ), 2 ≤ k ∧ β = Pi.single a k + β' ∧ β' a = 0 ∧
      (∀ i, β' i ≠ 1) ∧ ∑ i, β i = k + ∑ i, β' i := by
  obtain ⟨a, ha⟩ : ∃ a, β a ≠ 0 := by
    by_contra hcon
    push Not at hcon
    exact h (funext hcon)
  have he : β = Pi.single a (β a) + Function.update β a 0 := by
    funext i
    by_cases hi : i = a
    · subst hi; simp
    · simp [hi]
  refine ⟨a, β a, Function.update β a 0, ?_, he, by simp, ?_, ?_⟩
  · have := h1 a; omega
  · intro i
    by_cases hi : i = a
    · subst hi; simp
    · simpa [hi] using h1 i
  · conv_lhs => rw [he]
    simp only [Pi.add_apply, sum_add_distrib]
    simp [Pi.single_apply]

theorem e2_swap {N : ℕ} (a b : Fin N) (k l : ℕ) : e2 a b k l = e2 b a l k := by
  simp [e2, add_comm]

/-- The exponents without a one up to degree 7. -/
theorem classify_no_ones {N d : ℕ} (hd : d ≤ 7) (P : (Fin N → ℕ) → Prop) (h0 : P 0)
    (hk : ∀ k, 2 ≤ k → k ≤ d → ∀ a, P (e1 a k))
    (h22 : 4 ≤ d → ∀ a b, a ≠ b → P (e2 a b 2 2))
    (h32 : 5 ≤ d → ∀ a b, a ≠ b → P (e2 a b 3 2))
    (h42 : 6 ≤ d → ∀ a b, a ≠ b → P (e2 a b 4 2))
    (h33 : 6 ≤ d → ∀ a b, a ≠ b → P (e2 a b 3 3))
    (h52 : 7 ≤ d → ∀ a b, a ≠ b → P (e2 a b 5 2))
    (h43 : 7 ≤ d → ∀ a b, a ≠ b → P (e2 a b 4 3))
    (h222 : 6 ≤ d → ∀ a b c, a ≠ b → a ≠ c → b ≠ c → P (e3 a b c 2 2 2))
    (h322 : 7 ≤ d → ∀ a b c, a ≠ b → a ≠ c → b ≠ c → P (e3 a b c 3 2 2)) :
    ∀ β : Fin N → ℕ, ∑ i, β i ≤ d → (∀ i, β i ≠ 1) → P β := by
  intro β hβ hone
  by_cases z1 : β = 0
  · rw [z1]; exact h0
  obtain ⟨a, k, β1, hk2, rfl, ha, hone1, hs1⟩ := split_exponent β z1 hone
  by_cases z2 : β1 = 0
  · subst z2
    rw [add_zero]
    rw [show ∑ i, (0 : Fin N → ℕ) i = 0 by simp] at hs1
    exact hk k hk2 (by omega) a
  obtain ⟨b, l, β2, hl2, rfl, hb, hone2, hs2⟩ := split_exponent β1 z2 hone1
  have hab : a ≠ b := by rintro rfl; simp at ha; omega
  by_cases z3 : β2 = 0
  · subst z3
    rw [add_zero]
    rw [show ∑ i, (0 : Fin N → ℕ) i = 0 by simp] at hs2
    change P (e2 a b k l)
    have hkl : k + l ≤ d := by omega
    have hk5 : k ≤ 5 := by omega
    have hl5 : l ≤ 5 := by omega
    interval_cases k <;> interval_cases l <;> first
      | exact h22 (by omega) a b hab
      | exact h32 (by omega) a b hab
      | (rw [e2_swap]; exact h32 (by omega) b a hab.symm)
      | exact h42 (by omega) a b hab
      | (rw [e2_swap]; exact h42 (by omega) b a hab.symm)
      | exact h33 (by omega) a b hab
      | exact h52 (by omega) a b hab
      | (rw [e2_swap]; exact h52 (by omega) b a hab.symm)
      | exact h43 (by omega) a b hab
      | (rw [e2_swap]; exact h43 (by omega) b a hab.symm)
      | (exfalso; omega)
  obtain ⟨c, m, β3, hm2, rfl, hc, hone3, hs3⟩ := split_exponent β2 z3 hone2
  have hac : a ≠ c := by rintro rfl; simp [hab] at ha; omega
  have hbc : b ≠ c := by rintro rfl; simp at hb; omega
  have z4 : β3 = 0 := by
    by_contra z4
    obtain ⟨e, q, β4, hq2, rfl, -, -, hs4⟩ := split_exponent β3 z4 hone3
    omega
  subst z4
  rw [show ∑ i, (0 : Fin N → ℕ) i = 0 by simp] at hs3
  rw [add_zero]
  have e : (Pi.single a k + (Pi.single b l + Pi.single c m) : Fin N → ℕ) = e3 a b c k l m := by
    rw [e3, add_assoc]
  rw [e]
  have hklm : k + l + m ≤ d := by omega
  have hk3 : k ≤ 3 := by omega
  have hl3 : l ≤ 3 := by omega
  have hm3 : m ≤ 3 := by omega
  have s1 : ∀ k l m, e3 a b c k l m = e3 b a c l k m := fun k l m => by
    simp only [e3]; abel
  have s2 : ∀ k l m, e3 a b c k l m = e3 c a b m k l := fun k l m => by
    simp only [e3]; abel
  interval_cases k <;> interval_cases l <;> interval_cases m <;> first
    | exact h222 (by omega) a b c hab hac hbc
    | exact h322 (by omega) a b c hab hac hbc
    | (rw [s1]; exact h322 (by omega) b a c hab.symm hbc hac)
    | (rw [s2]; exact h322 (by omega) c a b hac.symm hbc.symm hab)
    | (exfalso; omega)

/-! ### Moments of the simplex -/

/-- Normalised moments in barycentric coordinates. -/
noncomputable def baryMom {N : ℕ} (β : Fin N → ℕ) : ℝ :=
  ((N - 1).factorial * ∏ i, ((β i).factorial : ℝ)) / (N - 1 + ∑ i, β i).factorial

theorem baryMom_perm {N : ℕ} (β : Fin N → ℕ) (σ : Equiv.Perm (Fin N)) :
    baryMom (β ∘ σ) = baryMom β := by
  unfold baryMom
  rw [show ∏ i, (((β ∘ σ) i).factorial : ℝ) = ∏ i, ((β i).factorial : ℝ) from
    Equiv.prod_comp σ fun i => ((β i).factorial : ℝ),
    show ∑ i, (β ∘ σ) i = ∑ i, β i from Equiv.sum_comp σ β]

theorem baryMom_sum {n : ℕ} (β : Fin (n + 1) → ℕ) :
    baryMom β = ∑ b, baryMom (β + Pi.single b 1) := by
  have h : ∀ b, baryMom (β + Pi.single b 1) =
      baryMom β * ((β b : ℝ) + 1) / (n + ∑ i, β i + 1) := by
    intro b
    unfold baryMom
    have h1 : ∑ i, (β + Pi.single b 1 : Fin (n + 1) → ℕ) i = ∑ i, β i + 1 := by
      simp only [Pi.add_apply, sum_add_distrib]; simp [Pi.single_apply]
    have h2 : ∏ i, (((β + Pi.single b 1 : Fin (n + 1) → ℕ) i).factorial : ℝ) =
        (∏ i, ((β i).factorial : ℝ)) * (β b + 1) := by
      rw [← mul_prod_erase univ _ (mem_univ b), ← mul_prod_erase univ _ (mem_univ b)]
      rw [prod_congr rfl (g := fun i => ((β i).factorial : ℝ)) fun i hi => by
        simp [ne_of_mem_erase hi]]
      simp [Nat.factorial_succ]
      ring
    rw [h1, h2, show n + 1 - 1 + (∑ i, β i + 1) = (n + ∑ i, β i) + 1 by omega,
      show n + 1 - 1 + ∑ i, β i = n + ∑ i, β i by omega, Nat.factorial_succ]
    push_cast
    have : (0 : ℝ) ≤ ∑ i, (β i : ℝ) := by positivity
    have h3 : ((n : ℝ) + ∑ i, (β i : ℝ) + 1) ≠ 0 := by positivity
    field_simp
  rw [sum_congr rfl fun b _ => h b, ← sum_div, ← mul_sum, sum_add_distrib]
  simp only [sum_const, card_univ, Fintype.card_fin, nsmul_eq_mul, mul_one]
  have : (0 : ℝ) ≤ ∑ i, (β i : ℝ) := by positivity
  have h3 : ((n : ℝ) + ∑ i, (β i : ℝ) + 1) ≠ 0 := by positivity
  push_cast
  field_simp
  ring

theorem simplex_baryMom {n : ℕ} (α : Fin n → ℕ) :
    Spec.simplex n (mono α) = 1 / (n.factorial : ℝ) * baryMom (Fin.cons 0 α : Fin (n + 1) → ℕ) := by
  rw [simplex_mono, baryMom]
  have : (n.factorial : ℝ) ≠ 0 := by positivity
  rw [Fin.prod_univ_succ, Fin.sum_univ_succ]
  simp only [Fin.cons_zero, Fin.cons_succ, Nat.factorial_zero, Nat.cast_one, one_mul, zero_add,
    Nat.add_sub_cancel]
  field_simp

end Quadpy
