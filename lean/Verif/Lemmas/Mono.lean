import Verif.Spec.Exact
import Verif.Model.Scheme
import Mathlib.Algebra.BigOperators.Ring.Finset
import Mathlib.Algebra.BigOperators.Fin
import Mathlib.Algebra.Ring.Parity
import Mathlib.Tactic.Linarith
import Mathlib.Tactic.Ring
import Mathlib.Tactic.FinCases

namespace Quadpy
open Finset

/-- A monomial. -/
def mono {n : ℕ} (α : Fin n → ℕ) : (Fin n → ℝ) → ℝ := fun x => ∏ i, x i ^ α i

/-- Linearity on finite combinations of monomials. -/
def LinOnMono {n : ℕ} (Q : Spec.Functional n) : Prop :=
  ∀ (s : Finset (Fin n →₀ ℕ)) (c : (Fin n →₀ ℕ) → ℝ),
    Q (fun x => ∑ a ∈ s, c a * mono a x) = ∑ a ∈ s, c a * Q (mono a)

theorem exactUpTo_of_mono {n d : ℕ} {Q J : Spec.Functional n} (hQ : LinOnMono Q)
    (hJ : LinOnMono J) (h : ∀ α : Fin n → ℕ, ∑ i, α i ≤ d → Q (mono α) = J (mono α)) :
    Spec.ExactUpTo d Q J := by
  intro p hp
  have e : (fun x => MvPolynomial.eval x p) =
      fun x => ∑ a ∈ p.support, p.coeff a * mono a x := by
    funext x
    rw [MvPolynomial.eval_eq']
    rfl
  rw [e, hQ, hJ]
  refine sum_congr rfl fun a ha => ?_
  rw [h a]
  have := MvPolynomial.le_totalDegree ha
  rw [Finsupp.sum_fintype _ _ (fun _ => rfl)] at this
  exact le_trans this hp

theorem dot_linOnMono {n : ℕ} (w : List ℝ) (pts : List (List ℝ)) : LinOnMono (dot n w pts) := by
  intro s c
  unfold dot
  induction w generalizing pts with
  | nil => simp
  | cons a w ih =>
    cases pts with
    | nil => simp
    | cons p pts =>
      simp only [List.zipWith_cons_cons, List.sum_cons]
      rw [ih pts, mul_sum, ← sum_add_distrib]
      exact sum_congr rfl fun b _ => by ring

theorem LinOnMono.const_mul {n : ℕ} {Q : Spec.Functional n} (hQ : LinOnMono Q) (r : ℝ) :
    LinOnMono (fun f => r * Q f) := by
  intro s c
  simp only
  rw [hQ, mul_sum]
  exact sum_congr rfl fun _ _ => by ring

open MeasureTheory in
theorem linOnMono_integral {n : ℕ} (μ : Measure (Fin n → ℝ)) (ρ : (Fin n → ℝ) → ℝ)
    (h : ∀ α : Fin n → ℕ, Integrable (fun x => mono α x * ρ x) μ) :
    LinOnMono (fun f => ∫ x, f x * ρ x ∂μ) := by
  intro s c
  simp only
  have : (fun x => (∑ a ∈ s, c a * mono a x) * ρ x) =
      fun x => ∑ a ∈ s, c a * (mono a x * ρ x) := by
    funext x; rw [sum_mul]; exact sum_congr rfl fun _ _ => by ring
  rw [this, integral_finsetSum s fun a _ => (h a).const_mul (c a)]
  exact sum_congr rfl fun a _ => integral_const_mul _ _

open MeasureTheory in
theorem linOnMono_integral_one {n : ℕ} (μ : Measure (Fin n → ℝ))
    (h : ∀ α : Fin n → ℕ, Integrable (mono α) μ) :
    LinOnMono (fun f => ∫ x, f x ∂μ) := by
  have := linOnMono_integral μ (fun _ => 1) (by simpa using h)
  simpa using this

/-! Small multi-indices. -/

/-- `k e_a`. -/
def e1 {n : ℕ} (a : Fin n) (k : ℕ) : Fin n → ℕ := Pi.single a k
/-- `k e_a + l e_b`. -/
def e2 {n : ℕ} (a b : Fin n) (k l : ℕ) : Fin n → ℕ := Pi.single a k + Pi.single b l
/-- `k e_a + l e_b + m e_c`. -/
def e3 {n : ℕ} (a b c : Fin n) (k l m : ℕ) : Fin n → ℕ :=
  Pi.single a k + Pi.single b l + Pi.single c m

section prod
variable {n : ℕ} {M : Type*} [CommMonoid M] (G : Fin n → ℕ → M)

theorem prod_e1 (hG : ∀ i, G i 0 = 1) (a : Fin n) (k : ℕ) : ∏ i, G i (e1 a k i) = G a k := by
  rw [Finset.prod_eq_single a]
  · simp [e1]
  · intro b _ hb; simp [e1, hb, hG]
  · simp

theorem prod_e2 (hG : ∀ i, G i 0 = 1) {a b : Fin n} (hab : a ≠ b) (k l : ℕ) :
    ∏ i, G i (e2 a b k l i) = G a k * G b l := by
  have : ∀ i, G i (e2 a b k l i) = G i (e1 a k i) * G i (e1 b l i) := by
    intro i
    by_cases ha : i = a
    · subst ha
      simp [e2, e1, hab, hG]
    · simp [e2, e1, ha, hG]
  rw [prod_congr rfl fun i _ => this i, prod_mul_distrib, prod_e1 G hG, prod_e1 G hG]

theorem prod_e3 (hG : ∀ i, G i 0 = 1) {a b c : Fin n} (hab : a ≠ b) (hac : a ≠ c) (hbc : b ≠ c)
    (k l m : ℕ) : ∏ i, G i (e3 a b c k l m i) = G a k * G b l * G c m := by
  have : ∀ i, G i (e3 a b c k l m i) = G i (e2 a b k l i) * G i (e1 c m i) := by
    intro i
    by_cases hc : i = c
    · subst hc
      simp [e3, e2, e1, hac.symm, hbc.symm, hG]
    · simp [e3, e2, e1, hc, hG]
  rw [prod_congr rfl fun i _ => this i, prod_mul_distrib, prod_e1 G hG, prod_e2 G hG hab]

theorem prod_zero' (hG : ∀ i, G i 0 = 1) : ∏ i, G i ((0 : Fin n → ℕ) i) = 1 := by
  simp [hG]

end prod

theorem mono_zero {n : ℕ} (x : Fin n → ℝ) : mono 0 x = 1 := by simp [mono]
theorem mono_e1 {n : ℕ} (a : Fin n) (k : ℕ) (x : Fin n → ℝ) : mono (e1 a k) x = x a ^ k :=
  prod_e1 (fun i k => x i ^ k) (by simp) a k
theorem mono_e2 {n : ℕ} {a b : Fin n} (h : a ≠ b) (k l : ℕ) (x : Fin n → ℝ) :
    mono (e2 a b k l) x = x a ^ k * x b ^ l :=
  prod_e2 (fun i k => x i ^ k) (by simp) h k l
theorem mono_e3 {n : ℕ} {a b c : Fin n} (hab : a ≠ b) (hac : a ≠ c) (hbc : b ≠ c) (k l m : ℕ)
    (x : Fin n → ℝ) : mono (e3 a b c k l m) x = x a ^ k * x b ^ l * x c ^ m :=
  prod_e3 (fun i k => x i ^ k) (by simp) hab hac hbc k l m

/-! Classification of the even exponents of small degree. -/

theorem exists_sub_single {n : ℕ} (β : Fin n → ℕ) (h : 0 < ∑ i, β i) :
    ∃ (a : Fin n) (β' : Fin n → ℕ), β = Pi.single a 1 + β' ∧ ∑ i, β i = 1 + ∑ i, β' i := by
  obtain ⟨a, ha⟩ : ∃ a, 0 < β a := by
    by_contra hcon
    push Not at hcon
    have : ∑ i, β i = 0 := sum_eq_zero fun i _ => Nat.le_zero.1 (hcon i)
    omega
  have he : β = Pi.single a 1 + (β - Pi.single a 1) := by
    funext i
    by_cases hi : i = a
    · subst hi; simp; omega
    · simp [hi]
  refine ⟨a, β - Pi.single a 1, he, ?_⟩
  conv_lhs => rw [he]
  simp only [Pi.add_apply, sum_add_distrib]
  simp [Pi.single_apply]

/-- Every multi-index with an odd entry, or of the listed even types, up to degree 7. -/
theorem classify_even {n : ℕ} {d : ℕ} (hd : d ≤ 7) (P : (Fin n → ℕ) → Prop)
    (odd : ∀ α, (∃ i, Odd (α i)) → P α)
    (h0 : P 0)
    (h2 : 2 ≤ d → ∀ a, P (e1 a 2))
    (h4 : 4 ≤ d → ∀ a, P (e1 a 4))
    (h22 : 4 ≤ d → ∀ a b, a ≠ b → P (e2 a b 2 2))
    (h6 : 6 ≤ d → ∀ a, P (e1 a 6))
    (h42 : 6 ≤ d → ∀ a b, a ≠ b → P (e2 a b 4 2))
    (h222 : 6 ≤ d → ∀ a b c, a ≠ b → a ≠ c → b ≠ c → P (e3 a b c 2 2 2)) :
    ∀ α : Fin n → ℕ, ∑ i, α i ≤ d → P α := by
  intro α hα
  by_cases hodd : ∃ i, Odd (α i)
  · exact odd α hodd
  · push Not at hodd
    have hev : ∀ i, ∃ b, α i = 2 * b := fun i => by
      have := Nat.not_odd_iff_even.1 (hodd i)
      obtain ⟨b, hb⟩ := this
      exact ⟨b, by omega⟩
    choose β hβ using hev
    have hαβ : α = fun i => 2 * β i := funext hβ
    have hsum : ∑ i, α i = 2 * ∑ i, β i := by rw [hαβ, mul_sum]
    subst hαβ
    clear hβ hodd
    rcases Nat.eq_zero_or_pos (∑ i, β i) with hz | hpos
    · have : (fun i => 2 * β i) = (0 : Fin n → ℕ) := by
        funext i
        have := (sum_eq_zero_iff.1 hz) i (mem_univ i)
        simp [this]
      rw [this]; exact h0
    obtain ⟨a, β1, rfl, hs1⟩ := exists_sub_single β hpos
    rcases Nat.eq_zero_or_pos (∑ i, β1 i) with hz | hpos1
    · have : β1 = 0 := funext fun i => (sum_eq_zero_iff.1 hz) i (mem_univ i)
      subst this
      convert h2 (by omega) a using 1
      funext i; by_cases hi : i = a <;> simp [e1, hi]
    obtain ⟨b, β2, rfl, hs2⟩ := exists_sub_single β1 hpos1
    rcases Nat.eq_zero_or_pos (∑ i, β2 i) with hz | hpos2
    · have : β2 = 0 := funext fun i => (sum_eq_zero_iff.1 hz) i (mem_univ i)
      subst this
      by_cases hab : a = b
      · subst hab
        convert h4 (by omega) a using 1
        funext i; by_cases hi : i = a <;> simp [e1, hi]
      · convert h22 (by omega) a b hab using 1
        funext i
        by_cases hi : i = a
        · subst hi; simp [e2, hab]
        · by_cases hi' : i = b
          · subst hi'; simp [e2, hi]
          · simp [e2, hi, hi']
    obtain ⟨c, β3, rfl, hs3⟩ := exists_sub_single β2 hpos2
    have hz : ∑ i, β3 i = 0 := by omega
    have : β3 = 0 := funext fun i => (sum_eq_zero_iff.1 hz) i (mem_univ i)
    subst this
    have hd6 : 6 ≤ d := by omega
    have key : (fun i => 2 * (Pi.single a 1 + (Pi.single b 1 + (Pi.single c 1 + 0)) : Fin n → ℕ) i) =
        Pi.single a 2 + Pi.single b 2 + Pi.single c 2 := by
      funext i
      simp only [Pi.add_apply, Pi.single_apply, Pi.zero_apply]
      split_ifs <;> rfl
    rw [key]
    have hadd : ∀ (x : Fin n) (k l : ℕ), (Pi.single x k + Pi.single x l : Fin n → ℕ) =
        Pi.single x (k + l) := fun x k l => by
      funext i; by_cases hi : i = x <;> simp [hi]
    by_cases hab : a = b
    · subst hab
      rw [hadd]
      by_cases hac : a = c
      · subst hac
        rw [hadd]; exact h6 hd6 a
      · exact h42 hd6 a c hac
    · by_cases hac : a = c
      · subst hac
        rw [add_right_comm, hadd]
        exact h42 hd6 a b hab
      · by_cases hbc : b = c
        · subst hbc
          rw [add_assoc, hadd, add_comm]
          exact h42 hd6 b a (Ne.symm hab)
        · exact h222 hd6 a b c hab hac hbc

end Quadpy
