import Verif.Lemmas.QuadComb
import Verif.Lemmas.LowDim

/-! Rules given by symmetry data: exactness is a finite number of conditions on moments, with no
assumption on the symmetry of the orbits. -/

namespace Quadpy
open Finset

/-- A rule made of orbits is exact as soon as its moments are right. -/
theorem sym_exact {n : ℕ} {J : Spec.Functional n} {E : (Fin n → ℕ) → ℝ} (hJ : EvenMom J E)
    {d : List SymEntry} {deg : ℕ}
    (hd : ∀ e ∈ d, e.Regular ∧ ∀ c ∈ e.cols, ∀ x ∈ orbit n e.key c, x.length = n)
    (h1 : ∀ α : Fin n → ℕ, ∑ i, α i ≤ deg → (∃ i, Odd (α i)) → symSum n n d (mono α) = 0)
    (h2 : ∀ p : Fin n → ℕ, ∑ i, 2 * p i ≤ deg → symSum n n d (mono fun i => 2 * p i) = E p) :
    (schemeOfSym n d deg).ExactRel n J := by
  have hr : ∀ e ∈ d, e.Regular := fun e he => (hd e he).1
  refine ⟨schemeOfSym_wellShaped n n d deg hr (fun e he => (hd e he).2) rfl, ?_⟩
  refine exactUpTo_of_mono ((dot_linOnMono _ _).const_mul _) hJ.lin fun α hα => ?_
  beta_reduce
  simp only [schemeOfSym] at hα ⊢
  rw [expand_dot n n d hr]
  by_cases hodd : ∃ i, Odd (α i)
  · rw [hJ.odd α hodd, h1 α hα hodd, mul_zero]
  · push Not at hodd
    choose p hp using fun i => (Nat.not_odd_iff_even.1 (hodd i)).two_dvd
    obtain rfl : α = fun i => 2 * p i := funext hp
    rw [hJ.even, h2 p hα]

/-- The same in the plane, with exponents as numbers. -/
theorem sym_exact2 {J : Spec.Functional 2} {E : (Fin 2 → ℕ) → ℝ} (hJ : EvenMom J E)
    {d : List SymEntry} {deg : ℕ}
    (hd : ∀ e ∈ d, e.Regular ∧ ∀ c ∈ e.cols, ∀ x ∈ orbit 2 e.key c, x.length = 2)
    (h : ∀ a b : ℕ, a + b ≤ deg → symSum 2 2 d (mono ![a, b]) =
      if Odd a ∨ Odd b then 0 else E ![a / 2, b / 2]) :
    (schemeOfSym 2 d deg).ExactRel 2 J := by
  refine sym_exact hJ hd (fun α hα ho => ?_) fun p hp => ?_
  · rw [show α = ![α 0, α 1] by funext i; fin_cases i <;> rfl, h _ _ (by
      rw [Fin.sum_univ_two] at hα; exact hα), if_pos]
    obtain ⟨i, hi⟩ := ho
    fin_cases i
    · exact Or.inl hi
    · exact Or.inr hi
  · rw [show (fun i => 2 * p i) = ![2 * p 0, 2 * p 1] by funext i; fin_cases i <;> rfl, h _ _ (by
      rw [Fin.sum_univ_two] at hp; exact hp), if_neg (by simp [Nat.not_odd_iff_even])]
    congr 1
    funext i; fin_cases i <;> simp

/-- The same in space, with exponents as numbers. -/
theorem sym_exact3 {J : Spec.Functional 3} {E : (Fin 3 → ℕ) → ℝ} (hJ : EvenMom J E)
    {d : List SymEntry} {deg : ℕ}
    (hd : ∀ e ∈ d, e.Regular ∧ ∀ c ∈ e.cols, ∀ x ∈ orbit 3 e.key c, x.length = 3)
    (h : ∀ a b c : ℕ, a + b + c ≤ deg → symSum 3 3 d (mono ![a, b, c]) =
      if Odd a ∨ Odd b ∨ Odd c then 0 else E ![a / 2, b / 2, c / 2]) :
    (schemeOfSym 3 d deg).ExactRel 3 J := by
  refine sym_exact hJ hd (fun α hα ho => ?_) fun p hp => ?_
  · rw [show α = ![α 0, α 1, α 2] by funext i; fin_cases i <;> rfl, h _ _ _ (by
      rw [Fin.sum_univ_three] at hα; exact hα), if_pos]
    obtain ⟨i, hi⟩ := ho
    fin_cases i
    · exact Or.inl hi
    · exact Or.inr (Or.inl hi)
    · exact Or.inr (Or.inr hi)
  · rw [show (fun i => 2 * p i) = ![2 * p 0, 2 * p 1, 2 * p 2] by funext i; fin_cases i <;> rfl,
      h _ _ _ (by rw [Fin.sum_univ_three] at hp; exact hp), if_neg (by simp [Nat.not_odd_iff_even])]
    congr 1
    funext i; fin_cases i <;> simp

/-- A number is a linear combination of an even functional: helper for checking moments. -/
theorem sqrt_sq_of {x : ℝ} (h : 0 ≤ x) : √x ^ 2 = x := Real.sq_sqrt h

/-- Even moments of a rule in the plane of degree at most 7, computed one by one. -/
macro "plane_fixed " "[" es:Lean.Parser.Tactic.simpLemma,* "]" ids:(ppSpace colGt ident)* : tactic => `(tactic| (
  intro p q hpq
  simp only [evenSum2, List.map_cons, List.map_nil, List.zipWith_cons_cons, List.zipWith_nil_left,
    List.sum_cons, List.sum_nil, keyMom2, Matrix.cons_val_zero, Matrix.cons_val_one, Matrix.cons_val,
    $es,*]
  clear $ids*
  have hp : p ≤ 5 := by omega
  have hq : q ≤ 5 := by omega
  interval_cases p <;> interval_cases q <;> first
    | (exfalso; omega)
    | ((try conv_rhs => norm_num [oddFac, stepFac, Nat.factorial])
       quad_comb_all)
    | (norm_num [oddFac, stepFac, Nat.factorial]; done)
    | (norm_num [oddFac, stepFac, Nat.factorial]; grind)))

/-- Even moments of a rule in space of degree at most 7, computed one by one. -/
macro "space_fixed " "[" es:Lean.Parser.Tactic.simpLemma,* "]" ids:(ppSpace colGt ident)* : tactic => `(tactic| (
  intro p q r hpqr
  simp only [evenSum3, List.map_cons, List.map_nil, List.zipWith_cons_cons, List.zipWith_nil_left,
    List.sum_cons, List.sum_nil, keyMom3, Matrix.cons_val_zero, Matrix.cons_val_one, Matrix.cons_val,
    $es,*]
  clear $ids*
  have hp : p ≤ 3 := by omega
  have hq : q ≤ 3 := by omega
  have hr : r ≤ 3 := by omega
  interval_cases p <;> interval_cases q <;> interval_cases r <;> first
    | (exfalso; omega)
    | ((try conv_rhs => norm_num [oddFac, stepFac, Nat.factorial])
       quad_comb_all)
    | (norm_num [oddFac, stepFac, Nat.factorial]; done)
    | (norm_num [oddFac, stepFac, Nat.factorial]; grind)))

/-- One rule in the plane with any orbits, all moments computed. -/
macro "plane_any " "[" es:Lean.Parser.Tactic.simpLemma,* "]" : tactic => `(tactic| (
  intro a b hab
  have ha : a ≤ 7 := by omega
  have hb : b ≤ 7 := by omega
  simp only [symSum, List.map_cons, List.map_nil, List.zipWith_cons_cons, List.zipWith_nil_left,
    List.sum_cons, List.sum_nil, osum, orbit, mono_two, Matrix.cons_val_zero, Matrix.cons_val_one,
    Matrix.cons_val, List.replicate]
  interval_cases a <;> interval_cases b <;> first
    | (exfalso; omega)
    | ((try conv_rhs => norm_num [Nat.odd_iff, $es,*])
       quad_comb_all)
    | (norm_num [Nat.odd_iff, $es,*]; done)
    | (norm_num [Nat.odd_iff, $es,*]; grind)))

end Quadpy
