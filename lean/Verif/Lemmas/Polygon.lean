import Verif.Lemmas.Rings

/-! Rules in the plane made of the origin and regular polygons with more corners than the degree. -/

namespace Quadpy
open Finset

/-- The mean of a monomial over the sum of orbits, when the polygons have enough corners. -/
theorem polygon_osum {n : ℕ} {e : SymEntry} (hk : e.key = .zero ∨ ∃ o, e.key = .d n o)
    (hr : e.Regular) {c : List ℝ} (hc : c ∈ e.cols) {α : Fin 2 → ℕ} (hα : α 0 + α 1 < n) {s : ℕ}
    (hs : α 0 + α 1 = 2 * s) :
    osum 2 (orbit 2 e.key c) (mono α) = ringTerm s e.key c * sphMom α := by
  have ha := hr.2 c hc
  rcases hk with hk | ⟨o, hk⟩ <;> rw [hk] at ha ⊢ <;> rcases ha with ha | ha
  · simp at ha
  · simp only [SymKey.arities, List.mem_cons, List.not_mem_nil, or_false,
      List.length_eq_zero_iff] at ha
    subst ha
    simp only [ringTerm, osum, orbit, List.map_cons, List.map_nil, List.sum_cons,
      List.sum_nil, List.replicate, mono_two]
    rcases Nat.eq_zero_or_pos s with rfl | hpos
    · have a0 : α 0 = 0 := by omega
      have a1 : α 1 = 0 := by omega
      have : α = 0 := by funext i; fin_cases i <;> simp [a0, a1]
      rw [a0, a1, this]
      have := sphMom_even (n := 2) (by norm_num) 0
      simp only [Pi.zero_apply, mul_zero, sum_const_zero, stepFac, oddFac, prod_const_one,
        div_one] at this
      rw [show (0 : Fin 2 → ℕ) = fun _ => 0 from rfl, this]; norm_num
    · rw [← pow_add, zero_pow (by omega), zero_pow hpos.ne']; ring
  · simp at ha
  · simp only [SymKey.arities, List.mem_cons, List.not_mem_nil, or_false,
      List.length_eq_one_iff] at ha
    obtain ⟨r, rfl⟩ := ha
    simp only [ringTerm]
    rw [osum_d_mono n o r α hα, hs, pow_mul]

theorem polygon_osum_odd {n : ℕ} {e : SymEntry} (hk : e.key = .zero ∨ ∃ o, e.key = .d n o)
    (hr : e.Regular) {c : List ℝ} (hc : c ∈ e.cols) {α : Fin 2 → ℕ} (hα : α 0 + α 1 < n)
    (ho : Odd (α 0 + α 1)) (hS : sphMom α = 0) : osum 2 (orbit 2 e.key c) (mono α) = 0 := by
  have ha := hr.2 c hc
  rcases hk with hk | ⟨o, hk⟩ <;> rw [hk] at ha ⊢ <;> rcases ha with ha | ha
  · simp at ha
  · simp only [osum, orbit, List.map_cons, List.map_nil, List.sum_cons, List.sum_nil,
      List.replicate, mono_two]
    rw [← pow_add, zero_pow ho.pos.ne', add_zero]
  · simp at ha
  · simp only [SymKey.arities, List.mem_cons, List.not_mem_nil, or_false,
      List.length_eq_one_iff] at ha
    obtain ⟨r, rfl⟩ := ha
    rw [osum_d_mono n o r α hα, hS, mul_zero]

/-- A rule made of the origin and regular polygons with more corners than the degree is exact as soon
as its radial moments are right. -/
theorem polygon_exact {J : Spec.Functional 2} {ρ : ℕ → ℝ} (hl : LinOnMono J)
    (hm : ∀ α, J (mono α) = J (fun _ => 1) * radMom ρ α) (n : ℕ)
    {d : List SymEntry} {deg : ℕ} (hdeg : deg < n)
    (hd : ∀ e ∈ d, (e.key = .zero ∨ ∃ o, e.key = .d n o) ∧ e.Regular)
    (h1 : ∀ s, 2 * s ≤ deg → ringSum (ringTerm s) d = ρ (2 * s)) :
    (schemeOfSym 2 d deg).ExactRel 2 J := by
  have hr : ∀ e ∈ d, e.Regular := fun e he => (hd e he).2
  refine ⟨schemeOfSym_wellShaped 2 2 d deg hr (fun e he c hc x hx => ?_) rfl, ?_⟩
  · have ha := (hr e he).2 c hc
    rcases (hd e he).1 with hk | ⟨o, hk⟩ <;> rw [hk] at hx ha <;> rcases ha with ha | ha
    · simp at ha
    · simp only [orbit, List.mem_singleton] at hx; subst hx; rfl
    · simp at ha
    · simp only [SymKey.arities, List.mem_cons, List.not_mem_nil, or_false,
        List.length_eq_one_iff] at ha
      obtain ⟨r, rfl⟩ := ha
      simp only [orbit, List.mem_map] at hx
      obtain ⟨k, -, rfl⟩ := hx; rfl
  refine exactUpTo_of_mono ((dot_linOnMono _ _).const_mul _) hl fun α hα => ?_
  beta_reduce
  simp only [schemeOfSym] at hα ⊢
  rw [expand_dot 2 2 d hr, hm, radMom]
  rw [Fin.sum_univ_two] at hα ⊢
  congr 1
  rcases Nat.even_or_odd (α 0 + α 1) with hev | hod
  · obtain ⟨s, hs⟩ := hev.two_dvd
    have key : symSum 2 2 d (mono α) =
        ringSum (fun k c => ringTerm s k c * sphMom α + 0 * ringTerm s k c) d := by
      rw [symSum, ringSum]
      congr 1
      refine List.map_congr_left fun e he => ?_
      congr 1
      refine zipWith_congr_mem _ _ _ _ fun w c hc => ?_
      rw [polygon_osum (hd e he).1 (hd e he).2 hc (by omega) hs]; ring
    rw [key, ringSum_lin, h1 s (by omega), hs]; ring
  · have hS : sphMom α = 0 := by
      refine sphMom_odd α ?_
      by_contra hcon
      push Not at hcon
      have := (Nat.not_odd_iff_even.1 (hcon 0)).add (Nat.not_odd_iff_even.1 (hcon 1))
      exact (Nat.not_even_iff_odd.2 hod) this
    rw [hS, mul_zero, symSum]
    refine List.sum_eq_zero fun y hy => ?_
    obtain ⟨e, he', rfl⟩ := List.mem_map.1 hy
    refine zipWith_sum_zero _ _ _ fun w c hc => ?_
    rw [polygon_osum_odd (hd e he').1 (hd e he').2 hc (by omega) hod hS, mul_zero]

end Quadpy
