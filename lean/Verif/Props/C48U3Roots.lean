import Verif.Props.C48S2Roots
import Verif.Props.C48U3

/-!
# C48: McLaren's rules on the sphere whose points are roots of polynomials

`mp.polyroots` is not modelled; the theorems assume that it returns the roots of the polynomial.
-/

namespace Quadpy
open Finset FixedU3

/-- The sum of the three cyclic shifts. -/
def cyc3 (x y z : ℝ) (a b c : ℕ) : ℝ :=
  x ^ a * y ^ b * z ^ c + y ^ a * z ^ b * x ^ c + z ^ a * x ^ b * y ^ c

/-- Moments of the orbit of the rotations of the cube. -/
theorem osum_weird (r s t : ℝ) (α : Fin 3 → ℕ) :
    osum 3 (orbit 3 .rst_weird [r, s, t]) (mono α) =
      if Even (α 0) ∧ Even (α 1) ∧ Even (α 2) then
        4 * cyc3 r s t (α 0) (α 1) (α 2) + 4 * cyc3 r t s (α 0) (α 1) (α 2)
      else if Odd (α 0) ∧ Odd (α 1) ∧ Odd (α 2) then
        4 * cyc3 r s t (α 0) (α 1) (α 2) - 4 * cyc3 r t s (α 0) (α 1) (α 2)
      else 0 := by
  simp only [osum, orbit, rst_weirdPts, List.map_cons, List.map_nil, List.sum_cons, List.sum_nil,
    mono_three, cyc3]
  generalize α 0 = a
  generalize α 1 = b
  generalize α 2 = c
  rcases Nat.even_or_odd a with ha | ha <;> rcases Nat.even_or_odd b with hb | hb <;>
    rcases Nat.even_or_odd c with hc | hc <;>
    simp [ha, hb, hc, Even.neg_pow, Odd.neg_pow, Nat.not_odd_iff_even.2, Nat.not_even_iff_odd.2] <;>
    ring

/-- Up to degree eight all odd moments of that orbit vanish. -/
theorem osum_weird_odd (r s t : ℝ) (α : Fin 3 → ℕ) (hα : α 0 + α 1 + α 2 ≤ 8) (h : ∃ i, Odd (α i)) :
    osum 3 (orbit 3 .rst_weird [r, s, t]) (mono α) = 0 := by
  rw [osum_weird, if_neg, ite_eq_right_iff]
  · generalize α 0 = a at *
    generalize α 1 = b at *
    generalize α 2 = c at *
    rintro ⟨⟨x, rfl⟩, ⟨y, rfl⟩, ⟨z, rfl⟩⟩
    have hx : x ≤ 2 := by omega
    have hy : y ≤ 2 := by omega
    have hz : z ≤ 2 := by omega
    interval_cases x <;> interval_cases y <;> interval_cases z <;> first
      | (exfalso; omega)
      | (simp only [cyc3]; ring)
  · rintro ⟨h0, h1, h2⟩
    obtain ⟨i, hi⟩ := h
    fin_cases i
    · exact Nat.not_even_iff_odd.2 hi h0
    · exact Nat.not_even_iff_odd.2 hi h1
    · exact Nat.not_even_iff_odd.2 hi h2

/-- Even moments, with the orbit of rotations among the keys. -/
noncomputable def keyMomW (p q u : ℕ) : SymKey → List ℝ → ℝ
  | .rst_weird, [r, s, t] =>
      4 * cyc3 (r ^ 2) (s ^ 2) (t ^ 2) p q u + 4 * cyc3 (r ^ 2) (t ^ 2) (s ^ 2) p q u
  | k, c => keyMom3 p q u k c

theorem keyMomW_space {k : SymKey} {c : List ℝ} (hk : (k, c.length) ∈ spaceKeys) (p q u : ℕ) :
    keyMomW p q u k c = keyMom3 p q u k c := by
  unfold keyMomW
  split
  · simp [spaceKeys] at hk
  · rfl

/-- A rule made of sign-symmetric orbits and orbits of rotations. -/
theorem weird_exact {J : Spec.Functional 3} {E : (Fin 3 → ℕ) → ℝ} (hJ : EvenMom J E)
    {d : List SymEntry} {deg : ℕ} (hdeg : deg ≤ 8)
    (hd : ∀ e ∈ d, e.weights.length = e.cols.length ∧ ∀ c ∈ e.cols,
      (e.key, c.length) ∈ (SymKey.rst_weird, 3) :: spaceKeys)
    (h : ∀ p q r : ℕ, 2 * p + 2 * q + 2 * r ≤ deg →
      (d.map fun e => (List.zipWith (fun w c => w * keyMomW p q r e.key c) e.weights e.cols).sum).sum =
        E ![p, q, r]) :
    (schemeOfSym 3 d deg).ExactRel 3 J := by
  have key : ∀ e ∈ d, ∀ c ∈ e.cols, (e.key, c.length) ∈ spaceKeys ∨
      e.key = .rst_weird ∧ ∃ r s t, c = [r, s, t] := by
    intro e he c hc
    rcases List.mem_cons.1 ((hd e he).2 c hc) with h' | h'
    · rw [Prod.mk.injEq] at h'
      exact Or.inr ⟨h'.1, List.length_eq_three.1 h'.2⟩
    · exact Or.inl h'
  refine sym_exact hJ (fun e he => ⟨⟨(hd e he).1, fun c hc => ?_⟩, fun c hc x hx => ?_⟩)
    (fun α hα ho => ?_) fun p hp => ?_
  · rcases key e he c hc with h' | ⟨h', r, s, t, rfl⟩
    · exact spaceKeys_accepts _ _ h'
    · rw [h']; simp [SymKey.Accepts, SymKey.arities]
  · rcases key e he c hc with h' | ⟨h', r, s, t, rfl⟩
    · exact mem_orbit3 _ c h' x hx
    · rw [h'] at hx
      simp only [orbit, rst_weirdPts, List.mem_cons, List.not_mem_nil, or_false] at hx
      casesm* _ ∨ _ <;> subst_vars <;> rfl
  · rw [symSum, List.sum_eq_zero]
    intro y hy
    obtain ⟨e, he, rfl⟩ := List.mem_map.1 hy
    refine zipWith_sum_zero _ _ _ fun w c hc => ?_
    rw [Fin.sum_univ_three] at hα
    rcases key e he c hc with h' | ⟨h', r, s, t, rfl⟩
    · rw [osum_odd3 _ c h' α ho, mul_zero]
    · rw [h', osum_weird_odd r s t α (by omega) ho, mul_zero]
  · rw [Fin.sum_univ_three] at hp
    rw [show p = ![p 0, p 1, p 2] by funext i; fin_cases i <;> rfl, ← h _ _ _ hp, symSum]
    congr 1
    refine List.map_congr_left fun e he => ?_
    congr 1
    refine zipWith_congr_mem _ _ _ _ fun w c hc => ?_
    congr 1
    rcases key e he c hc with h' | ⟨h', r, s, t, rfl⟩
    · rw [keyMomW_space h', osum_even3 _ c h' _ (p 0) (p 1) (p 2)] <;> rfl
    · rw [h', osum_weird, if_pos (by simp)]
      simp [keyMomW, cyc3, pow_mul]

/-- The elementary symmetric functions of the roots. -/
theorem vieta3 {b c d : ℝ} {z : Fin 3 → ℝ} (h : IsRoots3 1 b c d z) :
    z 0 + z 1 + z 2 = -b ∧ z 0 * z 1 + z 0 * z 2 + z 1 * z 2 = c ∧ z 0 * z 1 * z 2 = -d := by
  have h0 := h 0
  have h1 := h 1
  have h2 := h (-1)
  refine ⟨?_, ?_, ?_⟩ <;> linarith

/-- A rule with the orbit of rotations. -/
local macro "weird_rule " "[" es:Lean.Parser.Tactic.simpLemma,* "]" ids:(ppSpace colGt ident)* : tactic => `(tactic| (
  refine ⟨weird_exact sphere3_even (by norm_num) (by simp [spaceKeys]) ?_, rfl⟩
  intro p q r hpqr
  simp only [List.map_cons, List.map_nil, List.zipWith_cons_cons, List.zipWith_nil_left,
    List.sum_cons, List.sum_nil, keyMomW, keyMom3, cyc3, Matrix.cons_val_zero, Matrix.cons_val_one,
    Matrix.cons_val, $es,*]
  clear $ids*
  have hp : p ≤ 4 := by omega
  have hq : q ≤ 4 := by omega
  have hr : r ≤ 4 := by omega
  interval_cases p <;> interval_cases q <;> interval_cases r <;> first
    | (exfalso; omega)
    | (norm_num [oddFac, stepFac]; done)
    | (norm_num [oddFac, stepFac]; grind)))

/-- C48, McLaren 3. -/
theorem C48_u3_mclaren_03 (z : Fin 3 → ℝ) (hz : IsRoots3 1 (-1) (1 / 5) (-(1 / 105)) z) :
    (mclaren_03 z).ExactOnSphere 3 ∧ (mclaren_03 z).degree = 7 := by
  obtain ⟨v1, v2, v3⟩ := vieta3 hz
  have hpos := hz.pos (by norm_num) (by norm_num) (by norm_num) (by norm_num)
  have e0 := sqrt_sq_of (hpos 0).le
  have e1 := sqrt_sq_of (hpos 1).le
  have e2 := sqrt_sq_of (hpos 2).le
  unfold mclaren_03
  dsimp only
  clear hz hpos
  generalize z 0 = x at *
  generalize z 1 = y at *
  generalize z 2 = w at *
  weird_rule [e0, e1, e2] e0 e1 e2

/-- C48, McLaren 4. -/
theorem C48_u3_mclaren_04 (z : Fin 3 → ℝ) (hz : IsRoots3 1 (-1) (5 / 21) (-(5 / 441)) z) :
    (mclaren_04 z).ExactOnSphere 3 ∧ (mclaren_04 z).degree = 8 := by
  obtain ⟨v1, v2, v3⟩ := vieta3 hz
  have hpos := hz.pos (by norm_num) (by norm_num) (by norm_num) (by norm_num)
  have e0 := sqrt_sq_of (hpos 0).le
  have e1 := sqrt_sq_of (hpos 1).le
  have e2 := sqrt_sq_of (hpos 2).le
  unfold mclaren_04
  dsimp only
  clear hz hpos
  generalize z 0 = x at *
  generalize z 1 = y at *
  generalize z 2 = w at *
  weird_rule [e0, e1, e2] e0 e1 e2

/-- The polynomials have three positive roots. -/
example : ∃ z, (mclaren_03 z).ExactOnSphere 3 := by
  obtain ⟨z, hz, -⟩ := exists_roots3 1 (-1) (1 / 5) (-(1 / 105)) 0 (1 / 10) (1 / 2) 1
    (by norm_num) (by norm_num) (by norm_num) (by norm_num) (by norm_num) (by norm_num)
  exact ⟨z, (C48_u3_mclaren_03 z hz).1⟩

example : ∃ z, (mclaren_04 z).ExactOnSphere 3 := by
  obtain ⟨z, hz, -⟩ := exists_roots3 1 (-1) (5 / 21) (-(5 / 441)) 0 (1 / 10) (1 / 2) 1
    (by norm_num) (by norm_num) (by norm_num) (by norm_num) (by norm_num) (by norm_num)
  exact ⟨z, (C48_u3_mclaren_04 z hz).1⟩

end Quadpy
