import Verif.Lemmas.Decimal

/-! The checks of `Verif.Lemmas.Decimal` collected in one boolean. -/

namespace Quadpy.Dec

/-- The rule with integers. -/
noncomputable def zScheme (n deg Dw D : ℕ) (Z : List ZEntry) : Scheme :=
  schemeOfSym n (Z.map (ZEntry.toEntry Dw D)) deg

theorem simplex_of_check {S : Scheme} {n deg Dw D T : ℕ} {Z : List ZEntry} {eps : ℝ}
    (hs : S = zScheme n deg Dw D Z) (heps : 1 / (T : ℝ) = eps)
    (h : (Nat.blt 0 Dw && Nat.blt 0 D && Nat.beq (D % 12) 0 && Nat.blt 0 T &&
      shape D n (fun x => Nat.beq x.length (n + 1) && decide (x.sum = D)) Z &&
      check n deg (momSimplex n) Dw D T [0] (flatZ D n Z)) = true) :
    S.ApproxOnSimplex n eps := by
  simp only [Bool.and_eq_true] at h
  obtain ⟨⟨⟨⟨⟨h1, h2⟩, h3⟩, h4⟩, h5⟩, h6⟩ := h
  rw [hs, ← heps]
  exact approx_simplex (Nat.le_of_ble_eq_true h1) (Nat.le_of_ble_eq_true h2)
    (Nat.dvd_of_mod_eq_zero (Nat.eq_of_beq_eq_true h3)) (Nat.le_of_ble_eq_true h4) h5 h6

theorem sym_of_check {n : ℕ} {J : Spec.Functional n} {mom : List ℕ → ℕ × ℕ} (hJ : RatMom J mom)
    {S : Scheme} {deg Dw D T : ℕ} {Z : List ZEntry} {eps : ℝ}
    (hs : S = zScheme n deg Dw D Z) (heps : 1 / (T : ℝ) = eps)
    (h : (Nat.blt 0 Dw && Nat.blt 0 D && Nat.beq (D % 12) 0 && Nat.blt 0 T &&
      shape D n (fun x => Nat.beq x.length n) Z &&
      check n deg mom Dw D T [] (flatZ D n Z)) = true) :
    S.ApproxRel n J eps := by
  simp only [Bool.and_eq_true] at h
  obtain ⟨⟨⟨⟨⟨h1, h2⟩, h3⟩, h4⟩, h5⟩, h6⟩ := h
  rw [hs, ← heps]
  exact approx_sym hJ (Nat.le_of_ble_eq_true h1) (Nat.le_of_ble_eq_true h2)
    (Nat.dvd_of_mod_eq_zero (Nat.eq_of_beq_eq_true h3)) (Nat.le_of_ble_eq_true h4) h5 h6

end Quadpy.Dec
