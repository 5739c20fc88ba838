import Verif.Lemmas.GaussRoots
import Mathlib.Algebra.Polynomial.Derivative

/-!
# Recurrence coefficients of the classical orthogonal polynomials

A weight is called classical here if its functional satisfies `L (τ f + σ f') = 0` with
`σ = σ₀ + σ₁ x - e x²` and `τ = t₀ - t₁ x`.
-/

namespace Quadpy
namespace OneDim

open Polynomial Spec

/-- Coefficients that fit the data `e, σ₀, σ₁, t₀, t₁`. -/
structure Classical (e σ₀ σ₁ t₀ t₁ : ℝ) (α β c : ℕ → ℝ) : Prop where
  c0 : c 0 = 0
  cs : ∀ k, c (k + 1) = c k + σ₁ - e * α k
  hα : ∀ k : ℕ, (t₁ + 2 * e * k) * α k = t₀ + 2 * c k
  hβ0 : (t₁ + e) * β 1 = σ₀ + α 0 * c 1
  hβ : ∀ k : ℕ, (t₁ + e * (2 * k + 3)) * β (k + 2) =
    σ₀ + α (k + 1) * (c (k + 2) - c (k + 1)) + β (k + 1) * (t₁ + e * (2 * k - 1))

variable {e σ₀ σ₁ t₀ t₁ : ℝ} {α β c : ℕ → ℝ}

/-- The structure relation, at a point. -/
theorem structure_relation (h : Classical e σ₀ σ₁ t₀ t₁ α β c) (x : ℝ) (k : ℕ) :
    (σ₀ + σ₁ * x - e * x ^ 2) * (derivative (recPoly α β k)).eval x =
      (c k - e * k * x) * (recPoly α β k).eval x + (t₁ + e * (2 * k - 1)) *
        ((x - α k) * (recPoly α β k).eval x - (recPoly α β (k + 1)).eval x) := by
  induction k using Nat.strong_induction_on with
  | _ k ih =>
    match k with
    | 0 => simp [recPoly, h.c0]
    | 1 =>
      have h1 := h.cs 0
      rw [h.c0, zero_add, zero_add] at h1
      have h2 := h.hβ0
      simp only [recPoly, derivative_sub, derivative_X, derivative_C, eval_sub, eval_mul, eval_C,
        eval_X, eval_one, Nat.cast_one]
      norm_num
      linear_combination (-x) * h1 - h2
    | k + 2 =>
      have i1 := ih (k + 1) (by omega)
      have i0 := ih k (by omega)
      have hp2 : (recPoly α β (k + 2)).eval x = (x - α (k + 1)) * (recPoly α β (k + 1)).eval x -
          β (k + 1) * (recPoly α β k).eval x := by simp [recPoly]
      have hp3 : (recPoly α β (k + 2 + 1)).eval x = (x - α (k + 2)) * (recPoly α β (k + 2)).eval x -
          β (k + 2) * (recPoly α β (k + 1)).eval x := by simp [recPoly]
      have hd : (derivative (recPoly α β (k + 2))).eval x = (recPoly α β (k + 1)).eval x +
          (x - α (k + 1)) * (derivative (recPoly α β (k + 1))).eval x -
          β (k + 1) * (derivative (recPoly α β k)).eval x := by
        simp [recPoly]
      rw [hd, hp3]
      have c1 := h.cs k
      have c2 := h.cs (k + 1)
      have a0 := h.hα k
      have a1 := h.hα (k + 1)
      have b2 := h.hβ k
      push_cast at i1 a1 ⊢
      rw [hp2] at i1 ⊢
      generalize (recPoly α β (k + 1)).eval x = p at *
      generalize (recPoly α β k).eval x = q at *
      generalize (derivative (recPoly α β (k + 1))).eval x = p' at *
      generalize (derivative (recPoly α β k)).eval x = q' at *
      generalize (k : ℝ) = K at *
      generalize c (k + 2) = C2 at *
      generalize c (k + 1) = C1 at *
      generalize c k = C0 at *
      generalize α (k + 1) = A1 at *
      generalize α k = A0 at *
      generalize β (k + 1) = B1 at *
      generalize β (k + 2) = B2 at *
      linear_combination (x - A1) * i1 - B1 * i0 - p * b2 - p * x * c2 +
        B1 * q * (c2 - c1) - B1 * q * (a1 - a0)

/-- The coefficients of a classical weight are its recurrence coefficients. -/
theorem classical_isRecurrence (h : Classical e σ₀ σ₁ t₀ t₁ α β c) (L : ℝ[X] →ₗ[ℝ] ℝ)
    (hL : ∀ f : ℝ[X], L ((C t₀ - C t₁ * X) * f + (C σ₀ + C σ₁ * X - C e * X ^ 2) * derivative f) = 0)
    (ht : ∀ k : ℕ, t₁ + e * k ≠ 0) (n : ℕ) : IsRecurrence L α β n := by
  set p := recPoly α β with hp
  -- the structure relation for polynomials
  have hs : ∀ k : ℕ, (C σ₀ + C σ₁ * X - C e * X ^ 2) * derivative (p k) =
      (C (c k) - C (e * k) * X) * p k + C (t₁ + e * (2 * k - 1)) * ((X - C (α k)) * p k - p (k + 1)) := by
    intro k
    apply Polynomial.funext
    intro x
    have := structure_relation h x k
    simpa using this
  set last : ℕ → ℝ[X] := fun k => (X - C (α k)) * p k - p (k + 1) with hlast
  have hl0 : last 0 = 0 := by simp [hlast, hp, recPoly]
  have hl1 : ∀ k, last (k + 1) = C (β (k + 1)) * p k := by
    intro k; simp only [hlast, hp, recPoly]; ring
  -- the moment identity
  have key : ∀ j k : ℕ, (t₁ + e * (k + j)) * L (X * (p j * p k)) = (t₀ + c k + c j) * L (p j * p k) +
      (t₁ + e * (2 * k - 1)) * L (last k * p j) + (t₁ + e * (2 * j - 1)) * L (last j * p k) := by
    intro j k
    have h1 := hL (p j * p k)
    have e1 : (C t₀ - C t₁ * X) * (p j * p k) +
        (C σ₀ + C σ₁ * X - C e * X ^ 2) * derivative (p j * p k) =
        (t₀ + c k + c j) • (p j * p k) - (t₁ + e * (k + j)) • (X * (p j * p k)) +
        (t₁ + e * (2 * k - 1)) • (last k * p j) + (t₁ + e * (2 * j - 1)) • (last j * p k) := by
      have s1 := hs k
      have s2 := hs j
      rw [derivative_mul]
      simp only [smul_eq_C_mul, hlast, C_add, C_mul, C_sub] at s1 s2 ⊢
      linear_combination p j * s1 + p k * s2
    rw [e1] at h1
    simp only [map_add, map_sub, map_smul, smul_eq_mul] at h1
    linarith
  have ht' : ∀ j k : ℕ, t₁ + e * (k + j) ≠ 0 := fun j k => by have := ht (k + j); push_cast at this; exact this
  suffices H : ∀ k, ∀ j < k, L (p j * p k) = 0 from fun j k hjk _ => H k j hjk
  intro k
  induction k using Nat.strong_induction_on with
  | _ k ih =>
    match k with
    | 0 => intro j hj; omega
    | 1 =>
      intro j hj
      obtain rfl : j = 0 := by omega
      have h1 := key 0 0
      rw [hl0] at h1
      have h2 := h.hα 0
      have e1 : p 0 * p 1 = X * (p 0 * p 0) - α 0 • (p 0 * p 0) := by
        simp only [hp, recPoly, smul_eq_C_mul]; ring
      rw [e1, map_sub, map_smul, smul_eq_mul]
      simp only [h.c0, zero_mul, map_zero, Nat.cast_zero] at h1 h2
      have h3 := ht 0
      refine mul_left_cancel₀ h3 ?_
      push_cast
      linear_combination h1 - L (p 0 * p 0) * h2
    | k + 2 =>
      intro j hj
      have h1 := key j (k + 1)
      rw [hl1] at h1
      have e1 : p j * p (k + 2) = X * (p j * p (k + 1)) - α (k + 1) • (p j * p (k + 1)) -
          β (k + 1) • (p j * p k) := by
        simp only [hp, recPoly, smul_eq_C_mul]; ring
      have e2 : C (β (k + 1)) * p k * p j = β (k + 1) • (p j * p k) := by
        rw [smul_eq_C_mul]; ring
      rw [e2, map_smul, smul_eq_mul] at h1
      rw [e1, map_sub, map_sub, map_smul, map_smul, smul_eq_mul, smul_eq_mul]
      refine mul_left_cancel₀ (ht' j (k + 1)) ?_
      rcases Nat.lt_or_ge j (k + 1) with hj1 | hj1
      · have z1 := ih (k + 1) (by omega) j hj1
        have z2 : L (last j * p (k + 1)) = 0 := by
          match j with
          | 0 => rw [hl0, zero_mul, map_zero]
          | j + 1 =>
            rw [hl1, mul_assoc, ← smul_eq_C_mul, map_smul, ih (k + 1) (by omega) j (by omega), smul_zero]
        rw [z1, z2] at h1
        rw [z1]
        rcases Nat.lt_or_ge j k with hjk | hjk
        · have z3 := ih k (by omega) j hjk
          rw [z3] at h1 ⊢
          linear_combination h1
        · obtain rfl : j = k := by omega
          push_cast at h1 ⊢
          linear_combination h1
      · obtain rfl : j = k + 1 := by omega
        have z1 : L (p (k + 1) * p k) = 0 := by
          rw [mul_comm]; exact ih (k + 1) (by omega) k (by omega)
        have z2 : L (last (k + 1) * p (k + 1)) = 0 := by
          rw [hl1, mul_assoc, ← smul_eq_C_mul, map_smul, mul_comm, z1, smul_zero]
        rw [z1, z2] at h1
        rw [z1]
        have h2 := h.hα (k + 1)
        push_cast at h1 h2 ⊢
        linear_combination h1 - L (p (k + 1) * p (k + 1)) * h2

end OneDim
end Quadpy
