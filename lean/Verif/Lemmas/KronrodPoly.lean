import Verif.Lemmas.GaussEnd
import Mathlib.Algebra.Polynomial.Sequence
import Mathlib.LinearAlgebra.Lagrange

/-!
# Polynomials behind Laurie's algorithm

A table of mixed moments with zeros on the right places forces the trailing block of the Jacobi-Kronrod
matrix to have the characteristic polynomial of the leading one.
-/

namespace Quadpy
namespace OneDim

open Spec Polynomial

/-- `recPoly`, one step, with no case distinction. -/
theorem recPoly_step (α β : ℕ → ℝ) (k : ℕ) : X * recPoly α β k =
    recPoly α β (k + 1) + C (α k) * recPoly α β k +
      (if k = 0 then 0 else C (β k) * recPoly α β (k - 1)) := by
  cases k with
  | zero => simp [recPoly]
  | succ k =>
    simp only [recPoly, Nat.add_sub_cancel, Nat.succ_ne_zero, if_false]
    ring

/-- Every polynomial of degree below `m` is a combination of the first `m` of them. -/
theorem recPoly_expand (α β : ℕ → ℝ) (m : ℕ) : ∀ f : ℝ[X], f.degree < m →
    ∃ c : ℕ → ℝ, f = ∑ k ∈ Finset.range m, C (c k) * recPoly α β k := by
  induction m with
  | zero =>
    intro f hf
    exact ⟨0, by simpa [Polynomial.degree_eq_bot] using hf⟩
  | succ m ih =>
    intro f hf
    obtain ⟨c, hc⟩ := ih (f - C (f.coeff m) * recPoly α β m) (by
      rw [Polynomial.degree_lt_iff_coeff_zero] at hf ⊢
      intro k hk
      rw [coeff_sub, coeff_C_mul]
      rcases hk.lt_or_eq with h | rfl
      · rw [hf k (by exact_mod_cast h), coeff_eq_zero_of_natDegree_lt (p := recPoly α β m) (by
          rwa [recPoly_natDegree])]
        simp
      · have := (recPoly_monic α β m).coeff_natDegree
        rw [recPoly_natDegree] at this
        rw [this]; ring)
    refine ⟨Function.update c m (f.coeff m), ?_⟩
    rw [Finset.sum_range_succ, Function.update_self]
    rw [Finset.sum_congr rfl fun k hk => by
      rw [Function.update_of_ne (Finset.mem_range.1 hk).ne], ← hc]
    ring

/-- There is a linear functional with given values on the polynomials. -/
theorem recPoly_functional (α β : ℕ → ℝ) (c : ℕ → ℝ) :
    ∃ L : ℝ[X] →ₗ[ℝ] ℝ, ∀ k, L (recPoly α β k) = c k := by
  let S : Polynomial.Sequence ℝ := ⟨recPoly α β, fun k => by
    rw [degree_eq_natDegree (recPoly_monic α β k).ne_zero, recPoly_natDegree]⟩
  have hS : ∀ i, IsUnit (S i).leadingCoeff := fun i => by
    have : (S i).leadingCoeff = 1 := recPoly_monic α β i
    rw [this]; exact isUnit_one
  refine ⟨(S.basis hS).constr ℝ c, fun k => ?_⟩
  have := (S.basis hS).constr_basis ℝ c k
  rwa [S.basis_eq_self hS k] at this

/-- The mixed moments `σ k l` of the polynomials `q k` (coefficients `α`, `β`) and `p l` (coefficients
`a`, `b`) with respect to a functional that vanishes on multiples of `p n`. -/
structure MixedTable (n : ℕ) (a b α β : ℕ → ℝ) (σ : ℕ → ℕ → ℝ) : Prop where
  step : ∀ k < n, ∀ l < n, σ (k + 1) l + α k * σ k l + (if k = 0 then 0 else β k * σ (k - 1) l) =
    σ k (l + 1) + a l * σ k l + (if l = 0 then 0 else b l * σ k (l - 1))
  right : ∀ k ≤ n, σ k n = 0
  below : ∀ k l, l < k → σ k l = 0
  diag : ∀ k < n, σ k k ≠ 0

theorem MixedTable.eq {n : ℕ} {a b α β : ℕ → ℝ} {σ : ℕ → ℕ → ℝ} (h : MixedTable n a b α β σ) :
    recPoly α β n = recPoly a b n := by
  obtain ⟨L0, hL0⟩ := recPoly_functional a b (σ 0)
  set pn := recPoly a b n with hpn
  have hm : pn.Monic := recPoly_monic a b n
  let L : ℝ[X] →ₗ[ℝ] ℝ := L0.comp (Polynomial.modByMonicHom pn)
  have hLn : ∀ f, L (f * pn) = 0 := fun f => by
    simp only [L, LinearMap.comp_apply, Polynomial.modByMonicHom_apply]
    rw [Polynomial.mul_self_modByMonic hm]
    exact map_zero _
  have hLs : ∀ f : ℝ[X], f.degree < n → L f = L0 f := fun f hf => by
    simp only [L, LinearMap.comp_apply, Polynomial.modByMonicHom_apply]
    rw [(Polynomial.modByMonic_eq_self_iff hm).2]
    rwa [degree_eq_natDegree hm.ne_zero, hpn, recPoly_natDegree]
  have hLC : ∀ (c : ℝ) f, L (C c * f) = c * L f := fun c f => by
    rw [← smul_eq_C_mul, map_smul, smul_eq_mul]
  have key : ∀ k ≤ n, ∀ l ≤ n, L (recPoly α β k * recPoly a b l) = σ k l := by
    intro k
    induction k using Nat.strong_induction_on with
    | _ k ih =>
      intro hk l hl
      rcases hl.lt_or_eq with hl | rfl
      swap
      · rw [← hpn, hLn, h.right k hk]
      cases k with
      | zero =>
        rw [recPoly, one_mul, hLs _ ?_, hL0]
        rw [degree_eq_natDegree (recPoly_monic a b l).ne_zero, recPoly_natDegree]
        exact_mod_cast hl
      | succ k =>
        have e1 := congrArg (fun f => L (f * recPoly a b l)) (recPoly_step α β k)
        have e2 := congrArg (fun f => L (recPoly α β k * f)) (recPoly_step a b l)
        have e3 : X * recPoly α β k * recPoly a b l = recPoly α β k * (X * recPoly a b l) := by ring
        simp only [e3] at e1
        have e := e1.symm.trans e2
        have h1 := ih k (by omega) (by omega) l hl.le
        have h2 := ih k (by omega) (by omega) (l + 1) hl
        have h3 := h.step k (by omega) l hl
        simp only [add_mul, mul_add, map_add, mul_left_comm _ (C _), mul_assoc (C _), hLC, h1, h2] at e
        have e4 : L ((if k = 0 then 0 else C (β k) * recPoly α β (k - 1)) * recPoly a b l) =
            if k = 0 then 0 else β k * σ (k - 1) l := by
          split_ifs with h0
          · simp
          · rw [mul_assoc, hLC, ih (k - 1) (by omega) (by omega) l hl.le]
        have e5 : L (recPoly α β k * (if l = 0 then 0 else C (b l) * recPoly a b (l - 1))) =
            if l = 0 then 0 else b l * σ k (l - 1) := by
          split_ifs with h0
          · simp
          · rw [mul_left_comm, hLC, ih k (by omega) (by omega) (l - 1) (by omega)]
        rw [e4, e5] at e
        linarith
  have hdeg : (recPoly α β n - pn).degree < n := by
    have := degree_sub_lt_left (p := recPoly α β n) (q := pn) (by
      rw [degree_eq_natDegree hm.ne_zero, degree_eq_natDegree (recPoly_monic α β n).ne_zero, hpn,
        recPoly_natDegree, recPoly_natDegree]) (recPoly_monic α β n).ne_zero (by
      rw [hm.leadingCoeff, (recPoly_monic α β n).leadingCoeff])
    rwa [degree_eq_natDegree (recPoly_monic α β n).ne_zero, recPoly_natDegree] at this
  obtain ⟨c, hc⟩ := recPoly_expand α β n _ hdeg
  have hz : ∀ l < n, ∑ k ∈ Finset.range n, c k * σ k l = 0 := fun l hl => by
    have e := congrArg (fun f => L (f * recPoly a b l)) hc
    simp only [sub_mul, map_sub, Finset.sum_mul, map_sum, mul_assoc, hLC] at e
    rw [key n le_rfl l hl.le, h.below n l hl, mul_comm pn, hLn, sub_zero] at e
    rw [e]
    exact Finset.sum_congr rfl fun k hk => by
      rw [key k (Finset.mem_range.1 hk).le l hl.le]
  have hc0 : ∀ l < n, c l = 0 := by
    intro l
    induction l using Nat.strong_induction_on with
    | _ l ih =>
      intro hl
      have e := hz l hl
      rw [Finset.sum_eq_single l] at e
      · exact (mul_eq_zero.1 e).resolve_right (h.diag l hl)
      · intro k hk hkl
        rcases lt_or_gt_of_ne hkl with h1 | h1
        · rw [ih k h1 (h1.trans hl), zero_mul]
        · rw [h.below k l h1, mul_zero]
      · intro h1; exact absurd (Finset.mem_range.2 hl) h1
  rw [← sub_eq_zero, hc]
  exact Finset.sum_eq_zero fun k hk => by rw [hc0 k (Finset.mem_range.1 hk), C_0, zero_mul]

/-! ### The whole matrix -/

/-- Expansion of the characteristic polynomial at the row `n`. -/
theorem recPoly_split (a b : ℕ → ℝ) (n j : ℕ) : recPoly a b (n + 1 + (j + 1)) =
    recPoly a b (n + 1) * recPoly (fun k => a (k + n + 1)) (fun k => b (k + n + 1)) (j + 1) -
      C (b (n + 1)) * recPoly a b n *
        recPoly (fun k => a (k + n + 2)) (fun k => b (k + n + 2)) j := by
  induction j using Nat.twoStepInduction with
  | zero => simp [recPoly]; ring
  | one =>
    simp only [recPoly, zero_add]
    rw [show 1 + n + 1 = n + 1 + 1 by ring, show n + 2 = n + 1 + 1 by ring]
    ring
  | more j h1 h2 =>
    rw [show n + 1 + (j + 2 + 1) = n + j + 2 + 2 by ring, recPoly,
      show n + j + 2 + 1 = n + 1 + (j + 1 + 1) by ring, show n + j + 2 = n + 1 + (j + 1) by ring, h1, h2]
    rw [show j + 2 + 1 = j + 1 + 2 by ring]
    rw [recPoly.eq_3 (fun k => a (k + n + 1)) _ (j + 1), recPoly.eq_3 (fun k => a (k + n + 2)) _ j]
    simp only [show n + 1 + (j + 1 + 1) = j + 1 + 1 + n + 1 by ring,
      show j + 1 + n + 2 = j + 1 + 1 + n + 1 by ring]
    ring

theorem wronskian_pos (a b : ℕ → ℝ) (x : ℝ) (n : ℕ) (hb : ∀ k, 0 < k → k < n + 1 → 0 < b k) :
    0 < (derivative (recPoly a b (n + 1))).eval x * (recPoly a b n).eval x -
      (derivative (recPoly a b n)).eval x * (recPoly a b (n + 1)).eval x := by
  induction n with
  | zero => simp [recPoly]
  | succ n ih =>
    have h1 := ih fun k h0 hk => hb k h0 (by omega)
    have h2 := mul_pos (hb (n + 1) (by omega) (by omega)) h1
    rw [recPoly]
    simp only [derivative_sub, derivative_mul, derivative_X, derivative_C, eval_sub, eval_mul, eval_X,
      eval_C, eval_add, eval_one, eval_zero, sub_zero]
    nlinarith [sq_nonneg ((recPoly a b (n + 1)).eval x)]

/-- The same for the block without its first row. -/
theorem wronskian_tail_pos (x : ℝ) (n : ℕ) : ∀ (a b : ℕ → ℝ), (∀ k, 0 < k → k < n + 1 → 0 < b k) →
    0 < (derivative (recPoly a b (n + 1))).eval x *
        (recPoly (fun k => a (k + 1)) (fun k => b (k + 1)) n).eval x -
      (derivative (recPoly (fun k => a (k + 1)) (fun k => b (k + 1)) n)).eval x *
        (recPoly a b (n + 1)).eval x := by
  induction n with
  | zero => intro a b _; simp [recPoly]
  | succ n ih =>
    intro a b hb
    have h1 := ih (fun k => a (k + 1)) (fun k => b (k + 1)) fun k h0 hk => hb _ (by omega) (by omega)
    have h2 := mul_pos (hb 1 (by omega) (by omega)) h1
    have e := recPoly_split a b 0 n
    rw [show 0 + 1 + (n + 1) = n + 1 + 1 by ring] at e
    rw [e]
    simp only [Nat.add_zero, zero_add, recPoly, mul_one]
    simp only [derivative_sub, derivative_mul, derivative_X, derivative_C, eval_sub, eval_mul, eval_X,
      eval_C, eval_add, eval_one, eval_zero, sub_zero, zero_mul, zero_add]
    simp only [Nat.add_assoc, Nat.reduceAdd] at h2 ⊢
    nlinarith [sq_nonneg ((recPoly (fun k => a (k + 1)) (fun k => b (k + 1)) (n + 1)).eval x)]

end OneDim
end Quadpy
