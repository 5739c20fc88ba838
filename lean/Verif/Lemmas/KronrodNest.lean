import Verif.Lemmas.KronrodPoly
import Verif.Model.Adaptive

/-!
# Where the Gauss points stand among the Kronrod points
-/

namespace Quadpy
namespace OneDim

open Spec Polynomial

/-- The derivative of a monic polynomial with the simple roots `x 0 < x 1 < … < x (2n)` is positive at
every second root. -/
theorem deriv_even_pos {n : ℕ} {x : Fin (2 * n + 1) → ℝ} (hx : StrictMono x) (j : Fin (2 * n + 1))
    (hj : j.val % 2 = 0) : 0 < (derivative (∏ i, (X - C (x i)))).eval (x j) := by
  have e := Lagrange.eval_nodal_derivative_eval_node_eq (v := x) (Finset.mem_univ j)
  rw [Lagrange.nodal_eq] at e
  rw [e, Lagrange.eval_nodal, ← Finset.prod_filter_mul_prod_filter_not _ (fun i => i < j)]
  refine mul_pos (Finset.prod_pos fun i hi => ?_) ?_
  · have := hx (Finset.mem_filter.1 hi).2
    linarith
  · rw [show (Finset.univ.erase j).filter (fun i => ¬ i < j) = Finset.Ioi j by
      ext i
      simp only [Finset.mem_filter, Finset.mem_erase, Finset.mem_univ, and_true, not_lt, Finset.mem_Ioi]
      exact ⟨fun h => lt_of_le_of_ne h.2 (Ne.symm h.1), fun h => ⟨h.ne', h.le⟩⟩]
    rw [show ∏ i ∈ Finset.Ioi j, (x j - x i) = ∏ i ∈ Finset.Ioi j, (-1) * (x i - x j) from
      Finset.prod_congr rfl fun i _ => by ring, Finset.prod_mul_distrib, Finset.prod_const,
      Fin.card_Ioi, Even.neg_one_pow (by rw [Nat.even_iff]; omega), one_mul]
    refine Finset.prod_pos fun i hi => ?_
    have := hx (Finset.mem_Ioi.1 hi)
    linarith

theorem odds_ofFn {α : Type} : ∀ (n : ℕ) (x : Fin (2 * n + 1) → α),
    Adaptive.odds (List.ofFn x) = List.ofFn fun i : Fin n => x ⟨2 * i.val + 1, by omega⟩
  | 0, x => by simp [Adaptive.odds]
  | n + 1, x => by
    have e : List.ofFn x = x ⟨0, by omega⟩ :: x ⟨1, by omega⟩ ::
        List.ofFn fun i : Fin (2 * n + 1) => x ⟨i.val + 2, by omega⟩ := by
      rw [List.ofFn_succ, List.ofFn_succ]
      rfl
    rw [e, Adaptive.odds, odds_ofFn n, List.ofFn_succ]
    rfl

/-- When the trailing block has the characteristic polynomial of the leading one, the Gauss points are
the Kronrod points with odd numbers. -/
theorem odds_points {n : ℕ} {a b : ℕ → ℝ} (hb : ∀ k, 0 < k → k < 2 * (n + 1) + 1 → 0 < b k)
    (hq : recPoly (fun k => a (k + (n + 1) + 1)) (fun k => b (k + (n + 1) + 1)) (n + 1) =
      recPoly a b (n + 1)) {i1 i2 : ℝ} {P W Q V : List ℝ}
    (hP : SchemeFromRc (2 * (n + 1) + 1) a b i1 P W) (hQ : SchemeFromRc (n + 1) a b i2 Q V) :
    Adaptive.odds P = Q := by
  have hb' : ∀ k, 0 < k → k < n + 1 → 0 < b k := fun k h0 h1 => hb k h0 (by omega)
  have hroot := schemeFromRc_roots hb' hQ
  obtain ⟨-, x, U, hU, rfl, -⟩ := hP
  obtain ⟨-, y, U', hU', rfl, -⟩ := hQ
  have hx := hU.sorted.strictMono_of_injective (eig_injective (sqrt_ne hb) hU)
  have hy := hU'.sorted.strictMono_of_injective (eig_injective (sqrt_ne hb') hU')
  have hprod := recPoly_eq_prod hb hU
  rw [odds_ofFn]
  have hxo : StrictMono fun i : Fin (n + 1) => x ⟨2 * i.val + 1, by omega⟩ := fun i j hij => hx (by
    simpa using hij)
  refine congrArg List.ofFn ((StrictMono.range_inj hxo hy).1 ?_)
  symm
  have hsub : Set.range y ⊆ Set.range fun i : Fin (n + 1) => x ⟨2 * i.val + 1, by omega⟩ := by
    rintro _ ⟨i, rfl⟩
    have h0 : (recPoly a b (n + 1)).eval (y i) = 0 := (hroot (y i)).1 ((List.mem_ofFn' _ _).2 ⟨i, rfl⟩)
    have es := recPoly_split a b (n + 1) n
    rw [hq, show n + 1 + 1 + (n + 1) = 2 * (n + 1) + 1 by ring] at es
    have h1 := wronskian_pos a b (y i) n hb'
    have h2 := wronskian_tail_pos (y i) n (fun k => a (k + (n + 1) + 1)) (fun k => b (k + (n + 1) + 1))
      fun k h0 hk => hb _ (by omega) (by omega)
    rw [hq, h0, mul_zero, sub_zero] at h2
    rw [h0, mul_zero, sub_zero] at h1
    have hz : (recPoly a b (2 * (n + 1) + 1)).eval (y i) = 0 := by
      rw [es]; simp [h0]
    have hd : (derivative (recPoly a b (2 * (n + 1) + 1))).eval (y i) < 0 := by
      rw [es, recPoly.eq_3]
      simp only [derivative_sub, derivative_mul, derivative_X, derivative_C, eval_sub, eval_mul, eval_X,
        eval_C, eval_add, eval_one, eval_zero, sub_zero, h0, mul_zero, zero_mul, zero_add, add_zero,
        zero_sub]
      have h3 := mul_pos (hb (n + 1) (by omega) (by omega)) h1
      have h4 := mul_pos (hb (n + 1 + 1) (by omega) (by omega)) h2
      simp only [show ∀ k, k + 1 + (n + 1) + 1 = k + (n + 1) + 2 from fun k => by ring] at h4
      linarith
    rw [hprod] at hz hd
    rw [eval_prod] at hz
    obtain ⟨j, -, hj⟩ := Finset.prod_eq_zero_iff.1 hz
    have hj' : y i = x j := by simpa [sub_eq_zero] using hj
    rw [hj'] at hd
    have hodd : j.val % 2 = 1 := by
      rcases Nat.mod_two_eq_zero_or_one j.val with h | h
      · exact absurd (deriv_even_pos hx j h) (not_lt.2 hd.le)
      · exact h
    refine ⟨⟨j.val / 2, by omega⟩, ?_⟩
    rw [hj']
    exact congrArg x (Fin.ext (by simp only; omega))
  refine Set.eq_of_subset_of_ncard_le hsub ?_ (Set.finite_range _)
  rw [← Set.image_univ, ← Set.image_univ, Set.ncard_image_of_injective _ hy.injective]
  exact Set.ncard_image_le (Set.toFinite _)

end OneDim
end Quadpy
