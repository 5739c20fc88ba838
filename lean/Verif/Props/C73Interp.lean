import Verif.Props.C16
import Verif.Props.C18
import Verif.Props.C73

/-!
# C73: symmetry of the Newton-Cotes, Clenshaw-Curtis, Fejér and Chebyshev-Gauss rules
-/

namespace Quadpy

open OneDim Spec Polynomial Real

theorem symmetric_ofFn {n : ℕ} {x w : Fin n → ℝ} (hx : ∀ i, x i.rev = -x i) (hw : ∀ i, w i.rev = w i) :
    SymmetricRule (List.ofFn x) (List.ofFn w) := by
  refine ⟨?_, ?_⟩
  · rw [List.map_ofFn, reverse_ofFn]
    congr 1
    funext i
    simp [hx]
  · rw [reverse_ofFn]
    congr 1
    funext i
    exact hw i

/-- A rule with distinct points symmetric to 0 which is exact for as many powers as it has points has
symmetric weights. -/
theorem symmetric_of_exact {n : ℕ} {x w : Fin n → ℝ} (hi : Function.Injective x) (hx : ∀ i, x i.rev = -x i)
    (he : ExactC1 (List.ofFn x) (List.ofFn w) (n - 1)) : SymmetricRule (List.ofFn x) (List.ofFn w) := by
  refine symmetric_ofFn hx fun i => ?_
  have hdeg : ∀ i, (Lagrange.basis Finset.univ x i).natDegree ≤ n - 1 := fun i => by
    rw [Lagrange.natDegree_basis hi.injOn (Finset.mem_univ i)]
    simp
  have key : ∀ (i : Fin n) (w : Fin n → ℝ), ∑ j, (Lagrange.basis Finset.univ x i).eval (x j) * w j = w i := by
    intro i w
    rw [Finset.sum_eq_single i]
    · rw [Lagrange.eval_basis_self hi.injOn (Finset.mem_univ i), one_mul]
    · intro j _ hj
      rw [Lagrange.eval_basis_of_ne hj.symm (Finset.mem_univ j), zero_mul]
    · simp
  have h1 := he.2 _ (hdeg i)
  have h2 := he.2 ((Lagrange.basis Finset.univ x i).comp (-X)) (by
    rw [natDegree_comp]; simpa using hdeg i)
  have e : ∫ t in (-1 : ℝ)..1, ((Lagrange.basis Finset.univ x i).comp (-X)).eval t =
      ∫ t in (-1 : ℝ)..1, (Lagrange.basis Finset.univ x i).eval t := by
    have := intervalIntegral.integral_comp_neg (a := -1) (b := 1)
      fun t : ℝ => (Lagrange.basis Finset.univ x i).eval t
    simpa [eval_comp] using this
  rw [e, ← h1, vdot_ofFn, vdot_ofFn, key] at h2
  simp only [eval_comp, eval_neg, eval_X, ← hx] at h2
  have h3 := Equiv.sum_comp Fin.revPerm
    fun j => (Lagrange.basis Finset.univ x i).eval (x j) * w (Fin.rev j)
  simp only [Fin.revPerm_apply, Fin.rev_rev] at h3
  rw [h3, key i fun j => w j.rev] at h2
  exact h2

theorem C73_newton_cotes_closed {index : ℕ} (hi : 0 < index) :
    SymmetricRule (newtonCotesClosed index).1 (newtonCotesClosed index).2 := by
  have h := C16_newton_cotes_closed hi
  have hn : (index : ℝ) ≠ 0 := by positivity
  refine symmetric_of_exact ?_ (fun i => ?_) ⟨h.1, fun p hp => h.2 p (hp.trans ?_)⟩
  · intro i j hij
    have : (2 * ((i : ℕ) : ℝ) / index) = 2 * ((j : ℕ) : ℝ) / index := by simpa using hij
    rw [div_left_inj' hn] at this
    have h2 : ((i : ℕ) : ℝ) = (j : ℕ) := by linarith
    exact Fin.ext (by exact_mod_cast h2)
  · rw [Fin.val_rev, Nat.cast_sub (by omega)]
    push_cast
    field_simp
    ring
  · rw [newtonCotesClosedDegree]; split_ifs <;> omega

theorem C73_newton_cotes_open {index : ℕ} (hi : 0 < index) :
    SymmetricRule (newtonCotesOpen index).1 (newtonCotesOpen index).2 := by
  have h := C16_newton_cotes_open hi
  have hn : ((index + 1 : ℕ) : ℝ) ≠ 0 := by positivity
  refine symmetric_of_exact ?_ (fun i => ?_) ⟨h.1, fun p hp => h.2 p (hp.trans ?_)⟩
  · intro i j hij
    have : (2 * (((i : ℕ) + 1 : ℕ) : ℝ) / (index + 1 : ℕ)) = 2 * (((j : ℕ) + 1 : ℕ) : ℝ) / (index + 1 : ℕ) := by
      simpa using hij
    rw [div_left_inj' hn] at this
    have h2 : (((i : ℕ) + 1 : ℕ) : ℝ) = ((j : ℕ) + 1 : ℕ) := by linarith
    have h3 : (i : ℕ) + 1 = (j : ℕ) + 1 := by exact_mod_cast h2
    exact Fin.ext (by omega)
  · have e : (((Fin.rev i : ℕ) + 1 : ℕ) : ℝ) = (index + 1 : ℕ) - (((i : ℕ) + 1 : ℕ) : ℝ) := by
      rw [← Nat.cast_sub (by omega)]
      congr 1
      rw [Fin.val_rev]; omega
    rw [e]
    field_simp
    ring
  · rw [newtonCotesOpenDegree]; split_ifs <;> omega

theorem C73_clenshaw_curtis {n : ℕ} (hn : 2 ≤ n) : SymmetricRule (clenshawCurtis n).1 (clenshawCurtis n).2 := by
  rcases Nat.lt_or_ge 2 n with hlt | hge
  · obtain ⟨N, rfl⟩ : ∃ N, n = N + 1 := ⟨n - 1, by omega⟩
    have : NeZero N := ⟨by omega⟩
    rw [clenshawCurtis_eq (by omega)]
    refine symmetric_ofFn (cc_point_rev (by omega)) fun i => ?_
    rw [Fin.val_rev, show N + 1 - (i + 1) = N - i by omega, dct_symm _ _ _ (by omega)]
  · obtain rfl : n = 2 := by omega
    simp [clenshawCurtis, SymmetricRule, List.ofFn_succ]

theorem C73_fejer_1 {n : ℕ} (hn : 0 < n) : SymmetricRule (fejer1 n).1 (fejer1 n).2 :=
  symmetric_ofFn (fun i => (fejer1_symm hn i).1) fun i => (fejer1_symm hn i).2

theorem C73_fejer_2 (n : ℕ) : SymmetricRule (fejer2 n).1 (fejer2 n).2 := by
  rw [fejer2_eq]
  exact symmetric_ofFn (fun i => (fejer2_symm i).1) fun i => (fejer2_symm i).2

theorem C73_chebyshev_gauss_1 {n : ℕ} (hn : 0 < n) :
    SymmetricRule (chebyshevGauss1 n).1 (chebyshevGauss1 n).2 := by
  have hn' : (n : ℝ) ≠ 0 := by positivity
  refine symmetric_ofFn (fun i => ?_) fun _ => rfl
  have e : ((Fin.rev i : ℕ) : ℝ) = n - (i : ℕ) - 1 := by
    rw [Fin.val_rev, Nat.cast_sub (by omega)]; push_cast; ring
  rw [e, ← cos_pi_sub]
  congr 1
  field_simp
  ring

theorem C73_chebyshev_gauss_2 (n : ℕ) : SymmetricRule (chebyshevGauss2 n).1 (chebyshevGauss2 n).2 := by
  have hn' : (n + 1 : ℝ) ≠ 0 := by positivity
  have e : ∀ i : Fin n, π * ((Fin.rev i : ℕ) + 1 : ℝ) / (n + 1) = π - π * ((i : ℕ) + 1 : ℝ) / (n + 1) := by
    intro i
    have e : ((Fin.rev i : ℕ) : ℝ) = n - (i : ℕ) - 1 := by
      rw [Fin.val_rev, Nat.cast_sub (by omega)]; push_cast; ring
    rw [e]
    field_simp
    ring
  refine symmetric_ofFn (fun i => ?_) fun i => ?_
  · rw [e, cos_pi_sub]
  · rw [e, sin_pi_sub]

/-- A case: the rule of Milne (`newton_cotes_open(3)`) integrates `x³ cos x` over `[-1, 1]` to 0. -/
example : C1.integrate1 (newtonCotesOpen 3).1 (newtonCotesOpen 3).2 (fun x => x ^ 3 * cos x) (-1) 1 = 0 :=
  C73_odd (by simp [newtonCotesOpen]) (C73_newton_cotes_open (by norm_num)) _ _ _ fun x => by
    rw [show (-1 : ℝ) + 1 - x = -x by ring, cos_neg]; ring

end Quadpy
