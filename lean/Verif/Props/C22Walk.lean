import Verif.Props.C22
import Mathlib.GroupTheory.Perm.Sign
import Mathlib.Algebra.BigOperators.Fin

/-!
# C22 for tn/_walkington.py
-/

namespace Quadpy.Tn
open Finset

theorem PS_of_swaps {n : ℕ} {L : List (List ℝ)} (hl : ∀ x ∈ L, x.length = n + 1)
    (h : ∀ (i : Fin n) (α : Fin (n + 1) → ℕ),
      osum (n + 1) L (mono (α ∘ Equiv.swap i.castSucc i.succ)) = osum (n + 1) L (mono α)) :
    PS (n + 1) L := by
  refine ⟨hl, fun α σ => ?_⟩
  have hσ : σ ∈ Submonoid.closure (Set.range fun i : Fin n ↦ Equiv.swap i.castSucc i.succ) := by
    rw [Equiv.Perm.mclosure_swap_castSucc_succ]; trivial
  induction hσ using Submonoid.closure_induction generalizing α with
  | mem x hx => obtain ⟨i, rfl⟩ := hx; exact h i α
  | one => rfl
  | mul x y _ _ hx hy =>
    have := hy (α ∘ x)
    rw [Equiv.Perm.coe_mul, ← Function.comp_assoc, this, hx]

theorem toVec_xi1 {d : ℕ} (a b : ℝ) (i j : Fin (d + 1)) :
    toVec (d + 1) ((List.range (d + 1)).map fun j => if (i : ℕ) = j then b else a) j =
      if i = j then b else a := by
  have := j.isLt
  simp [toVec, Fin.ext_iff, this]

theorem list_sum_range (n : ℕ) (f : ℕ → ℝ) :
    ((List.range n).map f).sum = ∑ i : Fin n, f i := by
  rw [Fin.sum_univ_eq_sum_range, Finset.sum_range]
  rw [← List.sum_ofFn]
  congr 1
  apply List.ext_getElem <;> simp

theorem osum_xi1 (d : ℕ) (a : ℝ) (α : Fin (d + 1) → ℕ) :
    osum (d + 1) (xi1 d a) (mono α) =
      ∑ i : Fin (d + 1), ∏ j, (if i = j then 1 - d * a else a) ^ α j := by
  unfold osum xi1
  rw [List.map_map, list_sum_range]
  refine sum_congr rfl fun i _ => ?_
  simp only [Function.comp_def, mono, toVec_xi1]

theorem xi1_PS (d : ℕ) (a : ℝ) : PS (d + 1) (xi1 d a) := by
  refine ⟨by simp [xi1], fun α σ => ?_⟩
  rw [osum_xi1, osum_xi1]
  conv_rhs => rw [← Equiv.sum_comp σ]
  refine sum_congr rfl fun i _ => ?_
  rw [← Equiv.prod_comp σ fun j => (if σ i = j then 1 - d * a else a) ^ α j]
  simp

/-- The group `_xi1`. -/
def bXi1 (d : ℕ) (w a : ℝ) : BGrp := ⟨w, xi1 d a, fun k => (1 - d * a) ^ k + d * a ^ k⟩

theorem bXi1_ok (d : ℕ) (w a : ℝ) : (bXi1 d w a).Ok d := by
  refine ⟨xi1_PS d a, fun k _ x hx => ?_, by simp [bXi1]⟩
  simp only [bXi1, xi1, List.mem_map, List.mem_range] at hx
  obtain ⟨i, hi, rfl⟩ := hx
  have := toVec_xi1 (d := d) a (1 - d * a) ⟨i, hi⟩
  simp only at this
  simp only [this, bXi1, ite_pow]
  rw [← Finset.add_sum_erase _ _ (mem_univ (⟨i, hi⟩ : Fin (d + 1)))]
  rw [if_pos rfl, sum_congr rfl fun j hj => if_neg (ne_of_mem_erase hj).symm]
  simp

theorem bXi1_len (d : ℕ) (w a : ℝ) : ((bXi1 d w a).L.length : ℝ) = d + 1 := by simp [bXi1, xi1]

/-- A group given by its list of points and its power sums. -/
theorem bOk_of {n : ℕ} {w : ℝ} {L : List (List ℝ)} {p : ℕ → ℝ} (hl : ∀ x ∈ L, x.length = n + 1)
    (h : ∀ (i : Fin n) (α : Fin (n + 1) → ℕ),
      osum (n + 1) L (mono (α ∘ Equiv.swap i.castSucc i.succ)) = osum (n + 1) L (mono α))
    (hp : ∀ x ∈ L, ∀ k, (x.map fun v => v ^ k).sum = p k) (h1 : p 1 = 1) :
    (⟨w, L, p⟩ : BGrp).Ok n :=
  ⟨PS_of_swaps hl h, fun k _ x hx => by rw [sum_toVec_pow x (hl x hx)]; exact hp x hx k, h1⟩

theorem xi11_two_ok (w a b : ℝ) (h : 2 * b + a = 1) :
    (⟨w, [[b, b, a], [b, a, b], [a, b, b]], fun k => 2 * b ^ k + a ^ k⟩ : BGrp).Ok 2 := by
  refine bOk_of (by simp) (fun i α => ?_) (fun x hx k => ?_) (by simpa using h)
  · fin_cases i <;> simp [osum, mono, Fin.prod_univ_succ, toVec, Equiv.swap_apply_def] <;> ring
  · simp only [List.mem_cons, List.not_mem_nil, or_false] at hx
    rcases hx with rfl | rfl | rfl <;> simp <;> ring

theorem xi11_three_ok (w a b : ℝ) (h : 2 * b + 2 * a = 1) :
    (⟨w, [[b, b, a, a], [b, a, b, a], [b, a, a, b], [a, b, a, b], [a, a, b, b], [a, b, b, a]],
      fun k => 2 * b ^ k + 2 * a ^ k⟩ : BGrp).Ok 3 := by
  refine bOk_of (by simp) (fun i α => ?_) (fun x hx k => ?_) (by simpa using h)
  · fin_cases i <;> simp [osum, mono, Fin.prod_univ_succ, toVec, Equiv.swap_apply_def] <;> ring
  · simp only [List.mem_cons, List.not_mem_nil, or_false] at hx
    rcases hx with rfl | rfl | rfl | rfl | rfl | rfl <;> simp <;> ring

theorem xi21_three_ok (w a b c : ℝ) (h : b + c + 2 * a = 1) :
    (⟨w, [[b, c, a, a], [b, a, c, a], [b, a, a, c], [a, b, a, c], [a, a, b, c], [a, b, c, a],
      [c, b, a, a], [c, a, b, a], [c, a, a, b], [a, c, a, b], [a, a, c, b], [a, c, b, a]],
      fun k => b ^ k + c ^ k + 2 * a ^ k⟩ : BGrp).Ok 3 := by
  refine bOk_of (by simp) (fun i α => ?_) (fun x hx k => ?_) (by simpa using h)
  · fin_cases i <;> simp [osum, mono, Fin.prod_univ_succ, toVec, Equiv.swap_apply_def] <;> ring
  · simp only [List.mem_cons, List.not_mem_nil, or_false] at hx
    rcases hx with rfl | rfl | rfl | rfl | rfl | rfl | rfl | rfl | rfl | rfl | rfl | rfl <;>
      simp <;> ring

theorem xi111_three_ok (w a b : ℝ) (h : 3 * b + a = 1) :
    (⟨w, [[b, b, b, a], [b, b, a, b], [b, a, b, b], [a, b, b, b]],
      fun k => 3 * b ^ k + a ^ k⟩ : BGrp).Ok 3 := by
  refine bOk_of (by simp) (fun i α => ?_) (fun x hx k => ?_) (by simpa using h)
  · fin_cases i <;> simp [osum, mono, Fin.prod_univ_succ, toVec, Equiv.swap_apply_def] <;> ring
  · simp only [List.mem_cons, List.not_mem_nil, or_false] at hx
    rcases hx with rfl | rfl | rfl | rfl <;> simp <;> ring

theorem normalized_eq (n d : ℕ) (data : List (ℝ × List (List ℝ))) {T : ℝ}
    (hT : (data.map fun g => g.1 * (g.2.length : ℝ)).sum = T) :
    schemeOfNormalized n data d = schemeOf n (data.map fun g => (g.1 * T⁻¹, g.2)) d := by
  have : (untangle data).2.sum = T := by
    rw [← hT]
    simp [untangle, List.sum_flatten, Function.comp_def, mul_comm]
  rw [schemeOfNormalized, this]
  simp [schemeOf, untangle, List.map_flatten, Function.comp_def, div_eq_mul_inv]

macro "wgrp_simp" : tactic => `(tactic| (
  simp only [bsum, List.map_cons, List.map_nil, List.sum_cons, List.sum_nil, bC_len, bXi1_len]
  simp only [bC, bXi1]))

theorem C22_walkington1 (d : ℕ) : (walkington1 d).ExactOnSimplex d := by
  have hf : (d.factorial : ℝ) ≠ 0 := by positivity
  rw [walkington1, normalized_eq d 1 _ (T := 1 / d.factorial) (by simp [walkC, full])]
  refine simplex_schemeOf (by norm_num) [bC d _ _] rfl
    (bok_cons (bC_ok _ (by field_simp)) (bok_nil d)) (BConds.mk1 ?_)
  wgrp_simp; field_simp; ring

theorem C22_walkington2 (d : ℕ) : (walkington2 d).ExactOnSimplex d := by
  have hf : (d.factorial : ℝ) ≠ 0 := by positivity
  rw [walkington2, normalized_eq d 1 _ (T := 1 / d.factorial)
    (by simp [xi1, Nat.factorial_succ]; field_simp)]
  refine simplex_schemeOf (by norm_num) [bXi1 d _ _] rfl
    (bok_cons (bXi1_ok _ _ _) (bok_nil d)) (BConds.mk1 ?_)
  wgrp_simp; push_cast [Nat.factorial_succ]; field_simp; ring

theorem C22_walkington3 (d : ℕ) : (walkington3 d).ExactOnSimplex d := by
  have hf : (d.factorial : ℝ) ≠ 0 := by positivity
  rw [walkington3, normalized_eq d 3 _ (T := 1 / d.factorial)
    (by simp [walkC, full, xi1, Nat.factorial_succ]; field_simp; ring)]
  refine simplex_schemeOf (by norm_num) [bC d _ _, bXi1 d _ _] rfl
    (bok_cons (bC_ok _ (by field_simp)) (bok_cons (bXi1_ok _ _ _) (bok_nil d)))
    (BConds.mk3 ?_ ?_ ?_)
  all_goals wgrp_simp; push_cast [Nat.factorial_succ]; field_simp; ring

theorem C22_walkington5 (d : ℕ) (S : Scheme) (h : walkington5 d = some S) :
    S.ExactOnSimplex d := by
  simp only [walkington5, Option.pure_def, Option.bind_eq_bind, Option.bind_eq_some_iff,
    Option.some.injEq] at h
  obtain ⟨L, hL, rfl⟩ := h
  unfold xi11 at hL
  split_ifs at hL with h2 h3
  · subst h2
    obtain rfl := Option.some.inj hL
    rw [normalized_eq 2 5 _ (T := 1 / 2) (by simp [walkC, full, xi1, Nat.factorial]; norm_num)]
    refine simplex_schemeOf (by norm_num) [bC 2 _ _, bXi1 2 _ _, bXi1 2 _ _,
      ⟨_, _, fun k => 2 * ((1 - ((2 : ℕ) - 1) * (1 / ((2 : ℕ) + 5))) / 2) ^ k
        + (1 / ((2 : ℕ) + 5)) ^ k⟩] rfl
      (bok_cons (bC_ok _ (by norm_num)) (bok_cons (bXi1_ok _ _ _) (bok_cons (bXi1_ok _ _ _)
        (bok_cons (xi11_two_ok _ _ _ (by norm_num)) (bok_nil _)))))
      (BConds.mk5 ?_ ?_ ?_ ?_ ?_ ?_ ?_)
    all_goals wgrp_simp; norm_num [Nat.factorial]
  · subst h3
    obtain rfl := Option.some.inj hL
    rw [normalized_eq 3 5 _ (T := 1 / 6) (by simp [walkC, full, xi1, Nat.factorial]; norm_num)]
    refine simplex_schemeOf (by norm_num) [bC 3 _ _, bXi1 3 _ _, bXi1 3 _ _,
      ⟨_, _, fun k => 2 * ((1 - ((3 : ℕ) - 1) * (1 / ((3 : ℕ) + 5))) / 2) ^ k
        + 2 * (1 / ((3 : ℕ) + 5)) ^ k⟩] rfl
      (bok_cons (bC_ok _ (by norm_num)) (bok_cons (bXi1_ok _ _ _) (bok_cons (bXi1_ok _ _ _)
        (bok_cons (xi11_three_ok _ _ _ (by norm_num)) (bok_nil _)))))
      (BConds.mk5 ?_ ?_ ?_ ?_ ?_ ?_ ?_)
    all_goals wgrp_simp; norm_num [Nat.factorial]

theorem C22_walkington7 (d : ℕ) (S : Scheme) (h : walkington7 d = some S) :
    S.ExactOnSimplex d := by
  simp only [walkington7, Option.pure_def, Option.bind_eq_bind, Option.bind_eq_some_iff,
    Option.some.injEq] at h
  obtain ⟨L1, hL1, L2, hL2, L3, hL3, rfl⟩ := h
  unfold xi111 at hL3
  split_ifs at hL3 with h3
  subst h3
  obtain rfl := Option.some.inj hL3
  simp only [xi11, xi21, show (3 : ℕ) ≠ 2 by norm_num, if_false, if_true, Option.some.injEq] at hL1 hL2
  subst hL1 hL2
  rw [normalized_eq 3 7 _ (T := 1 / 6) (by simp [walkC, full, xi1, Nat.factorial]; norm_num)]
  refine simplex_schemeOf (by norm_num) [bC 3 _ _, bXi1 3 _ _, bXi1 3 _ _,
    ⟨_, _, fun k => 2 * ((1 - ((3 : ℕ) - 1) * (1 / ((3 : ℕ) + 5))) / 2) ^ k
        + 2 * (1 / ((3 : ℕ) + 5)) ^ k⟩,
    bXi1 3 _ _,
    ⟨_, _, fun k => ((1 - ((3 : ℕ) - 2) * (1 / ((3 : ℕ) + 7))) / 3) ^ k
      + (1 - ((3 : ℕ) - 1) * (1 / ((3 : ℕ) + 7)) - (1 - ((3 : ℕ) - 2) * (1 / ((3 : ℕ) + 7))) / 3) ^ k
        + 2 * (1 / ((3 : ℕ) + 7)) ^ k⟩,
    ⟨_, _, fun k => 3 * ((1 - ((3 : ℕ) - 2) * (1 / ((3 : ℕ) + 7))) / 3) ^ k
        + (1 / ((3 : ℕ) + 7)) ^ k⟩] rfl
    (bok_cons (bC_ok _ (by norm_num)) (bok_cons (bXi1_ok _ _ _) (bok_cons (bXi1_ok _ _ _)
      (bok_cons (xi11_three_ok _ _ _ (by norm_num)) (bok_cons (bXi1_ok _ _ _)
        (bok_cons (xi21_three_ok _ _ _ _ (by norm_num)) (bok_cons (xi111_three_ok _ _ _ (by norm_num))
          (bok_nil _))))))))
    ⟨?_, fun _ => ?_, fun _ => ?_, fun _ => ?_, fun _ _ => ?_, fun _ => ?_, fun _ _ => ?_,
      fun _ => ?_, fun _ _ => ?_, fun _ _ => ?_, fun _ _ => ?_, fun _ => ?_, fun _ _ => ?_,
      fun _ _ => ?_, fun _ _ => ?_⟩
  all_goals wgrp_simp; norm_num [Nat.factorial]

/-- `walkington_5` exists for triangles and tetrahedra only, `walkington_7` for tetrahedra only: its
call with `d = 2`, which `_xi11` and `_xi21` have a branch for, ends in the assertion of `_xi111`. -/
theorem C22_walkington_defined (d : ℕ) :
    ((walkington5 d).isSome ↔ d = 2 ∨ d = 3) ∧ ((walkington7 d).isSome ↔ d = 3) := by
  constructor
  · simp only [walkington5, xi11]
    split_ifs with h2 h3 <;> simp_all
  · simp only [walkington7, xi11, xi21, xi111]
    by_cases h2 : d = 2
    · subst h2; simp
    · by_cases h3 : d = 3
      · subst h3; simp
      · simp [h2, h3]

end Quadpy.Tn
