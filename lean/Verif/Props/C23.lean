import Verif.Model.GrundmannMoeller
import Verif.Lemmas.Grundmann
import Verif.Lemmas.SimplexGroups
import Verif.Props.C22Walk

/-!
# C23: Grundmann-Möller rules have degree 2s+1
-/

namespace Quadpy.Tn
open Finset

/-- A sum over the exponents of one level is a coefficient of a product of power series. -/
theorem level_sum {N m : ℕ} (L : List (List ℕ)) (hn : L.Nodup)
    (hL : ∀ e : List ℕ, e ∈ L ↔ e.length = N ∧ e.sum = m) (β : Fin N → ℕ) :
    (L.map fun e => ∏ j : Fin N, (2 * ((e.getD j 0 : ℕ) : ℝ) + 1) ^ β j).sum = GM.oddSum β m := by
  classical
  rw [GM.oddSum, PowerSeries.coeff_prod, ← List.sum_toFinset _ hn]
  refine Finset.sum_bij' (fun e _ => Finsupp.equivFunOnFinite.symm fun j : Fin N => e.getD j 0)
    (fun f _ => List.ofFn f) ?_ ?_ ?_ ?_ ?_
  · intro e he
    rw [List.mem_toFinset, hL] at he
    rw [mem_finsuppAntidiag]
    refine ⟨?_, fun _ _ => mem_univ _⟩
    have h : List.ofFn (fun j : Fin N => e.getD j 0) = e := by
      apply List.ext_getElem
      · simp [he.1]
      · intro i h1 h2; simp [h2]
    rw [← he.2]
    conv_rhs => rw [← h, List.sum_ofFn]
    simp
  · intro f hf
    rw [mem_finsuppAntidiag] at hf
    rw [List.mem_toFinset, hL]
    exact ⟨by simp, by rw [List.sum_ofFn]; exact hf.1⟩
  · intro e he
    rw [List.mem_toFinset, hL] at he
    apply List.ext_getElem
    · simp [he.1]
    · intro i h1 h2; simp [h2]
  · intro f hf
    ext j; simp
  · intro e he
    refine prod_congr rfl fun j _ => ?_
    simp [GM.oddSeries]

/-- Moments of homogeneous degree `d` determine those of lower degree. -/
theorem moments_down {n d : ℕ} (M : (Fin (n + 1) → ℕ) → ℝ) (c : ℝ)
    (hM : ∀ β, M β = ∑ b, M (β + Pi.single b 1))
    (h : ∀ β, ∑ i, β i = d → M β = c * baryMom β) (k : ℕ) :
    ∀ β : Fin (n + 1) → ℕ, ∑ i, β i + k = d → M β = c * baryMom β := by
  induction k with
  | zero => intro β hβ; exact h β hβ
  | succ k ih =>
    intro β hβ
    rw [hM, baryMom_sum, mul_sum]
    refine sum_congr rfl fun b _ => ih _ ?_
    rw [← hβ]
    simp [sum_add_distrib]
    ring

/-- The level of the exponents that belongs to `i`. -/
theorem gm_level (n s i : ℕ) : ∃ L, (getAllExponents (n + 1) s).getD (s - i) [] = L ∧ L.Nodup ∧
    ∀ e : List ℕ, e ∈ L ↔ e.length = n + 1 ∧ e.sum = s - i := by
  obtain ⟨L, h1, h2⟩ := C03_get_all_exponents (n + 1) s (s - i) (Nat.sub_le _ _)
  exact ⟨L, by simp [List.getD, h1], h2⟩

theorem list_sum_odd (e : List ℕ) (c : ℝ) :
    (e.map fun p : ℕ => (2 * (p : ℝ) + 1) / c).sum = (2 * (e.sum : ℝ) + e.length) / c := by
  induction e with
  | nil => simp
  | cons a e ih =>
    rw [List.map_cons, List.sum_cons, ih, ← add_div, List.sum_cons, List.length_cons]
    congr 1
    push_cast
    ring

theorem gm_points {n s : ℕ} {x : List ℝ} (hx : x ∈ (untangle (gmData n s)).1) :
    x.length = n + 1 ∧ x.sum = 1 := by
  simp only [untangle, gmData, List.map_map, List.mem_flatten, List.mem_map, List.mem_range] at hx
  obtain ⟨l, ⟨i, hi, rfl⟩, hx⟩ := hx
  simp only [Function.comp] at hx
  obtain ⟨e, he, rfl⟩ := List.mem_map.1 hx
  obtain ⟨L, hL, -, hm⟩ := gm_level n s i
  rw [hL, hm] at he
  refine ⟨by simp [he.1], ?_⟩
  rw [list_sum_odd, he.1, he.2, Nat.cast_sub (by omega)]
  have h : ((i : ℕ) : ℝ) ≤ s := by exact_mod_cast (by omega : i ≤ s)
  have h0 : (0 : ℝ) ≤ n := Nat.cast_nonneg n
  rw [div_eq_one_iff_eq]
  · push_cast; ring
  · push_cast
    have : (0 : ℝ) < 2 * s + 1 + n - 2 * i := by linarith
    exact this.ne'

/-- The moments of degree `2 s + 1` before the weights are divided by their sum. -/
theorem gm_top (n s : ℕ) (β : Fin (n + 1) → ℕ) (hβ : ∑ j, β j = 2 * s + 1) :
    dot (n + 1) (untangle (gmData n s)).2 (untangle (gmData n s)).1 (mono β) =
      (1 / (n.factorial : ℝ)) * baryMom β := by
  have hid := GM.identity β s (2 * s + 1 + n) hβ (by rw [sum_add_distrib, hβ]; simp; ring)
  rw [C04_untangle_dot, gmData, List.map_map]
  have key : ∀ i ∈ range (s + 1), ((fun g : ℝ × List (List ℝ) =>
      g.1 * (g.2.map fun x => mono β (toVec (n + 1) x)).sum) ∘ fun i : ℕ =>
        ((-1) ^ i * (1 / 2 ^ (2 * s)) * (((2 * s + 1 : ℕ) + n : ℝ) - 2 * i) ^ (2 * s + 1) /
          ((i.factorial : ℝ) * ((2 * s + 1 + n - i).factorial : ℝ)),
        ((getAllExponents (n + 1) s).getD (s - i) []).map fun part =>
          part.map fun p : ℕ => (2 * (p : ℝ) + 1) / (((2 * s + 1 : ℕ) + n : ℝ) - 2 * i))) i =
      ((-1) ^ i * ((2 * s + 1 + n).choose i : ℝ) * GM.oddSum β (s - i)) *
        (1 / (4 ^ s * ((2 * s + 1 + n).factorial : ℝ))) := by
    intro i hi
    rw [mem_range] at hi
    obtain ⟨L, hL, hn, hm⟩ := gm_level n s i
    simp only [Function.comp]
    have hc : (((2 * s + 1 : ℕ) + n : ℝ) - 2 * i) ≠ 0 := by
      have h : ((i : ℕ) : ℝ) ≤ s := by exact_mod_cast (by omega : i ≤ s)
      have h0 : (0 : ℝ) ≤ n := Nat.cast_nonneg n
      push_cast
      have : (0 : ℝ) < 2 * s + 1 + n - 2 * i := by linarith
      exact this.ne'
    rw [hL, ← level_sum L hn hm β, List.map_map]
    generalize (((2 * s + 1 : ℕ) + n : ℝ) - 2 * i) = c at *
    have h1 : (L.map ((fun x => mono β (toVec (n + 1) x)) ∘ fun part : List ℕ =>
          part.map fun p : ℕ => (2 * (p : ℝ) + 1) / c)).sum =
        (L.map fun e => ∏ j : Fin (n + 1), (2 * ((e.getD j 0 : ℕ) : ℝ) + 1) ^ β j).sum *
          (1 / c ^ (2 * s + 1)) := by
      rw [← List.sum_map_mul_right]
      congr 1
      refine List.map_congr_left fun e he => ?_
      rw [hm] at he
      have hp : c ^ (2 * s + 1) = ∏ j, c ^ β j := by rw [prod_pow_eq_pow_sum, hβ]
      rw [hp, mul_one_div, ← prod_div_distrib]
      simp only [Function.comp, mono]
      refine prod_congr rfl fun j _ => ?_
      have hj : (j : ℕ) < e.length := by rw [he.1]; exact j.isLt
      rw [← div_pow]
      simp [toVec, hj]
    rw [h1, Nat.cast_choose ℝ (by omega : i ≤ 2 * s + 1 + n)]
    have h2 : ((2 * s + 1 + n).factorial : ℝ) ≠ 0 := by positivity
    have h3 : (i.factorial : ℝ) ≠ 0 := by positivity
    have h4 : ((2 * s + 1 + n - i).factorial : ℝ) ≠ 0 := by positivity
    rw [show (4 : ℝ) ^ s = 2 ^ (2 * s) by rw [pow_mul]; norm_num]
    field_simp
  rw [← List.sum_toFinset _ List.nodup_range, List.toFinset_range, sum_congr rfl key, ← sum_mul, hid]
  have h2 : ((2 * s + 1 + n).factorial : ℝ) ≠ 0 := by positivity
  have h3 : (n.factorial : ℝ) ≠ 0 := by positivity
  rw [baryMom, hβ, show n + 1 - 1 + (2 * s + 1) = 2 * s + 1 + n by omega, show n + 1 - 1 = n by omega]
  field_simp

/-- Moments of a point set whose points have coordinate sum 1. -/
theorem dot_sum {n : ℕ} (w : List ℝ) (pts : List (List ℝ))
    (h : ∀ x ∈ pts, x.length = n + 1 ∧ x.sum = 1) (β : Fin (n + 1) → ℕ) :
    dot (n + 1) w pts (mono β) = ∑ b, dot (n + 1) w pts (mono (β + Pi.single b 1)) := by
  unfold dot
  induction pts generalizing w with
  | nil => simp
  | cons x pts ih =>
    cases w with
    | nil => simp
    | cons a w =>
      simp only [List.zipWith_cons_cons, List.sum_cons]
      rw [sum_add_distrib, ih w fun y hy => h y (by simp [hy]), ← mul_sum]
      congr 2
      have hm : ∀ b, mono (β + Pi.single b 1) (toVec (n + 1) x) =
          mono β (toVec (n + 1) x) * toVec (n + 1) x b := by
        intro b
        simp only [mono, Pi.add_apply, pow_add, prod_mul_distrib]
        congr 1
        rw [prod_eq_single b]
        · simp
        · intro j _ hj; simp [hj]
        · simp
      obtain ⟨h1, h2⟩ := h x (by simp)
      have hs : ∑ b, toVec (n + 1) x b = 1 := by
        rw [← h2, ← List.sum_ofFn]
        congr 1
        apply List.ext_getElem
        · simp [h1]
        · intro i h3 h4; rw [List.getElem_ofFn]; simp [toVec, h4]
      rw [sum_congr rfl fun b _ => hm b, ← mul_sum, hs, mul_one]

theorem dot_scale {m : ℕ} (c : ℝ) (w : List ℝ) (pts : List (List ℝ)) (f : (Fin m → ℝ) → ℝ) :
    dot m (w.map (· / (1 / c))) pts f = dot m w pts f * c := by
  unfold dot
  induction pts generalizing w with
  | nil => simp
  | cons x pts ih =>
    cases w with
    | nil => simp
    | cons a w =>
      simp only [List.map_cons, List.zipWith_cons_cons, List.sum_cons]
      rw [ih, one_div, div_inv_eq_mul]
      ring

theorem gm_moment (n s : ℕ) (β : Fin (n + 1) → ℕ) (hβ : ∑ j, β j ≤ 2 * s + 1) :
    dot (n + 1) (untangle (gmData n s)).2 (untangle (gmData n s)).1 (mono β) =
      (1 / (n.factorial : ℝ)) * baryMom β := by
  refine moments_down (d := 2 * s + 1) _ _ (dot_sum _ _ fun x hx => gm_points hx)
    (fun β hβ => gm_top n s β hβ) (2 * s + 1 - ∑ j, β j) β ?_
  omega

/-- The weights before normalisation sum to the volume of the standard simplex. -/
theorem gm_total (n s : ℕ) : (untangle (gmData n s)).2.sum = 1 / (n.factorial : ℝ) := by
  have h := gm_moment n s 0 (by simp)
  have h2 : (n.factorial : ℝ) ≠ 0 := by positivity
  have h3 : baryMom (0 : Fin (n + 1) → ℕ) = 1 := by simp [baryMom, h2]
  rw [h3, mul_one, C04_untangle_dot] at h
  rw [← h]
  simp [untangle, List.sum_flatten, Function.comp_def, mono, mul_comm]

/-- C23: for every dimension `n` and every `s`, `grundmann_moeller(n, s)` claims the degree `2 s + 1`
and has it. -/
theorem C23_grundmann_moeller (n s : ℕ) :
    (grundmannMoeller n s).degree = 2 * s + 1 ∧ (grundmannMoeller n s).ExactOnSimplex n := by
  refine ⟨rfl, exactOnSimplex_of_moments _ rfl ?_ (fun x hx => gm_points hx) ?_⟩
  · simp [grundmannMoeller, schemeOfNormalized, untangle, List.length_flatten, Function.comp_def]
  · intro β hβ
    have h := gm_moment n s β hβ
    have h2 : (n.factorial : ℝ) ≠ 0 := by positivity
    have h1 : dot (n + 1) (grundmannMoeller n s).weights (grundmannMoeller n s).points (mono β) =
        dot (n + 1) (untangle (gmData n s)).2 (untangle (gmData n s)).1 (mono β) *
          (n.factorial : ℝ) := by
      change (List.zipWith _ ((untangle (gmData n s)).2.map _) _).sum = _
      rw [gm_total]
      exact dot_scale _ _ _ _
    rw [h1, h]
    field_simp

/-- `grundmann_moeller(2, 1)` is the four point rule with the weight `-27/48` at the centroid; its
value for `t₀² t₁` is `2! 1! 2! / 5!`. -/
example : dot 3 (grundmannMoeller 2 1).weights (grundmannMoeller 2 1).points (mono ![2, 1, 0]) =
    1 / 30 := by
  have h := (C23_grundmann_moeller 2 1).2
  have h1 := gm_moment 2 1 ![2, 1, 0] (by simp [Fin.sum_univ_succ])
  have : (grundmannMoeller 2 1).weights = (untangle (gmData 2 1)).2.map (· / (1 / ((2 : ℕ).factorial : ℝ))) := by
    simp only [grundmannMoeller, schemeOfNormalized, gm_total]
  rw [this]
  refine (dot_scale _ _ _ _).trans ?_
  change dot (2 + 1) _ (untangle (gmData 2 1)).1 _ * _ = _
  rw [h1]
  norm_num [baryMom, Fin.sum_univ_succ, Fin.prod_univ_succ, Nat.factorial]

example : (gmData 2 1).map (fun g => (g.1, g.2.length)) = [(25 / 96, 3), (-(27 / 96), 1)] := by
  have h : getAllExponents 3 1 = [[[0, 0, 0]], [[1, 0, 0], [0, 1, 0], [0, 0, 1]]] := by decide
  norm_num [gmData, List.range_succ, h, Nat.factorial]

end Quadpy.Tn
