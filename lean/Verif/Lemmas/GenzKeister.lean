import Verif.Lemmas.StengerCheck
import Verif.Model.GenzKeister
import Verif.Spec.OneDim

/-! Symmetric rules for `e^(-x²)` with decimal points and weights. -/

open MeasureTheory Finset Polynomial

namespace Quadpy
namespace GenzKeister
open Dec

/-- The rule with these points and weights integrates every polynomial of degree at most `d` against
`e^(-x²)`, up to `eps` times the integral of the polynomial with the absolute values of the coefficients
at `|x|`. -/
def Approx (P W : List ℝ) (d : ℕ) (eps : ℝ) : Prop :=
  P.length = W.length ∧ ∀ p : ℝ[X], p.natDegree ≤ d →
    |Adaptive.vdot (P.map fun x => p.eval x) W - ∫ x, p.eval x * Real.exp (-x ^ 2)| ≤
      eps * ∫ x, (∑ k ∈ p.support, |p.coeff k| * |x| ^ k) * Real.exp (-x ^ 2)

theorem integrable_abs_pow_gauss (k : ℕ) :
    Integrable fun x : ℝ => |x| ^ k * Real.exp (-x ^ 2) := by
  have h := (integrable_pow_gauss k).abs
  refine h.congr (Filter.Eventually.of_forall fun x => ?_)
  simp only [abs_mul, abs_pow, abs_of_pos (Real.exp_pos _)]

theorem vdot_pow (P W : List ℝ) (p : ℝ[X]) :
    Adaptive.vdot (P.map fun x => p.eval x) W =
      ∑ k ∈ p.support, p.coeff k * Adaptive.vdot (P.map fun x => x ^ k) W := by
  induction P generalizing W with
  | nil => simp [Adaptive.vdot]
  | cons x P ih =>
    cases W with
    | nil => simp [Adaptive.vdot]
    | cons w W =>
      have ih := ih W
      simp only [Adaptive.vdot, List.map_cons, List.zipWith_cons_cons, List.sum_cons] at ih ⊢
      rw [ih, eval_eq_sum, Polynomial.sum, sum_mul, ← sum_add_distrib]
      exact sum_congr rfl fun k _ => by ring

/-- It is enough to look at the powers of `x`; the odd ones must come out exactly. -/
theorem approx_of_pow {P W : List ℝ} {d : ℕ} {eps : ℝ} (hl : P.length = W.length) (he : 0 ≤ eps)
    (hodd : ∀ k, Odd k → Adaptive.vdot (P.map fun x => x ^ k) W = 0)
    (heven : ∀ m, 2 * m ≤ d → |Adaptive.vdot (P.map fun x => x ^ (2 * m)) W - √Real.pi * g1 (2 * m)| ≤
      eps * (√Real.pi * g1 (2 * m))) : Approx P W d eps := by
  refine ⟨hl, fun p hp => ?_⟩
  have e1 : ∫ x, p.eval x * Real.exp (-x ^ 2) = ∑ k ∈ p.support, p.coeff k * (√Real.pi * g1 k) := by
    have : (fun x => p.eval x * Real.exp (-x ^ 2)) =
        fun x => ∑ k ∈ p.support, p.coeff k * (x ^ k * Real.exp (-x ^ 2)) := by
      funext x
      rw [eval_eq_sum, Polynomial.sum, sum_mul]
      exact sum_congr rfl fun k _ => by ring
    rw [this, integral_finsetSum _ fun k _ => (integrable_pow_gauss k).const_mul _]
    exact sum_congr rfl fun k _ => by rw [integral_const_mul, integral_pow_gauss]
  have e2 : ∫ x, (∑ k ∈ p.support, |p.coeff k| * |x| ^ k) * Real.exp (-x ^ 2) =
      ∑ k ∈ p.support, |p.coeff k| * ∫ x, |x| ^ k * Real.exp (-x ^ 2) := by
    have : (fun x : ℝ => (∑ k ∈ p.support, |p.coeff k| * |x| ^ k) * Real.exp (-x ^ 2)) =
        fun x => ∑ k ∈ p.support, |p.coeff k| * (|x| ^ k * Real.exp (-x ^ 2)) := by
      funext x
      rw [sum_mul]
      exact sum_congr rfl fun k _ => by ring
    rw [this, integral_finsetSum _ fun k _ => (integrable_abs_pow_gauss k).const_mul _]
    exact sum_congr rfl fun k _ => by rw [integral_const_mul]
  rw [vdot_pow, e1, e2, ← sum_sub_distrib, mul_sum]
  refine (abs_sum_le_sum_abs _ _).trans (sum_le_sum fun k hk => ?_)
  rw [← mul_sub, abs_mul, mul_left_comm]
  refine mul_le_mul_of_nonneg_left ?_ (abs_nonneg _)
  rcases Nat.even_or_odd' k with ⟨m, rfl | rfl⟩
  · have hm : 2 * m ≤ d := (le_natDegree_of_mem_supp _ hk).trans hp
    refine (heven m hm).trans (le_of_eq ?_)
    rw [← integral_pow_gauss]
    simp only [pow_mul, sq_abs]
  · rw [hodd _ ⟨m, rfl⟩, g1_odd ⟨m, rfl⟩, mul_zero, sub_zero, abs_zero]
    exact mul_nonneg he (integral_nonneg fun x => by positivity)

theorem vdot_mirror (r v : List ℝ) (w0 : ℝ) (h : r.length = v.length) (k : ℕ) :
    Adaptive.vdot ((mirrorNeg (0 :: r)).map fun x => x ^ k) (mirror (w0 :: v)) =
      w0 * 0 ^ k + (1 + (-1) ^ k) * (List.zipWith (fun a b => b * a ^ k) r v).sum := by
  have e : ∀ (r v : List ℝ), r.length = v.length →
      (List.zipWith (fun a b : ℝ => a * b) (r.map fun x => (-x) ^ k) v).sum =
        (-1) ^ k * (List.zipWith (fun a b => b * a ^ k) r v).sum := by
    intro r v h
    induction r generalizing v with
    | nil => simp
    | cons a r ih =>
      cases v with
      | nil => simp at h
      | cons b v =>
        simp only [List.map_cons, List.zipWith_cons_cons, List.sum_cons]
        rw [ih v (by simpa using h), neg_pow]
        ring
  have e' : (List.zipWith (fun a b : ℝ => a * b) (r.map fun x => x ^ k) v) =
      (List.zipWith (fun a b => b * a ^ k) r v) := by
    rw [List.zipWith_map_left]
    congr 1
    funext a b
    ring
  simp only [mirrorNeg, mirror, List.tail_cons, List.take_succ_cons, List.take_zero, List.map_append,
    List.map_map, List.map_cons, List.map_nil, Adaptive.vdot]
  rw [List.zipWith_append (by simp [h]), List.zipWith_append (by simp [h]), List.sum_append,
    List.sum_append, e']
  have := e r.reverse v.reverse (by simp [h])
  rw [← List.reverse_zipWith h, List.sum_reverse] at this
  simp only [Function.comp_def]
  rw [this]
  simp
  ring

/-- The sum of `v * q ^ m`. -/
def qSum (Q : List ℕ) (V : List ℤ) (m : ℕ) : ℤ :=
  (List.zipWith (fun q v => v * ((q ^ m : ℕ) : ℤ)) Q V).foldr (fun x s => x + s) 0

/-- The even moments up to `2 * M` agree up to the relative error `1 / T`. -/
def checkQ (M : ℕ) (W0 : ℤ) (V : List ℤ) (Q : List ℕ) (D2 lo hi T : ℕ) : Bool :=
  (List.range (M + 1)).all fun m =>
    Nat.ble ((Int.natAbs (((bif Nat.beq m 0 then W0 else 0) + 2 * qSum Q V m) * ((2 ^ m : ℕ) : ℤ) -
      ((lo * oddFacN m * D2 ^ m : ℕ) : ℤ)) + (hi - lo) * oddFacN m * D2 ^ m) * T)
      (lo * oddFacN m * D2 ^ m)

theorem qSum_cast {Dw D2 : ℕ} (m : ℕ) : ∀ {r : List ℝ} {Q : List ℕ} {V : List ℤ},
    (r.map fun x => x ^ 2) = Q.map (fun q : ℕ => (q : ℝ) / D2) →
    (List.zipWith (fun a b => b * a ^ (2 * m)) r (V.map (rz Dw))).sum =
      (qSum Q V m : ℝ) / (Dw * (D2 : ℝ) ^ m)
  | [], [], V, _ => by simp [qSum]
  | [], q :: Q, V, h => by simp at h
  | x :: r, [], V, h => by simp at h
  | x :: r, q :: Q, [], h => by simp [qSum]
  | x :: r, q :: Q, v :: V, h => by
    simp only [List.map_cons, List.cons.injEq] at h
    have ih := qSum_cast (Dw := Dw) m (V := V) h.2
    have e : qSum (q :: Q) (v :: V) m = v * ((q ^ m : ℕ) : ℤ) + qSum Q V m := rfl
    rw [List.map_cons, List.zipWith_cons_cons, List.sum_cons, ih, e, pow_mul, h.1, rz, div_pow,
      div_mul_div_comm]
    push_cast
    rw [add_div]

theorem checkQ_sound {M : ℕ} {W0 : ℤ} {V : List ℤ} {Q : List ℕ} {Dw D2 lo hi T : ℕ} {r : List ℝ}
    (hDw : 0 < Dw) (hD : 0 < D2) (hlo : 0 < lo) (hT : 0 < T)
    (hr : (r.map fun x => x ^ 2) = Q.map fun q : ℕ => (q : ℝ) / D2)
    (h1 : (lo : ℝ) / Dw ≤ √Real.pi) (h2 : √Real.pi ≤ (hi : ℝ) / Dw)
    (hc : checkQ M W0 V Q D2 lo hi T = true) {m : ℕ} (hm : m ≤ M) :
    |rz Dw W0 * 0 ^ (2 * m) + (1 + (-1) ^ (2 * m)) *
      (List.zipWith (fun a b => b * a ^ (2 * m)) r (V.map (rz Dw))).sum - √Real.pi * g1 (2 * m)| ≤
      1 / T * (√Real.pi * g1 (2 * m)) := by
  have h3 := List.all_eq_true.1 hc m (List.mem_range.2 (by omega))
  rw [Nat.ble_eq] at h3
  have e1 : rz Dw W0 * 0 ^ (2 * m) + (1 + (-1) ^ (2 * m)) *
      (List.zipWith (fun a b => b * a ^ (2 * m)) r (V.map (rz Dw))).sum =
      (((bif Nat.beq m 0 then W0 else 0) + 2 * qSum Q V m : ℤ) : ℝ) / (Dw * (D2 : ℝ) ^ m) := by
    rw [qSum_cast m hr, pow_mul (-1 : ℝ)]
    rcases Nat.eq_zero_or_pos m with rfl | hm
    · simp [rz]
      ring
    · have : Nat.beq m 0 = false := by
        rw [Bool.eq_false_iff]
        intro hb
        have := Nat.eq_of_beq_eq_true hb
        omega
      rw [this, cond_false, zero_pow (by omega)]
      push_cast
      norm_num
      ring
  rw [e1, g1_two_mul, ← oddFacN_cast]
  set s := (bif Nat.beq m 0 then W0 else 0) + 2 * qSum Q V m
  set o := oddFacN m
  have hDw' : (0 : ℝ) < Dw := by exact_mod_cast hDw
  have hlo' : (0 : ℝ) < lo := by exact_mod_cast hlo
  have hT' : (0 : ℝ) < T := by exact_mod_cast hT
  have hD' : (0 : ℝ) < (D2 : ℝ) ^ m := by positivity
  have ho : (0 : ℝ) ≤ o := by positivity
  have hp : (0 : ℝ) < √Real.pi := Real.sqrt_pos.2 Real.pi_pos
  have hV1 : (lo : ℝ) ≤ √Real.pi * Dw := by rwa [div_le_iff₀ hDw'] at h1
  have hV2 : √Real.pi * Dw ≤ (hi : ℝ) := by rwa [le_div_iff₀ hDw'] at h2
  have hlh : lo ≤ hi := by exact_mod_cast hV1.trans hV2
  have h4 : (|(s : ℝ) * 2 ^ m - lo * o * (D2 : ℝ) ^ m| + ((hi : ℝ) - lo) * o * (D2 : ℝ) ^ m) * T ≤
      lo * o * (D2 : ℝ) ^ m := by
    have h5 : (((Int.natAbs (s * ((2 ^ m : ℕ) : ℤ) - ((lo * o * D2 ^ m : ℕ) : ℤ)) +
        (hi - lo) * o * D2 ^ m) * T : ℕ) : ℝ) ≤ (lo * o * D2 ^ m : ℕ) := by exact_mod_cast h3
    push_cast [Nat.cast_natAbs, Nat.cast_sub hlh] at h5
    exact h5
  have h6 : |(s : ℝ) * 2 ^ m - √Real.pi * Dw * o * (D2 : ℝ) ^ m| ≤
      |(s : ℝ) * 2 ^ m - lo * o * (D2 : ℝ) ^ m| + ((hi : ℝ) - lo) * o * (D2 : ℝ) ^ m := by
    have e2 : (s : ℝ) * 2 ^ m - √Real.pi * Dw * o * (D2 : ℝ) ^ m =
        (s * 2 ^ m - lo * o * (D2 : ℝ) ^ m) + -((√Real.pi * Dw - lo) * o * (D2 : ℝ) ^ m) := by ring
    rw [e2]
    refine (abs_add_le _ _).trans (add_le_add le_rfl ?_)
    rw [abs_neg, abs_of_nonneg (by have : 0 ≤ √Real.pi * Dw - lo := by linarith
                                   positivity)]
    gcongr
  have h7 : |(s : ℝ) * 2 ^ m - √Real.pi * Dw * o * (D2 : ℝ) ^ m| * T ≤
      √Real.pi * Dw * o * (D2 : ℝ) ^ m := by
    refine (mul_le_mul_of_nonneg_right h6 hT'.le).trans (h4.trans ?_)
    gcongr
  have e3 : (s : ℝ) / (Dw * (D2 : ℝ) ^ m) - √Real.pi * (o / 2 ^ m) =
      (s * 2 ^ m - √Real.pi * Dw * o * (D2 : ℝ) ^ m) / (Dw * (D2 : ℝ) ^ m * 2 ^ m) := by
    field_simp
  have e4 : 1 / (T : ℝ) * (√Real.pi * (o / 2 ^ m)) =
      (√Real.pi * Dw * o * (D2 : ℝ) ^ m) / T / (Dw * (D2 : ℝ) ^ m * 2 ^ m) := by
    field_simp
  rw [e3, e4, abs_div, abs_of_pos (by positivity : (0 : ℝ) < Dw * (D2 : ℝ) ^ m * 2 ^ m)]
  gcongr
  rwa [le_div_iff₀ hT']

theorem sort_eq {L : List ℝ} (I : List ℕ) (hI : I.Perm (List.range L.length))
    (hs : (I.map fun i => L.getD i 0).Pairwise (· < ·)) : sort L = I.map fun i => L.getD i 0 := by
  have e : L = (List.range L.length).map fun i => L.getD i 0 := by
    apply List.ext_getElem
    · simp
    · intro i h1 h2
      simp [h1]
  have hp : (sort L).Perm (I.map fun i => L.getD i 0) := by
    refine (List.perm_insertionSort _ L).trans ?_
    conv_lhs => rw [e]
    exact (hI.map _).symm
  refine hp.eq_of_pairwise (le := (· ≤ ·)) (fun a b _ _ h1 h2 => le_antisymm h1 h2)
    (List.pairwise_insertionSort _ L) (hs.imp le_of_lt)

theorem pairwise_mirrorNeg {r : List ℝ} (h : (0 :: r).Pairwise (· < ·)) :
    (mirrorNeg (0 :: r)).Pairwise (· < ·) := by
  rw [List.pairwise_cons] at h
  simp only [mirrorNeg, List.tail_cons, List.take_succ_cons, List.take_zero]
  rw [List.pairwise_append, List.pairwise_append]
  refine ⟨⟨?_, List.pairwise_singleton _ _, ?_⟩, h.2, ?_⟩
  · rw [List.pairwise_map, List.pairwise_reverse]
    exact h.2.imp fun {a b} hab => by linarith
  · intro a ha b hb
    obtain ⟨x, hx, rfl⟩ := List.mem_map.1 ha
    rw [List.mem_singleton.1 hb]
    have := h.1 x (List.mem_reverse.1 hx)
    linarith
  · intro a ha b hb
    have hb := h.1 b hb
    rcases List.mem_append.1 ha with ha | ha
    · obtain ⟨x, hx, rfl⟩ := List.mem_map.1 ha
      have := h.1 x (List.mem_reverse.1 hx)
      linarith
    · rw [List.mem_singleton.1 ha]; exact hb

theorem mem_mirrorNeg {r : List ℝ} (x : ℝ) :
    x ∈ mirrorNeg (0 :: r) ↔ x ∈ 0 :: r ∨ -x ∈ 0 :: r := by
  have e : (∃ a ∈ r, -a = x) ↔ -x ∈ r :=
    ⟨fun ⟨a, h, e⟩ => by rw [← e, neg_neg]; exact h, fun h => ⟨-x, h, neg_neg x⟩⟩
  simp only [mirrorNeg, List.tail_cons, List.take_succ_cons, List.take_zero, List.mem_append,
    List.mem_map, List.mem_reverse, List.mem_cons, List.not_mem_nil, or_false, neg_eq_zero, e]
  tauto

theorem mirror_reverse (w0 : ℝ) (v : List ℝ) : (mirror (w0 :: v)).reverse = mirror (w0 :: v) := by
  simp [mirror]

theorem mirrorNeg_reverse (r : List ℝ) :
    (mirrorNeg (0 :: r)).reverse = (mirrorNeg (0 :: r)).map fun x => -x := by
  simp [mirrorNeg, Function.comp_def]

theorem mem_sort {L : List ℝ} {x : ℝ} : x ∈ sort L ↔ x ∈ L :=
  (List.perm_insertionSort (· ≤ ·) L).mem_iff

end GenzKeister
end Quadpy
