import Verif.Props.C24Stoyanova

/-!
C24, continued: for which dimensions `stoyanova(n)` returns a rule at all, if no `delta` is given.
-/

namespace Quadpy
open Finset Un
namespace Sn
namespace Stoy

/-- Closed forms of the quantities of lines 139-146, with `D = 1 / delta^2`. -/
noncomputable def qC (n : ℝ) : ℝ := 9 * n ^ 2 - 793 * n + 1800
noncomputable def u0C (n D : ℝ) : ℝ := ((n + 6) * (n + 1) * (-9 * n ^ 2 + 135 * n - 342) +
  D * (5 * n - 3) * (-146 * n ^ 2 + 570 * n - 360)) / (n * (n - 3) * qC n)
noncomputable def w0C (n D : ℝ) : ℝ := ((n + 6) * (n + 1) - 2 * D * (5 * n - 3)) / (3 * (n - 2) * (n - 3))
noncomputable def p1C (n : ℝ) : ℝ := -18 * (n - 1) ^ 2 * (n - 4) ^ 2 / (n * (n - 3) * qC n)
noncomputable def p2C (n : ℝ) : ℝ := -2 * (n - 1) * (n - 4) / (3 * (n - 2) * (n - 3))
noncomputable def kC (n : ℝ) : ℝ := (n + 6) * (n + 4) * (n + 2) * (n + 1) ^ 2 * (n - 3) ^ 2
noncomputable def d1C (n : ℝ) : ℝ := n * (n - 1) ^ 3 * (n - 4) * 4 *
  (365 * n ^ 3 - 3054 * n ^ 2 + 8861 * n - 8712) / (kC n * qC n)
noncomputable def d2C (n D : ℝ) : ℝ := n * (n - 1) ^ 2 * (n - 4) * ((n + 6) * (n + 1) *
  (640 * n ^ 2 - 2504 * n + 2232) + D * (5 * n - 3) *
  (164 * n ^ 3 - 2776 * n ^ 2 + 9412 * n - 8640)) / (kC n * qC n)
noncomputable def d0C (n D : ℝ) : ℝ := n ^ 2 * (n - 1) ^ 3 * (n - 4) * ((n + 6) *
  (-6400 * n ^ 3 + 19120 * n ^ 2 + 6752 * n - 24912) + D * (n + 6) * (5 * n - 3) ^ 2 * (512 * n - 1472) +
  D ^ 2 * (n + 4) * (5 * n - 3) ^ 2 * (-256 * n + 736)) /
  (kC n * qC n * ((n + 6) * (n + 4) * (n + 2)))

section
variable {n D : ℝ} (hn : 5 ≤ n) (hq : qC n ≠ 0)
include hn hq

theorem u0_eq : n * (3 * (n - 2) * (3 * n ^ 2 / ((n + 2) * (n + 4)) -
    E1 n * D * (41 * n ^ 3 - 101 * n ^ 2 + 155 * n - 87) / (2 * (5 * n - 3) ^ 2)) -
    (n ^ 2 - 7 * n + 19) * (n / (n + 4) - E1 n * D)) / (2 * (n - 3) * (n + 1) ^ 2 * A1 n) = u0C n D := by
  have h0 : n ≠ 0 := by linarith
  have h3 : n - 3 ≠ 0 := by linarith
  have p1 : n + 1 ≠ 0 := by linarith
  have p2 : n + 2 ≠ 0 := by linarith
  have p4 : n + 4 ≠ 0 := by linarith
  have p6 : n + 6 ≠ 0 := by linarith
  have h5 : 5 * n - 3 ≠ 0 := by linarith
  have e : E1 n * D * (41 * n ^ 3 - 101 * n ^ 2 + 155 * n - 87) / (2 * (5 * n - 3) ^ 2) =
      4 * n * (5 * n - 3) * D * (41 * n ^ 3 - 101 * n ^ 2 + 155 * n - 87) /
        (18 * ((n + 1) ^ 2 * (n + 2) * (n + 4) * (n + 6))) := by
    unfold E1
    generalize 5 * n - 3 = r at *
    field_simp
    ring
  rw [e]
  unfold u0C A1 E1
  rw [show 9 * n ^ 2 - 793 * n + 1800 = qC n from rfl, div_eq_div_iff (by positivity) (by positivity)]
  unfold qC
  field_simp
  ring

omit hq in
theorem w0_eq : 3 * (n - 2) * ((3 * n ^ 2 / ((n + 2) * (n + 4)) -
    E1 n * D * (41 * n ^ 3 - 101 * n ^ 2 + 155 * n - 87) / (2 * (5 * n - 3) ^ 2)) *
    (2 * (n - 3) * (n + 1) ^ 2 - (n ^ 2 - n + 1) * (3 * (n - 2))) +
    (n ^ 2 - 7 * n + 19) * (n ^ 2 - n + 1) * (n / (n + 4) - E1 n * D)) /
    ((n ^ 2 - 7 * n + 19) * (2 * (n - 3) * (n + 1) ^ 2) * C1 n) = w0C n D := by
  have h0 : n ≠ 0 := by linarith
  have h1 : n - 1 ≠ 0 := by linarith
  have h2 : n - 2 ≠ 0 := by linarith
  have h3 : n - 3 ≠ 0 := by linarith
  have h4 : n - 4 ≠ 0 := by linarith
  have p1 : n + 1 ≠ 0 := by linarith
  have p2 : n + 2 ≠ 0 := by linarith
  have p4 : n + 4 ≠ 0 := by linarith
  have p6 : n + 6 ≠ 0 := by linarith
  have h5 : 5 * n - 3 ≠ 0 := by linarith
  have q13' : n * (n - 7) + 19 ≠ 0 := by nlinarith [sq_nonneg (2 * n - 7)]
  have e : E1 n * D * (41 * n ^ 3 - 101 * n ^ 2 + 155 * n - 87) / (2 * (5 * n - 3) ^ 2) =
      4 * n * (5 * n - 3) * D * (41 * n ^ 3 - 101 * n ^ 2 + 155 * n - 87) /
        (18 * ((n + 1) ^ 2 * (n + 2) * (n + 4) * (n + 6))) := by
    unfold E1
    generalize 5 * n - 3 = r at *
    field_simp
    ring
  rw [e]
  unfold w0C C1 E1
  field_simp
  ring

theorem p1_eq : n * (n - 4) * B1 n / (4 * ((n - 1) * (n - 3)) * A1 n) = p1C n := by
  have h0 : n ≠ 0 := by linarith
  have h1 : n - 1 ≠ 0 := by linarith
  have h2 : n - 2 ≠ 0 := by linarith
  have h3 : n - 3 ≠ 0 := by linarith
  have h4 : n - 4 ≠ 0 := by linarith
  have p1 : n + 1 ≠ 0 := by linarith
  have p2 : n + 2 ≠ 0 := by linarith
  have p4 : n + 4 ≠ 0 := by linarith
  have p6 : n + 6 ≠ 0 := by linarith
  unfold p1C A1 B1
  rw [show 9 * n ^ 2 - 793 * n + 1800 = qC n from rfl]
  field_simp

omit hq in
theorem p2_eq : (n ^ 3 - 9 * n ^ 2 + 33 * n - 38) * (3 * (n - 2)) * B1 n /
    (4 * ((n - 1) * (n - 3)) * (n ^ 2 - 7 * n + 19) * C1 n) = p2C n := by
  have h0 : n ≠ 0 := by linarith
  have h1 : n - 1 ≠ 0 := by linarith
  have h2 : n - 2 ≠ 0 := by linarith
  have h3 : n - 3 ≠ 0 := by linarith
  have h4 : n - 4 ≠ 0 := by linarith
  have p1 : n + 1 ≠ 0 := by linarith
  have p2 : n + 2 ≠ 0 := by linarith
  have p4 : n + 4 ≠ 0 := by linarith
  have p6 : n + 6 ≠ 0 := by linarith
  have q13' : n * (n - 7) + 19 ≠ 0 := by nlinarith [sq_nonneg (2 * n - 7)]
  unfold p2C C1 B1
  field_simp
  ring

omit hn hq in
theorem A1_eq : A1 n = n ^ 3 * qC n / (18 * ((n + 1) ^ 2 * (n + 2) * (n + 4) * (n + 6))) := rfl

theorem d1_eq : A1 n * p1C n ^ 2 + C1 n * p2C n ^ 2 + B1 n = d1C n := by
  have h0 : n ≠ 0 := by linarith
  have h1 : n - 1 ≠ 0 := by linarith
  have h2 : n - 2 ≠ 0 := by linarith
  have h3 : n - 3 ≠ 0 := by linarith
  have h4 : n - 4 ≠ 0 := by linarith
  have p1 : n + 1 ≠ 0 := by linarith
  have p2 : n + 2 ≠ 0 := by linarith
  have p4 : n + 4 ≠ 0 := by linarith
  have p6 : n + 6 ≠ 0 := by linarith
  unfold p1C p2C d1C C1 B1 kC
  rw [A1_eq]
  field_simp
  unfold qC
  ring

theorem d2_eq : A1 n * p1C n * u0C n D + C1 n * p2C n * w0C n D = d2C n D := by
  have h0 : n ≠ 0 := by linarith
  have h1 : n - 1 ≠ 0 := by linarith
  have h2 : n - 2 ≠ 0 := by linarith
  have h3 : n - 3 ≠ 0 := by linarith
  have h4 : n - 4 ≠ 0 := by linarith
  have p1 : n + 1 ≠ 0 := by linarith
  have p2 : n + 2 ≠ 0 := by linarith
  have p4 : n + 4 ≠ 0 := by linarith
  have p6 : n + 6 ≠ 0 := by linarith
  unfold p1C p2C d2C C1 kC u0C w0C
  rw [A1_eq]
  field_simp
  unfold qC
  ring

theorem d0_eq : d2C n D ^ 2 - d1C n * (A1 n * u0C n D ^ 2 + C1 n * w0C n D ^ 2 -
    (n / (n + 2) - E1 n * D ^ 2)) = d0C n D := by
  have h0 : n ≠ 0 := by linarith
  have h1 : n - 1 ≠ 0 := by linarith
  have h2 : n - 2 ≠ 0 := by linarith
  have h3 : n - 3 ≠ 0 := by linarith
  have h4 : n - 4 ≠ 0 := by linarith
  have p1 : n + 1 ≠ 0 := by linarith
  have p2 : n + 2 ≠ 0 := by linarith
  have p4 : n + 4 ≠ 0 := by linarith
  have p6 : n + 6 ≠ 0 := by linarith
  unfold d2C d1C d0C C1 kC u0C w0C E1
  rw [A1_eq]
  field_simp
  unfold qC
  ring

theorem d1C_ne : d1C n ≠ 0 := by
  have h0 : n ≠ 0 := by linarith
  have h1 : n - 1 ≠ 0 := by linarith
  have h3 : n - 3 ≠ 0 := by linarith
  have h4 : n - 4 ≠ 0 := by linarith
  have p1 : n + 1 ≠ 0 := by linarith
  have p2 : n + 2 ≠ 0 := by linarith
  have p4 : n + 4 ≠ 0 := by linarith
  have p6 : n + 6 ≠ 0 := by linarith
  have hc : 365 * n ^ 3 - 3054 * n ^ 2 + 8861 * n - 8712 ≠ 0 := by
    obtain ⟨m, rfl⟩ : ∃ m, n = m + 5 := ⟨n - 5, by ring⟩
    have hm : 0 ≤ m := by linarith
    have : 365 * (m + 5) ^ 3 - 3054 * (m + 5) ^ 2 + 8861 * (m + 5) - 8712 =
      365 * m ^ 3 + 2421 * m ^ 2 + 5696 * m + 4868 := by ring
    rw [this]; positivity
  unfold d1C kC
  positivity

/-- Lines 133-152 in closed form. -/
theorem uvw_eq {δ : ℝ} (hδ : δ ≠ 0) (vp : Bool) :
    stoyanovaUVW n δ vp ⟨A1 n, B1 n, C1 n, E1 n⟩ = (sqrtO (d0C n (1 / δ ^ 2))).map fun r =>
      (u0C n (1 / δ ^ 2) - p1C n * ((if vp then d2C n (1 / δ ^ 2) + r else d2C n (1 / δ ^ 2) - r) / d1C n),
        (if vp then d2C n (1 / δ ^ 2) + r else d2C n (1 / δ ^ 2) - r) / d1C n,
        w0C n (1 / δ ^ 2) - p2C n * ((if vp then d2C n (1 / δ ^ 2) + r else d2C n (1 / δ ^ 2) - r) / d1C n)) := by
  have h0 : n ≠ 0 := by linarith
  have h1 : n - 1 ≠ 0 := by linarith
  have h2 : n - 2 ≠ 0 := by linarith
  have h3 : n - 3 ≠ 0 := by linarith
  have h4 : n - 4 ≠ 0 := by linarith
  have p1 : n + 1 ≠ 0 := by linarith
  have p2 : n + 2 ≠ 0 := by linarith
  have p4 : n + 4 ≠ 0 := by linarith
  have p6 : n + 6 ≠ 0 := by linarith
  have h5 : 5 * n - 3 ≠ 0 := by linarith
  have q13 : n ^ 2 - 7 * n + 19 ≠ 0 := by nlinarith [sq_nonneg (2 * n - 7)]
  have hA : A1 n ≠ 0 := by rw [A1_eq]; positivity
  have hC : C1 n ≠ 0 := by unfold C1; positivity
  have hd1 := d1C_ne hn hq
  have hb : ∀ x y : ℝ, y ≠ 0 → divO x y = some (x / y) := fun x y h => divO_some.2 ⟨h, rfl⟩
  have eD4 : E1 n / δ ^ 4 = E1 n * (1 / δ ^ 2) ^ 2 := by field_simp
  have eD2 : E1 n / δ ^ 2 = E1 n * (1 / δ ^ 2) := by field_simp
  have eD2' : E1 n * (41 * n ^ 3 - 101 * n ^ 2 + 155 * n - 87) / (2 * (5 * n - 3) ^ 2 * δ ^ 2) =
      E1 n * (1 / δ ^ 2) * (41 * n ^ 3 - 101 * n ^ 2 + 155 * n - 87) / (2 * (5 * n - 3) ^ 2) := by
    field_simp
  simp only [stoyanovaUVW]
  rw [hb _ _ (by positivity), hb _ _ (by positivity), hb _ _ (by positivity)]
  simp only [Option.bind_eq_bind, Option.bind_some, eD4, eD2, eD2']
  rw [hb _ _ (by positivity), hb _ _ (by positivity), hb _ _ (by positivity), hb _ _ (by positivity)]
  simp only [Option.bind_some, u0_eq hn hq, w0_eq hn, p1_eq hn hq, p2_eq hn, d1_eq hn hq, d2_eq hn hq,
    d0_eq hn hq]
  cases sqrtO (d0C n (1 / δ ^ 2)) with
  | none => rfl
  | some r => simp only [Option.bind_some, hb _ _ hd1, Option.map_some]; rfl

end

theorem len_of {L : List (List ℝ)} {k : ℕ} {n : ℕ} (h : M (0 : Fin n → ℝ) L 0 = k) : L.length = k := by
  rw [M_zero] at h; exact_mod_cast h

/-- The four assertions of lines 82-85 hold. -/
theorem lengths {n : ℕ} (hn : 5 ≤ n) : (withNeg (getNsimplexPoints n)).length = 2 * (n + 1) ∧
    (withNeg (edgePoints n)).length = n * (n + 1) ∧
    (if 5 < n then withNeg (facePoints n) else facePoints n).length =
      (if n = 5 then (n + 1) * n * (n - 1) / 6 else (n + 1) * n * (n - 1) / 3) ∧
    (withNeg (quarterPoints n)).length = 2 * n * (n + 1) := by
  have hp := pairs_zero (n := n)
  have ht : 6 * ∑ i ∈ range (n + 1), ∑ j ∈ range i, ∑ l ∈ range j, (1 : ℝ) = (n + 1) * n * (n - 1) := by
    rw [Frame.sum_triples (n + 1) (fun _ _ _ => (1 : ℝ)) (fun _ _ _ => rfl) (fun _ _ _ => rfl)]
    simp only [sum_const, card_range, nsmul_eq_mul, mul_one]
    push_cast
    ring
  refine ⟨len_of (n := n) ?_, len_of (n := n) ?_, len_of (n := n) ?_, len_of (n := n) ?_⟩
  · rw [M_withNeg, M_simplex]; simp only [pow_zero, sum_const, card_range, nsmul_eq_mul]; push_cast; ring
  · rw [M_withNeg, M_edge]; simp only [pow_zero, hp]; push_cast; ring
  · rw [n3_cast hn]
    have hf : M (0 : Fin n → ℝ) (facePoints n) 0 = (n + 1) * n * (n - 1) / 6 := by
      rw [M_face]; simp only [pow_zero]; linarith
    split_ifs
    · rw [M_withNeg, hf]; norm_num
    · rw [hf]; ring
  · rw [M_withNeg, M_quarter]; simp only [pow_zero, hp]; push_cast; ring

/-- When the function returns a scheme. -/
theorem isSome_iff {n : ℕ} (hn : 5 ≤ n) {δ : ℝ} (vp : Bool) :
    (stoyanovaWith n δ vp).isSome ↔ ∃ u v w, stoyanovaUVW n δ vp ⟨A1 n, B1 n, C1 n, E1 n⟩ = some (u, v, w) ∧
      0 < u ∧ 0 < v ∧ 0 < w := by
  have hnR : (5 : ℝ) ≤ n := by exact_mod_cast hn
  have hinv : ∀ x : ℝ, x ≠ 0 ∧ 0 ≤ 1 / x ↔ 0 < x := fun x => by
    rw [one_div, inv_nonneg]
    exact ⟨fun h => lt_of_le_of_ne h.2 h.1.symm, fun h => ⟨h.ne', h.le⟩⟩
  rw [Option.isSome_iff_exists]
  simp only [stoyanovaWith, guard, hn, if_true, Option.bind_eq_bind, Option.bind_eq_some_iff,
    Option.pure_def, weights_eq hnR, Option.some.injEq, divO_some, exists_eq_left',
    Option.ite_none_right_eq_some, Option.failure_eq_none, sqrtO]
  constructor
  · rintro ⟨S, -, -, -, -, ⟨u, v, w⟩, h, l2, ⟨hu, rfl⟩, b2, ⟨hv, rfl⟩, g2, ⟨hw, rfl⟩, la, ⟨hla, -⟩,
      be, ⟨hbe, -⟩, ga, ⟨hga, -⟩, -⟩
    exact ⟨u, v, w, h, (hinv _).1 ⟨hu, hla⟩, (hinv _).1 ⟨hv, hbe⟩, (hinv _).1 ⟨hw, hga⟩⟩
  · rintro ⟨u, v, w, h, hu, hv, hw⟩
    have hu := (hinv _).2 hu
    have hv := (hinv _).2 hv
    have hw := (hinv _).2 hw
    exact ⟨_, (), trivial, (), ⟨lengths hn, trivial⟩, (u, v, w), h, _, ⟨hu.1, rfl⟩, _, ⟨hv.1, rfl⟩, _, ⟨hw.1, rfl⟩, _,
      ⟨hu.2, rfl⟩, _, ⟨hv.2, rfl⟩, _, ⟨hw.2, rfl⟩, rfl⟩

theorem isSome_of {n : ℕ} (hn : 5 ≤ n) {δ : ℝ} (hδ : δ ≠ 0) (vp : Bool) (hq : qC n ≠ 0)
    {D : ℝ} (hD : 1 / δ ^ 2 = D) (h0 : 0 ≤ d0C n D) {v : ℝ}
    (hv : v = (if vp then d2C n D + √(d0C n D) else d2C n D - √(d0C n D)) / d1C n)
    (h1 : 0 < v) (h2 : 0 < u0C n D - p1C n * v) (h3 : 0 < w0C n D - p2C n * v) :
    (stoyanovaWith n δ vp).isSome := by
  have hnR : (5 : ℝ) ≤ n := by exact_mod_cast hn
  rw [isSome_iff hn, uvw_eq hnR hq hδ, hD, sqrtO_some h0]
  refine ⟨_, _, _, rfl, ?_, ?_, ?_⟩ <;> rw [← hv] <;> assumption

theorem none_of {n : ℕ} (hn : 5 ≤ n) {δ : ℝ} (hδ : δ ≠ 0) (vp : Bool) (hq : qC n ≠ 0)
    {D : ℝ} (hD : 1 / δ ^ 2 = D) (h0 : d0C n D < 0) : stoyanovaWith n δ vp = none := by
  have hnR : (5 : ℝ) ≤ n := by exact_mod_cast hn
  have := isSome_iff hn (δ := δ) vp
  rw [uvw_eq hnR hq hδ, hD, sqrtO, if_neg (not_le.2 h0)] at this
  simp at this
  exact this

/-- The dimensions 5, ..., 9, where `d1` and `d2` are negative. -/
theorem small_plus {n : ℕ} (hn : 5 ≤ n) {δ : ℝ} (hδ : δ ≠ 0) (hq : qC n ≠ 0)
    {D : ℝ} (hD : 1 / δ ^ 2 = D) (h0 : 0 ≤ d0C n D) (hd1 : d1C n < 0) (hd2 : d2C n D < 0)
    (h02 : d0C n D < d2C n D ^ 2) (hp1 : 0 < p1C n) (hp2 : p2C n < 0) (hw : 0 < w0C n D)
    (hu : u0C n D * d1C n < p1C n * d2C n D) : (stoyanovaWith n δ true).isSome := by
  have hr : √(d0C n D) < -d2C n D := by
    rw [Real.sqrt_lt' (by linarith)]; nlinarith
  have hr0 := Real.sqrt_nonneg (d0C n D)
  have hv : 0 < (d2C n D + √(d0C n D)) / d1C n := div_pos_of_neg_of_neg (by linarith) hd1
  have hv2 : (d2C n D + √(d0C n D)) / d1C n * d1C n = d2C n D + √(d0C n D) := div_mul_cancel₀ _ hd1.ne
  refine isSome_of hn hδ true hq hD h0 rfl hv ?_ (by simp only [if_true]; nlinarith)
  simp only [if_true]
  generalize (d2C n D + √(d0C n D)) / d1C n = v at *
  have : (u0C n D - p1C n * v) * d1C n < 0 := by nlinarith
  exact pos_of_mul_neg_left this hd1.le

theorem small_minus {n : ℕ} (hn : 5 ≤ n) {δ : ℝ} (hδ : δ ≠ 0) (hq : qC n ≠ 0)
    {D : ℝ} (hD : 1 / δ ^ 2 = D) (h0 : 0 ≤ d0C n D) (hd1 : d1C n < 0) (hd2 : d2C n D < 0)
    (hp2 : p2C n < 0) (hw : w0C n D * d1C n < p2C n * d2C n D)
    (hu' : u0C n D * d1C n < p1C n * d2C n D) (hp1 : 0 < p1C n)
    (hu : p1C n ^ 2 * d0C n D < (u0C n D * d1C n - p1C n * d2C n D) ^ 2) :
    (stoyanovaWith n δ false).isSome := by
  have hr0 := Real.sqrt_nonneg (d0C n D)
  have hr2 := Real.sq_sqrt h0
  have hv : 0 < (d2C n D - √(d0C n D)) / d1C n := div_pos_of_neg_of_neg (by linarith) hd1
  have hv2 : (d2C n D - √(d0C n D)) / d1C n * d1C n = d2C n D - √(d0C n D) := div_mul_cancel₀ _ hd1.ne
  refine isSome_of hn hδ false hq hD h0 rfl hv ?_ ?_
  · simp only [Bool.false_eq_true, if_false]
    generalize (d2C n D - √(d0C n D)) / d1C n = v at *
    have hlt : p1C n * √(d0C n D) < -(u0C n D * d1C n - p1C n * d2C n D) :=
      lt_of_pow_lt_pow_left₀ 2 (by linarith) (by rw [mul_pow, hr2]; linarith)
    have : (u0C n D - p1C n * v) * d1C n < 0 := by nlinarith
    exact pos_of_mul_neg_left this hd1.le
  · simp only [Bool.false_eq_true, if_false]
    generalize (d2C n D - √(d0C n D)) / d1C n = v at *
    have : (w0C n D - p2C n * v) * d1C n < 0 := by nlinarith
    exact pos_of_mul_neg_left this hd1.le

theorem delta_plus {n : ℕ} (hn : 10 ≤ n) : stoyanovaDelta n true = 1 := by
  unfold stoyanovaDelta
  split <;> first | rfl | omega | simp_all

theorem delta_minus {n : ℕ} (hn : 10 ≤ n) : stoyanovaDelta n false = 4 / 5 := by
  unfold stoyanovaDelta
  split <;> first | rfl | omega | simp_all

theorem q_neg {n : ℝ} (h1 : 10 ≤ n) (h2 : n ≤ 85) : qC n < 0 := by
  unfold qC; nlinarith [mul_nonneg (sub_nonneg.2 h1) (sub_nonneg.2 h2)]

theorem q_pos {n : ℝ} (h1 : 86 ≤ n) : 0 < qC n := by
  unfold qC; nlinarith [mul_nonneg (sub_nonneg.2 h1) (sub_nonneg.2 h1)]

section
variable {n : ℝ} (hn : 10 ≤ n)
include hn

theorem kC_pos : 0 < kC n := by
  have : 0 < n - 3 := by linarith
  unfold kC
  have : 0 < n := by linarith
  positivity

/-- The discriminant for `delta = 1` has the sign of `qC`. -/
theorem d0_one : ∃ c, 0 < c ∧ d0C n 1 = c / qC n := by
  have hk := kC_pos hn
  obtain ⟨m, rfl⟩ : ∃ m, n = m + 10 := ⟨n - 10, by ring⟩
  have hm : 0 ≤ m := by linarith
  refine ⟨(m + 10) ^ 2 * (m + 9) ^ 3 * (m + 6) * (5840 * m ^ 3 + 112416 * m ^ 2 + 700368 * m + 1399616) /
    (kC (m + 10) * ((m + 16) * (m + 14) * (m + 12))), by positivity, ?_⟩
  unfold d0C
  rw [div_div]
  congr 1
  · ring
  · ring

/-- The discriminant for `delta = 4/5` has the opposite sign. -/
theorem d0_minus : ∃ c, 0 < c ∧ d0C n (25 / 16) = -c / qC n := by
  have hk := kC_pos hn
  obtain ⟨m, rfl⟩ : ∃ m, n = m + 10 := ⟨n - 10, by ring⟩
  have hm : 0 ≤ m := by linarith
  refine ⟨(m + 10) ^ 2 * (m + 9) ^ 3 * (m + 6) * (2025 * m ^ 4 + 484865/8 * m ^ 3 + 1398831/2 * m ^ 2 + 29405805/8 * m + 29531263/4) /
    (kC (m + 10) * ((m + 16) * (m + 14) * (m + 12))), by positivity, ?_⟩
  unfold d0C
  rw [← neg_div, div_div]
  congr 1
  · ring
  · ring

theorem d1_sign : ∃ c, 0 < c ∧ d1C n = c / qC n := by
  have hk := kC_pos hn
  obtain ⟨m, rfl⟩ : ∃ m, n = m + 10 := ⟨n - 10, by ring⟩
  have hm : 0 ≤ m := by linarith
  refine ⟨(m + 10) * (m + 9) ^ 3 * (m + 6) * 4 * (365 * m ^ 3 + 7896 * m ^ 2 + 57281 * m + 139498) / kC (m + 10), by positivity, ?_⟩
  unfold d1C
  rw [div_div]
  congr 1
  ring

theorem d2_one : ∃ c, 0 < c ∧ d2C n 1 = c / qC n := by
  have hk := kC_pos hn
  obtain ⟨m, rfl⟩ : ∃ m, n = m + 10 := ⟨n - 10, by ring⟩
  have hm : 0 ≤ m := by linarith
  refine ⟨(m + 10) * (m + 9) ^ 2 * (m + 6) * (1460 * m ^ 4 + 46004 * m ^ 3 + 548052 * m ^ 2 + 2929004 * m + 5928152) / kC (m + 10), by positivity, ?_⟩
  unfold d2C
  rw [div_div]
  congr 1
  ring

theorem d2_minus : ∃ c, 0 < c ∧ d2C n (25 / 16) = c / qC n := by
  have hk := kC_pos hn
  obtain ⟨m, rfl⟩ : ∃ m, n = m + 10 := ⟨n - 10, by ring⟩
  have hm : 0 ≤ m := by linarith
  refine ⟨(m + 10) * (m + 9) ^ 2 * (m + 6) * (7685/4 * m ^ 4 + 225479/4 * m ^ 3 + 2453721/4 * m ^ 2 + 11726645/4 * m + 10369459/2) / kC (m + 10), by positivity, ?_⟩
  unfold d2C
  rw [div_div]
  congr 1
  ring

theorem p2_neg : p2C n < 0 := by
  have h1 : 0 < n - 1 := by linarith
  have h2 : 0 < n - 2 := by linarith
  have h3 : 0 < n - 3 := by linarith
  have h4 : 0 < n - 4 := by linarith
  unfold p2C
  rw [neg_mul, neg_mul, neg_div]
  exact neg_lt_zero.2 (by positivity)

theorem p1_sign : ∃ c, 0 < c ∧ p1C n = -c / qC n := by
  have h0 : 0 < n := by linarith
  have h1 : 0 < n - 1 := by linarith
  have h3 : 0 < n - 3 := by linarith
  have h4 : 0 < n - 4 := by linarith
  refine ⟨18 * (n - 1) ^ 2 * (n - 4) ^ 2 / (n * (n - 3)), by positivity, ?_⟩
  unfold p1C
  rw [← neg_div, div_div]
  congr 1
  ring

theorem w0_one : 0 < w0C n 1 := by
  have h2 : 0 < n - 2 := by linarith
  have h3 : 0 < n - 3 := by linarith
  unfold w0C
  exact div_pos (by nlinarith) (by positivity)

theorem w0_minus : 0 < w0C n (25 / 16) := by
  have h2 : 0 < n - 2 := by linarith
  have h3 : 0 < n - 3 := by linarith
  unfold w0C
  exact div_pos (by nlinarith) (by positivity)

theorem u_one (hq : qC n ≠ 0) : ∃ c, 0 < c ∧ u0C n 1 * d1C n - p1C n * d2C n 1 = c / qC n := by
  have hk := kC_pos hn
  obtain ⟨m, rfl⟩ : ∃ m, n = m + 10 := ⟨n - 10, by ring⟩
  have hm : 0 ≤ m := by linarith
  refine ⟨(m + 9) ^ 3 * (m + 6) * (1460 * m ^ 4 + 45824 * m ^ 3 + 536180 * m ^ 2 + 2779752 * m + 5399344) / kC (m + 10), by positivity, ?_⟩
  have h3 : m + 7 ≠ 0 := by positivity
  have h3' : m + 10 - 3 ≠ 0 := by linarith
  unfold u0C d1C p1C d2C
  generalize kC (m + 10) = k at *
  field_simp
  unfold qC
  ring

theorem u_minus (hq : qC n ≠ 0) :
    ∃ c, 0 < c ∧ u0C n (25 / 16) * d1C n - p1C n * d2C n (25 / 16) = c / qC n := by
  have hk := kC_pos hn
  obtain ⟨m, rfl⟩ : ∃ m, n = m + 10 := ⟨n - 10, by ring⟩
  have hm : 0 ≤ m := by linarith
  refine ⟨(m + 9) ^ 3 * (m + 6) * (4765/2 * m ^ 4 + 151381/2 * m ^ 3 + 1793701/2 * m ^ 2 + 9413619/2 * m + 9249067) / kC (m + 10), by positivity, ?_⟩
  have h3' : m + 10 - 3 ≠ 0 := by linarith
  unfold u0C d1C p1C d2C
  generalize kC (m + 10) = k at *
  field_simp
  unfold qC
  ring

/-- The polynomial that decides the sign of `u` for `delta = 4/5`. -/
noncomputable def gC (n : ℝ) : ℝ := 206971425/4 * n ^ 10 - 21424353325/4 * n ^ 9 + 361152843987/4 * n ^ 8 - 2823665547983/4 * n ^ 7 + 12594623008287/4 * n ^ 6 - 34180665787555/4 * n ^ 5 + 56175220633293/4 * n ^ 4 - 51733467172881/4 * n ^ 3 + 5208342797160 * n ^ 2 - 103597529364 * n + 4823973792

theorem u_conj (hq : qC n ≠ 0) : (u0C n (25 / 16) * d1C n - p1C n * d2C n (25 / 16)) ^ 2 -
    p1C n ^ 2 * d0C n (25 / 16) =
      ((n - 1) ^ 6 * (n - 4) ^ 2 / kC n ^ 2) * gC n / qC n ^ 3 := by
  have hk := (kC_pos hn).ne'
  have h0 : n ≠ 0 := by linarith
  have h3 : n - 3 ≠ 0 := by linarith
  have p2 : n + 2 ≠ 0 := by linarith
  have p4 : n + 4 ≠ 0 := by linarith
  have p6 : n + 6 ≠ 0 := by linarith
  have p1 : n + 1 ≠ 0 := by linarith
  unfold u0C d1C p1C d2C d0C kC gC
  field_simp
  unfold qC
  ring

end

theorem g_neg {n : ℕ} (h1 : 10 ≤ n) (h2 : n ≤ 84) : gC n < 0 := by
  unfold gC
  interval_cases n <;> norm_num

end Stoy

open Stoy

/-- `stoyanova(n)` with the default `delta` and `variant_v_plus=True`: it returns a rule exactly for
`n = 5, ..., 9` and `n ≥ 86`.  In between, `math.sqrt` is called with a negative number. -/
theorem C24_stoyanova_default_plus (n : ℕ) :
    (stoyanova n none true).isSome ↔ (5 ≤ n ∧ n ≤ 9) ∨ 86 ≤ n := by
  unfold stoyanova
  rw [Option.getD_none]
  by_cases h5 : 5 ≤ n
  swap
  · simp [stoyanovaWith, h5]; omega
  by_cases h10 : n < 10
  · refine iff_of_true ?_ (by omega)
    interval_cases n
    · exact small_plus (n := 5) (by norm_num) (δ := 0.98945) (by norm_num) (by norm_num [qC]) rfl (by norm_num [d0C, kC, qC])
        (by norm_num [d1C, kC, qC]) (by norm_num [d2C, kC, qC]) (by norm_num [d0C, d2C, kC, qC])
        (by norm_num [p1C, qC]) (by norm_num [p2C]) (by norm_num [w0C])
        (by norm_num [u0C, d1C, p1C, d2C, kC, qC])
    · exact small_plus (n := 6) (by norm_num) (δ := 1.005) (by norm_num) (by norm_num [qC]) rfl (by norm_num [d0C, kC, qC])
        (by norm_num [d1C, kC, qC]) (by norm_num [d2C, kC, qC]) (by norm_num [d0C, d2C, kC, qC])
        (by norm_num [p1C, qC]) (by norm_num [p2C]) (by norm_num [w0C])
        (by norm_num [u0C, d1C, p1C, d2C, kC, qC])
    · exact small_plus (n := 7) (by norm_num) (δ := 1.017) (by norm_num) (by norm_num [qC]) rfl (by norm_num [d0C, kC, qC])
        (by norm_num [d1C, kC, qC]) (by norm_num [d2C, kC, qC]) (by norm_num [d0C, d2C, kC, qC])
        (by norm_num [p1C, qC]) (by norm_num [p2C]) (by norm_num [w0C])
        (by norm_num [u0C, d1C, p1C, d2C, kC, qC])
    · exact small_plus (n := 8) (by norm_num) (δ := 1.026) (by norm_num) (by norm_num [qC]) rfl (by norm_num [d0C, kC, qC])
        (by norm_num [d1C, kC, qC]) (by norm_num [d2C, kC, qC]) (by norm_num [d0C, d2C, kC, qC])
        (by norm_num [p1C, qC]) (by norm_num [p2C]) (by norm_num [w0C])
        (by norm_num [u0C, d1C, p1C, d2C, kC, qC])
    · exact small_plus (n := 9) (by norm_num) (δ := 1.04) (by norm_num) (by norm_num [qC]) rfl (by norm_num [d0C, kC, qC])
        (by norm_num [d1C, kC, qC]) (by norm_num [d2C, kC, qC]) (by norm_num [d0C, d2C, kC, qC])
        (by norm_num [p1C, qC]) (by norm_num [p2C]) (by norm_num [w0C])
        (by norm_num [u0C, d1C, p1C, d2C, kC, qC])
  push Not at h10
  have hnR : (10 : ℝ) ≤ n := by exact_mod_cast h10
  rw [delta_plus h10]
  obtain ⟨c0, hc0, e0⟩ := d0_one hnR
  by_cases h86 : n < 86
  · refine iff_of_false ?_ (by omega)
    have hq := q_neg hnR (by have : n ≤ 85 := by omega
                             exact_mod_cast this)
    rw [none_of (D := 1) h5 one_ne_zero true hq.ne (by norm_num) (by rw [e0]; exact div_neg_of_pos_of_neg hc0 hq)]
    simp
  · push Not at h86
    refine iff_of_true ?_ (Or.inr h86)
    have hq := q_pos (n := n) (by exact_mod_cast h86)
    obtain ⟨c1, hc1, e1⟩ := d1_sign hnR
    obtain ⟨c2, hc2, e2⟩ := d2_one hnR
    obtain ⟨c3, hc3, e3⟩ := u_one hnR hq.ne'
    obtain ⟨c4, hc4, e4⟩ := p1_sign hnR
    have d1 : 0 < d1C n := by rw [e1]; positivity
    have d2 : 0 < d2C n 1 := by rw [e2]; positivity
    have hu : 0 < u0C n 1 * d1C n - p1C n * d2C n 1 := by rw [e3]; positivity
    have hp1 : p1C n < 0 := by rw [e4, neg_div]; exact neg_lt_zero.2 (by positivity)
    have hp2 := p2_neg hnR
    have hw := w0_one hnR
    have hr0 := Real.sqrt_nonneg (d0C n 1)
    have hv : 0 < (d2C n 1 + √(d0C n 1)) / d1C n := by positivity
    have hv2 : (d2C n 1 + √(d0C n 1)) / d1C n * d1C n = d2C n 1 + √(d0C n 1) := div_mul_cancel₀ _ d1.ne'
    refine isSome_of (D := 1) h5 one_ne_zero true hq.ne' (by norm_num) (by rw [e0]; positivity) rfl hv ?_ ?_
    · simp only [if_true]
      generalize (d2C n 1 + √(d0C n 1)) / d1C n = v at *
      have : 0 < (u0C n 1 - p1C n * v) * d1C n := by nlinarith
      exact pos_of_mul_pos_left this d1.le
    · simp only [if_true]
      generalize (d2C n 1 + √(d0C n 1)) / d1C n = v at *
      nlinarith

/-- `stoyanova(n, variant_v_plus=False)` with the default `delta`: it returns a rule exactly for
`n = 5, ..., 84`. -/
theorem C24_stoyanova_default_minus (n : ℕ) :
    (stoyanova n none false).isSome ↔ 5 ≤ n ∧ n ≤ 84 := by
  unfold stoyanova
  rw [Option.getD_none]
  by_cases h5 : 5 ≤ n
  swap
  · simp [stoyanovaWith, h5]
  by_cases h10 : n < 10
  · refine iff_of_true ?_ (by omega)
    interval_cases n
    · exact small_minus (n := 5) (by norm_num) (δ := 0.98928) (by norm_num) (by norm_num [qC]) rfl (by norm_num [d0C, kC, qC])
        (by norm_num [d1C, kC, qC]) (by norm_num [d2C, kC, qC]) (by norm_num [p2C])
        (by norm_num [w0C, d1C, p2C, d2C, kC, qC]) (by norm_num [u0C, d1C, p1C, d2C, kC, qC])
        (by norm_num [p1C, qC]) (by norm_num [u0C, d0C, d1C, p1C, d2C, kC, qC])
    · exact small_minus (n := 6) (by norm_num) (δ := 0.818) (by norm_num) (by norm_num [qC]) rfl (by norm_num [d0C, kC, qC])
        (by norm_num [d1C, kC, qC]) (by norm_num [d2C, kC, qC]) (by norm_num [p2C])
        (by norm_num [w0C, d1C, p2C, d2C, kC, qC]) (by norm_num [u0C, d1C, p1C, d2C, kC, qC])
        (by norm_num [p1C, qC]) (by norm_num [u0C, d0C, d1C, p1C, d2C, kC, qC])
    · exact small_minus (n := 7) (by norm_num) (δ := 0.81) (by norm_num) (by norm_num [qC]) rfl (by norm_num [d0C, kC, qC])
        (by norm_num [d1C, kC, qC]) (by norm_num [d2C, kC, qC]) (by norm_num [p2C])
        (by norm_num [w0C, d1C, p2C, d2C, kC, qC]) (by norm_num [u0C, d1C, p1C, d2C, kC, qC])
        (by norm_num [p1C, qC]) (by norm_num [u0C, d0C, d1C, p1C, d2C, kC, qC])
    · exact small_minus (n := 8) (by norm_num) (δ := 0.8) (by norm_num) (by norm_num [qC]) rfl (by norm_num [d0C, kC, qC])
        (by norm_num [d1C, kC, qC]) (by norm_num [d2C, kC, qC]) (by norm_num [p2C])
        (by norm_num [w0C, d1C, p2C, d2C, kC, qC]) (by norm_num [u0C, d1C, p1C, d2C, kC, qC])
        (by norm_num [p1C, qC]) (by norm_num [u0C, d0C, d1C, p1C, d2C, kC, qC])
    · exact small_minus (n := 9) (by norm_num) (δ := 0.8) (by norm_num) (by norm_num [qC]) rfl (by norm_num [d0C, kC, qC])
        (by norm_num [d1C, kC, qC]) (by norm_num [d2C, kC, qC]) (by norm_num [p2C])
        (by norm_num [w0C, d1C, p2C, d2C, kC, qC]) (by norm_num [u0C, d1C, p1C, d2C, kC, qC])
        (by norm_num [p1C, qC]) (by norm_num [u0C, d0C, d1C, p1C, d2C, kC, qC])
  push Not at h10
  have hnR : (10 : ℝ) ≤ n := by exact_mod_cast h10
  rw [delta_minus h10]
  have hD : 1 / (4 / 5 : ℝ) ^ 2 = 25 / 16 := by norm_num
  obtain ⟨c0, hc0, e0⟩ := d0_minus hnR
  by_cases h86 : 86 ≤ n
  · refine iff_of_false ?_ (by omega)
    have hq := q_pos (n := n) (by exact_mod_cast h86)
    rw [none_of (D := 25 / 16) h5 (by norm_num) false hq.ne' hD
      (by rw [e0, neg_div]; exact neg_lt_zero.2 (by positivity))]
    simp
  push Not at h86
  have hq := q_neg hnR (by have : n ≤ 85 := by omega
                           exact_mod_cast this)
  obtain ⟨c1, hc1, e1⟩ := d1_sign hnR
  obtain ⟨c2, hc2, e2⟩ := d2_minus hnR
  obtain ⟨c3, hc3, e3⟩ := u_minus hnR hq.ne
  obtain ⟨c4, hc4, e4⟩ := p1_sign hnR
  have d0 : 0 ≤ d0C n (25 / 16) := by rw [e0]; exact (div_pos_of_neg_of_neg (by linarith) hq).le
  have d1 : d1C n < 0 := by rw [e1]; exact div_neg_of_pos_of_neg hc1 hq
  have d2 : d2C n (25 / 16) < 0 := by rw [e2]; exact div_neg_of_pos_of_neg hc2 hq
  have hu : u0C n (25 / 16) * d1C n - p1C n * d2C n (25 / 16) < 0 := by
    rw [e3]; exact div_neg_of_pos_of_neg hc3 hq
  have hp1 : 0 < p1C n := by rw [e4]; exact div_pos_of_neg_of_neg (by linarith) hq
  have hp2 := p2_neg hnR
  have hw := w0_minus hnR
  have hconj := u_conj hnR hq.ne
  have hf : 0 < ((n : ℝ) - 1) ^ 6 * (n - 4) ^ 2 / kC n ^ 2 := by
    have := kC_pos hnR
    have h1 : 0 < (n : ℝ) - 1 := by linarith
    have h4 : 0 < (n : ℝ) - 4 := by linarith
    positivity
  have hq3 : qC n ^ 3 < 0 := Odd.pow_neg (by decide) hq
  by_cases h85 : n = 85
  · refine iff_of_false ?_ (by omega)
    have hg : 0 < gC n := by rw [h85]; norm_num [gC]
    have hlt : (u0C n (25 / 16) * d1C n - p1C n * d2C n (25 / 16)) ^ 2 < p1C n ^ 2 * d0C n (25 / 16) := by
      have : ((n : ℝ) - 1) ^ 6 * (n - 4) ^ 2 / kC n ^ 2 * gC n / qC n ^ 3 < 0 :=
        div_neg_of_pos_of_neg (mul_pos hf hg) hq3
      linarith
    have hr2 := Real.sq_sqrt d0
    have hr0 := Real.sqrt_nonneg (d0C n (25 / 16))
    rw [isSome_iff h5, uvw_eq (by linarith) hq.ne (by norm_num), hD, sqrtO_some d0]
    simp only [Bool.false_eq_true, if_false, Option.map_some, Option.some.injEq, Prod.mk.injEq]
    rintro ⟨u, v, w, ⟨rfl, rfl, rfl⟩, hu', -, -⟩
    have hv2 : (d2C n (25 / 16) - √(d0C n (25 / 16))) / d1C n * d1C n =
      d2C n (25 / 16) - √(d0C n (25 / 16)) := div_mul_cancel₀ _ d1.ne
    generalize (d2C n (25 / 16) - √(d0C n (25 / 16))) / d1C n = v at *
    have hlt' : -(u0C n (25 / 16) * d1C n - p1C n * d2C n (25 / 16)) < p1C n * √(d0C n (25 / 16)) :=
      lt_of_pow_lt_pow_left₀ 2 (by positivity) (by rw [mul_pow, hr2]; linarith)
    have : 0 < (u0C n (25 / 16) - p1C n * v) * d1C n := by nlinarith
    nlinarith
  · have h84 : n ≤ 84 := by omega
    refine iff_of_true (small_minus (D := 25 / 16) h5 (by norm_num) hq.ne hD d0 d1 d2 hp2
      (by nlinarith) (by linarith) hp1 ?_) ⟨h5, h84⟩
    have : 0 < ((n : ℝ) - 1) ^ 6 * (n - 4) ^ 2 / kC n ^ 2 * gC n / qC n ^ 3 :=
      div_pos_of_neg_of_neg (mul_neg_of_pos_of_neg hf (g_neg h10 h84)) hq3
    linarith

/-- So one of the two variants gives a rule of degree seven in every dimension from five on, except for
dimension 85. -/
theorem C24_stoyanova_exists {n : ℕ} (h : 5 ≤ n) (h85 : n ≠ 85) :
    ∃ vp S, stoyanova n none vp = some S ∧ S.degree = 7 ∧ S.ExactOnBall n := by
  by_cases h84 : n ≤ 84
  · obtain ⟨S, hS⟩ := Option.isSome_iff_exists.1 ((C24_stoyanova_default_minus n).2 ⟨h, h84⟩)
    exact ⟨false, S, hS, C24_stoyanova hS⟩
  · obtain ⟨S, hS⟩ := Option.isSome_iff_exists.1
      ((C24_stoyanova_default_plus n).2 (Or.inr (by omega)))
    exact ⟨true, S, hS, C24_stoyanova hS⟩

example : stoyanova 10 none true = none := by
  have := C24_stoyanova_default_plus 10
  simpa using this

example : ∃ S, stoyanova 10 none false = some S ∧ S.degree = 7 ∧ S.ExactOnBall 10 := by
  obtain ⟨S, hS⟩ := Option.isSome_iff_exists.1 ((C24_stoyanova_default_minus 10).2 (by norm_num))
  exact ⟨S, hS, C24_stoyanova hS⟩

end Sn
end Quadpy
