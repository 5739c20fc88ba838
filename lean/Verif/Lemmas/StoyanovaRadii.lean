import Verif.Lemmas.SimplexFrame7
import Verif.Model.Stoyanova
import Mathlib.Tactic.LinearCombination

/-!
The weights and radii computed by sn/_stoyanova.py.
-/

namespace Quadpy
open Finset Un
namespace Sn
namespace Stoy

theorem divO_some {a b x : ℝ} : divO a b = some x ↔ b ≠ 0 ∧ x = a / b := by
  unfold divO
  split_ifs with h
  · simp [h]
  · simp [h, eq_comm]

/-- What the formulas of lines 87-132 amount to. -/
noncomputable def A1 (n : ℝ) : ℝ := n ^ 3 * (9 * n ^ 2 - 793 * n + 1800) /
  (18 * ((n + 1) ^ 2 * (n + 2) * (n + 4) * (n + 6)))
noncomputable def B1 (n : ℝ) : ℝ := -4 * n * (n - 1) ^ 3 * (n - 4) /
  ((n + 1) ^ 2 * (n + 2) * (n + 4) * (n + 6))
noncomputable def C1 (n : ℝ) : ℝ := 9 * n * (n - 1) * (n - 2) ^ 3 /
  (2 * ((n + 1) ^ 2 * (n + 2) * (n + 4) * (n + 6)))
noncomputable def E1 (n : ℝ) : ℝ := 4 * n * (5 * n - 3) ^ 3 /
  (9 * ((n + 1) ^ 2 * (n + 2) * (n + 4) * (n + 6)))

theorem weights_eq {n : ℝ} (hn : 5 ≤ n) :
    stoyanovaWeights n = some ⟨A1 n, B1 n, C1 n, E1 n⟩ := by
  have p0 : 0 < n := by linarith
  have p1 : 0 < n - 1 := by linarith
  have p2 : 0 < n - 2 := by linarith
  have p3 : 0 < n - 3 := by linarith
  have p4 : 0 < n - 4 := by linarith
  simp only [stoyanovaWeights]
  rw [show n * ((n - 2) ^ 5 + 243) * (n * (n - 1)) - 3 * (n ^ 5 + 1) * ((n - 1) * (n - 2)) * (3 * (n - 2)) +
      12 * (n - 1) * (n ^ 5 + 1) * ((n - 1) * (n - 3)) - 3 * n ^ 2 * (n - 3) * ((n - 1) ^ 5 + 32) =
      n * (n + 1) ^ 5 * (n - 3) * (n - 4) by ring]
  rw [show 9 * (n + 1) * (10 * n ^ 5 * (n + 1) ^ 2 * (3 * (n - 2)) -
      n ^ 3 * ((n - 1) ^ 5 + 32) * (n ^ 2 + 4 * n - 8) +
      4 * (n - 1) * (n ^ 5 + 1) * (n ^ 2 + 4 * n - 8) * (n * (n - 1)) -
      2 * (n ^ 5 + 1) * ((n + 1) * (n + 2) * (n + 4)) * (n * (n - 2))) -
    n ^ 2 * ((3 * n - 1) ^ 6 + (n - 3) ^ 6 + 4096 * (n - 1)) * (n * (n - 2)) +
    8 * (n ^ 5 + 1) * (n * (n - 2)) * (5 * n - 3) ^ 3 + 108 * n * ((n - 1) ^ 5 + 32) * (n * (n - 1)) ^ 2 -
    432 * (n - 1) ^ 3 * (n ^ 5 + 1) * (n * (n - 1)) =
      9 * n ^ 2 * (n + 1) ^ 5 * (n - 2) ^ 2 * (n - 3) * (n - 4) by ring]
  have h1 : n - 1 ≠ 0 := p1.ne'
  have h2 : n - 2 ≠ 0 := p2.ne'
  have h3 : n - 3 ≠ 0 := p3.ne'
  have h4 : n - 4 ≠ 0 := p4.ne'
  have hb : ∀ x y : ℝ, y ≠ 0 → divO x y = some (x / y) := fun x y h => divO_some.2 ⟨h, rfl⟩
  rw [hb _ _ (by positivity), hb _ _ (by positivity), hb _ _ (by positivity), hb _ _ (by positivity)]
  simp only [Option.bind_eq_bind, Option.bind_some]
  have eB : 2 * (n - 1) * (3 * (n + 1) * (n ^ 2 + 4 * n - 8) * (n * (n - 1)) *
      (n * (n + 1) ^ 5 * (n - 3) * (n - 4)) - (n - 1) * (n - 3) *
        (9 * n ^ 2 * (n + 1) ^ 5 * (n - 2) ^ 2 * (n - 3) * (n - 4)) -
        36 * (n - 1) ^ 2 * (n * (n - 1)) * (n * (n + 1) ^ 5 * (n - 3) * (n - 4))) /
      ((n + 1) * (n + 6) * ((n + 1) * (n + 2) * (n + 4)) * (3 * (n - 2)) *
        (n * (n + 1) ^ 5 * (n - 3) * (n - 4))) = B1 n := by
    unfold B1; field_simp; ring
  have eC : (n - 1) * (n - 2) * (9 * n ^ 2 * (n + 1) ^ 5 * (n - 2) ^ 2 * (n - 3) * (n - 4)) /
      (2 * ((n + 1) * (n + 6) * ((n + 1) * (n + 2) * (n + 4))) *
        (n * (n + 1) ^ 5 * (n - 3) * (n - 4))) = C1 n := by
    unfold C1; field_simp
  have eE : 4 * n * (5 * n - 3) ^ 3 / (9 * ((n + 1) * (n + 6) * ((n + 1) * (n + 2) * (n + 4)))) = E1 n := by
    unfold E1; field_simp
  rw [eB, eC, eE]
  congr 2
  unfold A1 B1 C1 E1
  field_simp
  ring

/-- The conditions on `u`, `v`, `w` for the moments of degree four and two, with `D = 1 / delta^2`. -/
structure UVW (n D a1 b1 c1 e1 u v w : ℝ) : Prop where
  quad : a1 * u ^ 2 + b1 * v ^ 2 + c1 * w ^ 2 + e1 * D ^ 2 = n / (n + 2)
  mixed : a1 * u + b1 * v * (n * (n - 7) / (4 * (n - 1) ^ 2)) * 2 +
    c1 * w * (n / (9 * (n - 2) ^ 2 * (n - 1))) * (3 * n ^ 2 - 45 * n + 114) +
    e1 * D * (n / (10 * n - 6) ^ 2) * (82 * n - 174) = 0
  pure : b1 * v * (6 / (4 * (n - 1) ^ 2)) + c1 * w * (18 * n - 54) / (9 * (n - 2) ^ 2 * (n - 1)) +
    e1 * D * (54 / (10 * n - 6) ^ 2) = 3 / ((n + 2) * (n + 4)) * n / (n + 1)

theorem uvw_of {n delta a1 b1 c1 e1 u v w : ℝ} (hn : 5 ≤ n) {vp : Bool}
    (h : stoyanovaUVW n delta vp ⟨a1, b1, c1, e1⟩ = some (u, v, w)) :
    delta ≠ 0 ∧ UVW n (1 / delta ^ 2) a1 b1 c1 e1 u v w := by
  simp only [stoyanovaUVW, Option.bind_eq_bind, Option.bind_eq_some_iff, divO_some] at h
  obtain ⟨x1, ⟨hd4, rfl⟩, x2, ⟨hd2, rfl⟩, x3, ⟨hd2', rfl⟩, w0, ⟨hw0, rw0⟩, u0, ⟨hu0, ru0⟩, p1, ⟨hp1, rp1⟩,
    p2, ⟨hp2, rp2⟩, root, hroot, v', ⟨hd1, rv⟩, h⟩ := h
  simp only [Option.pure_def, Option.some.injEq, Prod.mk.injEq] at h
  obtain ⟨rfl, rfl, rfl⟩ := h
  have hdelta : delta ≠ 0 := fun h => hd2 (by simp [h])
  refine ⟨hdelta, ?_⟩
  have p0 : 0 < n := by linarith
  have q1 : n - 1 ≠ 0 := by linarith
  have q2 : n - 2 ≠ 0 := by linarith
  have q3 : n - 3 ≠ 0 := by linarith
  have q5 : 5 * n - 3 ≠ 0 := by linarith
  have q10 : 10 * n - 6 = 2 * (5 * n - 3) := by ring
  have q13 : n ^ 2 - 7 * n + 19 ≠ 0 := by nlinarith [sq_nonneg (2 * n - 7)]
  have q13' : n * (n - 7) + 19 ≠ 0 := by nlinarith [sq_nonneg (2 * n - 7)]
  have qc : c1 ≠ 0 := right_ne_zero_of_mul hw0
  have qa : a1 ≠ 0 := right_ne_zero_of_mul hu0
  set D := 1 / delta ^ 2 with hD
  have eD4 : e1 / delta ^ 4 = e1 * D ^ 2 := by rw [hD]; field_simp
  have eD2 : e1 / delta ^ 2 = e1 * D := by rw [hD]; field_simp
  have eD2' : e1 * (41 * n ^ 3 - 101 * n ^ 2 + 155 * n - 87) / (2 * (5 * n - 3) ^ 2 * delta ^ 2) =
      e1 * D * (41 * n ^ 3 - 101 * n ^ 2 + 155 * n - 87) / (2 * (5 * n - 3) ^ 2) := by
    rw [hD]; field_simp
  rw [eD4] at hroot
  rw [eD2, eD2'] at rw0 ru0
  clear eD4 eD2 eD2' hd4 hd2 hd2' hdelta
  clear_value D
  have au : a1 * u0 = n * (3 * (n - 2) * (3 * n ^ 2 / ((n + 2) * (n + 4)) -
      e1 * D * (41 * n ^ 3 - 101 * n ^ 2 + 155 * n - 87) / (2 * (5 * n - 3) ^ 2)) -
      (n ^ 2 - 7 * n + 19) * (n / (n + 4) - e1 * D)) / (2 * (n - 3) * (n + 1) ^ 2) := by
    rw [ru0]; field_simp
  have cw : c1 * w0 = 3 * (n - 2) * ((3 * n ^ 2 / ((n + 2) * (n + 4)) -
      e1 * D * (41 * n ^ 3 - 101 * n ^ 2 + 155 * n - 87) / (2 * (5 * n - 3) ^ 2)) *
      (2 * (n - 3) * (n + 1) ^ 2 - (n ^ 2 - n + 1) * (3 * (n - 2))) +
      (n ^ 2 - 7 * n + 19) * (n ^ 2 - n + 1) * (n / (n + 4) - e1 * D)) /
      ((n ^ 2 - 7 * n + 19) * (2 * (n - 3) * (n + 1) ^ 2)) := by
    rw [rw0, mul_div_assoc', mul_comm c1, mul_div_mul_right _ _ qc]
  have ap : a1 * p1 = n * (n - 4) * b1 / (4 * ((n - 1) * (n - 3))) := by
    rw [rp1]; field_simp
  have cp : c1 * p2 = (n ^ 3 - 9 * n ^ 2 + 33 * n - 38) * (3 * (n - 2)) * b1 /
      (4 * ((n - 1) * (n - 3)) * (n ^ 2 - 7 * n + 19)) := by
    rw [rp2, mul_div_assoc', mul_comm c1, mul_div_mul_right _ _ qc]
  clear rw0 ru0 rp1 rp2
  have hG : ∃ G, e1 * D = G * (5 * n - 3) ^ 2 ∧
      e1 * D * (41 * n ^ 3 - 101 * n ^ 2 + 155 * n - 87) / (2 * (5 * n - 3) ^ 2) =
        G * (41 * n ^ 3 - 101 * n ^ 2 + 155 * n - 87) / 2 ∧
      e1 * D * (n / (10 * n - 6) ^ 2) = G * n / 4 ∧ e1 * D * (54 / (10 * n - 6) ^ 2) = G * 54 / 4 := by
    rw [q10]
    generalize 5 * n - 3 = r at *
    refine ⟨e1 * D / r ^ 2, ?_, ?_, ?_, ?_⟩ <;> (field_simp; try ring1)
  constructor
  · have hr : 0 ≤ (a1 * p1 * u0 + c1 * p2 * w0) ^ 2 - (a1 * p1 ^ 2 + c1 * p2 ^ 2 + b1) *
        (a1 * u0 ^ 2 + c1 * w0 ^ 2 - (n / (n + 2) - e1 * D ^ 2)) ∧ root = √((a1 * p1 * u0 + c1 * p2 * w0) ^ 2 -
        (a1 * p1 ^ 2 + c1 * p2 ^ 2 + b1) * (a1 * u0 ^ 2 + c1 * w0 ^ 2 - (n / (n + 2) - e1 * D ^ 2))) := by
      unfold sqrtO at hroot
      split_ifs at hroot with h0
      exact ⟨h0, (Option.some.inj hroot).symm⟩
    have hsq : root ^ 2 = (a1 * p1 * u0 + c1 * p2 * w0) ^ 2 - (a1 * p1 ^ 2 + c1 * p2 ^ 2 + b1) *
        (a1 * u0 ^ 2 + c1 * w0 ^ 2 - (n / (n + 2) - e1 * D ^ 2)) := by
      rw [hr.2, Real.sq_sqrt hr.1]
    have hv : (a1 * p1 ^ 2 + c1 * p2 ^ 2 + b1) * v' - (a1 * p1 * u0 + c1 * p2 * w0) = root ∨
        (a1 * p1 ^ 2 + c1 * p2 ^ 2 + b1) * v' - (a1 * p1 * u0 + c1 * p2 * w0) = -root := by
      rw [rv, mul_div_cancel₀ _ hd1]
      cases vp
      · right; simp
      · left; simp
    have hv2 : ((a1 * p1 ^ 2 + c1 * p2 ^ 2 + b1) * v' - (a1 * p1 * u0 + c1 * p2 * w0)) ^ 2 = root ^ 2 := by
      rcases hv with h | h <;> rw [h] <;> ring
    rw [hsq] at hv2
    apply sub_eq_zero.1
    apply (mul_eq_zero.1 _).resolve_left hd1
    linear_combination hv2
  · have e : a1 * (u0 - p1 * v') = a1 * u0 - a1 * p1 * v' := by ring
    have e' : c1 * (w0 - p2 * v') = c1 * w0 - c1 * p2 * v' := by ring
    obtain ⟨G, hG, g1, g2, g3⟩ := hG
    rw [e, e', au, cw, ap, cp, g1, g2, hG]
    clear hroot rv hw0 hu0 hp1 hp2 hd1 au cw ap cp e e' g1 g2 g3 hG hD
    field_simp
    ring
  · have e' : c1 * (w0 - p2 * v') = c1 * w0 - c1 * p2 * v' := by ring
    obtain ⟨G, hG, g1, g2, g3⟩ := hG
    rw [e', cw, cp, g1, g3, hG]
    clear hroot rv hw0 hu0 hp1 hp2 hd1 au cw ap cp e' g1 g2 g3 hG hD
    field_simp
    ring

end Stoy
end Sn
end Quadpy
