import Verif.Lemmas.PlainRules

/-!
# C48: the spherical product Gauss rule on the ball
-/

namespace Quadpy
open ProductRules Dec

/-- Sums over four points symmetric about zero. -/
theorem sym4 (a b wa wb : ℝ) (f : ℝ → ℝ) :
    (([(-a, wa), (-b, wb), (b, wb), (a, wa)] : List (ℝ × ℝ)).map fun p => p.2 * f p.1).sum =
      wa * (f (-a) + f a) + wb * (f (-b) + f b) := by
  simp
  ring

theorem radial_sum (m : ℕ) (hm : m ≤ 7) :
    (radial_7_4.map fun p => p.2 * p.1 ^ m).sum = if Odd m then 0 else 2 / (m + 3 : ℝ) := by
  have hs : √(70 : ℝ) ^ 2 = 70 := Real.sq_sqrt (by norm_num)
  have h0 := Real.sqrt_nonneg (70 : ℝ)
  have h1 : √(70 : ℝ) ≤ 9 := by nlinarith
  have ha := sqrt_sq_of (x := (35 + 2 * √70) / 63) (by positivity)
  have hb := sqrt_sq_of (x := (35 - 2 * √70) / 63) (by apply div_nonneg <;> linarith)
  unfold radial_7_4
  dsimp only
  rw [sym4 _ _ _ _ fun x => x ^ m]
  generalize √((35 + 2 * √70) / 63) = a at *
  generalize √((35 - 2 * √70) / 63) = b at *
  generalize √(70 : ℝ) = s at *
  interval_cases m <;> norm_num [Nat.odd_iff] <;> first | ring1 | grind

theorem polar_sum (p c : ℕ) (h : 2 * p + c ≤ 7) :
    (polar_7_4.map fun q => q.2 * ((1 - q.1 ^ 2) ^ p * q.1 ^ c)).sum =
      if Odd c then 0 else
        2 / ((c : ℝ) + 1) * ∏ j ∈ Finset.range p, (2 * ((j : ℝ) + 1) / ((c : ℝ) + 2 * j + 3)) := by
  have hs : √(30 : ℝ) ^ 2 = 30 := Real.sq_sqrt (by norm_num)
  have h0 := Real.sqrt_nonneg (30 : ℝ)
  have h1 : √(30 : ℝ) ≤ 7 := by nlinarith
  have ha := sqrt_sq_of (x := (15 + 2 * √30) / 35) (by positivity)
  have hb := sqrt_sq_of (x := (15 - 2 * √30) / 35) (by apply div_nonneg <;> linarith)
  unfold polar_7_4
  dsimp only
  rw [sym4 _ _ _ _ fun x => (1 - x ^ 2) ^ p * x ^ c]
  generalize √((15 + 2 * √30) / 35) = a at *
  generalize √((15 - 2 * √30) / 35) = b at *
  generalize √(30 : ℝ) = s at *
  have hp : p ≤ 3 := by omega
  have hc : c ≤ 7 := by omega
  interval_cases p <;> interval_cases c <;> first
    | (exfalso; omega)
    | (norm_num [Nat.odd_iff, Finset.prod_range_succ] <;> first | ring1 | grind)

theorem azimuth_sum (p b : ℕ) (h : 2 * p + b ≤ 7) :
    (azimuth_7_4.map fun q => q.2 * ((1 - q.1 ^ 2) ^ p * q.1 ^ b)).sum =
      if Odd b then 0 else Real.pi * (oddFac p * oddFac (b / 2) / (2 ^ (p + b / 2) * (p + b / 2).factorial)) := by
  have hs : √(2 : ℝ) ^ 2 = 2 := Real.sq_sqrt (by norm_num)
  have h0 := Real.sqrt_nonneg (2 : ℝ)
  have h1 : √(2 : ℝ) ≤ 2 := by nlinarith
  have ha := sqrt_sq_of (x := (2 + √2) / 4) (by positivity)
  have hb := sqrt_sq_of (x := (2 - √2) / 4) (by apply div_nonneg <;> linarith)
  unfold azimuth_7_4
  dsimp only
  rw [sym4 _ _ _ _ fun x => (1 - x ^ 2) ^ p * x ^ b]
  generalize √((2 + √2) / 4) = u at *
  generalize √((2 - √2) / 4) = v at *
  generalize √(2 : ℝ) = s at *
  have hp : p ≤ 3 := by omega
  have hc : b ≤ 7 := by omega
  interval_cases p <;> interval_cases b <;> first
    | (exfalso; omega)
    | (norm_num [Nat.odd_iff, oddFac, Nat.factorial] <;> first | ring1 | grind)

theorem mem_polar {q : ℝ × ℝ} (h : q ∈ polar_7_4) : 0 ≤ 1 - q.1 ^ 2 := by
  have hs : √(30 : ℝ) ^ 2 = 30 := Real.sq_sqrt (by norm_num)
  have h0 := Real.sqrt_nonneg (30 : ℝ)
  have h1 : √(30 : ℝ) ≤ 7 := by nlinarith
  have ha := sqrt_sq_of (x := (15 + 2 * √30) / 35) (by positivity)
  have hb := sqrt_sq_of (x := (15 - 2 * √30) / 35) (by apply div_nonneg <;> linarith)
  simp only [polar_7_4, List.mem_cons, List.not_mem_nil, or_false] at h
  rcases h with rfl | rfl | rfl | rfl <;> simp only [neg_sq, ha, hb] <;> linarith

theorem mem_azimuth {q : ℝ × ℝ} (h : q ∈ azimuth_7_4) : 0 ≤ 1 - q.1 ^ 2 := by
  have hs : √(2 : ℝ) ^ 2 = 2 := Real.sq_sqrt (by norm_num)
  have h0 := Real.sqrt_nonneg (2 : ℝ)
  have h1 : √(2 : ℝ) ≤ 2 := by nlinarith
  have ha := sqrt_sq_of (x := (2 + √2) / 4) (by positivity)
  have hb := sqrt_sq_of (x := (2 - √2) / 4) (by apply div_nonneg <;> linarith)
  simp only [azimuth_7_4, List.mem_cons, List.not_mem_nil, or_false] at h
  rcases h with rfl | rfl | rfl | rfl <;> simp only [neg_sq, ha, hb] <;> linarith

/-- Sums over the four points with an odd function. -/
theorem polar_odd (f : ℝ → ℝ) (h : ∀ x, f (-x) = -f x) : (polar_7_4.map fun q => q.2 * f q.1).sum = 0 := by
  unfold polar_7_4
  dsimp only
  rw [sym4, h, h]
  ring

theorem azimuth_odd (f : ℝ → ℝ) (h : ∀ x, f (-x) = -f x) :
    (azimuth_7_4.map fun q => q.2 * f q.1).sum = 0 := by
  unfold azimuth_7_4
  dsimp only
  rw [sym4, h, h]
  ring

theorem ball3_even : EvenMom (Spec.ball 3) fun p => 3 / (3 + 2 * ((p 0 : ℝ) + p 1 + p 2)) *
    (oddFac (p 0) * oddFac (p 1) * oddFac (p 2) / stepFac 3 (p 0 + p 1 + p 2)) := by
  have := ball_even (n := 3) (by norm_num)
  simpa only [Fin.sum_univ_three, Fin.prod_univ_three, Nat.cast_ofNat] using this

/-- C48, Stroud S3 7-4. -/
theorem C48_s3_stroud_7_4 : stroud_7_4.ExactRel 3 (Spec.ball 3) ∧ stroud_7_4.degree = 7 := by
  refine ⟨sym_exact3 ball3_even ?_ ?_, rfl⟩
  · intro e he
    rw [List.mem_singleton.1 he]
    refine plainOf_regular ?_ 3
    intro p hp
    simp only [List.mem_flatMap, List.mem_map] at hp
    obtain ⟨_, -, _, -, _, -, rfl⟩ := hp
    rfl
  intro a b c habc
  rw [symSum_plainOf, fsum, sum_flatMap_mul3 radial_7_4 polar_7_4 azimuth_7_4 _ _
    (fun p => p.2 * p.1 ^ (a + b + c)) (fun q => q.2 * (√(1 - q.1 ^ 2) ^ (a + b) * q.1 ^ c))
    (fun k => k.2 * (√(1 - k.1 ^ 2) ^ a * k.1 ^ b) / (4 / 3 * Real.pi))]
  swap
  · intro p _ q _ k _
    simp [mono, Fin.prod_univ_three, toVec]
    ring
  simp only [div_eq_mul_inv _ (4 / 3 * Real.pi), List.sum_map_mul_right]
  have hpi := Real.pi_ne_zero
  split_ifs with ho
  · by_cases h1 : Odd (a + b + c)
    · rw [radial_sum _ habc, if_pos h1, zero_mul, zero_mul]
    by_cases h2 : Odd c
    · rw [polar_odd fun x => √(1 - x ^ 2) ^ (a + b) * x ^ c, mul_zero, zero_mul]
      intro x
      rw [neg_sq, h2.neg_pow]
      ring
    · rw [azimuth_odd fun x => √(1 - x ^ 2) ^ a * x ^ b, zero_mul, mul_zero]
      intro x
      have h3 : Odd b := by grind
      rw [neg_sq, h3.neg_pow]
      ring
  · push Not at ho
    obtain ⟨ha, hb, hc⟩ := ho
    rw [Nat.not_odd_iff_even] at ha hb hc
    obtain ⟨a, rfl⟩ := ha.two_dvd
    obtain ⟨b, rfl⟩ := hb.two_dvd
    obtain ⟨c, rfl⟩ := hc.two_dvd
    rw [radial_sum _ habc, if_neg (by grind)]
    have e1 : (polar_7_4.map fun q => q.2 * (√(1 - q.1 ^ 2) ^ (2 * a + 2 * b) * q.1 ^ (2 * c))) =
        polar_7_4.map fun q => q.2 * ((1 - q.1 ^ 2) ^ (a + b) * q.1 ^ (2 * c)) :=
      List.map_congr_left fun q hq => by rw [← mul_add, pow_mul, Real.sq_sqrt (mem_polar hq)]
    have e2 : (azimuth_7_4.map fun q => q.2 * (√(1 - q.1 ^ 2) ^ (2 * a) * q.1 ^ (2 * b))) =
        azimuth_7_4.map fun q => q.2 * ((1 - q.1 ^ 2) ^ a * q.1 ^ (2 * b)) :=
      List.map_congr_left fun q hq => by rw [pow_mul, Real.sq_sqrt (mem_azimuth hq)]
    rw [e1, e2, polar_sum _ _ (by omega), if_neg (by grind), azimuth_sum _ _ (by omega), if_neg (by grind)]
    have ha : a ≤ 3 := by omega
    have hb : b ≤ 3 := by omega
    have hc : c ≤ 3 := by omega
    clear e1 e2
    simp only [Matrix.cons_val_zero, Matrix.cons_val_one, Matrix.cons_val]
    interval_cases a <;> interval_cases b <;> interval_cases c <;> first
      | (exfalso; omega)
      | (norm_num [oddFac, stepFac, Nat.factorial, Finset.prod_range_succ]; done)
      | (norm_num [oddFac, stepFac, Nat.factorial, Finset.prod_range_succ]; field_simp; norm_num; done)
      | (norm_num [oddFac, stepFac, Nat.factorial, Finset.prod_range_succ]; field_simp)

/-- The rule for `x^2 y^4`, of degree six. -/
example : Spec.ball 3 (fun _ => 1) * dot 3 stroud_7_4.weights stroud_7_4.points (mono ![2, 4, 0]) =
    Spec.ball 3 (mono ![2, 4, 0]) :=
  exactUpTo_mono C48_s3_stroud_7_4.1.2 _ (by rw [C48_s3_stroud_7_4.2]; decide)

end Quadpy
