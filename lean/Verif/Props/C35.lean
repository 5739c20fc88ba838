import Verif.Model.LowDim
import Verif.Lemmas.LowDim
import Verif.Props.C09
import Verif.Props.C29

/-!
C35: the rules on the disk and the ball with a parameter.
-/

namespace Quadpy
open Finset LowDim

theorem ballPow_one_ne_zero {n : ℕ} (hn : 0 < n) {a : ℝ} (ha : -(n : ℝ) < a) :
    Spec.ballPow n a (fun _ => 1) ≠ 0 := by
  have hn0 : (0 : ℝ) < n := by exact_mod_cast hn
  rw [one_eq_mono, ballPow_eq, polar hn, ballDens_integral hn ha, sphere_mono' hn]
  have h1 : sphereArea n ≠ 0 := by
    have := Real.Gamma_pos_of_pos (s := (n : ℝ) / 2) (by positivity)
    have := Real.pi_pos
    unfold sphereArea
    positivity
  have h2 : sphMom (0 : Fin n → ℕ) = 1 := by
    have := sphMom_even hn (0 : Fin n → ℕ)
    simp only [Pi.zero_apply, mul_zero, oddFac, prod_const_one, sum_const_zero, stepFac, div_one] at this
    exact this
  have h3 : (n : ℝ) + a ≠ 0 := by linarith
  rw [h2]
  simp [h1, h3]

/-- A rule that is exact for `|x|^a` and for the plain volume has `a = 0`. -/
theorem plain_iff {n : ℕ} (hn : 0 < n) {a : ℝ} (ha : -(n : ℝ) < a) {S : Scheme} (hd : 2 ≤ S.degree)
    (h : S.ExactRel n (Spec.ballPow n a)) : S.ExactOnBall n ↔ a = 0 := by
  constructor
  · intro hb
    obtain ⟨i0⟩ : Nonempty (Fin n) := ⟨⟨0, hn⟩⟩
    have key : ∀ {J : Spec.Functional n}, S.ExactRel n J → J (fun _ => 1) *
        dot n S.weights S.points (fun x => x i0 ^ 2) = J fun x => x i0 ^ 2 := by
      intro J hJ
      have := hJ.2 (MvPolynomial.X i0 ^ 2) ((MvPolynomial.totalDegree_pow _ _).trans (by
        simpa [MvPolynomial.totalDegree_X] using hd))
      simpa using this
    have k1 := key h
    have k2 := key hb
    have e : (fun x : Fin n → ℝ => x i0 ^ 2) = mono fun i => 2 * (Pi.single i0 1 : Fin n → ℕ) i := by
      funext x
      rw [mono, prod_eq_single i0]
      · simp
      · intro j _ hj; simp [hj]
      · simp
    have hn0 : (0 : ℝ) < n := by exact_mod_cast hn
    rw [e, (ballPow_even hn ha).even] at k1
    rw [e, (ball_even hn).even] at k2
    have k1' := mul_left_cancel₀ (ballPow_one_ne_zero hn ha) k1
    have k2' := mul_left_cancel₀ (by
      rw [ball_eq_ballPow]; exact ballPow_one_ne_zero hn (by simp [hn])) k2
    rw [k1'] at k2'
    have s1 : ∑ i, (((Pi.single i0 1 : Fin n → ℕ) i : ℕ) : ℝ) = 1 := by
      rw [← Nat.cast_sum]; simp
    have s2 : stepFac n (∑ i, (Pi.single i0 1 : Fin n → ℕ) i) = n := by simp [stepFac]
    have s3 : ∏ i, oddFac ((Pi.single i0 1 : Fin n → ℕ) i) = 1 := by
      refine prod_eq_one fun i _ => ?_
      by_cases hi : i = i0
      · subst hi; simp [oddFac]
      · simp [hi, oddFac]
    rw [s1, s2, s3] at k2'
    have h3 : (n : ℝ) + a + 2 ≠ 0 := by linarith
    field_simp at k2'
    nlinarith
  · rintro rfl
    rw [Scheme.ExactOnBall, ball_eq_ballPow]; exact h

/-- The sum over the orbit of "dn.o" is the mean over the circle for polynomials of degree below `n`. -/
theorem osum_d_mono (n o : ℕ) (r : ℝ) (α : Fin 2 → ℕ) (h : α 0 + α 1 < n) :
    osum 2 (orbit 2 (.d n o) [r]) (mono α) = n * r ^ (α 0 + α 1) * sphMom α := by
  have hn : 0 < n := by omega
  have hc := circle_sphere hn (o * Real.pi / n) α (by rw [Fin.sum_univ_two]; exact h)
  rw [sphere_mono_rel (by norm_num) α] at hc
  have hs : Spec.sphere 2 (fun _ => 1) ≠ 0 := by
    rw [one_eq_mono, sphere_two]
    simp only [circ, Pi.zero_apply, pow_zero, mul_one, MeasureTheory.setIntegral_const,
      MeasureTheory.measureReal_def, Real.volume_Ioo]
    rw [ENNReal.toReal_ofReal (by linarith [Real.pi_pos])]
    simp [Real.pi_ne_zero]
  have hc' := mul_left_cancel₀ hs hc
  have hn' : (n : ℝ) ≠ 0 := by positivity
  rw [osum_d]
  have : ∀ k : ℕ, mono α ![Real.cos ((2 * (k : ℝ) + o) * Real.pi / n) * r,
      Real.sin ((2 * (k : ℝ) + o) * Real.pi / n) * r] = r ^ (α 0 + α 1) *
      (Real.cos (2 * Real.pi * k / n + o * Real.pi / n) ^ α 0 *
       Real.sin (2 * Real.pi * k / n + o * Real.pi / n) ^ α 1) := by
    intro k
    have e : (2 * (k : ℝ) + o) * Real.pi / n = 2 * Real.pi * k / n + o * Real.pi / n := by ring
    rw [e]
    simp only [mono, Fin.prod_univ_two, Matrix.cons_val_zero, Matrix.cons_val_one]
    ring
  simp only [this]
  rw [← mul_sum]
  simp only [radMom, one_mul] at hc'
  rw [← hc']
  field_simp

theorem diskPow_even {a : ℝ} (ha : -2 < a) : EvenMom (Spec.ballPow 2 a) fun p =>
    (2 + a) / (2 + a + 2 * (p 0 + p 1)) *
      (oddFac (p 0) * oddFac (p 1) / stepFac 2 (p 0 + p 1)) := by
  simpa only [Fin.prod_univ_two, Fin.sum_univ_two, Nat.cast_ofNat] using
    ballPow_even (n := 2) (by norm_num) (a := a) (by simpa using ha)

theorem ball3Pow_even {a : ℝ} (ha : -3 < a) : EvenMom (Spec.ballPow 3 a) fun p =>
    (3 + a) / (3 + a + 2 * (p 0 + p 1 + p 2)) *
      (oddFac (p 0) * oddFac (p 1) * oddFac (p 2) / stepFac 3 (p 0 + p 1 + p 2)) := by
  simpa only [Fin.prod_univ_three, Fin.sum_univ_three, Nat.cast_ofNat] using
    ballPow_even (n := 3) (by norm_num) (a := a) (by simpa using ha)

/-- C35: for `alpha > -2`, `radon(alpha)` returns a scheme; it has degree 5 for the weight `r^alpha`, and
for the plain area only if `alpha = 0`. -/
theorem C35_radon (alpha : ℝ) (ha : -2 < alpha) : ∃ S, radon alpha = some S ∧ S.degree = 5 ∧
    S.ExactRel 2 (Spec.ballPow 2 alpha) ∧ (S.ExactOnBall 2 ↔ alpha = 0) := by
  have g1 : 0 < alpha + 6 := by linarith
  have g2 : 0 < alpha + 4 := by linarith
  have h1 : 0 ≤ (alpha + 4) / (alpha + 6) := by positivity
  have h2 : 0 ≤ (alpha + 4) / (4 * (alpha + 6)) := by positivity
  have h3 : 0 ≤ 3 * (alpha + 4) / (4 * (alpha + 6)) := by positivity
  unfold radon
  rw [sqrtO_some h1, sqrtO_some h2, sqrtO_some h3]
  refine ⟨_, rfl, rfl, ?_⟩
  refine and_iff_left_of_imp (fun h => plain_iff (by norm_num) (by simpa using ha) (by simp [schemeOfSym]) h) |>.2 ?_
  refine plane_exact (diskPow_even ha) ?_ fun p q hpq => ?_
  · simp [planeKeys, SymEntry.Regular, SymKey.Accepts, SymKey.arities]
  · simp only [evenSum2, List.map_cons, List.map_nil, List.zipWith_cons_cons, List.zipWith_nil_left,
      List.sum_cons, List.sum_nil, keyMom2, Real.sq_sqrt h1, Real.sq_sqrt h2, Real.sq_sqrt h3,
      Matrix.cons_val_zero, Matrix.cons_val_one]
    have hp : p ≤ 2 := by omega
    have hq : q ≤ 2 := by omega
    obtain ⟨b, rfl⟩ : ∃ b, alpha = b - 4 := ⟨alpha + 4, by ring⟩
    have e1 : b - 4 + 4 = b := by ring
    have e2 : b - 4 + 6 = b + 2 := by ring
    have e3 : b - 4 + 2 = b - 2 := by ring
    have e4 : 2 + (b - 4) = b - 2 := by ring
    simp only [e1, e2, e3, e4] at g1 g2 ⊢
    have g3 : b - 2 ≠ 0 := by linarith
    have g4 : b ≠ 0 := g2.ne'
    have e5 : b - 2 + 2 = b := by ring
    have e6 : b - 2 + 4 = b + 2 := by ring
    interval_cases p <;> interval_cases q <;> first
      | (exfalso; omega)
      | (norm_num [oddFac, stepFac, g3, e5, e6]; field_simp; ring)

/-- C35: for `alpha > -2`, `mysovskih_1(alpha)` returns a scheme; it has degree 4 for the weight
`r^alpha`, and for the plain area only if `alpha = 0`. -/
theorem C35_mysovskih_1 (alpha : ℝ) (ha : -2 < alpha) : ∃ S, mysovskih_1 alpha = some S ∧
    S.degree = 4 ∧ S.ExactRel 2 (Spec.ballPow 2 alpha) ∧ (S.ExactOnBall 2 ↔ alpha = 0) := by
  have g1 : 0 < alpha + 6 := by linarith
  have g2 : 0 < alpha + 4 := by linarith
  have g3 : 0 < alpha + 2 := by linarith
  have h1 : 0 ≤ (alpha + 4) / (alpha + 6) := by positivity
  unfold mysovskih_1
  rw [sqrtO_some h1]
  refine ⟨_, rfl, rfl, ?_⟩
  refine and_iff_left_of_imp (fun h => plain_iff (by norm_num) (by simpa using ha) (by simp [schemeOfSym]) h) |>.2 ?_
  have hreg : ∀ e ∈ [(⟨.zero, [4 / (alpha + 4) ^ 2], [[]]⟩ : SymEntry),
      ⟨.d 5 0, [(alpha + 2) * (alpha + 6) / (5 * (alpha + 4) ^ 2)],
        [[Real.sqrt ((alpha + 4) / (alpha + 6))]]⟩], e.Regular := by
    simp [SymEntry.Regular, SymKey.Accepts, SymKey.arities]
  refine exactRel_of_moments _ (ballPow_linOnMono (by norm_num) (by simpa using ha))
    (ballPow_mono (by norm_num) (by simpa using ha)) ?_ fun α hα => ?_
  · refine schemeOfSym_wellShaped 2 2 _ 4 hreg (fun e he c hc x hx => ?_) rfl
    simp only [List.mem_cons, List.not_mem_nil, or_false] at he
    rcases he with rfl | rfl
    · simp only [List.mem_cons, List.not_mem_nil, or_false] at hc
      subst hc
      simp only [orbit, List.mem_singleton] at hx
      subst hx; rfl
    · simp only [List.mem_cons, List.not_mem_nil, or_false] at hc
      subst hc
      simp only [orbit, List.mem_map] at hx
      obtain ⟨k, -, rfl⟩ := hx; rfl
  · simp only [schemeOfSym] at hα ⊢
    rw [Fin.sum_univ_two] at hα
    rw [expand_dot 2 2 _ hreg]
    simp only [symSum, List.map_cons, List.map_nil, List.zipWith_cons_cons, List.zipWith_nil_left,
      List.sum_cons, List.sum_nil]
    rw [osum_d_mono 5 0 _ α (by omega), radMom, ballRho, Fin.sum_univ_two]
    simp only [osum, orbit, List.replicate, List.map_cons, List.map_nil, List.sum_cons, List.sum_nil,
      mono_two]
    by_cases hodd : ∃ i, Odd (α i)
    · rw [sphMom_odd α hodd]
      have : (0 : ℝ) ^ α 0 * 0 ^ α 1 = 0 := by
        obtain ⟨i, hi⟩ := hodd
        fin_cases i
        · have hi' : Odd (α 0) := hi
          rw [zero_pow hi'.pos.ne', zero_mul]
        · have hi' : Odd (α 1) := hi
          rw [zero_pow hi'.pos.ne', mul_zero]
      rw [this]; ring
    · push Not at hodd
      obtain ⟨p, hp⟩ := (Nat.not_odd_iff_even.1 (hodd 0)).two_dvd
      obtain ⟨q, hq⟩ := (Nat.not_odd_iff_even.1 (hodd 1)).two_dvd
      have hα' : α = fun i => 2 * (![p, q] : Fin 2 → ℕ) i := by
        funext i; fin_cases i
        · exact hp
        · exact hq
      have hs : sphMom α = oddFac p * oddFac q / stepFac 2 (p + q) := by
        rw [hα', sphMom_even (by norm_num)]; simp [Fin.prod_univ_two, Fin.sum_univ_two]
      rw [hs, hp, hq, zero_pow_two_mul, zero_pow_two_mul, ← mul_add, pow_mul, Real.sq_sqrt h1]
      have hp : p ≤ 2 := by omega
      have hq : q ≤ 2 := by omega
      clear hs hα' hreg
      obtain ⟨b, rfl⟩ : ∃ b, alpha = b - 4 := ⟨alpha + 4, by ring⟩
      have e1 : b - 4 + 4 = b := by ring
      have e2 : b - 4 + 6 = b + 2 := by ring
      have e3 : b - 4 + 2 = b - 2 := by ring
      have e4 : 2 + (b - 4) = b - 2 := by ring
      have e5 : b - 2 + 2 = b := by ring
      have e6 : b - 2 + 4 = b + 2 := by ring
      rw [e1] at g2
      rw [e2] at g1
      rw [e3] at g3
      have g4 : b ≠ 0 := g2.ne'
      have g5 : b - 2 ≠ 0 := g3.ne'
      simp only [e1, e2, e3, Nat.cast_ofNat, e4]
      interval_cases p <;> interval_cases q <;> first
        | (exfalso; omega)
        | (norm_num [oddFac, stepFac, g5, e5, e6]; done)
        | (norm_num [oddFac, stepFac, g5, e5, e6]; field_simp; done)
        | (norm_num [oddFac, stepFac, g5, e5, e6]; field_simp; ring1)

/-- C35: for `alpha > -3`, `ditkin_1(alpha)` returns a scheme; it has degree 5 for the weight
`r^alpha`, and for the plain volume only if `alpha = 0`. -/
theorem C35_ditkin_1 (alpha : ℝ) (ha : -3 < alpha) : ∃ S, ditkin_1 alpha = some S ∧ S.degree = 5 ∧
    S.ExactRel 3 (Spec.ballPow 3 alpha) ∧ (S.ExactOnBall 3 ↔ alpha = 0) := by
  have g1 : 0 < alpha + 7 := by linarith
  have g2 : 0 < alpha + 5 := by linarith
  have h5 : Real.sqrt 5 ^ 2 = 5 := Real.sq_sqrt (by norm_num)
  have h5' : Real.sqrt 5 ≤ 5 := by rw [Real.sqrt_le_iff]; norm_num
  have h5'' := Real.sqrt_nonneg 5
  have h1 : 0 ≤ (alpha + 5) * (5 + Real.sqrt 5) / 10 / (alpha + 7) := by positivity
  have h2 : 0 ≤ (alpha + 5) * (5 - Real.sqrt 5) / 10 / (alpha + 7) := by
    have : 0 ≤ 5 - Real.sqrt 5 := by linarith
    positivity
  unfold ditkin_1
  rw [sqrtO_some h1, sqrtO_some h2]
  refine ⟨_, rfl, rfl, ?_⟩
  refine and_iff_left_of_imp (fun h => plain_iff (by norm_num) (by simpa using ha) (by simp [schemeOfSym]) h) |>.2 ?_
  refine space_exact (ball3Pow_even ha) ?_ fun p q r hpq => ?_
  · simp [spaceKeys]
  · simp only [evenSum3, List.map_cons, List.map_nil, List.zipWith_cons_cons, List.zipWith_nil_left,
      List.sum_cons, List.sum_nil, keyMom3, Real.sq_sqrt h1, Real.sq_sqrt h2,
      Matrix.cons_val_zero, Matrix.cons_val_one, Matrix.cons_val]
    have hp : p ≤ 2 := by omega
    have hq : q ≤ 2 := by omega
    have hr : r ≤ 2 := by omega
    clear h1 h2
    generalize Real.sqrt 5 = t at *
    obtain ⟨b, rfl⟩ : ∃ b, alpha = b - 5 := ⟨alpha + 5, by ring⟩
    have e1 : b - 5 + 5 = b := by ring
    have e2 : b - 5 + 7 = b + 2 := by ring
    have e3 : b - 5 + 3 = b - 2 := by ring
    have e4 : 3 + (b - 5) = b - 2 := by ring
    have e5 : b - 2 + 2 = b := by ring
    have e6 : b - 2 + 4 = b + 2 := by ring
    rw [e1] at g2
    rw [e2] at g1
    have g4 : b ≠ 0 := g2.ne'
    have g5 : b - 2 ≠ 0 := by linarith
    simp only [e1, e2, e3, e4]
    interval_cases p <;> interval_cases q <;> interval_cases r <;> first
      | (exfalso; omega)
      | (norm_num [oddFac, stepFac, g5, e5, e6]; done)
      | (norm_num [oddFac, stepFac, g5, e5, e6]; field_simp; ring1)
      | (norm_num [oddFac, stepFac, g5, e5, e6]; field_simp; ring_nf; linarith)

/-! Concrete case: `alpha = 0` is the plain disk and ball, `alpha = 1` is not. -/

example : (∃ S, radon 0 = some S ∧ S.ExactOnBall 2) ∧ (∃ S, ditkin_1 0 = some S ∧ S.ExactOnBall 3) ∧
    ∃ S, mysovskih_1 1 = some S ∧ S.ExactRel 2 (Spec.ballPow 2 1) ∧ ¬ S.ExactOnBall 2 := by
  obtain ⟨S, h1, -, -, h2⟩ := C35_radon 0 (by norm_num)
  obtain ⟨T, h3, -, -, h4⟩ := C35_ditkin_1 0 (by norm_num)
  obtain ⟨U, h5, -, h6, h7⟩ := C35_mysovskih_1 1 (by norm_num)
  exact ⟨⟨S, h1, h2.2 rfl⟩, ⟨T, h3, h4.2 rfl⟩, U, h5, h6, fun h => absurd (h7.1 h) (by norm_num)⟩

end Quadpy
