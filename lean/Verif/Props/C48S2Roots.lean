import Verif.Props.C48S2
import Verif.Lemmas.Polygon
import Verif.Lemmas.ProductRule
import Mathlib.LinearAlgebra.Vandermonde
import Mathlib.LinearAlgebra.Matrix.NonsingularInverse

/-!
# C48: the rules of Albrecht on the disk whose radii are roots of polynomials

`mp.polyroots` and `mp.lu_solve` are not modelled.  The theorems assume what they are called for: the
numbers are the roots of the polynomial, each as often as its multiplicity, and the weights solve the
linear system.
-/

namespace Quadpy
open Finset FixedS2

/-- `mp.polyroots([a, b, c, d])` returned `sigma`. -/
def IsRoots3 (a b c d : ℝ) (sigma : Fin 3 → ℝ) : Prop :=
  ∀ x : ℝ, a * x ^ 3 + b * x ^ 2 + c * x + d =
    a * ((x - sigma 0) * (x - sigma 1) * (x - sigma 2))

/-- `mp.polyroots([a, b, c, d, e])` returned `sigma`. -/
def IsRoots4 (a b c d e : ℝ) (sigma : Fin 4 → ℝ) : Prop :=
  ∀ x : ℝ, a * x ^ 4 + b * x ^ 3 + c * x ^ 2 + d * x + e =
    a * ((x - sigma 0) * (x - sigma 1) * (x - sigma 2) * (x - sigma 3))

/-- `mp.lu_solve(np.vander(sigma, increasing=True).T, b)` returned `B`. -/
def SolvesVander {n : ℕ} (sigma b B : Fin n → ℝ) : Prop :=
  ∀ s : Fin n, ∑ i, sigma i ^ (s : ℕ) * B i = b s

/-- Roots of a polynomial with alternating signs are positive. -/
theorem IsRoots3.pos {a b c d : ℝ} {sigma : Fin 3 → ℝ} (h : IsRoots3 a b c d sigma) (ha : 0 < a)
    (hb : b < 0) (hc : 0 < c) (hd : d < 0) (i : Fin 3) : 0 < sigma i := by
  have h1 : a * sigma i ^ 3 + b * sigma i ^ 2 + c * sigma i + d = 0 := by
    rw [h]; fin_cases i <;> simp
  by_contra hcon
  push Not at hcon
  have h2 : sigma i ^ 3 ≤ 0 := Odd.pow_nonpos (by decide) hcon
  have h3 := sq_nonneg (sigma i)
  have h4 := mul_nonpos_of_nonneg_of_nonpos ha.le h2
  have h5 := mul_nonpos_of_nonpos_of_nonneg hb.le h3
  have h6 := mul_nonpos_of_nonneg_of_nonpos hc.le hcon
  linarith

theorem IsRoots4.pos {a b c d e : ℝ} {sigma : Fin 4 → ℝ} (h : IsRoots4 a b c d e sigma) (ha : 0 < a)
    (hb : b < 0) (hc : 0 < c) (hd : d < 0) (he : 0 < e) (i : Fin 4) : 0 < sigma i := by
  have h1 : a * sigma i ^ 4 + b * sigma i ^ 3 + c * sigma i ^ 2 + d * sigma i + e = 0 := by
    rw [h]; fin_cases i <;> simp
  by_contra hcon
  push Not at hcon
  have h2 : sigma i ^ 3 ≤ 0 := Odd.pow_nonpos (by decide) hcon
  have h3 := sq_nonneg (sigma i)
  have h4 : 0 ≤ a * sigma i ^ 4 := by positivity
  have h5 := mul_nonneg_of_nonpos_of_nonpos hb.le h2
  have h6 := mul_nonneg_of_nonpos_of_nonpos hd.le hcon
  have h7 := mul_nonneg hc.le h3
  linarith

/-- The power sums of the weights. -/
noncomputable def powSum {n : ℕ} (sigma B : Fin n → ℝ) (s : ℕ) : ℝ := ∑ i, sigma i ^ s * B i

theorem IsRoots3.rec {a b c d : ℝ} {sigma B : Fin 3 → ℝ} (h : IsRoots3 a b c d sigma) (s : ℕ) :
    a * powSum sigma B (s + 3) + b * powSum sigma B (s + 2) + c * powSum sigma B (s + 1) +
      d * powSum sigma B s = 0 := by
  have h1 : ∀ i, a * sigma i ^ 3 + b * sigma i ^ 2 + c * sigma i + d = 0 := fun i => by
    rw [h]; fin_cases i <;> simp
  have : ∑ i, sigma i ^ s * B i * (a * sigma i ^ 3 + b * sigma i ^ 2 + c * sigma i + d) = 0 :=
    sum_eq_zero fun i _ => by rw [h1, mul_zero]
  rw [← this]
  simp only [powSum, Fin.sum_univ_three]
  ring

theorem IsRoots4.rec {a b c d e : ℝ} {sigma B : Fin 4 → ℝ} (h : IsRoots4 a b c d e sigma) (s : ℕ) :
    a * powSum sigma B (s + 4) + b * powSum sigma B (s + 3) + c * powSum sigma B (s + 2) +
      d * powSum sigma B (s + 1) + e * powSum sigma B s = 0 := by
  have h1 : ∀ i, a * sigma i ^ 4 + b * sigma i ^ 3 + c * sigma i ^ 2 + d * sigma i + e = 0 :=
    fun i => by rw [h]; fin_cases i <;> simp
  have : ∑ i, sigma i ^ s * B i *
      (a * sigma i ^ 4 + b * sigma i ^ 3 + c * sigma i ^ 2 + d * sigma i + e) = 0 :=
    sum_eq_zero fun i _ => by rw [h1, mul_zero]
  rw [← this]
  simp only [powSum, Fin.sum_univ_four]
  ring

/-- C48, Albrecht 5. -/
theorem C48_s2_albrecht_5 (sigma B : Fin 3 → ℝ)
    (hr : IsRoots3 6317094 (-10022245) 4149900 (-336375) sigma)
    (hB : SolvesVander sigma ![168899 / 1350000, 7661 / 180000, 71 / 3000] B) :
    (albrecht_5 sigma B).ExactOnBall 2 ∧ (albrecht_5 sigma B).degree = 11 := by
  have hpos := hr.pos (by norm_num) (by norm_num) (by norm_num) (by norm_num)
  have m0 : powSum sigma B 0 = 168899 / 1350000 := hB 0
  have m1 : powSum sigma B 1 = 7661 / 180000 := hB 1
  have m2 : powSum sigma B 2 = 71 / 3000 := hB 2
  have m3 : powSum sigma B 3 = 13 / 800 := by
    have := hr.rec (B := B) 0; simp only [zero_add, m0, m1, m2] at this; linarith
  have m4 : powSum sigma B 4 = 1 / 80 := by
    have := hr.rec (B := B) 1; norm_num only [m3, m1, m2] at this; linarith
  have m5 : powSum sigma B 5 = 1 / 96 := by
    have := hr.rec (B := B) 2; norm_num only [m3, m4, m2] at this; linarith
  have hs : √(19 : ℝ) ^ 2 = 19 := Real.sq_sqrt (by norm_num)
  have h0 := Real.sqrt_nonneg (19 : ℝ)
  have h1 : √(19 : ℝ) ≤ 5 := by nlinarith
  have hq : √(2 : ℝ) ^ 2 = 2 := Real.sq_sqrt (by norm_num)
  have hc := cos_sq_pi8
  have hd := sin_sq_pi8
  have e1 := sqrt_sq_of (x := (125 - 10 * √19) / 366) (by linarith)
  have e2 := sqrt_sq_of (x := (125 + 10 * √19) / 366) (by linarith)
  have e3 := sqrt_sq_of (x := 5 / 6) (by norm_num)
  have f0 := sqrt_sq_of (hpos 0).le
  have f1 := sqrt_sq_of (hpos 1).le
  have f2 := sqrt_sq_of (hpos 2).le
  unfold albrecht_5
  dsimp only
  generalize √(19 : ℝ) = t at *
  generalize √(2 : ℝ) = u at *
  refine ⟨plane_exact disk_even
    (by simp [planeKeys, SymEntry.Regular, SymKey.Accepts, SymKey.arities]) (fun p q hpq => ?_), rfl⟩
  simp only [evenSum2, List.map_cons, List.map_nil, List.zipWith_cons_cons, List.zipWith_nil_left,
    List.sum_cons, List.sum_nil, keyMom2, Matrix.cons_val_zero, Matrix.cons_val_one, Matrix.cons_val,
    mul_pow, e1, e2, e3, hc, hd, f0, f1, f2]
  have key : B 0 * (2 * sigma 0 ^ p * 0 ^ q + 2 * 0 ^ p * sigma 0 ^ q) +
      (B 1 * (2 * sigma 1 ^ p * 0 ^ q + 2 * 0 ^ p * sigma 1 ^ q) +
      (B 2 * (2 * sigma 2 ^ p * 0 ^ q + 2 * 0 ^ p * sigma 2 ^ q) + 0)) =
      2 * powSum sigma B p * 0 ^ q + 2 * 0 ^ p * powSum sigma B q := by
    simp only [powSum, Fin.sum_univ_three]; ring
  rw [key]
  clear key e1 e2 e3 hc hd f0 f1 f2 hpos hr hB h0 h1
  have hp : p ≤ 5 := by omega
  have hq : q ≤ 5 := by omega
  generalize powSum sigma B = M at *
  interval_cases p <;> interval_cases q <;> first
    | (exfalso; omega)
    | (norm_num [oddFac, stepFac, m0, m1, m2, m3, m4, m5]; done)
    | (norm_num [oddFac, stepFac, m0, m1, m2, m3, m4, m5]; clear m0 m1 m2 m3 m4 m5; grind)

/-- C48, Albrecht 6. -/
theorem C48_s2_albrecht_6 (sigma B : Fin 3 → ℝ)
    (hr : IsRoots3 11025 (-19020) 9370 (-1212) sigma)
    (hB : SolvesVander sigma ![1432433 / 18849024, 1075 / 31104, 521 / 25920] B) :
    (albrecht_6 sigma B).ExactOnBall 2 ∧ (albrecht_6 sigma B).degree = 13 := by
  have hpos := hr.pos (by norm_num) (by norm_num) (by norm_num) (by norm_num)
  have m0 : powSum sigma B 0 = 1432433 / 18849024 := hB 0
  have m1 : powSum sigma B 1 = 1075 / 31104 := hB 1
  have m2 : powSum sigma B 2 = 521 / 25920 := hB 2
  have m3 : powSum sigma B 3 = 59 / 4320 := by
    have := hr.rec (B := B) 0; norm_num only [m0, m1, m2] at this; linarith
  have m4 : powSum sigma B 4 = 37 / 3600 := by
    have := hr.rec (B := B) 1; norm_num only [m1, m2, m3] at this; linarith
  have m5 : powSum sigma B 5 = 1 / 120 := by
    have := hr.rec (B := B) 2; norm_num only [m2, m3, m4] at this; linarith
  have m6 : powSum sigma B 6 = 1 / 140 := by
    have := hr.rec (B := B) 3; norm_num only [m3, m4, m5] at this; linarith
  have e0 := sqrt_sq_of (x := 6 / 7) (by norm_num)
  have f0 := sqrt_sq_of (hpos 0).le
  have f1 := sqrt_sq_of (hpos 1).le
  have f2 := sqrt_sq_of (hpos 2).le
  unfold albrecht_6
  dsimp only
  refine ⟨?_, rfl⟩
  rw [Scheme.ExactOnBall, ball_eq_ballPow]
  have k1 : ∀ s, B 0 * (10 * sigma 0 ^ s) + (B 1 * (10 * sigma 1 ^ s) + (B 2 * (10 * sigma 2 ^ s) + 0)) =
      10 * powSum sigma B s := by
    intro s; simp only [powSum, Fin.sum_univ_three]; ring
  have k2 : ∀ s, B 0 * sigma 0 ^ s + (B 1 * sigma 1 ^ s + (B 2 * sigma 2 ^ s + 0)) = powSum sigma B s := by
    intro s; simp only [powSum, Fin.sum_univ_three]; ring
  refine ring_exact (ballPow_linOnMono (by norm_num) (by norm_num))
    (ballPow_mono (by norm_num) (by norm_num)) 10 (by norm_num) (by decide) (by norm_num)
    (by simp [SymEntry.Regular, SymKey.Accepts, SymKey.arities]) (fun s hs => ?_) (fun s hn hs => ?_)
  all_goals
    simp only [ringSum, List.map_cons, List.map_nil, List.zipWith_cons_cons, List.zipWith_nil_left,
      List.sum_cons, List.sum_nil, ringTerm, ringSign, ballRho, e0, f0, f1, f2, Nat.cast_ofNat, k1, k2]
    clear k1 k2 hpos hr hB e0 f0 f1 f2 
    generalize powSum sigma B = M at *
    have hs' : s ≤ 6 := by omega
    interval_cases s <;> first
      | (exfalso; omega)
      | (norm_num [m0, m1, m2, m3, m4, m5, m6]; done)
      | (norm_num [m0, m1, m2, m3, m4, m5, m6]; clear m0 m1 m2 m3 m4 m5 m6; grind)

/-- C48, Albrecht 7. -/
theorem C48_s2_albrecht_7 (sigma ws : Fin 4 → ℝ)
    (hr : IsRoots4 4960228 (-10267740) 6746490 (-1476540) 70425 sigma)
    (hB : SolvesVander sigma ![57719 / 675000, 9427 / 270000, 193 / 9000, 113 / 7200] ws) :
    (albrecht_7 sigma ws).ExactOnBall 2 ∧ (albrecht_7 sigma ws).degree = 15 := by
  have hpos := hr.pos (by norm_num) (by norm_num) (by norm_num) (by norm_num) (by norm_num)
  have m0 : powSum sigma ws 0 = 57719 / 675000 := hB 0
  have m1 : powSum sigma ws 1 = 9427 / 270000 := hB 1
  have m2 : powSum sigma ws 2 = 193 / 9000 := hB 2
  have m3 : powSum sigma ws 3 = 113 / 7200 := hB 3
  have m4 : powSum sigma ws 4 = 1 / 80 := by
    have := hr.rec (B := ws) 0; norm_num only [m0, m1, m2, m3] at this; linarith
  have m5 : powSum sigma ws 5 = 1 / 96 := by
    have := hr.rec (B := ws) 1; norm_num only [m1, m2, m3, m4] at this; linarith
  have m6 : powSum sigma ws 6 = 1 / 112 := by
    have := hr.rec (B := ws) 2; norm_num only [m2, m3, m4, m5] at this; linarith
  have m7 : powSum sigma ws 7 = 1 / 128 := by
    have := hr.rec (B := ws) 3; norm_num only [m3, m4, m5, m6] at this; linarith
  have hs : √(21 : ℝ) ^ 2 = 21 := Real.sq_sqrt (by norm_num)
  have h0 := Real.sqrt_nonneg (21 : ℝ)
  have h1 : √(21 : ℝ) ≤ 5 := by nlinarith
  have e0 := sqrt_sq_of (x := (21 - √21) / 28) (by linarith)
  have e1 := sqrt_sq_of (x := (21 + √21) / 28) (by linarith)
  have f0 := sqrt_sq_of (hpos 0).le
  have f1 := sqrt_sq_of (hpos 1).le
  have f2 := sqrt_sq_of (hpos 2).le
  have f3 := sqrt_sq_of (hpos 3).le
  unfold albrecht_7
  dsimp only
  generalize √(21 : ℝ) = t at *
  refine ⟨?_, rfl⟩
  rw [Scheme.ExactOnBall, ball_eq_ballPow]
  have k1 : ∀ s, ws 0 * (8 * sigma 0 ^ s) + (ws 1 * (8 * sigma 1 ^ s) + (ws 2 * (8 * sigma 2 ^ s) + (ws 3 * (8 * sigma 3 ^ s) + 0))) =
      8 * powSum sigma ws s := by
    intro s; simp only [powSum, Fin.sum_univ_four]; ring
  have k2 : ∀ s, ws 0 * sigma 0 ^ s + (ws 1 * sigma 1 ^ s + (ws 2 * sigma 2 ^ s + (ws 3 * sigma 3 ^ s + 0))) = powSum sigma ws s := by
    intro s; simp only [powSum, Fin.sum_univ_four]; ring
  refine ring_exact (ballPow_linOnMono (by norm_num) (by norm_num))
    (ballPow_mono (by norm_num) (by norm_num)) 8 (by norm_num) (by decide) (by norm_num)
    (by simp [SymEntry.Regular, SymKey.Accepts, SymKey.arities]) (fun s hs => ?_) (fun s hn hs => ?_)
  all_goals
    simp only [ringSum, List.map_cons, List.map_nil, List.zipWith_cons_cons, List.zipWith_nil_left,
      List.sum_cons, List.sum_nil, ringTerm, ringSign, ballRho, e0, e1, f0, f1, f2, f3, Nat.cast_ofNat, k1, k2]
    clear k1 k2 hpos hr hB e0 e1 f0 f1 f2 f3 h0 h1
    generalize powSum sigma ws = M at *
    have hs' : s ≤ 7 := by omega
    interval_cases s <;> first
      | (exfalso; omega)
      | (norm_num [m0, m1, m2, m3, m4, m5, m6, m7]; done)
      | (norm_num [m0, m1, m2, m3, m4, m5, m6, m7]; clear m0 m1 m2 m3 m4 m5 m6 m7; grind)

/-- C48, Albrecht 8. -/
theorem C48_s2_albrecht_8 (sigma ws : Fin 4 → ℝ)
    (hr : IsRoots4 160901628 (-364759920) 274856190 (-76570340) 6054195 sigma)
    (hB : SolvesVander sigma ![121827491812 / 1802182496625, 48541 / 1666980, 977 / 55566, 671 / 52920] ws) :
    (albrecht_8 sigma ws).ExactOnBall 2 ∧ (albrecht_8 sigma ws).degree = 17 := by
  have hpos := hr.pos (by norm_num) (by norm_num) (by norm_num) (by norm_num) (by norm_num)
  have m0 : powSum sigma ws 0 = 121827491812 / 1802182496625 := hB 0
  have m1 : powSum sigma ws 1 = 48541 / 1666980 := hB 1
  have m2 : powSum sigma ws 2 = 977 / 55566 := hB 2
  have m3 : powSum sigma ws 3 = 671 / 52920 := hB 3
  have m4 : powSum sigma ws 4 = 221 / 22050 := by
    have := hr.rec (B := ws) 0; norm_num only [m0, m1, m2, m3] at this; linarith
  have m5 : powSum sigma ws 5 = 1 / 120 := by
    have := hr.rec (B := ws) 1; norm_num only [m1, m2, m3, m4] at this; linarith
  have m6 : powSum sigma ws 6 = 1 / 140 := by
    have := hr.rec (B := ws) 2; norm_num only [m2, m3, m4, m5] at this; linarith
  have m7 : powSum sigma ws 7 = 1 / 160 := by
    have := hr.rec (B := ws) 3; norm_num only [m3, m4, m5, m6] at this; linarith
  have m8 : powSum sigma ws 8 = 1 / 180 := by
    have := hr.rec (B := ws) 4; norm_num only [m4, m5, m6, m7] at this; linarith
  have hs : √(7 : ℝ) ^ 2 = 7 := Real.sq_sqrt (by norm_num)
  have h0 := Real.sqrt_nonneg (7 : ℝ)
  have h1 : √(7 : ℝ) ≤ 3 := by nlinarith
  have e0 := sqrt_sq_of (x := (14 - √7) / 18) (by linarith)
  have e1 := sqrt_sq_of (x := (14 + √7) / 18) (by linarith)
  have f0 := sqrt_sq_of (hpos 0).le
  have f1 := sqrt_sq_of (hpos 1).le
  have f2 := sqrt_sq_of (hpos 2).le
  have f3 := sqrt_sq_of (hpos 3).le
  unfold albrecht_8
  dsimp only
  generalize √(7 : ℝ) = t at *
  refine ⟨?_, rfl⟩
  rw [Scheme.ExactOnBall, ball_eq_ballPow]
  have k1 : ∀ s, ws 0 * (10 * sigma 0 ^ s) + (ws 1 * (10 * sigma 1 ^ s) + (ws 2 * (10 * sigma 2 ^ s) + (ws 3 * (10 * sigma 3 ^ s) + 0))) =
      10 * powSum sigma ws s := by
    intro s; simp only [powSum, Fin.sum_univ_four]; ring
  have k2 : ∀ s, ws 0 * sigma 0 ^ s + (ws 1 * sigma 1 ^ s + (ws 2 * sigma 2 ^ s + (ws 3 * sigma 3 ^ s + 0))) = powSum sigma ws s := by
    intro s; simp only [powSum, Fin.sum_univ_four]; ring
  refine ring_exact (ballPow_linOnMono (by norm_num) (by norm_num))
    (ballPow_mono (by norm_num) (by norm_num)) 10 (by norm_num) (by decide) (by norm_num)
    (by simp [SymEntry.Regular, SymKey.Accepts, SymKey.arities]) (fun s hs => ?_) (fun s hn hs => ?_)
  all_goals
    simp only [ringSum, List.map_cons, List.map_nil, List.zipWith_cons_cons, List.zipWith_nil_left,
      List.sum_cons, List.sum_nil, ringTerm, ringSign, ballRho, e0, e1, f0, f1, f2, f3, Nat.cast_ofNat, k1, k2]
    clear k1 k2 hpos hr hB e0 e1 f0 f1 f2 f3 h0 h1
    generalize powSum sigma ws = M at *
    have hs' : s ≤ 8 := by omega
    interval_cases s <;> first
      | (exfalso; omega)
      | (norm_num [m0, m1, m2, m3, m4, m5, m6, m7, m8]; done)
      | (norm_num [m0, m1, m2, m3, m4, m5, m6, m7, m8]; clear m0 m1 m2 m3 m4 m5 m6 m7 m8; grind)

/-! The assumptions can be met: the polynomials have as many real roots as their degree, all simple. -/

theorem quadratic_zero {p q r x y z : ℝ} (hxy : x ≠ y) (hxz : x ≠ z) (hyz : y ≠ z)
    (hx : p * x ^ 2 + q * x + r = 0) (hy : p * y ^ 2 + q * y + r = 0)
    (hz : p * z ^ 2 + q * z + r = 0) : p = 0 ∧ q = 0 ∧ r = 0 := by
  have h1 : p * (x + y) + q = 0 :=
    mul_left_cancel₀ (sub_ne_zero.2 hxy) (by linear_combination hx - hy)
  have h2 : p * (x + z) + q = 0 :=
    mul_left_cancel₀ (sub_ne_zero.2 hxz) (by linear_combination hx - hz)
  have hp : p = 0 := mul_left_cancel₀ (sub_ne_zero.2 hyz) (by linear_combination h1 - h2)
  subst hp
  have hq : q = 0 := by linarith
  subst hq
  exact ⟨rfl, rfl, by linarith⟩

theorem cubic_zero {p q r s x y z w : ℝ} (hxy : x ≠ y) (hxz : x ≠ z) (hyz : y ≠ z) (hxw : x ≠ w)
    (hyw : y ≠ w) (hzw : z ≠ w)
    (hx : p * x ^ 3 + q * x ^ 2 + r * x + s = 0) (hy : p * y ^ 3 + q * y ^ 2 + r * y + s = 0)
    (hz : p * z ^ 3 + q * z ^ 2 + r * z + s = 0) (hw : p * w ^ 3 + q * w ^ 2 + r * w + s = 0) :
    p = 0 ∧ q = 0 ∧ r = 0 ∧ s = 0 := by
  have h1 : p * y ^ 2 + (p * x + q) * y + (p * x ^ 2 + q * x + r) = 0 :=
    mul_left_cancel₀ (sub_ne_zero.2 hxy) (by linear_combination hx - hy)
  have h2 : p * z ^ 2 + (p * x + q) * z + (p * x ^ 2 + q * x + r) = 0 :=
    mul_left_cancel₀ (sub_ne_zero.2 hxz) (by linear_combination hx - hz)
  have h3 : p * w ^ 2 + (p * x + q) * w + (p * x ^ 2 + q * x + r) = 0 :=
    mul_left_cancel₀ (sub_ne_zero.2 hxw) (by linear_combination hx - hw)
  obtain ⟨rfl, h4, h5⟩ := quadratic_zero hyz hyw hzw h1 h2 h3
  have hq : q = 0 := by linarith
  subst hq
  have hr : r = 0 := by linarith
  subst hr
  exact ⟨rfl, rfl, rfl, by linarith⟩

/-- A continuous function that changes sign has a root. -/
theorem root_between {f : ℝ → ℝ} (hf : Continuous f) {u v : ℝ} (huv : u < v) (h : f u * f v < 0) :
    ∃ x, u < x ∧ x < v ∧ f x = 0 := by
  rcases mul_neg_iff.1 h with ⟨h1, h2⟩ | ⟨h1, h2⟩
  · obtain ⟨x, hx, hx0⟩ := intermediate_value_Ioo' huv.le hf.continuousOn ⟨h2, h1⟩
    exact ⟨x, hx.1, hx.2, hx0⟩
  · obtain ⟨x, hx, hx0⟩ := intermediate_value_Ioo huv.le hf.continuousOn ⟨h1, h2⟩
    exact ⟨x, hx.1, hx.2, hx0⟩

theorem exists_roots3 (a b c d u0 u1 u2 u3 : ℝ) (h0 : u0 < u1) (h1 : u1 < u2) (h2 : u2 < u3)
    (s0 : (a * u0 ^ 3 + b * u0 ^ 2 + c * u0 + d) * (a * u1 ^ 3 + b * u1 ^ 2 + c * u1 + d) < 0)
    (s1 : (a * u1 ^ 3 + b * u1 ^ 2 + c * u1 + d) * (a * u2 ^ 3 + b * u2 ^ 2 + c * u2 + d) < 0)
    (s2 : (a * u2 ^ 3 + b * u2 ^ 2 + c * u2 + d) * (a * u3 ^ 3 + b * u3 ^ 2 + c * u3 + d) < 0) :
    ∃ sigma : Fin 3 → ℝ, IsRoots3 a b c d sigma ∧ Function.Injective sigma := by
  have hf : Continuous fun x : ℝ => a * x ^ 3 + b * x ^ 2 + c * x + d := by fun_prop
  obtain ⟨x, hx1, hx2, hx⟩ := root_between hf h0 s0
  obtain ⟨y, hy1, hy2, hy⟩ := root_between hf h1 s1
  obtain ⟨z, hz1, hz2, hz⟩ := root_between hf h2 s2
  have hxy : x < y := hx2.trans hy1
  have hyz : y < z := hy2.trans hz1
  refine ⟨![x, y, z], fun t => ?_, ?_⟩
  · obtain ⟨k1, k2, k3⟩ := quadratic_zero (p := b + a * (x + y + z))
      (q := c - a * (x * y + x * z + y * z)) (r := d + a * (x * y * z)) hxy.ne (hxy.trans hyz).ne hyz.ne
      (by linear_combination hx) (by linear_combination hy) (by linear_combination hz)
    simp only [Matrix.cons_val_zero, Matrix.cons_val_one, Matrix.cons_val]
    linear_combination t ^ 2 * k1 + t * k2 + k3
  · intro i j hij
    fin_cases i <;> fin_cases j <;> simp at hij ⊢ <;> linarith

theorem exists_roots4 (a b c d e u0 u1 u2 u3 u4 : ℝ) (h0 : u0 < u1) (h1 : u1 < u2) (h2 : u2 < u3)
    (h3 : u3 < u4)
    (s0 : (a * u0 ^ 4 + b * u0 ^ 3 + c * u0 ^ 2 + d * u0 + e) *
      (a * u1 ^ 4 + b * u1 ^ 3 + c * u1 ^ 2 + d * u1 + e) < 0)
    (s1 : (a * u1 ^ 4 + b * u1 ^ 3 + c * u1 ^ 2 + d * u1 + e) *
      (a * u2 ^ 4 + b * u2 ^ 3 + c * u2 ^ 2 + d * u2 + e) < 0)
    (s2 : (a * u2 ^ 4 + b * u2 ^ 3 + c * u2 ^ 2 + d * u2 + e) *
      (a * u3 ^ 4 + b * u3 ^ 3 + c * u3 ^ 2 + d * u3 + e) < 0)
    (s3 : (a * u3 ^ 4 + b * u3 ^ 3 + c * u3 ^ 2 + d * u3 + e) *
      (a * u4 ^ 4 + b * u4 ^ 3 + c * u4 ^ 2 + d * u4 + e) < 0) :
    ∃ sigma : Fin 4 → ℝ, IsRoots4 a b c d e sigma ∧ Function.Injective sigma := by
  have hf : Continuous fun x : ℝ => a * x ^ 4 + b * x ^ 3 + c * x ^ 2 + d * x + e := by fun_prop
  obtain ⟨x, hx1, hx2, hx⟩ := root_between hf h0 s0
  obtain ⟨y, hy1, hy2, hy⟩ := root_between hf h1 s1
  obtain ⟨z, hz1, hz2, hz⟩ := root_between hf h2 s2
  obtain ⟨w, hw1, hw2, hw⟩ := root_between hf h3 s3
  have hxy : x < y := hx2.trans hy1
  have hyz : y < z := hy2.trans hz1
  have hzw : z < w := hz2.trans hw1
  have hxz := hxy.trans hyz
  have hyw := hyz.trans hzw
  have hxw := hxz.trans hzw
  refine ⟨![x, y, z, w], fun t => ?_, ?_⟩
  · obtain ⟨k1, k2, k3, k4⟩ := cubic_zero (p := b + a * (x + y + z + w))
      (q := c - a * (x * y + x * z + y * z + x * w + y * w + z * w))
      (r := d + a * (x * y * z + x * y * w + x * z * w + y * z * w)) (s := e - a * (x * y * z * w))
      hxy.ne hxz.ne hyz.ne hxw.ne hyw.ne hzw.ne
      (by linear_combination hx) (by linear_combination hy) (by linear_combination hz)
      (by linear_combination hw)
    simp only [Matrix.cons_val_zero, Matrix.cons_val_one, Matrix.cons_val]
    linear_combination t ^ 3 * k1 + t ^ 2 * k2 + t * k3 + k4
  · intro i j hij
    fin_cases i <;> fin_cases j <;> simp at hij ⊢ <;> linarith

/-- The weights exist when the roots are distinct. -/
theorem exists_weights {n : ℕ} (sigma b : Fin n → ℝ) (h : Function.Injective sigma) :
    ∃ B, SolvesVander sigma b B := by
  have hdet : ((Matrix.vandermonde sigma).transpose).det ≠ 0 := by
    rw [Matrix.det_transpose]; exact Matrix.det_vandermonde_ne_zero_iff.2 h
  refine ⟨(Matrix.vandermonde sigma).transpose⁻¹.mulVec b, fun s => ?_⟩
  have := congrFun (Matrix.mulVec_mulVec b (Matrix.vandermonde sigma).transpose
    (Matrix.vandermonde sigma).transpose⁻¹) s
  rw [Matrix.mul_nonsing_inv _ (Ne.isUnit hdet), Matrix.one_mulVec] at this
  rw [← this]
  rfl

/-- The system of Albrecht 5 has a solution, so the theorem above speaks about something. -/
example : ∃ sigma B : Fin 3 → ℝ, (albrecht_5 sigma B).ExactOnBall 2 := by
  obtain ⟨sigma, hs, hi⟩ := exists_roots3 6317094 (-10022245) 4149900 (-336375) 0 (3 / 10) (8 / 10) 1
    (by norm_num) (by norm_num) (by norm_num) (by norm_num) (by norm_num) (by norm_num)
  obtain ⟨B, hB⟩ := exists_weights sigma _ hi
  exact ⟨sigma, B, (C48_s2_albrecht_5 sigma B hs hB).1⟩

/-- The same for Albrecht 6. -/
example : ∃ sigma B : Fin 3 → ℝ, (albrecht_6 sigma B).ExactOnBall 2 := by
  obtain ⟨sigma, hs, hi⟩ := exists_roots3 11025 (-19020) 9370 (-1212) 0 (3 / 10) (8 / 10) 1
    (by norm_num) (by norm_num) (by norm_num) (by norm_num) (by norm_num) (by norm_num)
  obtain ⟨B, hB⟩ := exists_weights sigma _ hi
  exact ⟨sigma, B, (C48_s2_albrecht_6 sigma B hs hB).1⟩

/-- The same for Albrecht 7. -/
example : ∃ sigma ws : Fin 4 → ℝ, (albrecht_7 sigma ws).ExactOnBall 2 := by
  obtain ⟨sigma, hs, hi⟩ := exists_roots4 4960228 (-10267740) 6746490 (-1476540) 70425
    0 (2 / 10) (5 / 10) (9 / 10) 1
    (by norm_num) (by norm_num) (by norm_num) (by norm_num) (by norm_num) (by norm_num) (by norm_num)
    (by norm_num)
  obtain ⟨B, hB⟩ := exists_weights sigma _ hi
  exact ⟨sigma, B, (C48_s2_albrecht_7 sigma B hs hB).1⟩

/-- The same for Albrecht 8. -/
example : ∃ sigma ws : Fin 4 → ℝ, (albrecht_8 sigma ws).ExactOnBall 2 := by
  obtain ⟨sigma, hs, hi⟩ := exists_roots4 160901628 (-364759920) 274856190 (-76570340) 6054195
    0 (2 / 10) (5 / 10) (9 / 10) 1
    (by norm_num) (by norm_num) (by norm_num) (by norm_num) (by norm_num) (by norm_num) (by norm_num)
    (by norm_num)
  obtain ⟨B, hB⟩ := exists_weights sigma _ hi
  exact ⟨sigma, B, (C48_s2_albrecht_8 sigma B hs hB).1⟩

/-! The spherical product rule. -/

/-- C48, Stroud 9-3 on the disk. -/
theorem C48_s2_stroud_s2_9_3 : stroud_s2_9_3.ExactOnBall 2 ∧ stroud_s2_9_3.degree = 9 := by
  have hs : √(6 : ℝ) ^ 2 = 6 := Real.sq_sqrt (by norm_num)
  have h0 := Real.sqrt_nonneg (6 : ℝ)
  have h1 : √(6 : ℝ) ≤ 3 := by nlinarith
  have e0 := sqrt_sq_of (x := (6 - √6) / 10) (by linarith)
  have e1 := sqrt_sq_of (x := (6 + √6) / 10) (by linarith)
  refine ⟨?_, rfl⟩
  -- the same points as two orbits
  have key : stroud_s2_9_3 = schemeOfSym 2 [⟨.zero, [1 / 9], [[]]⟩,
      ⟨.d 10 2, [(16 + √6) / 360], [[√((6 - √6) / 10)]]⟩,
      ⟨.d 10 2, [(16 - √6) / 360], [[√((6 + √6) / 10)]]⟩] 9 := by
    have hp : ∀ r : ℝ, ((List.range 10).map fun k : ℕ =>
        [Real.cos (2 * (k + 1) * Real.pi / 10), Real.sin (2 * (k + 1) * Real.pi / 10)]).map
          (·.map (r * ·)) = orbit 2 (.d 10 2) [r] := by
      intro r
      simp only [orbit, List.map_map]
      refine List.map_congr_left fun k _ => ?_
      simp only [Function.comp_apply, List.map_cons, List.map_nil, Nat.cast_ofNat]
      rw [show 2 * ((k : ℝ) + 1) = 2 * k + 2 by ring, mul_comm r, mul_comm r]
    have hlen : ∀ r : ℝ, (orbit 2 (.d 10 2) [r]).length = 10 := fun r => by simp [orbit]
    have := plainScheme_eq 2
      (1 / 9 :: (List.replicate 10 ((16 + √6) / 360) ++ List.replicate 10 ((16 - √6) / 360)))
      ([0, 0] :: (orbit 2 (.d 10 2) [√((6 - √6) / 10)] ++ orbit 2 (.d 10 2) [√((6 + √6) / 10)])) 9
    rw [← hp, ← hp] at this
    rw [stroud_s2_9_3]
    refine this.trans ?_
    rw [hp, hp]
    have hpts : ∀ (k : SymKey) (w : ℝ) (c : List ℝ), entryPoints 2 ⟨k, [w], [c]⟩ = orbit 2 k c := by
      intro k w c
      simp only [entryPoints, List.headD_cons, List.map_cons, List.map_nil]
      generalize orbit 2 k c = L
      rw [show ((List.range L.length).flatMap fun i => [L.getD i []]) =
        (List.range L.length).map fun i => L.getD i [] from by
          induction List.range L.length with
          | nil => rfl
          | cons a l ih => rw [List.flatMap_cons, ih, List.map_cons]; rfl]
      refine List.ext_getElem (by simp) fun i h1 h2 => ?_
      rw [List.getElem_map, List.getElem_range, List.getD_eq_getElem _ _ h2]
    have hws : ∀ (k : SymKey) (w : ℝ) (c : List ℝ), entryWeights 2 ⟨k, [w], [c]⟩ =
        List.replicate (orbit 2 k c).length w := by
      intro k w c
      simp only [entryWeights, List.headD_cons, List.flatten_replicate_singleton]
    simp only [schemeOfSym, expandSymmetries, List.map_cons, List.map_nil, hpts, hws, hlen,
      List.flatten_cons, List.flatten_nil, List.append_nil]
    rfl
  rw [key, Scheme.ExactOnBall, ball_eq_ballPow]
  refine polygon_exact (ballPow_linOnMono (by norm_num) (by norm_num))
    (ballPow_mono (by norm_num) (by norm_num)) 10 (by norm_num)
    (by simp [SymEntry.Regular, SymKey.Accepts, SymKey.arities]) fun s hs => ?_
  simp only [ringSum, List.map_cons, List.map_nil, List.zipWith_cons_cons, List.zipWith_nil_left,
      List.sum_cons, List.sum_nil, ringTerm, ballRho, e0, e1]
  clear e0 e1 key h0 h1
  generalize √(6 : ℝ) = t at *
  have : s ≤ 4 := by omega
  interval_cases s <;> first
    | (norm_num; done)
    | (norm_num; grind)

end Quadpy
