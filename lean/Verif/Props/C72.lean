import Verif.Props.C47
import Verif.Props.C41
import Verif.Lemmas.KronrodRun
import Verif.Lemmas.KronrodNest

/-!
# C72: the Kronrod points contain the Gauss points

`integrate_adaptive` takes every second value of the integrand at the Kronrod points for the values at
the Gauss points.
-/

namespace Quadpy

open OneDim Spec Polynomial

/-- Laurie's algorithm, for arbitrary coefficients: when it divides by no zero, the trailing block of
the matrix has the characteristic polynomial of the leading block, so that the whole characteristic
polynomial is a multiple of it. -/
theorem C72_algorithm {n : ℕ} (a0 b0 : ℕ → ℝ) (hb : ∀ i ≤ (3 * n + 1) / 2, n ≤ i → b0 i ≠ 0)
    (hr : KronrodRegular n a0 b0) : let A := (rKronrod n a0 b0).1; let B := (rKronrod n a0 b0).2
    recPoly (fun k => A (k + n + 1)) (fun k => B (k + n + 1)) n = recPoly A B n ∧
      recPoly A B n ∣ recPoly A B (2 * n + 1) := by
  cases n with
  | zero => exact ⟨rfl, one_dvd _⟩
  | succ n =>
    have h := (table_mixed n a0 b0 (fun i h1 h2 => hb i (by omega) h2) hr).eq
    refine ⟨h, ?_⟩
    have es := recPoly_split (outA n a0 b0) (outB n a0 b0) (n + 1) n
    rw [h, show n + 1 + 1 + (n + 1) = 2 * (n + 1) + 1 by ring] at es
    change recPoly (outA n a0 b0) (outB n a0 b0) (n + 1) ∣
      recPoly (outA n a0 b0) (outB n a0 b0) (2 * (n + 1) + 1)
    rw [es]
    exact dvd_sub (dvd_mul_left _ _) (Dvd.dvd.mul_right (dvd_mul_left _ _) _)

/-- None of the off-diagonal coefficients vanishes. -/
theorem C72_coefficients {n : ℕ} (a0 b0 : ℕ → ℝ) (hb : ∀ i ≤ (3 * n + 1) / 2, 0 < i → b0 i ≠ 0)
    (hr : KronrodRegular n a0 b0) : ∀ k, 0 < k → k ≤ 2 * n → (rKronrod n a0 b0).2 k ≠ 0 := by
  intro k h0 hk
  cases n with
  | zero => omega
  | succ n =>
    have hpre := (rKronrod_prefix (Nat.succ_pos n) a0 b0).2
    by_cases h1 : k < kronrodLength (n + 1)
    · rw [hpre k h1]
      exact hb k (by rw [kronrodLength] at h1; omega) h0
    · rw [kronrodLength] at h1
      obtain ⟨j, rfl⟩ : ∃ j, k = j + (n + 1) + 1 := ⟨k - (n + 1) - 1, by omega⟩
      have h := table_mixed n a0 b0 (fun i h1 h2 => hb i (by omega) (by omega)) hr
      have hs := table_step_sub n a0 b0 (k := j) (by omega) (by omega) (by omega)
        (h.diag (j - 1) (by omega))
      intro hz
      change outB n a0 b0 (j + (n + 1) + 1) = 0 at hz
      rw [hz, zero_mul] at hs
      exact h.diag j (by omega) hs.symm

/-- The points of `gauss_kronrod(n, a, b)` with odd numbers are the points of `gauss_jacobi(n, a, b)`,
in the same order, whenever the algorithm divides by no zero and the eigensolver has a result. -/
theorem C72_points {n : ℕ} [NeZero n] {a b : ℝ} (ha : -1 < a) (hb : -1 < b)
    (hr : KronrodRegular n (jacobiAlpha a b) (Function.update (jacobiBeta a b) 0 (jacobiInt a b)))
    {P W Q V : List ℝ} (hP : GaussKronrod n a b P W) (hQ : GaussJacobi n a b Q V) :
    Adaptive.odds P = Q ∧ P.Pairwise (· < ·) ∧ ∀ w ∈ W, 0 < w := by
  obtain ⟨L, hL, hrec, hpos, h1, hβ⟩ := jacobi_functional ha hb
  have hn : 0 < n := Nat.pos_of_ne_zero (NeZero.ne n)
  obtain ⟨N, rfl⟩ : ∃ N, n = N + 1 := ⟨n - 1, by omega⟩
  have hpre := rKronrod_prefix hn (jacobiAlpha a b) (Function.update (jacobiBeta a b) 0 (jacobiInt a b))
  have hb0 : ∀ i, 0 < i → Function.update (jacobiBeta a b) 0 (jacobiInt a b) i ≠ 0 := fun i hi => by
    rw [Function.update_of_ne (by omega)]; exact (hβ i hi).ne'
  have hB := C72_coefficients (n := N + 1) _ _ (fun i _ hi => hb0 i hi) hr
  have hq := (C72_algorithm (n := N + 1) _ _ (fun i _ hi => hb0 i (by omega)) hr).1
  have hB' : ∀ k, 0 < k → k < 2 * (N + 1) + 1 → 0 < (rKronrod (N + 1) (jacobiAlpha a b)
      (Function.update (jacobiBeta a b) 0 (jacobiInt a b))).2 k := fun k h0 hk =>
    lt_of_le_of_ne (hP.1 k h0 hk) (hB k h0 (by omega)).symm
  refine ⟨?_, schemeFromRc_sorted hB' hP, schemeFromRc_pos hB' (h1 ▸ hpos 1 one_ne_zero fun x _ => by
    simp) hP⟩
  refine odds_points hB' hq hP (V := V) (i2 := jacobiInt a b) ?_
  obtain ⟨q1, x, U, hU, hQ, hV⟩ := hQ
  have ht : tridiag (N + 1) (rKronrod (N + 1) (jacobiAlpha a b)
      (Function.update (jacobiBeta a b) 0 (jacobiInt a b))).1 (fun k => √((rKronrod (N + 1) (jacobiAlpha a b)
      (Function.update (jacobiBeta a b) 0 (jacobiInt a b))).2 k)) =
      tridiag (N + 1) (jacobiAlpha a b) fun k => √(jacobiBeta a b k) := by
    ext i j
    simp only [tridiag, Matrix.of_apply]
    have e1 : ∀ i < N + 1, (rKronrod (N + 1) (jacobiAlpha a b)
        (Function.update (jacobiBeta a b) 0 (jacobiInt a b))).1 i = jacobiAlpha a b i :=
      fun i hi => hpre.1 i (by omega)
    have e2 : ∀ i, 0 < i → i < N + 1 → (rKronrod (N + 1) (jacobiAlpha a b)
        (Function.update (jacobiBeta a b) 0 (jacobiInt a b))).2 i = jacobiBeta a b i := fun i h0 hi => by
      rw [hpre.2 i (by rw [kronrodLength]; omega), Function.update_of_ne (by omega)]
    split_ifs with h1 h2 h3
    · rw [e1 _ i.2]
    · rw [e2 _ (by omega) j.2]
    · rw [e2 _ (by omega) i.2]
    · rfl
  refine ⟨fun k h0 hk => ?_, x, U, ?_, hQ, hV⟩
  · rw [hpre.2 k (by rw [kronrodLength]; omega), Function.update_of_ne (by omega)]
    exact q1 k h0 hk
  · rw [ht]; exact hU

/-- The same for the two rules `integrate_adaptive` uses. -/
theorem C72_legendre {n : ℕ} [NeZero n]
    (hr : KronrodRegular n (jacobiAlpha 0 0) (Function.update (jacobiBeta 0 0) 0 (jacobiInt 0 0)))
    {P W Q V : List ℝ} (hP : GaussKronrod n 0 0 P W) (hQ : GaussLegendre n Q V) :
    Adaptive.odds P = Q :=
  (C72_points (by norm_num) (by norm_num) hr hP (gaussLegendre_iff.1 hQ)).1

/-- So `integrate_adaptive` with `kronrod_degree = n` returns the exact integral of polynomials of
degree at most `2 n - 1`, whatever the history of accepted and rejected intervals; here nothing is
assumed of the rules but where they come from. -/
theorem C72_adaptive {n : ℕ} [NeZero n]
    (hr : KronrodRegular n (jacobiAlpha 0 0) (Function.update (jacobiBeta 0 0) 0 (jacobiInt 0 0)))
    {P W Q V : List ℝ} (hP : GaussKronrod n 0 0 P W) (hQ : GaussLegendre n Q V) (c : Adaptive.Config)
    {ι : Type} [Fintype ι] (p : ι → ℝ[X]) (hp : ∀ i, (p i).natDegree ≤ 2 * n - 1) (a b : ℝ) (fuel : ℕ)
    (v e : ι → ℝ)
    (h : Adaptive.integrateAdaptive (δ := Unit) ⟨P, W, V⟩ c (fun x i => (p i).eval (x ()))
      [(fun _ => a, fun _ => b)] fuel = .returned v e) :
    ∀ i, v i = ∫ x in a..b, (p i).eval x :=
  Adaptive.C41_exact ⟨P, W, V⟩ (2 * n - 1)
    (by rw [C72_legendre hr hP hQ]; exact ((C19_gauss_legendre n).2 Q V hQ).1) c p hp a b fuel v e h

/-! Concrete cases: with one Gauss point the algorithm divides by `b[2]` only; with two Legendre points
by `9/35` and `3/35`. -/

example (a0 b0 : ℕ → ℝ) (h : b0 2 ≠ 0) : KronrodRegular 1 a0 b0 :=
  ⟨fun j hj => absurd hj (by omega), by
    simp [kronrodShift, kronrodInit, kronrodLength, h]⟩

theorem OneDim.kronrodRegular_two :
    KronrodRegular 2 (jacobiAlpha 0 0) (Function.update (jacobiBeta 0 0) 0 (jacobiInt 0 0)) := by
  refine ⟨fun j hj => ?_, ?_⟩
  · obtain rfl : j = 0 := by omega
    norm_num [kronrodDivisor, kronrodStep2, kronrodShift, kronrodStep1, kronrodInit, kronrodLength,
      List.range_succ, jacobiAlpha, jacobiBeta, Function.update_apply]
  · norm_num [kronrodDivisor, kronrodStep2, kronrodShift, kronrodStep1, kronrodInit, kronrodLength,
      List.range_succ, jacobiAlpha, jacobiBeta, Function.update_apply, List.range']

/-- `gauss_kronrod(2)` has a result, its second and fourth points are the two Gauss points. -/
example : ∃ P W, GaussKronrod 2 0 0 P W ∧ P.length = 5 ∧ (Adaptive.odds P).length = 2 ∧
    ∀ x ∈ Adaptive.odds P, x ^ 2 = 1 / 3 := by
  have hpre := (rKronrod_prefix (n := 2) two_pos (jacobiAlpha 0 0)
    (Function.update (jacobiBeta 0 0) 0 (jacobiInt 0 0))).2
  obtain ⟨P, W, h⟩ : ∃ P W, GaussKronrod 2 0 0 P W := by
    refine schemeFromRc_exists _ _ _ _ fun k h0 hk => ?_
    by_cases h4 : k = 4
    · subst h4
      norm_num [rKronrod, kronrodStep2, kronrodShift, kronrodStep1, kronrodInit, kronrodLength,
        List.range_succ, jacobiAlpha, jacobiBeta, Function.update_apply, List.range']
    · rw [hpre k (by rw [kronrodLength]; omega)]
      interval_cases k <;> first | exact absurd rfl h4 | norm_num [jacobiBeta, Function.update_apply]
  obtain ⟨Q, V, hQ⟩ := (C19_gauss_jacobi 2 (a := 0) (b := 0) (by norm_num) (by norm_num)).1
  have ho := (C72_points (by norm_num) (by norm_num) kronrodRegular_two h hQ).1
  refine ⟨P, W, h, (schemeFromRc_length h).1, by rw [ho]; exact (schemeFromRc_length hQ).1, ?_⟩
  intro x hx
  rw [ho] at hx
  have := (schemeFromRc_roots (fun k h0 hk => by
    interval_cases k; norm_num [jacobiBeta]) hQ x).1 hx
  norm_num [recPoly, jacobiAlpha, jacobiBeta] at this
  linarith [this, pow_two x]

end Quadpy
