import Verif.Props.C75Space
import Verif.Props.C78

/-!
# C75: the effect of rounding on `integrate` on the domains with an exponential weight
-/

namespace Quadpy
open Adaptive Spec
namespace Rounding

/-- A rounded square root of a rounded number. -/
theorem sqrt_rnd {u x x' : ℝ} (hu : 0 ≤ u) (h1 : u ≤ 1) (hx : 0 ≤ x) (h : Rnd u x x') : Rnd u (√x) √x' := by
  have h2 : |x' - x| ≤ u * |x| := h
  rw [abs_of_nonneg hx, abs_le] at h2
  have hx' : 0 ≤ x' := by nlinarith
  have hs := Real.sqrt_nonneg x
  have hq := Real.sq_sqrt hx
  rw [Rnd, abs_of_nonneg hs, abs_le]
  constructor
  · have : (1 - u) * √x ≤ √x' := by
      refine Real.le_sqrt_of_sq_le ?_
      rw [mul_pow, hq]
      nlinarith
    linarith
  · have : √x' ≤ (1 + u) * √x := by
      refine Real.sqrt_le_iff.2 ⟨by positivity, ?_⟩
      rw [mul_pow, hq]
      nlinarith [mul_nonneg hu hx]
    linarith

/-- The four values of `ref_vol` which the repository computes itself. -/
theorem C75_ref_vol {u v : ℝ} (hu : 0 ≤ u) (h1 : u ≤ 1) :
    (VolE2r u v → Within ((1 + u) ^ 2) |Unbounded.refVol .e2r 2| (Unbounded.refVol .e2r 2) v) ∧
    (VolE2r2 u v → Within (1 + u) |Unbounded.refVol .e2r2 2| (Unbounded.refVol .e2r2 2) v) ∧
    (VolE3r u v → Within ((1 + u) ^ 2) |Unbounded.refVol .e3r 3| (Unbounded.refVol .e3r 3) v) ∧
    (VolE3r2 u v → Within ((1 + u) ^ 7) |Unbounded.refVol .e3r2 3| (Unbounded.refVol .e3r2 3) v) := by
  refine ⟨?_, fun h => h.within, ?_, ?_⟩
  · rintro ⟨π', h1, h2⟩
    have := (Within.mul' le_rfl (within_one 2) h1.within).rnd hu h2
    rwa [show 1 * (1 + u) * (1 + u) = (1 + u) ^ 2 by ring] at this
  · rintro ⟨π', h1, h2⟩
    have := (Within.mul' le_rfl (within_one 8) h1.within).rnd hu h2
    rwa [show 1 * (1 + u) * (1 + u) = (1 + u) ^ 2 by ring] at this
  · rintro ⟨π', q, hπ, hq, hv⟩
    have ha := (sqrt_rnd hu h1 Real.pi_pos.le hπ).within.rnd hu hq
    have hb : 1 ≤ (1 + u) * (1 + u) := by nlinarith
    have hc := (Within.mul' (by nlinarith) (Within.mul' hb ha ha) ha).rnd hu (r' := v) (by
      rwa [show q * q * q = q ^ 3 by ring])
    rw [show (1 + u) * (1 + u) * ((1 + u) * (1 + u)) * ((1 + u) * (1 + u)) * (1 + u) = (1 + u) ^ 7 by ring,
      show √Real.pi * √Real.pi * √Real.pi = √Real.pi ^ 3 by ring] at hc
    exact hc

section
variable {n k : ℕ} {u q F η R v : ℝ} {P p : Fin k → Fin n → ℝ} {W w : Fin k → ℝ}
  {T : SumTree (Fin k)} {y : Fin k → ℝ} {z : ℝ} {f : (Fin n → ℝ) → ℝ} {L : NNReal}

/-- `integrate(f)` of the classes E2r, E2r2, E3r, E3r2, Enr, Enr2: `P` and `W` are the exact points and weights, the
coordinates of the points at most `R` in absolute value; `ref_vol` has the relative error `q - 1`. -/
theorem C75_weighted (D : Unbounded.Domain) {d : ℕ} (hu : 0 ≤ u) (hq : 1 ≤ q)
    (hv : Within q |Unbounded.refVol D n| (Unbounded.refVol D n) v) (hR : 0 ≤ R) (hP : ∀ i j, |P i j| ≤ R)
    (hp : ∀ i j, Rnd u (P i j) (p i j)) (hw : ∀ i, Rnd u (W i) (w i)) (h : IntegrateWeighted u v w T y z)
    (hL : LipschitzWith L f) (hF0 : 0 < F) (hF : ∀ i, |f (P i)| ≤ F) (hy : ∀ i, |y i - f (p i)| ≤ η) :
    |z - Unbounded.integrate D n ⟨n, List.ofFn W, List.ofFn fun i => List.ofFn (P i), d⟩ f| ≤
      |Unbounded.refVol D n| * (∑ i, |W i|) * (q * (1 + u) ^ (T.depth + 3) * (F + η + L * (u * R)) - F) := by
  obtain ⟨s, hs, hz⟩ := h
  rw [Unbounded.integrate, dot_ofFn]
  refine C75_points (X := P) (x := p) hu hq hv hw (fun i => ?_) hs hz hL hF0 hF hy
  refine (dist_pi_le_iff (by positivity)).2 fun j => ?_
  rw [Real.dist_eq]
  exact (hp i j).trans (mul_le_mul_of_nonneg_left (hP i j) hu)

/-- Rounding and the error of the rule together: `f` is between two polynomials of the degree of the rule. -/
theorem C75_weighted_total (D : Unbounded.Domain) (hD : D.HasDim n) {d : ℕ}
    (hS : Scheme.ExactRel ⟨n, List.ofFn W, List.ofFn fun i => List.ofFn (P i), d⟩ n (Unbounded.target D n))
    (hW : ∀ i, 0 ≤ W i) (hu : 0 ≤ u) (hq : 1 ≤ q)
    (hv : Within q |Unbounded.refVol D n| (Unbounded.refVol D n) v) (hR : 0 ≤ R) (hP : ∀ i j, |P i j| ≤ R)
    (hp : ∀ i j, Rnd u (P i j) (p i j)) (hw : ∀ i, Rnd u (W i) (w i)) (h : IntegrateWeighted u v w T y z)
    (hL : LipschitzWith L f) (hF0 : 0 < F) (hF : ∀ i, |f (P i)| ≤ F) (hy : ∀ i, |y i - f (p i)| ≤ η)
    {lo hi : MvPolynomial (Fin n) ℝ} (hlo : lo.totalDegree ≤ d) (hhi : hi.totalDegree ≤ d)
    (hlh : ∀ x, MvPolynomial.eval x lo ≤ f x ∧ f x ≤ MvPolynomial.eval x hi) :
    |z - Unbounded.target D n f| ≤
      |Unbounded.refVol D n| * (∑ i, |W i|) * (q * (1 + u) ^ (T.depth + 3) * (F + η + L * (u * R)) - F) +
        Unbounded.target D n fun x => MvPolynomial.eval x (hi - lo) := by
  refine (abs_sub_le _ (Unbounded.integrate D n ⟨n, List.ofFn W, List.ofFn fun i => List.ofFn (P i), d⟩ f) _).trans
    (add_le_add (C75_weighted D hu hq hv hR hP hp hw h hL hF0 hF hy) ?_)
  refine (Unbounded.C78_unbounded D hD hS (fun w hw => ?_) hL.continuous hlo hhi hlh).2.2
  obtain ⟨i, rfl⟩ := (List.mem_ofFn' _ _).1 hw
  exact hW i

/-- Without rounding it is the exact model. -/
theorem C75_weighted_exact (D : Unbounded.Domain) {d : ℕ} (h : IntegrateWeighted 0 (Unbounded.refVol D n) W T y z)
    (hy : ∀ i, y i = f (P i)) :
    z = Unbounded.integrate D n ⟨n, List.ofFn W, List.ofFn fun i => List.ofFn (P i), d⟩ f := by
  obtain ⟨s, hs, hz⟩ := h
  rw [rnd_zero hz, dot_zero hs, Unbounded.integrate, dot_ofFn]
  simp only [hy]

end

theorem rowDot_ofFn {k : ℕ} (a b : Fin k → ℝ) :
    (List.zipWith (· * ·) (List.ofFn a) (List.ofFn b)).sum = ∑ i, a i * b i := by
  induction k with
  | zero => simp
  | succ k ih => rw [Fin.sum_univ_succ, List.ofFn_succ, List.ofFn_succ, List.zipWith_cons_cons, List.sum_cons, ih]

/-- `integrate(f)` of the classes E1r and E1r2 (e1r/_helpers.py:11-14, e1r2/_helpers.py:11-14), for an integrand like
`lambda x: g(x[0])`. -/
theorem C75_half_line {k : ℕ} {u F η R : ℝ} {P p W w : Fin k → ℝ} {T : SumTree (Fin k)} {y : Fin k → ℝ} {z : ℝ}
    {g : ℝ → ℝ} {L : NNReal} (hu : 0 ≤ u) (hP : ∀ i, |P i| ≤ R) (hp : ∀ i, Rnd u (P i) (p i))
    (hw : ∀ i, Rnd u (W i) (w i)) (h : Dot u y w T z) (hL : LipschitzWith L g) (hF0 : 0 < F)
    (hF : ∀ i, |g (P i)| ≤ F) (hy : ∀ i, |y i - g (p i)| ≤ η) :
    ∃ s, Unbounded.integrate1 (List.ofFn P) (List.ofFn W) (Unbounded.firstRow g) = .scalar s ∧
      |z - s| ≤ (∑ i, |W i|) * ((1 + u) ^ (T.depth + 2) * (F + η + L * (u * R)) - F) := by
  refine ⟨∑ i, g (P i) * W i, ?_, ?_⟩
  · simp only [Unbounded.integrate1, Unbounded.firstRow, List.headD_cons, Unbounded.rowDot]
    rw [List.map_ofFn, rowDot_ofFn]
    rfl
  · obtain ⟨i0⟩ := sumTree_nonempty h.1
    have hη : 0 ≤ η := (abs_nonneg _).trans (hy i0)
    have hR : 0 ≤ R := (abs_nonneg _).trans (hP i0)
    have hρ0 : 0 ≤ η + L * (u * R) := by positivity
    have hval : ∀ i, |y i - g (P i)| ≤ η + L * (u * R) := fun i => by
      refine (abs_sub_le _ (g (p i)) _).trans (add_le_add (hy i) ?_)
      have h1 := hL.dist_le_mul (p i) (P i)
      rw [Real.dist_eq, Real.dist_eq] at h1
      exact h1.trans (mul_le_mul_of_nonneg_left ((hp i).trans (mul_le_mul_of_nonneg_left (hP i) hu)) L.2)
    have hd := (C75_dot (q := (F + (η + L * (u * R))) / F) hu (by rw [le_div_iff₀ hF0]; linarith) (fun i => ⟨hF i, by
        have : ((F + (η + L * (u * R))) / F - 1) * F = η + L * (u * R) := by field_simp; ring
        rw [this]; exact hval i⟩) hw h).2
    refine hd.1.trans (le_of_eq ?_)
    rw [← add_assoc]
    field_simp

/-- One point at 1 with weight 1 for the half line, `u = 2^-53`, `g = id` evaluated exactly: the value is within
`5 u` of 1. -/
example {p w : Fin 1 → ℝ} {z : ℝ} (hp : ∀ i, Rnd (1 / 2 ^ 53) 1 (p i)) (hw : ∀ i, Rnd (1 / 2 ^ 53) 1 (w i))
    (h : Dot (1 / 2 ^ 53) p w (.leaf 0) z) : |z - 1| ≤ 5 / 2 ^ 53 := by
  obtain ⟨s, hs, hb⟩ := C75_half_line (P := fun _ : Fin 1 => 1) (W := fun _ => 1) (p := p) (g := id) (L := 1) (F := 1)
    (η := 0) (R := 1) (y := p) (by norm_num) (by simp) hp hw h LipschitzWith.id one_pos (by simp) (by simp)
  have : s = 1 := by
    simpa [Unbounded.integrate1, Unbounded.firstRow, Unbounded.rowDot] using hs.symm
  rw [this] at hb
  refine hb.trans ?_
  norm_num [SumTree.depth]

end Rounding
end Quadpy
