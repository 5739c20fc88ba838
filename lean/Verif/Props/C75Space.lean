import Verif.Props.C75
import Verif.Props.C74Transfer
import Verif.Model.Arrays

/-!
# C75: the effect of rounding on `integrate` on balls, spheres and simplices
-/

namespace Quadpy
open Adaptive Spec MeasureTheory
namespace Rounding

theorem toVec_ofFn {m : ℕ} (v : Fin m → ℝ) : toVec m (List.ofFn v) = v := by
  funext i
  simp [toVec]

theorem dot_ofFn {m k : ℕ} (W : Fin k → ℝ) (P : Fin k → Fin m → ℝ) (g : (Fin m → ℝ) → ℝ) :
    dot m (List.ofFn W) (List.ofFn fun i => List.ofFn (P i)) g = ∑ i, g (P i) * W i := by
  have hv : ∀ v : Fin m → ℝ, toVec m (List.ofFn v) = v := toVec_ofFn
  induction k with
  | zero => simp [dot]
  | succ k ih =>
    rw [Fin.sum_univ_succ, ← ih, List.ofFn_succ, List.ofFn_succ]
    simp only [dot, List.zipWith_cons_cons, List.sum_cons, hv]
    ring

theorem sumTree_nonempty {n : ℕ} {T : SumTree (Fin n)} (hT : T.leaves.Perm (List.finRange n)) : Nonempty (Fin n) := by
  have : T.leaves ≠ [] := by
    clear hT
    induction T with
    | leaf i => simp [SumTree.leaves]
    | node l r ihl _ => simp [SumTree.leaves, ihl]
  rcases n with _ | n
  · rw [List.finRange_zero] at hT
    exact (this hT.eq_nil).elim
  · exact ⟨0⟩

/-- The common part: `v` is the computed volume, `X` are the exact and `x` the computed points. -/
theorem C75_points {E : Type*} [PseudoMetricSpace E] {k : ℕ} {u q F η δ V v : ℝ} (hu : 0 ≤ u) (hq : 1 ≤ q)
    (hv : Within q |V| V v) {W w : Fin k → ℝ} (hw : ∀ i, Rnd u (W i) (w i)) {X x : Fin k → E}
    (hx : ∀ i, dist (x i) (X i) ≤ δ) {T : SumTree (Fin k)} {y : Fin k → ℝ} {s z : ℝ} (hs : Dot u y w T s)
    (hz : Rnd u (v * s) z) {f : E → ℝ} {L : NNReal} (hL : LipschitzWith L f) (hF0 : 0 < F)
    (hF : ∀ i, |f (X i)| ≤ F) (hy : ∀ i, |y i - f (x i)| ≤ η) :
    |z - V * ∑ i, f (X i) * W i| ≤
      |V| * (∑ i, |W i|) * (q * (1 + u) ^ (T.depth + 3) * (F + η + L * δ) - F) := by
  obtain ⟨i0⟩ := sumTree_nonempty hs.1
  have hη : 0 ≤ η := (abs_nonneg _).trans (hy i0)
  have hδ : 0 ≤ δ := dist_nonneg.trans (hx i0)
  have hρ0 : 0 ≤ η + L * δ := by positivity
  have hval : ∀ i, |y i - f (X i)| ≤ η + L * δ := fun i => by
    refine (abs_sub_le _ (f (x i)) _).trans (add_le_add (hy i) ?_)
    have h1 := hL.dist_le_mul (x i) (X i)
    rw [Real.dist_eq] at h1
    exact h1.trans (mul_le_mul_of_nonneg_left (hx i) L.2)
  have hd := (C75_dot (q := (F + (η + L * δ)) / F) hu (by rw [le_div_iff₀ hF0]; linarith) (fun i => ⟨hF i, by
      have : ((F + (η + L * δ)) / F - 1) * F = η + L * δ := by field_simp; ring
      rw [this]; exact hval i⟩) hw hs).2
  refine (((Within.mul hq hv hd).rnd hu hz).1).trans (le_of_eq ?_)
  rw [← add_assoc]
  field_simp
  ring

/-! ### Balls and spheres -/

/-- The coordinates of the points. -/
theorem C75_ball_abscissa {u p p' r c x : ℝ} (hu : 0 ≤ u) (hp : |p| ≤ 1) (hp' : Rnd u p p')
    (h : BallAbscissa u p' r c x) : |x - (r * p + c)| ≤ ((1 + u) ^ 3 - 1) * (|r| + |c|) := by
  obtain ⟨m, hm, hx⟩ := h
  have hP : Within (1 + u) 1 p p' :=
    ⟨by have : |p' - p| ≤ u * |p| := hp'
        nlinarith [abs_nonneg p], hp⟩
  have h1 := (Within.mul le_rfl (within_rfl (x := r) le_rfl) hP).rnd hu hm
  have hc : Within (1 * (1 + u) * (1 + u)) |c| c c := (within_rfl le_rfl).mono (by nlinarith)
  have := ((h1.add hc).rnd hu hx).1
  rwa [mul_one, one_mul, show (1 + u) * (1 + u) * (1 + u) = (1 + u) ^ 3 by ring] at this

section
variable {n k : ℕ} {u q F η v r V : ℝ} {P p : Fin k → Fin n → ℝ} {W w : Fin k → ℝ} {c : Fin n → ℝ}
  {T : SumTree (Fin k)} {x : Fin k → Fin n → ℝ} {y : Fin k → ℝ} {z : ℝ} {f : (Fin n → ℝ) → ℝ} {L : NNReal}

/-- `integrate` on balls and spheres; `V` is the exact volume. -/
theorem C75_ball_points (hu : 0 ≤ u) (hq : 1 ≤ q) (hv : Within q |V| V v) (hP : ∀ i j, |P i j| ≤ 1)
    (hp : ∀ i j, Rnd u (P i j) (p i j)) (hw : ∀ i, Rnd u (W i) (w i)) (h : IntegrateBall u v p w c r T x y z)
    (hL : LipschitzWith L f) (hF0 : 0 < F) (hF : ∀ i, |f fun j => r * P i j + c j| ≤ F)
    (hy : ∀ i, |y i - f (x i)| ≤ η) :
    |z - V * dot n (List.ofFn W) (List.ofFn fun i => List.ofFn (P i)) fun x => f fun j => r * x j + c j| ≤
      |V| * (∑ i, |W i|) * (q * (1 + u) ^ (T.depth + 3) *
        (F + η + L * (((1 + u) ^ 3 - 1) * (|r| + ‖c‖))) - F) := by
  obtain ⟨hx, s, hs, hz⟩ := h
  have h3 : 0 ≤ (1 + u) ^ 3 - 1 := sub_nonneg.2 (one_le_pow₀ (by linarith))
  rw [dot_ofFn]
  refine C75_points (X := fun i j => r * P i j + c j) (x := x) hu hq hv hw (fun i => ?_) hs hz hL hF0 hF hy
  refine (dist_pi_le_iff (by positivity)).2 fun j => ?_
  rw [Real.dist_eq]
  refine (C75_ball_abscissa hu (hP i j) (hp i j) (hx i j)).trans ?_
  refine mul_le_mul_of_nonneg_left (add_le_add le_rfl ?_) h3
  rw [← Real.norm_eq_abs]
  exact norm_le_pi_norm c j

end

/-! ### The volumes -/

theorem within_self {u x r : ℝ} (h : Rnd u x r) : Within (1 + u) |x| x r := h.within

theorem Within.mul' {q q' x y r s : ℝ} (hq : 1 ≤ q) (h : Within q |x| x r) (h' : Within q' |y| y s) :
    Within (q * q') |x * y| (x * y) (r * s) := by
  rw [abs_mul]
  exact Within.mul hq h h'

theorem within_one (x : ℝ) : Within 1 |x| x x := within_rfl le_rfl

theorem C75_disk_area {u r v : ℝ} (hu : 0 ≤ u) (h : DiskArea u r v) :
    Within ((1 + u) ^ 3) |Real.pi * r ^ 2| (Real.pi * r ^ 2) v := by
  obtain ⟨π', q, h1, h2, h3⟩ := h
  have := (Within.mul' (by linarith) h1.within h2.within).rnd hu h3
  rwa [show (1 + u) * (1 + u) * (1 + u) = (1 + u) ^ 3 by ring] at this

theorem C75_ball3_volume {u r v : ℝ} (hu : 0 ≤ u) (h : BallVolume3 u r v) :
    Within ((1 + u) ^ 5) |4 / 3 * Real.pi * r ^ 3| (4 / 3 * Real.pi * r ^ 3) v := by
  obtain ⟨h0, π', a, q, h1, h2, h3, h4, h5⟩ := h
  have hA := (Within.mul' (by linarith) h1.within h2.within).rnd hu h3
  have := (Within.mul' (by nlinarith [pow_nonneg hu 3]) hA h4.within).rnd hu h5
  rwa [show (1 + u) * (1 + u) * (1 + u) * (1 + u) * (1 + u) = (1 + u) ^ 5 by ring] at this

theorem C75_circle_length {u r v : ℝ} (hu : 0 ≤ u) (h : CircleLength u r v) :
    Within ((1 + u) ^ 3) |2 * Real.pi * r| (2 * Real.pi * r) v := by
  obtain ⟨π', a, h1, h2, h3⟩ := h
  have hA := (Within.mul' le_rfl (within_one 2) h1.within).rnd hu h2
  have := (Within.mul' (by nlinarith) hA (within_one r)).rnd hu h3
  rwa [show 1 * (1 + u) * (1 + u) * 1 * (1 + u) = (1 + u) ^ 3 by ring] at this

theorem C75_sphere_area {u r v : ℝ} (hu : 0 ≤ u) (h : SphereArea3 u r v) :
    Within ((1 + u) ^ 4) |4 * Real.pi * r ^ 2| (4 * Real.pi * r ^ 2) v := by
  obtain ⟨π', a, q, h1, h2, h3, h4⟩ := h
  have hA := (Within.mul' le_rfl (within_one 4) h1.within).rnd hu h2
  have := (Within.mul' (by nlinarith) hA h3.within).rnd hu h4
  rwa [show 1 * (1 + u) * (1 + u) * (1 + u) * (1 + u) = (1 + u) ^ 4 by ring] at this

/-- The volume of the ball in `n` dimensions takes at most `3 n` roundings. -/
theorem C75_nball_volume {u r v : ℝ} {n : ℕ} (hu : 0 ≤ u) (h : BallVolume u r n v) :
    Within ((1 + u) ^ (3 * n)) |nballVolume n r| (nballVolume n r) v := by
  have h1 : (1 : ℝ) ≤ 1 + u := by linarith
  induction h with
  | zero => simpa [nballVolume] using within_one (1 : ℝ)
  | @one v h =>
    rw [nballVolume]
    exact h.within.mono (le_self_pow₀ h1 (by norm_num))
  | @step n v π' a b q d v' _ hπ ha hb hq hd hv ih =>
    have hA := (Within.mul' le_rfl (within_one 2) hπ.within).rnd hu ha
    have hB := Within.mul' (by nlinarith) hA (within_one ((n : ℝ) + 2)⁻¹)
    have hB' := hB.rnd hu (by rwa [← div_eq_mul_inv])
    have hD := (Within.mul' (by ring_nf; nlinarith [pow_nonneg hu 3, pow_nonneg hu 2]) hB' hq.within).rnd hu hd
    have hV := (Within.mul' (by ring_nf; nlinarith [pow_nonneg hu 5, pow_nonneg hu 4, pow_nonneg hu 3, pow_nonneg hu 2])
      hD ih).rnd hu hv
    rw [← div_eq_mul_inv] at hV
    rw [nballVolume, show 3 * (n + 2) = 3 * n + 6 by ring, pow_add]
    convert hV using 1
    ring

/-! ### The methods -/

section
variable {n k : ℕ} {u F η v r : ℝ} {P p : Fin k → Fin n → ℝ} {W w : Fin k → ℝ} {c : Fin n → ℝ}
  {T : SumTree (Fin k)} {x : Fin k → Fin n → ℝ} {y : Fin k → ℝ} {z : ℝ} {f : (Fin n → ℝ) → ℝ} {L : NNReal}

/-- `SnScheme.integrate`, in every dimension. -/
theorem C75_sn (hu : 0 ≤ u) (hv : BallVolume u r n v) (hP : ∀ i j, |P i j| ≤ 1)
    (hp : ∀ i j, Rnd u (P i j) (p i j)) (hw : ∀ i, Rnd u (W i) (w i)) (h : IntegrateBall u v p w c r T x y z)
    (hL : LipschitzWith L f) (hF0 : 0 < F) (hF : ∀ i, |f fun j => r * P i j + c j| ≤ F)
    (hy : ∀ i, |y i - f (x i)| ≤ η) :
    |z - Sn.integrate (List.ofFn W) (List.ofFn fun i => List.ofFn (P i)) f c r| ≤
      |nballVolume n r| * (∑ i, |W i|) * ((1 + u) ^ (T.depth + 3 * n + 3) *
        (F + η + L * (((1 + u) ^ 3 - 1) * (|r| + ‖c‖))) - F) := by
  refine (C75_ball_points hu (one_le_pow₀ (by linarith)) (C75_nball_volume hu hv) hP hp hw h hL hF0 hF hy).trans
    (le_of_eq ?_)
  rw [← pow_add, show 3 * n + (T.depth + 3) = T.depth + 3 * n + 3 by ring]

theorem nballVolume_pos (n : ℕ) {r : ℝ} (hr : 0 < r) : 0 < nballVolume n r := by
  induction n using Nat.twoStepInduction with
  | zero => simp [nballVolume]
  | one => rw [nballVolume]; positivity
  | more n ih _ => rw [nballVolume]; positivity

/-- Rounding and the error of the rule together, for a rule with nonnegative weights on a ball. -/
theorem C75_sn_total (hn : 0 < n) {d : ℕ} (hu : 0 ≤ u) (hr : 0 < r) (hv : BallVolume u r n v)
    (hS : (⟨n, List.ofFn W, List.ofFn fun i => List.ofFn (P i), d⟩ : Scheme).ExactOnBall n)
    (hW : ∀ i, 0 ≤ W i) (hP : ∀ i, P i ∈ unitBall n)
    (hp : ∀ i j, Rnd u (P i j) (p i j)) (hw : ∀ i, Rnd u (W i) (w i)) (h : IntegrateBall u v p w c r T x y z)
    (hL : LipschitzWith L f) (hF0 : 0 < F) (hF : ∀ t ∈ closedBall c r, |f t| ≤ F)
    (hy : ∀ i, |y i - f (x i)| ≤ η) (g : MvPolynomial (Fin n) ℝ) (hg : g.totalDegree ≤ d) {ε : ℝ} (hε : 0 ≤ ε)
    (he : ∀ t ∈ closedBall c r, |f t - MvPolynomial.eval t g| ≤ ε) :
    |z - ∫ t in closedBall c r, f t| ≤ nballVolume n r * ((1 + u) ^ (T.depth + 3 * n + 3) *
        (F + η + L * (((1 + u) ^ 3 - 1) * (|r| + ‖c‖))) - F + 2 * ε) := by
  have hvol := nballVolume_pos n hr
  have h1 := C75_sn hu hv (fun i j => ?_) hp hw h hL hF0 (fun i => hF _ (ball_mem (hP i))) hy
  · have h2 := C74_ball hn hS (fun t ht => by
      obtain ⟨i, rfl⟩ := (List.mem_ofFn' _ _).1 ht
      simpa only [toVec_ofFn] using hP i) c hr hL.continuous g hg hε he
    have hs : ((List.ofFn W).map abs).sum = ∑ i, |W i| := by
      rw [List.map_ofFn, List.sum_ofFn]; rfl
    have hs1 : ∑ i, |W i| = 1 := by
      have h3 := hS.2 1 (by simp)
      simp only [map_one] at h3
      rw [dot_ofFn] at h3
      have : ∑ i, (1 : ℝ) * W i = ∑ i, |W i| := Finset.sum_congr rfl fun i _ => by rw [one_mul, abs_of_nonneg (hW i)]
      rw [this] at h3
      have h4 : Spec.ball n (fun _ => 1) ≠ 0 := fun h0 => by
        rw [C15_ball_volume hn, h0, mul_zero] at hvol
        exact hvol.false
      exact mul_left_cancel₀ h4 (h3.trans (mul_one _).symm)
    dsimp only at h2
    rw [hs, hs1] at h2
    rw [hs1, abs_of_pos hvol, mul_one] at h1
    refine (abs_sub_le _ _ _).trans ((add_le_add h1 h2).trans (le_of_eq ?_))
    ring
  · have h3 : ∑ j, P i j ^ 2 ≤ 1 := hP i
    have h4 := (Finset.single_le_sum (f := fun j => P i j ^ 2) (fun j _ => sq_nonneg _) (Finset.mem_univ j)).trans h3
    exact (sq_le_one_iff_abs_le_one _).1 h4

end

/-- `S2Scheme.integrate`. -/
theorem C75_s2 {k : ℕ} {u F η v r : ℝ} {P p : Fin k → Fin 2 → ℝ} {W w : Fin k → ℝ} {c : Fin 2 → ℝ}
    {T : SumTree (Fin k)} {x : Fin k → Fin 2 → ℝ} {y : Fin k → ℝ} {z : ℝ} {f : (Fin 2 → ℝ) → ℝ} {L : NNReal}
    (hu : 0 ≤ u) (hv : DiskArea u r v) (hP : ∀ i j, |P i j| ≤ 1)
    (hp : ∀ i j, Rnd u (P i j) (p i j)) (hw : ∀ i, Rnd u (W i) (w i)) (h : IntegrateBall u v p w c r T x y z)
    (hL : LipschitzWith L f) (hF0 : 0 < F) (hF : ∀ i, |f fun j => r * P i j + c j| ≤ F)
    (hy : ∀ i, |y i - f (x i)| ≤ η) :
    |z - S2.integrate (List.ofFn W) (List.ofFn fun i => List.ofFn (P i)) f c r| ≤
      Real.pi * r ^ 2 * (∑ i, |W i|) * ((1 + u) ^ (T.depth + 6) *
        (F + η + L * (((1 + u) ^ 3 - 1) * (|r| + ‖c‖))) - F) := by
  refine (C75_ball_points hu (one_le_pow₀ (by linarith)) (C75_disk_area hu hv) hP hp hw h hL hF0 hF hy).trans
    (le_of_eq ?_)
  rw [← pow_add, abs_of_nonneg (by positivity), show 3 + (T.depth + 3) = T.depth + 6 by ring]

/-- `S3Scheme.integrate`. -/
theorem C75_s3 {k : ℕ} {u F η v r : ℝ} {P p : Fin k → Fin 3 → ℝ} {W w : Fin k → ℝ} {c : Fin 3 → ℝ}
    {T : SumTree (Fin k)} {x : Fin k → Fin 3 → ℝ} {y : Fin k → ℝ} {z : ℝ} {f : (Fin 3 → ℝ) → ℝ} {L : NNReal}
    (hu : 0 ≤ u) (hv : BallVolume3 u r v) (hP : ∀ i j, |P i j| ≤ 1)
    (hp : ∀ i j, Rnd u (P i j) (p i j)) (hw : ∀ i, Rnd u (W i) (w i)) (h : IntegrateBall u v p w c r T x y z)
    (hL : LipschitzWith L f) (hF0 : 0 < F) (hF : ∀ i, |f fun j => r * P i j + c j| ≤ F)
    (hy : ∀ i, |y i - f (x i)| ≤ η) :
    |z - S3.integrate (List.ofFn W) (List.ofFn fun i => List.ofFn (P i)) f c r| ≤
      |4 / 3 * Real.pi * r ^ 3| * (∑ i, |W i|) * ((1 + u) ^ (T.depth + 8) *
        (F + η + L * (((1 + u) ^ 3 - 1) * (|r| + ‖c‖))) - F) := by
  refine (C75_ball_points hu (one_le_pow₀ (by linarith)) (C75_ball3_volume hu hv) hP hp hw h hL hF0 hF hy).trans
    (le_of_eq ?_)
  rw [← pow_add, show 5 + (T.depth + 3) = T.depth + 8 by ring]

/-- `U2Scheme.integrate`. -/
theorem C75_u2 {k : ℕ} {u F η v r : ℝ} {P p : Fin k → Fin 2 → ℝ} {W w : Fin k → ℝ} {c : Fin 2 → ℝ}
    {T : SumTree (Fin k)} {x : Fin k → Fin 2 → ℝ} {y : Fin k → ℝ} {z : ℝ} {f : (Fin 2 → ℝ) → ℝ} {L : NNReal}
    (hu : 0 ≤ u) (hv : CircleLength u r v) (hP : ∀ i j, |P i j| ≤ 1)
    (hp : ∀ i j, Rnd u (P i j) (p i j)) (hw : ∀ i, Rnd u (W i) (w i)) (h : IntegrateBall u v p w c r T x y z)
    (hL : LipschitzWith L f) (hF0 : 0 < F) (hF : ∀ i, |f fun j => r * P i j + c j| ≤ F)
    (hy : ∀ i, |y i - f (x i)| ≤ η) :
    |z - U2.integrate (List.ofFn W) (List.ofFn fun i => List.ofFn (P i)) f c r| ≤
      |2 * Real.pi * r| * (∑ i, |W i|) * ((1 + u) ^ (T.depth + 6) *
        (F + η + L * (((1 + u) ^ 3 - 1) * (|r| + ‖c‖))) - F) := by
  refine (C75_ball_points hu (one_le_pow₀ (by linarith)) (C75_circle_length hu hv) hP hp hw h hL hF0 hF hy).trans
    (le_of_eq ?_)
  rw [← pow_add, show 3 + (T.depth + 3) = T.depth + 6 by ring]

/-- `U3Scheme.integrate`. -/
theorem C75_u3 {k : ℕ} {u F η v r : ℝ} {P p : Fin k → Fin 3 → ℝ} {W w : Fin k → ℝ} {c : Fin 3 → ℝ}
    {T : SumTree (Fin k)} {x : Fin k → Fin 3 → ℝ} {y : Fin k → ℝ} {z : ℝ} {f : (Fin 3 → ℝ) → ℝ} {L : NNReal}
    (hu : 0 ≤ u) (hv : SphereArea3 u r v) (hP : ∀ i j, |P i j| ≤ 1)
    (hp : ∀ i j, Rnd u (P i j) (p i j)) (hw : ∀ i, Rnd u (W i) (w i)) (h : IntegrateBall u v p w c r T x y z)
    (hL : LipschitzWith L f) (hF0 : 0 < F) (hF : ∀ i, |f fun j => P i j * r + c j| ≤ F)
    (hy : ∀ i, |y i - f (x i)| ≤ η) :
    |z - U3.integrate (List.ofFn W) (List.ofFn fun i => List.ofFn (P i)) f c r| ≤
      4 * Real.pi * r ^ 2 * (∑ i, |W i|) * ((1 + u) ^ (T.depth + 7) *
        (F + η + L * (((1 + u) ^ 3 - 1) * (|r| + ‖c‖))) - F) := by
  simp only [U3.integrate, mul_comm _ r] at hF ⊢
  refine (C75_ball_points hu (one_le_pow₀ (by linarith)) (C75_sphere_area hu hv) hP hp hw h hL hF0 hF hy).trans
    (le_of_eq ?_)
  rw [← pow_add, abs_of_nonneg (by positivity), show 4 + (T.depth + 3) = T.depth + 7 by ring]

/-! ### Simplices -/

/-- `TnScheme.integrate` with barycentric coordinates that are not negative; the vertices have coordinates of
absolute value at most `B`.  The volume comes from `np.linalg.det`, whose error depends on the simplex: `q` is a
bound for it. -/
theorem C75_simplex {n m k : ℕ} {u q F η B v : ℝ} {P p : Fin k → Fin (n + 1) → ℝ} {W w : Fin k → ℝ}
    {S : Fin (n + 1) → Fin m → ℝ} {Tx : SumTree (Fin (n + 1))} {T : SumTree (Fin k)} {x : Fin k → Fin m → ℝ}
    {y : Fin k → ℝ} {z : ℝ} {f : (Fin m → ℝ) → ℝ} {L : NNReal} (hu : 0 ≤ u) (hq : 1 ≤ q)
    (hv : |v - Tn.getVol S| ≤ (q - 1) * Tn.getVol S) (hP : ∀ i j, 0 ≤ P i j) (hP1 : ∀ i, ∑ j, P i j = 1)
    (hp : ∀ i j, Rnd u (P i j) (p i j)) (hw : ∀ i, Rnd u (W i) (w i)) (hB0 : 0 ≤ B) (hB : ∀ l j, |S l j| ≤ B)
    (h : IntegrateSimplex u v p w S Tx T x y z) (hL : LipschitzWith L f) (hF0 : 0 < F)
    (hF : ∀ i, |f (Tn.transform (P i) S)| ≤ F) (hy : ∀ i, |y i - f (x i)| ≤ η) :
    |z - Tn.integrate (List.ofFn W) (List.ofFn fun i => List.ofFn (P i)) f S| ≤
      Tn.getVol S * (∑ i, |W i|) * (q * (1 + u) ^ (T.depth + 3) *
        (F + η + L * (((1 + u) ^ (Tx.depth + 2) - 1) * B)) - F) := by
  obtain ⟨hx, s, hs, hz⟩ := h
  have h0 := Tn.C12_nonneg S
  have h3 : 0 ≤ (1 + u) ^ (Tx.depth + 2) - 1 := sub_nonneg.2 (one_le_pow₀ (by linarith))
  have hV : Within q |Tn.getVol S| (Tn.getVol S) v := ⟨by rwa [abs_of_nonneg h0], le_rfl⟩
  rw [Tn.integrate, dot_ofFn]
  have := C75_points (X := fun i => Tn.transform (P i) S) (x := x) (δ := ((1 + u) ^ (Tx.depth + 2) - 1) * B)
    hu hq hV hw (fun i => ?_) hs hz hL hF0 hF hy
  · rwa [abs_of_nonneg h0] at this
  · refine (dist_pi_le_iff (by positivity)).2 fun j => ?_
    have h4 := (C75_dot (q := 1) (F := B) (f := fun l => S l j) hu le_rfl (fun l => ⟨hB l j, by simp⟩) (hp i) (hx i j)).1
    have h5 : ∑ l, |P i l| = 1 := by
      rw [← hP1 i]; exact Finset.sum_congr rfl fun l _ => abs_of_nonneg (hP i l)
    rw [h5, mul_one, one_mul] at h4
    rw [Real.dist_eq]
    convert h4 using 3
    exact Finset.sum_congr rfl fun l _ => mul_comm _ _

/-- Rounding and the error of the rule together, for a rule with nonnegative weights on a simplex. -/
theorem C75_simplex_total {n k d : ℕ} {u q F η B v : ℝ} {P p : Fin k → Fin (n + 1) → ℝ} {W w : Fin k → ℝ}
    {S : Fin (n + 1) → Fin n → ℝ} {Tx : SumTree (Fin (n + 1))} {T : SumTree (Fin k)} {x : Fin k → Fin n → ℝ}
    {y : Fin k → ℝ} {z : ℝ} {f : (Fin n → ℝ) → ℝ} {L : NNReal} (hu : 0 ≤ u) (hq : 1 ≤ q)
    (hv : |v - Tn.getVol S| ≤ (q - 1) * Tn.getVol S)
    (hS : (⟨n, List.ofFn W, List.ofFn fun i => List.ofFn (P i), d⟩ : Scheme).ExactOnSimplex n)
    (hW : ∀ i, 0 ≤ W i) (hP : ∀ i j, 0 ≤ P i j)
    (hp : ∀ i j, Rnd u (P i j) (p i j)) (hw : ∀ i, Rnd u (W i) (w i)) (hB0 : 0 ≤ B) (hB : ∀ l j, |S l j| ≤ B)
    (h : IntegrateSimplex u v p w S Tx T x y z) (hL : LipschitzWith L f) (hF0 : 0 < F)
    (hF : ∀ t ∈ convexHull ℝ (Set.range S), |f t| ≤ F) (hy : ∀ i, |y i - f (x i)| ≤ η)
    (g : MvPolynomial (Fin n) ℝ) (hg : g.totalDegree ≤ d) {ε : ℝ} (hε : 0 ≤ ε)
    (he : ∀ t ∈ convexHull ℝ (Set.range S), |f t - MvPolynomial.eval t g| ≤ ε) :
    |z - ∫ t in convexHull ℝ (Set.range S), f t| ≤ Tn.getVol S * (q * (1 + u) ^ (T.depth + 3) *
        (F + η + L * (((1 + u) ^ (Tx.depth + 2) - 1) * B)) - F + 2 * ε) := by
  have hP1 : ∀ i, ∑ j, P i j = 1 := fun i => by
    obtain ⟨h1, h2⟩ := hS.1.2.2 (List.ofFn (P i)) ((List.mem_ofFn' _ _).2 ⟨i, rfl⟩)
    rwa [List.sum_ofFn] at h2
  have h1 := C75_simplex hu hq hv hP hP1 hp hw hB0 hB h hL hF0
    (fun i => hF _ (Tn.transform_mem (hP i) (hP1 i))) hy
  have h2 := C74_simplex hS (fun t ht => by
    obtain ⟨i, rfl⟩ := (List.mem_ofFn' _ _).1 ht
    simpa only [toVec_ofFn] using hP i) S hL.continuous g hg hε he
  have hs : ((List.ofFn W).map abs).sum = ∑ i, |W i| := by
    rw [List.map_ofFn, List.sum_ofFn]; rfl
  have hs1 : ∑ i, |W i| = 1 := by
    have h3 := hS.2 1 (by simp)
    have h4 := (Tn.C22_stroudTn11 n).2 1 (by simp)
    rw [show (Tn.stroudTn11 n).weights = [1] from rfl,
      show (Tn.stroudTn11 n).points = [List.replicate (n + 1) (1 / ((n : ℝ) + 1))] from rfl] at h4
    simp only [map_one, dot, List.zipWith_cons_cons, List.zipWith_nil_right, List.sum_cons, List.sum_nil, mul_one,
      add_zero] at h4
    simp only [map_one] at h3
    rw [dot_ofFn] at h3
    have : ∑ i, (1 : ℝ) * W i = ∑ i, |W i| := Finset.sum_congr rfl fun i _ => by rw [one_mul, abs_of_nonneg (hW i)]
    rw [this, ← h4] at h3
    have h5 : (1 / (n.factorial : ℝ)) ≠ 0 := by positivity
    exact mul_left_cancel₀ h5 (h3.trans (mul_one _).symm)
  dsimp only at h2
  rw [hs, hs1] at h2
  rw [hs1, mul_one] at h1
  refine (abs_sub_le _ _ _).trans ((add_le_add h1 h2).trans (le_of_eq ?_))
  ring

theorem rnd_zero {x r : ℝ} (h : Rnd 0 x r) : r = x := by
  rw [Rnd, zero_mul] at h
  exact sub_eq_zero.1 (abs_nonpos_iff.1 h)

theorem dot_zero {n : ℕ} {y w : Fin n → ℝ} {T : SumTree (Fin n)} {s : ℝ} (h : Dot 0 y w T s) :
    s = ∑ i, y i * w i := by
  obtain ⟨hT, t, ht, hs⟩ := h
  have hsum : ∀ {T : SumTree (Fin n)} {s}, Sums 0 t T s → s = (T.leaves.map t).sum := by
    intro T s h
    induction h with
    | leaf i => simp [SumTree.leaves]
    | node _ _ hz ihl ihr => rw [rnd_zero hz, ihl, ihr, SumTree.leaves, List.map_append, List.sum_append]
  rw [hsum hs, (hT.map t).sum_eq, ← List.ofFn_eq_map, List.sum_ofFn]
  exact Finset.sum_congr rfl fun i _ => rnd_zero (ht i)

/-- Without rounding: `SnScheme.integrate` and `TnScheme.integrate` of the exact model, whatever the order of the
additions. -/
theorem C75_exact_space {n m k : ℕ} {W : Fin k → ℝ} {T : SumTree (Fin k)} {y : Fin k → ℝ} {z : ℝ} :
    (∀ {P x : Fin k → Fin n → ℝ} {c : Fin n → ℝ} {r v : ℝ} {f : (Fin n → ℝ) → ℝ}, BallVolume 0 r n v →
      IntegrateBall 0 v P W c r T x y z → (∀ i, y i = f (x i)) →
      z = Sn.integrate (List.ofFn W) (List.ofFn fun i => List.ofFn (P i)) f c r) ∧
    ∀ {P : Fin k → Fin (n + 1) → ℝ} {x : Fin k → Fin m → ℝ} {S : Fin (n + 1) → Fin m → ℝ}
      {Tx : SumTree (Fin (n + 1))} {f : (Fin m → ℝ) → ℝ}, IntegrateSimplex 0 (Tn.getVol S) P W S Tx T x y z →
      (∀ i, y i = f (x i)) → z = Tn.integrate (List.ofFn W) (List.ofFn fun i => List.ofFn (P i)) f S := by
  constructor
  · rintro P x c r v f hv ⟨hx, s, hs, hz⟩ hy
    have hV : v = nballVolume n r := by
      have := (C75_nball_volume le_rfl hv).1
      rw [add_zero, one_pow, sub_self, zero_mul] at this
      exact sub_eq_zero.1 (abs_nonpos_iff.1 this)
    rw [rnd_zero hz, dot_zero hs, hV, Sn.integrate, dot_ofFn]
    congr 1
    refine Finset.sum_congr rfl fun i _ => ?_
    have : x i = fun j => r * P i j + c j := funext fun j => by
      obtain ⟨m, hm, hx⟩ := hx i j
      rw [rnd_zero hx, rnd_zero hm]
    rw [hy, this]
  · rintro P x S Tx f ⟨hx, s, hs, hz⟩ hy
    rw [rnd_zero hz, dot_zero hs, Tn.integrate, dot_ofFn]
    congr 1
    refine Finset.sum_congr rfl fun i _ => ?_
    have : x i = Tn.transform (P i) S := funext fun j => by
      rw [dot_zero (hx i j)]
      exact Finset.sum_congr rfl fun l _ => mul_comm _ _
    rw [hy, this]

/-! Concrete case: the four point rule on the unit circle for `x`, in double precision. -/

example {p : Fin 4 → Fin 2 → ℝ} {w : Fin 4 → ℝ} {x : Fin 4 → Fin 2 → ℝ} {y : Fin 4 → ℝ} {v z : ℝ}
    (hp : ∀ i j, Rnd (2⁻¹ ^ 53) ((![![1, 0], ![0, 1], ![-1, 0], ![0, -1]] : Fin 4 → Fin 2 → ℝ) i j) (p i j))
    (hw : ∀ i, Rnd (2⁻¹ ^ 53) ((fun _ => 1 / 4 : Fin 4 → ℝ) i) (w i)) (hv : CircleLength (2⁻¹ ^ 53) 1 v)
    (h : IntegrateBall (2⁻¹ ^ 53) v p w 0 1 ((SumTree.leaf 0).loop [1, 2, 3]) x y z) (hy : ∀ i, y i = x i 0) :
    |z - U2.integrate (List.ofFn fun _ : Fin 4 => 1 / 4) (List.ofFn fun i => List.ofFn
      ((![![1, 0], ![0, 1], ![-1, 0], ![0, -1]] : Fin 4 → Fin 2 → ℝ) i)) (fun x => x 0) 0 1| ≤ 1e-14 := by
  have hlip : LipschitzWith 1 fun x : Fin 2 → ℝ => x 0 := LipschitzWith.eval 0
  have := C75_u2 (u := 2⁻¹ ^ 53) (F := 1) (η := 0) (c := 0) (by positivity) hv
    (fun i j => by fin_cases i <;> fin_cases j <;> simp) hp hw h hlip one_pos
    (fun i => by fin_cases i <;> simp) (fun i => by rw [hy i, sub_self, abs_zero])
  rw [(C75_loop_depth _ _).1] at this
  refine this.trans ?_
  have hπ := Real.pi_lt_d2
  have hπ0 := Real.pi_pos
  rw [abs_of_nonneg (by positivity)]
  simp only [SumTree.depth, List.length_cons, List.length_nil, Finset.sum_const, Finset.card_univ, Fintype.card_fin,
    norm_zero, NNReal.coe_one]
  rw [abs_of_pos (by norm_num : (0 : ℝ) < 1 / 4), abs_one]
  norm_num
  nlinarith

end Rounding
end Quadpy
