import Verif.Props.C75Space

/-!
# C75: the effect of rounding on `CnScheme.integrate`
-/

namespace Quadpy
open Adaptive Spec
namespace Rounding

/-- The numbers `0.5 * (1 - xi)` and `0.5 * (1 + xi)`. -/
theorem oneMpXi_within {d : ℕ} {u : ℝ} {P p : Fin d → ℝ} {a : Fin d → Fin 2 → ℝ} (hu : 0 ≤ u) (hP : ∀ k, |P k| ≤ 1)
    (hp : ∀ k, Rnd u (P k) (p k)) (h : OneMpXi u p a) (k : Fin d) (c : Fin 2) :
    Within ((1 + u) ^ 3) 1 (Cn.oneMpXi P k c) (a k c) := by
  have hP' : Within (1 + u) 1 (P k) (p k) :=
    ⟨by have : |p k - P k| ≤ u * |P k| := hp k
        nlinarith [abs_nonneg (P k), hP k], hP k⟩
  have h1 : Within (1 + u) 1 1 1 := (within_rfl (by simp)).mono (by linarith)
  have hN : Within (1 + u) 1 (-P k) (-p k) := ⟨by rw [neg_sub_neg, abs_sub_comm]; exact hP'.1, by rw [abs_neg]; exact hP k⟩
  have half : ∀ {q x r : ℝ}, Within q (1 + 1) x r → Within q 1 (1 / 2 * x) (1 / 2 * r) := fun {q x r} h => by
    refine ⟨?_, ?_⟩
    · rw [← mul_sub, abs_mul, abs_of_pos (by norm_num : (0 : ℝ) < 1 / 2)]
      linarith [h.1]
    · rw [abs_mul, abs_of_pos (by norm_num : (0 : ℝ) < 1 / 2)]
      linarith [h.2]
  obtain ⟨⟨m, hm, h0⟩, s, hs, h2⟩ := h k
  rw [show (1 + u) ^ 3 = (1 + u) * (1 + u) * (1 + u) by ring]
  fin_cases c
  · have := (half ((h1.add hN).rnd hu (r' := m) (by rwa [← sub_eq_add_neg]))).rnd hu h0
    convert this using 1
    · simp [Cn.oneMpXi]; norm_num; ring
    · rfl
  · have := (half ((h1.add hP').rnd hu hs)).rnd hu h2
    convert this using 1
    · simp [Cn.oneMpXi]; norm_num
    · rfl

/-- The products. -/
theorem nOuter_within {u Q : ℝ} (hu : 0 ≤ u) (hQ : 1 ≤ Q) : {d : ℕ} → {A a : Fin (d + 1) → Fin 2 → ℝ} →
    {b : Fin (d + 1) → Fin 2} → {r : ℝ} → (∀ k c, Within Q 1 (A k c) (a k c)) → NOuter u a b r →
    Within (Q ^ (d + 1) * (1 + u) ^ d) 1 (Cn.nOuter A b) r
  | 0, A, a, b, r, h, hr => by
    rw [NOuter] at hr
    rw [hr, Cn.nOuter]
    simpa using h 0 (b 0)
  | d + 1, A, a, b, r, h, hr => by
    obtain ⟨q, hq, hr⟩ := hr
    have ih := nOuter_within hu hQ (A := Fin.init A) (fun k c => h k.castSucc c) hq
    have h1 : 1 ≤ Q ^ (d + 1) * (1 + u) ^ d := one_le_mul_of_one_le_of_one_le (one_le_pow₀ hQ) (one_le_pow₀ (by linarith))
    have := (Within.mul h1 ih (h (Fin.last _) (b (Fin.last _)))).rnd hu hr
    rw [Cn.nOuter]
    convert this using 1
    · ring
    · ring

/-- The coordinates of the points. -/
theorem C75_cube_abscissa {d : ℕ} {u B x : ℝ} {P p : Fin (d + 1) → ℝ} {cube : (Fin (d + 1) → Fin 2) → ℝ}
    {T : SumTree (Fin (d + 1) → Fin 2)} (hu : 0 ≤ u) (hP : ∀ k, |P k| ≤ 1) (hp : ∀ k, Rnd u (P k) (p k))
    (hB : ∀ b, |cube b| ≤ B) (h : CubeAbscissa u p cube T x) :
    |x - ∑ b, Cn.nOuter (Cn.oneMpXi P) b * cube b| ≤ ((1 + u) ^ (4 * (d + 1) + T.depth) - 1) * (2 ^ (d + 1) * B) := by
  obtain ⟨⟨hT, hT'⟩, a, ha, c, t, hc, ht, hx⟩ := h
  have h1 : 1 ≤ 1 + u := by linarith
  have hterm : ∀ b, Within ((1 + u) ^ (4 * (d + 1))) B (Cn.nOuter (Cn.oneMpXi P) b * cube b) (t b) := fun b => by
    have h2 := nOuter_within hu (one_le_pow₀ h1) (oneMpXi_within hu hP hp ha) (hc b)
    have h3 : 1 ≤ ((1 + u) ^ 3) ^ (d + 1) * (1 + u) ^ d :=
      one_le_mul_of_one_le_of_one_le (one_le_pow₀ (one_le_pow₀ h1)) (one_le_pow₀ h1)
    have h4 := (Within.mul h3 h2 (within_rfl (hB b))).rnd hu (ht b)
    convert h4 using 1
    · rw [mul_one, ← pow_mul, mul_assoc, ← pow_succ, ← pow_add]
      congr 1
      ring
    · ring
  have hs := sums_within hu (by positivity) hterm hx
  have hnd : T.leaves.toFinset = Finset.univ := Finset.eq_univ_of_forall fun b => List.mem_toFinset.2 (hT' b)
  have hsum : ∀ g : (Fin (d + 1) → Fin 2) → ℝ, (T.leaves.map g).sum = ∑ b, g b := fun g => by
    rw [← List.sum_toFinset g hT, hnd]
  rw [hsum, hsum, ← pow_add] at hs
  refine hs.1.trans (le_of_eq ?_)
  simp

section
variable {d k : ℕ} {u q F η B D : ℝ} {P p : Fin k → Fin (d + 1) → ℝ} {W w J : Fin k → ℝ}
  {cube : (Fin (d + 1) → Fin 2) → Fin (d + 1) → ℝ} {Tx : SumTree (Fin (d + 1) → Fin 2)} {T : SumTree (Fin k)}
  {x : Fin k → Fin (d + 1) → ℝ} {y : Fin k → ℝ} {z : ℝ} {f : (Fin (d + 1) → ℝ) → ℝ} {L : NNReal}

/-- `CnScheme.integrate(f, ncube)`: the coordinates of the corners are at most `B`, the determinants at most `D` in
absolute value; `np.linalg.det` has an error of at most `(q - 1) * D`. -/
theorem C75_cube (hu : 0 ≤ u) (hq : 1 ≤ q) (hP : ∀ i j, |P i j| ≤ 1) (hp : ∀ i j, Rnd u (P i j) (p i j))
    (hw : ∀ i, Rnd u (W i) (w i)) (hB : ∀ b j, |cube b j| ≤ B)
    (hJ : ∀ i, |Cn.getDetJ (P i) cube| ≤ D ∧ |J i - Cn.getDetJ (P i) cube| ≤ (q - 1) * D)
    (h : IntegrateCube u p w J cube Tx T x y z) (hL : LipschitzWith L f) (hF0 : 0 < F)
    (hF : ∀ i, |f (Cn.transform (P i) cube)| ≤ F) (hy : ∀ i, |y i - f (x i)| ≤ η) :
    |z - Cn.integrate (List.ofFn W) (List.ofFn fun i => List.ofFn (P i)) f cube| ≤
      2 ^ (d + 1) * D * (∑ i, |W i|) * (q * (1 + u) ^ (T.depth + 4) *
        (F + η + L * (((1 + u) ^ (4 * (d + 1) + Tx.depth) - 1) * (2 ^ (d + 1) * B))) - F) := by
  obtain ⟨hx, g, s, hg, hs, hz⟩ := h
  obtain ⟨i0⟩ := sumTree_nonempty hs.1
  have hB0 : 0 ≤ B := (abs_nonneg _).trans (hB 0 0)
  have h1 : 0 ≤ (1 + u) ^ (4 * (d + 1) + Tx.depth) - 1 := sub_nonneg.2 (one_le_pow₀ (by linarith))
  set δ := ((1 + u) ^ (4 * (d + 1) + Tx.depth) - 1) * (2 ^ (d + 1) * B) with hδ
  have hδ0 : 0 ≤ δ := by positivity
  have hη : 0 ≤ η := (abs_nonneg _).trans (hy i0)
  have hρ0 : 0 ≤ η + L * δ := by positivity
  have hq1 : 1 ≤ (F + (η + L * δ)) / F := by rw [le_div_iff₀ hF0]; linarith
  have hval : ∀ i, Within ((F + (η + L * δ)) / F) F (f (Cn.transform (P i) cube)) (y i) := fun i => by
    refine ⟨?_, hF i⟩
    rw [show ((F + (η + L * δ)) / F - 1) * F = η + L * δ by field_simp; ring]
    refine (abs_sub_le _ (f (x i)) _).trans (add_le_add (hy i) ?_)
    have h2 := hL.dist_le_mul (x i) (Cn.transform (P i) cube)
    rw [Real.dist_eq] at h2
    refine h2.trans (mul_le_mul_of_nonneg_left ((dist_pi_le_iff hδ0).2 fun j => ?_) L.2)
    rw [Real.dist_eq]
    exact C75_cube_abscissa hu (hP i) (hp i) (fun b => hB b j) (hx i j)
  have hdet : ∀ i, Within q D |Cn.getDetJ (P i) cube| |J i| := fun i =>
    ⟨(abs_abs_sub_abs_le _ _).trans (hJ i).2, by rw [abs_abs]; exact (hJ i).1⟩
  have hprod : ∀ i, Within ((F + (η + L * δ)) / F * q * (1 + u)) (F * D)
      (f (Cn.transform (P i) cube) * |Cn.getDetJ (P i) cube|) (g i) := fun i =>
    (Within.mul hq1 (hval i) (hdet i)).rnd hu (hg i)
  have hQ : 1 ≤ (F + (η + L * δ)) / F * q * (1 + u) :=
    one_le_mul_of_one_le_of_one_le (one_le_mul_of_one_le_of_one_le hq1 hq) (by linarith)
  have hd := (C75_dot hu hQ (fun i => ⟨(hprod i).2, (hprod i).1⟩) hw hs).2
  have h2 : Within 1 ((2 : ℝ) ^ (d + 1)) (2 ^ (d + 1)) (2 ^ (d + 1)) := within_rfl (by rw [abs_of_pos (by positivity)])
  have := ((Within.mul le_rfl h2 hd).rnd hu hz).1
  rw [Cn.integrate, Cn.integrateV, dot_ofFn]
  simp only [List.length_nil, add_zero, Nat.add_sub_cancel]
  refine this.trans (le_of_eq ?_)
  rw [show (1 + u) ^ (T.depth + 4) = (1 + u) ^ (T.depth + 2) * (1 + u) * (1 + u) by ring]
  field_simp
  ring

open Cn MeasureTheory in
/-- The total error on a parallelotope with nonnegative weights: rounding, evaluation of the integrand and rule.
`ε` is the distance of the integrand to a polynomial of the degree of the rule. -/
theorem C75_parallelotope_total {deg : ℕ} (hu : 0 ≤ u) (hq : 1 ≤ q) {c : Fin (d + 1) → ℝ} {E : Fin (d + 1) → Fin (d + 1) → ℝ}
    (hS : (⟨d + 1, List.ofFn W, List.ofFn fun i => List.ofFn (P i), deg⟩ : Scheme).ExactOnCube (d + 1))
    (hW : ∀ i, 0 ≤ W i) (hP : ∀ i j, |P i j| ≤ 1) (hp : ∀ i j, Rnd u (P i j) (p i j)) (hw : ∀ i, Rnd u (W i) (w i))
    (hB : ∀ b j, |parCorners c E b j| ≤ B)
    (hJ : ∀ i, |J i - (parMatrix E).det| ≤ (q - 1) * |(parMatrix E).det|)
    (h : IntegrateCube u p w J (parCorners c E) Tx T x y z) (hL : LipschitzWith L f) (hF0 : 0 < F)
    (hF : ∀ t ∈ parallelotope c E, |f t| ≤ F) (hy : ∀ i, |y i - f (x i)| ≤ η)
    (g : MvPolynomial (Fin (d + 1)) ℝ) (hg : g.totalDegree ≤ deg) {ε : ℝ} (hε : 0 ≤ ε)
    (he : ∀ t ∈ parallelotope c E, |f t - MvPolynomial.eval t g| ≤ ε) :
    |z - ∫ t in parallelotope c E, f t| ≤ (volume (parallelotope c E)).toReal * (q * (1 + u) ^ (T.depth + 4) *
        (F + η + L * (((1 + u) ^ (4 * (d + 1) + Tx.depth) - 1) * (2 ^ (d + 1) * B))) - F + 2 * ε) := by
  have hs0 : ∑ i, W i = 1 := by
    have h2 := hS.2 1 (by simp)
    simp only [map_one, Spec.cube, setIntegral_const, smul_eq_mul, mul_one] at h2
    rw [measureReal_def, Real.volume_Icc_pi_toReal (fun _ => by norm_num), dot_ofFn] at h2
    simp only [sub_neg_eq_add, Finset.prod_const, Finset.card_univ, Fintype.card_fin, one_mul] at h2
    norm_num at h2
    exact h2
  have hs1 : ∑ i, |W i| = 1 := hs0 ▸ Finset.sum_congr rfl fun i _ => abs_of_nonneg (hW i)
  have hvol : (volume (parallelotope c E)).toReal = 2 ^ (d + 1) * |(parMatrix E).det| := by
    have h1 := C13_parallelotope hS c E 1 (by simp)
    rw [integrate_par] at h1
    simp only [map_one, setIntegral_const, smul_eq_mul, mul_one] at h1
    rw [dot_ofFn] at h1
    simp only [one_mul] at h1
    rw [← measureReal_def, ← h1, hs0, mul_one]
  have h1 := C75_cube (D := |(parMatrix E).det|) hu hq hP hp hw hB
    (fun i => by rw [getDetJ_par]; exact ⟨le_rfl, hJ i⟩) h hL hF0
    (fun i => hF _ (by
      rw [transform_affine, ← image_par]
      exact ⟨_, ⟨fun j => (abs_le.1 (hP i j)).1, fun j => (abs_le.1 (hP i j)).2⟩, rfl⟩)) hy
  have h2 := C74_parallelotope hS (fun t ht => by
    obtain ⟨i, rfl⟩ := (List.mem_ofFn' _ _).1 ht
    rw [toVec_ofFn]
    exact ⟨fun j => (abs_le.1 (hP i j)).1, fun j => (abs_le.1 (hP i j)).2⟩) c E hL.continuous g hg hε he
  have hs : ((List.ofFn W).map abs).sum = ∑ i, |W i| := by
    rw [List.map_ofFn, List.sum_ofFn]; rfl
  dsimp only at h2
  rw [hs, hs1] at h2
  rw [hs1, mul_one, ← hvol] at h1
  refine (abs_sub_le _ _ _).trans ((add_le_add h1 h2).trans (le_of_eq ?_))
  ring

/-- Without rounding it is the exact model, whatever the order of the additions. -/
theorem C75_cube_exact (h : IntegrateCube 0 P W (fun i => Cn.getDetJ (P i) cube) cube Tx T x y z)
    (hP : ∀ i j, |P i j| ≤ 1) (hy : ∀ i, y i = f (x i)) :
    z = Cn.integrate (List.ofFn W) (List.ofFn fun i => List.ofFn (P i)) f cube := by
  obtain ⟨hx, g, s, hg, hs, hz⟩ := h
  rw [rnd_zero hz, dot_zero hs, Cn.integrate, Cn.integrateV, dot_ofFn]
  simp only [List.length_nil, add_zero, Nat.add_sub_cancel]
  congr 1
  refine Finset.sum_congr rfl fun i _ => ?_
  have : x i = Cn.transform (P i) cube := funext fun j => by
    have := C75_cube_abscissa (B := ∑ b, |cube b j|) le_rfl (hP i) (fun k => by simp [Rnd])
      (fun b => Finset.single_le_sum (f := fun b => |cube b j|) (fun _ _ => abs_nonneg _) (Finset.mem_univ b)) (hx i j)
    rw [add_zero, one_pow, sub_self, zero_mul] at this
    exact sub_eq_zero.1 (abs_nonpos_iff.1 this)
  rw [rnd_zero (hg i), hy, this]

end

/-- The midpoint rule on `[0, 1]` as a cube of dimension 1 for the integrand `x` in double precision, the
determinant `1/2` exact. -/
example {x : Fin 1 → Fin 1 → ℝ} {y : Fin 1 → ℝ} {z : ℝ}
    (h : IntegrateCube (d := 0) (1 / 2 ^ 53) (fun _ _ => 0) (fun _ => 1) (fun _ => 1 / 2)
      (fun b _ => ((b 0 : Fin 2) : ℕ)) (.node (.leaf ![0]) (.leaf ![1])) (.leaf 0) x y z) (hy : ∀ i, y i = x i 0) :
    |z - 1 / 2| ≤ 13 / 2 ^ 53 := by
  have hs : ∀ F : (Fin 1 → Fin 2) → ℝ, ∑ b, F b = F (fun _ => 0) + F fun _ => 1 := fun F => by
    rw [← (Equiv.funUnique (Fin 1) (Fin 2)).symm.sum_comp, Fin.sum_univ_two]
    rfl
  have e : Cn.transform (d := 0) (fun _ => 0) (fun b (_ : Fin 1) => (((b 0 : Fin 2) : ℕ) : ℝ)) = fun _ => 1 / 2 := by
    funext j
    rw [Cn.transform, hs]
    simp [Cn.nOuter, Cn.oneMpXi]
    norm_num
  have g : Cn.getDetJ (d := 0) (fun _ => 0) (fun b (_ : Fin 1) => (((b 0 : Fin 2) : ℕ) : ℝ)) = 1 / 2 := by
    rw [Cn.getDetJ, Matrix.det_fin_one, Cn.jacobi, Matrix.of_apply, hs]
    simp [Cn.nOuter]
    norm_num
  have hb := C75_cube (P := fun (_ : Fin 1) (_ : Fin 1) => 0) (W := fun _ => 1) (q := 1) (B := 1) (D := 1 / 2) (F := 1 / 2)
    (η := 0) (L := 1) (f := fun v => v 0) (by positivity) le_rfl (by simp) (by simp [Rnd]) (by simp [Rnd])
    (fun b _ => by
      rw [abs_of_nonneg (Nat.cast_nonneg _)]
      exact_mod_cast Nat.le_of_lt_succ (b 0).2)
    (fun i => by rw [g]; norm_num) h (LipschitzWith.eval 0) (by norm_num) (fun i => by rw [e]; norm_num)
    (fun i => by rw [hy]; simp)
  have hv : Cn.integrate (List.ofFn fun _ : Fin 1 => (1 : ℝ)) (List.ofFn fun _ : Fin 1 => List.ofFn fun _ : Fin 1 => (0 : ℝ))
      (fun v => v 0) (fun b (_ : Fin 1) => (((b 0 : Fin 2) : ℕ) : ℝ)) = 1 / 2 := by
    rw [Cn.integrate, Cn.integrateV, dot_ofFn, Fin.sum_univ_one, e, g]
    norm_num
  rw [hv] at hb
  refine hb.trans ?_
  norm_num [SumTree.depth]

end Rounding
end Quadpy
