import Verif.Model.Rounding
import Verif.Props.C74Families

/-!
# C75: the effect of rounding on `integrate`
-/

namespace Quadpy
open Adaptive Spec
namespace Rounding

/-- `r` is `x` up to the error `(q - 1) * X`, and `|x| ≤ X`. -/
def Within (q X x r : ℝ) : Prop := |r - x| ≤ (q - 1) * X ∧ |x| ≤ X

theorem Within.abs_le {q X x r : ℝ} (h : Within q X x r) : |r| ≤ q * X := by
  have := abs_add_le (r - x) x
  rw [sub_add_cancel] at this
  linarith [h.1, h.2]

theorem Within.nonneg {q X x r : ℝ} (h : Within q X x r) : 0 ≤ X := (abs_nonneg _).trans h.2

theorem within_rfl {x X : ℝ} (h : |x| ≤ X) : Within 1 X x x := ⟨by simp, h⟩

theorem Rnd.within {u x r : ℝ} (h : Rnd u x r) : Within (1 + u) |x| x r := ⟨by simpa [Rnd] using h, le_rfl⟩

theorem Within.mono {q q' X x r : ℝ} (h : Within q X x r) (hq : q ≤ q') : Within q' X x r :=
  ⟨h.1.trans (mul_le_mul_of_nonneg_right (by linarith) h.nonneg), h.2⟩

/-- One more rounding. -/
theorem Within.rnd {u q X x r r' : ℝ} (hu : 0 ≤ u) (h : Within q X x r) (hr : Rnd u r r') :
    Within (q * (1 + u)) X x r' := by
  refine ⟨?_, h.2⟩
  have h1 := abs_sub_le r' r x
  have h2 := mul_le_mul_of_nonneg_left h.abs_le hu
  have h3 : |r' - r| ≤ u * |r| := hr
  nlinarith [h.1]

theorem Within.add {q X Y x y r s : ℝ} (h : Within q X x r) (h' : Within q Y y s) :
    Within q (X + Y) (x + y) (r + s) := by
  refine ⟨?_, (abs_add_le x y).trans (add_le_add h.2 h'.2)⟩
  rw [add_sub_add_comm]
  refine (abs_add_le _ _).trans ?_
  linarith [h.1, h'.1]

theorem Within.mul {q q' X Y x y r s : ℝ} (hq : 1 ≤ q) (h : Within q X x r) (h' : Within q' Y y s) :
    Within (q * q') (X * Y) (x * y) (r * s) := by
  have hX := h.nonneg
  refine ⟨?_, ?_⟩
  · rw [show r * s - x * y = (r - x) * s + x * (s - y) by ring]
    refine (abs_add_le _ _).trans ?_
    rw [abs_mul, abs_mul]
    have h1 : |r - x| * |s| ≤ ((q - 1) * X) * (q' * Y) :=
      mul_le_mul h.1 h'.abs_le (abs_nonneg _) (mul_nonneg (by linarith) hX)
    have h2 : |x| * |s - y| ≤ X * ((q' - 1) * Y) := mul_le_mul h.2 h'.1 (abs_nonneg _) hX
    nlinarith
  · rw [abs_mul]
    exact mul_le_mul h.2 h'.2 (abs_nonneg _) hX

/-- A sum. -/
theorem sums_within {ι : Type} {u Q : ℝ} (hu : 0 ≤ u) (hQ : 0 ≤ Q) {t x X : ι → ℝ} (ht : ∀ i, Within Q (X i) (x i) (t i))
    {T : SumTree ι} {s : ℝ} (h : Sums u t T s) :
    Within (Q * (1 + u) ^ T.depth) (T.leaves.map X).sum (T.leaves.map x).sum s := by
  have h1 : 1 ≤ 1 + u := by linarith
  induction h with
  | leaf i => simpa [SumTree.depth, SumTree.leaves] using ht i
  | @node l r a b z _ _ hz ihl ihr =>
    rw [SumTree.leaves, List.map_append, List.map_append, List.sum_append, List.sum_append, SumTree.depth,
      pow_succ, ← mul_assoc]
    refine Within.rnd hu (Within.add (ihl.mono ?_) (ihr.mono ?_)) hz
    · exact mul_le_mul_of_nonneg_left (pow_le_pow_right₀ h1 (le_max_left _ _)) hQ
    · exact mul_le_mul_of_nonneg_left (pow_le_pow_right₀ h1 (le_max_right _ _)) hQ

/-- `np.dot` of rounded values and rounded weights, in any order. -/
theorem C75_dot {n : ℕ} {u q F : ℝ} (hu : 0 ≤ u) (hq : 1 ≤ q) {f W y w : Fin n → ℝ} {T : SumTree (Fin n)} {s : ℝ}
    (hy : ∀ i, |f i| ≤ F ∧ |y i - f i| ≤ (q - 1) * F) (hw : ∀ i, Rnd u (W i) (w i)) (h : Dot u y w T s) :
    |s - ∑ i, f i * W i| ≤ (q * (1 + u) ^ (T.depth + 2) - 1) * (F * ∑ i, |W i|) ∧
      Within (q * (1 + u) ^ (T.depth + 2)) (F * ∑ i, |W i|) (∑ i, f i * W i) s := by
  obtain ⟨hp, t, ht, hs⟩ := h
  have hW : ∀ i, Within (q * (1 + u) * (1 + u)) (F * |W i|) (f i * W i) (t i) := fun i =>
    ((Within.mul hq ⟨(hy i).2, (hy i).1⟩ (hw i).within).rnd hu (ht i))
  have h1 := sums_within hu (by positivity) hW hs
  have e : ∀ g : Fin n → ℝ, (T.leaves.map g).sum = ∑ i, g i := fun g => by
    rw [(hp.map g).sum_eq, ← List.ofFn_eq_map, List.sum_ofFn]
  rw [e, e, ← Finset.mul_sum, show q * (1 + u) * (1 + u) * (1 + u) ^ T.depth = q * (1 + u) ^ (T.depth + 2) by
    rw [pow_add]; ring] at h1
  exact ⟨h1.1, h1⟩

/-- The abscissae. -/
theorem C75_abscissa {u p p' a b x : ℝ} (hu : 0 ≤ u) (hp : -1 ≤ p ∧ p ≤ 1) (hp' : Rnd u p p')
    (h : Abscissa u p' a b x) :
    |x - affine (δ := Unit) (fun _ => a, fun _ => b) p ()| ≤ ((1 + u) ^ 5 - 1) * (|a| + |b|) := by
  obtain ⟨d, s, x0, x1, l, r, hd, h0, hs, h1, hl, hr, hx⟩ := h
  have hpa : |p| ≤ 1 := abs_le.2 hp
  have hP : Within (1 + u) 1 p p' :=
    ⟨by have : |p' - p| ≤ u * |p| := hp'
        nlinarith [abs_nonneg p], hpa⟩
  have hN : Within (1 + u) 1 (-p) (-p') := ⟨by
    rw [show -p' - -p = -(p' - p) by ring, abs_neg]; exact hP.1, by rwa [abs_neg]⟩
  have hone : Within (1 + u) 1 1 1 := (within_rfl (by simp)).mono (by linarith)
  have hhalf : Within 1 (1 / 2) (1 / 2) (1 / 2 : ℝ) := within_rfl (by rw [abs_of_pos (by norm_num)])
  have hu1 : (1 : ℝ) ≤ 1 + u := by linarith
  have key : ∀ {c z z' v v' : ℝ}, Within (1 + u) 1 z z' → Rnd u (1 + z') v → Rnd u (1 / 2 * v) v' →
      Within ((1 + u) ^ 3) 1 (1 / 2 * (1 + z)) v' := by
    intro _ z z' v v' hz hv hv'
    have := ((Within.mul le_rfl hhalf ((hone.add hz).rnd hu hv)).rnd hu hv')
    rw [show (1 : ℝ) * ((1 + u) * (1 + u)) * (1 + u) = (1 + u) ^ 3 by ring,
      show (1 / 2 * (1 + 1) : ℝ) = 1 by norm_num] at this
    exact this
  have k0 := key (c := 0) hN (by rwa [← sub_eq_add_neg]) h0
  have k1 := key (c := 0) hP hs h1
  have m0 := (Within.mul le_rfl (within_rfl (x := a) le_rfl) k0).rnd hu hl
  have m1 := (Within.mul le_rfl (within_rfl (x := b) le_rfl) k1).rnd hu hr
  have := ((m0.add m1).rnd hu hx).1
  rw [mul_one, mul_one, one_mul, show (1 + u) ^ 3 * (1 + u) * (1 + u) = (1 + u) ^ 5 by ring] at this
  simp only [affine]
  convert this using 3
  ring

/-- The length of the interval. -/
theorem C75_length {u a b l : ℝ} (hu : 0 ≤ u) (h1 : u ≤ 1) (h : Length u a b l) :
    Within ((1 + u) ^ 3) |b - a| |b - a| l := by
  obtain ⟨d, e, hd, he, hl⟩ := h
  have hd' := hd.within
  have habs : Within (1 + u) |b - a| |b - a| |d| := ⟨(abs_abs_sub_abs_le _ _).trans hd'.1, by rw [abs_abs]⟩
  have he0 : (1 - u) * d ^ 2 ≤ e ∧ e ≤ (1 + u) * d ^ 2 := by
    have : |e - d ^ 2| ≤ u * |d ^ 2| := he
    rw [abs_of_nonneg (sq_nonneg d), abs_le] at this
    constructor <;> linarith
  have hsq : Rnd u |d| √e := by
    have hep : 0 ≤ e := le_trans (mul_nonneg (by linarith) (sq_nonneg d)) he0.1
    rw [Rnd, abs_abs, abs_le]
    have hd0 := abs_nonneg d
    constructor
    · have : (1 - u) * |d| ≤ √e := by
        refine Real.le_sqrt_of_sq_le ?_
        rw [mul_pow, sq_abs]
        nlinarith [sq_nonneg d]
      linarith
    · have : √e ≤ (1 + u) * |d| := by
        refine Real.sqrt_le_iff.2 ⟨by positivity, ?_⟩
        rw [mul_pow, sq_abs]
        nlinarith [sq_nonneg d, mul_nonneg hu (sq_nonneg d)]
      linarith
  have := (habs.rnd hu hsq).rnd hu hl
  rwa [show (1 + u) * (1 + u) * (1 + u) = (1 + u) ^ 3 by ring] at this

/-- The whole of `C1Scheme.integrate`: with points in `[-1, 1]`, a Lipschitz integrand of absolute value at most
`F` (positive) at the abscissae that is evaluated with an error of at most `η`, the result differs from that of exact
arithmetic by at most the bound given; `P` and `W` are the exact points and weights, `p` and `w` the rounded
ones. -/
theorem C75_integrate {n : ℕ} {u F η : ℝ} (hu : 0 ≤ u) (hu1 : u ≤ 1) {P W p w : Fin n → ℝ}
    (hP : ∀ i, -1 ≤ P i ∧ P i ≤ 1) (hp : ∀ i, Rnd u (P i) (p i)) (hw : ∀ i, Rnd u (W i) (w i)) {a b : ℝ}
    {T : SumTree (Fin n)} {x y : Fin n → ℝ} {z : ℝ} (h : Integrate1 u p w a b T x y z) {f : ℝ → ℝ} {L : NNReal}
    (hL : LipschitzWith L f) (hF0 : 0 < F)
    (hF : ∀ i, |f (affine (δ := Unit) (fun _ => a, fun _ => b) (P i) ())| ≤ F)
    (hy : ∀ i, |y i - f (x i)| ≤ η) :
    |z - C1.integrate1 (List.ofFn P) (List.ofFn W) f a b| ≤
      |b - a| / 2 * (∑ i, |W i|) *
        ((1 + u) ^ (T.depth + 7) * (F + η + L * (((1 + u) ^ 5 - 1) * (|a| + |b|))) - F) := by
  obtain ⟨hx, l, g, s, hl, hg, hs, hz⟩ := h
  have hn : Nonempty (Fin n) := by
    obtain ⟨hT, -⟩ := hs
    have : T.leaves ≠ [] := by
      clear hT
      induction T with
      | leaf i => simp [SumTree.leaves]
      | node l r ihl _ => simp [SumTree.leaves, ihl]
    rcases n with _ | n
    · rw [List.finRange_zero] at hT
      exact (this hT.eq_nil).elim
    · exact ⟨0⟩
  obtain ⟨i0⟩ := hn
  have hη : 0 ≤ η := (abs_nonneg _).trans (hy i0)
  set ρ := η + L * (((1 + u) ^ 5 - 1) * (|a| + |b|)) with hρ
  have h5 : 1 ≤ (1 + u) ^ 5 := one_le_pow₀ (by linarith)
  have hρ0 : 0 ≤ ρ := by
    have : 0 ≤ (1 + u) ^ 5 - 1 := by linarith
    positivity
  have hval : ∀ i, |y i - f (affine (δ := Unit) (fun _ => a, fun _ => b) (P i) ())| ≤ ρ := fun i => by
    refine (abs_sub_le _ (f (x i)) _).trans (add_le_add (hy i) ?_)
    have h1 := hL.dist_le_mul (x i) (affine (δ := Unit) (fun _ => a, fun _ => b) (P i) ())
    rw [Real.dist_eq, Real.dist_eq] at h1
    exact h1.trans (mul_le_mul_of_nonneg_left (C75_abscissa hu (hP i) (hp i) (hx i)) L.2)
  have e1 : C1.integrate1 (List.ofFn P) (List.ofFn W) f a b =
      1 / 2 * |b - a| * ∑ i, f (affine (δ := Unit) (fun _ => a, fun _ => b) (P i) ()) * W i := by
    simp only [C1.integrate1, C1.integrate, C1.len_unit]
    rw [OneDim.vdot_ofFn (fun t => f (affine (δ := Unit) (fun _ => a, fun _ => b) t ()))]
  have hlen := C75_length hu hu1 hl
  have hhalf : Within 1 (1 / 2) (1 / 2) (1 / 2 : ℝ) := within_rfl (by rw [abs_of_pos (by norm_num)])
  have hgw := (Within.mul le_rfl hhalf hlen).rnd hu hg
  rw [show (1 : ℝ) * (1 + u) ^ 3 * (1 + u) = (1 + u) ^ 4 by ring] at hgw
  have h4 : 1 ≤ (1 + u) ^ 4 := one_le_pow₀ (by linarith)
  rw [e1]
  have hd := (C75_dot (q := (F + ρ) / F) hu (by rw [le_div_iff₀ hF0]; linarith) (fun i => ⟨hF i, by
      have : ((F + ρ) / F - 1) * F = ρ := by field_simp; ring
      rw [this]; exact hval i⟩) hw hs).2
  have := ((Within.mul h4 hgw hd).rnd hu hz).1
  refine this.trans (le_of_eq ?_)
  rw [hρ]
  rw [← add_assoc]
  field_simp
  ring

/-- Together with the error of the rule itself: a rule with nonnegative weights and the degree `d`. -/
theorem C75_total {n d : ℕ} {u F η : ℝ} (hu : 0 ≤ u) (hu1 : u ≤ 1) {P W p w : Fin n → ℝ}
    (hex : ExactC1 (List.ofFn P) (List.ofFn W) d) (hW : ∀ i, 0 ≤ W i)
    (hP : ∀ i, -1 ≤ P i ∧ P i ≤ 1) (hp : ∀ i, Rnd u (P i) (p i)) (hw : ∀ i, Rnd u (W i) (w i)) {a b : ℝ}
    (hab : a ≤ b) {T : SumTree (Fin n)} {x y : Fin n → ℝ} {z : ℝ} (h : Integrate1 u p w a b T x y z)
    {f : ℝ → ℝ} {L : NNReal} (hL : LipschitzWith L f) (hF0 : 0 < F) (hF : ∀ t ∈ Set.Icc a b, |f t| ≤ F)
    (hy : ∀ i, |y i - f (x i)| ≤ η) (q : Polynomial ℝ) (hq : q.natDegree ≤ d) {ε : ℝ}
    (he : ∀ t ∈ Set.Icc a b, |f t - q.eval t| ≤ ε) :
    |z - ∫ t in a..b, f t| ≤ (b - a) *
      ((1 + u) ^ (T.depth + 7) * (F + η + L * (((1 + u) ^ 5 - 1) * (|a| + |b|))) - F + 2 * ε) := by
  have h1 := C75_integrate hu hu1 hP hp hw h hL hF0 (fun i => hF _ (C1.affine_mem hab (hP i))) hy
  have hmemW : ∀ v ∈ List.ofFn W, 0 ≤ v := fun v hv => by
    obtain ⟨i, rfl⟩ := (List.mem_ofFn' _ _).1 hv
    exact hW i
  have h2 := C74_best_nonneg hex (fun v hv => by
    obtain ⟨i, rfl⟩ := (List.mem_ofFn' _ _).1 hv
    exact hP i) hmemW hab hL.continuous.continuousOn q hq he
  have hs : ∑ i, |W i| = 2 := by
    rw [← sum_of_exactC1 hex, List.sum_ofFn]
    exact Finset.sum_congr rfl fun i _ => abs_of_nonneg (hW i)
  rw [hs, abs_of_nonneg (sub_nonneg.2 hab), div_mul_cancel₀ _ two_ne_zero] at h1
  refine (abs_sub_le _ _ _).trans ((add_le_add h1 h2).trans (le_of_eq ?_))
  ring

/-- A loop that adds up `m + 1` terms one after the other makes `m` additions. -/
theorem C75_loop_depth {ι : Type} (T : SumTree ι) (L : List ι) :
    (T.loop L).depth = T.depth + L.length ∧ (T.loop L).leaves = T.leaves ++ L := by
  induction L generalizing T with
  | nil => simp [SumTree.loop]
  | cons i L ih =>
    obtain ⟨h1, h2⟩ := ih (.node T (.leaf i))
    rw [SumTree.loop, h1, h2, SumTree.depth, SumTree.depth, SumTree.leaves, SumTree.leaves]
    refine ⟨?_, by simp⟩
    rw [List.length_cons]
    simp only [Nat.max_zero]
    omega

/-- Splitting the terms in halves, a term goes through as many additions as the binary logarithm of their
number. -/
theorem C75_pairwise_depth {ι : Type} (k : ℕ) (L : List ι) (h0 : L ≠ []) (h : L.length ≤ 2 ^ k) :
    ∃ T : SumTree ι, T.leaves = L ∧ T.depth ≤ k := by
  induction k generalizing L with
  | zero =>
    obtain ⟨i, rfl⟩ := List.length_eq_one_iff.1 (le_antisymm (by simpa using h) (List.length_pos_iff.2 h0))
    exact ⟨.leaf i, rfl, le_rfl⟩
  | succ k ih =>
    by_cases hk : L.length ≤ 2 ^ k
    · obtain ⟨T, h1, h2⟩ := ih L h0 hk
      exact ⟨T, h1, by omega⟩
    · have hp := Nat.one_le_two_pow (n := k)
      rw [pow_succ] at h
      obtain ⟨A, hA, dA⟩ := ih (L.take (2 ^ k)) (by
        rw [← List.length_pos_iff, List.length_take]; omega) (by rw [List.length_take]; omega)
      obtain ⟨B, hB, dB⟩ := ih (L.drop (2 ^ k)) (by
        rw [← List.length_pos_iff, List.length_drop]; omega) (by rw [List.length_drop]; omega)
      refine ⟨.node A B, by rw [SumTree.leaves, hA, hB, List.take_append_drop], ?_⟩
      rw [SumTree.depth]
      omega

/-- Exact arithmetic is the case without rounding, whatever the order of the additions. -/
theorem C75_exact {n : ℕ} {P W : Fin n → ℝ} {a b : ℝ} {T : SumTree (Fin n)} {x y : Fin n → ℝ} {z : ℝ}
    (h : Integrate1 0 P W a b T x y z) {f : ℝ → ℝ} (hy : ∀ i, y i = f (x i)) :
    z = C1.integrate1 (List.ofFn P) (List.ofFn W) f a b := by
  have r0 : ∀ {x r : ℝ}, Rnd 0 x r → r = x := fun h => by
    rw [Rnd, zero_mul] at h
    exact sub_eq_zero.1 (abs_nonpos_iff.1 h)
  obtain ⟨hx, l, g, s, ⟨d, e, hd, he, hl⟩, hg, ⟨hT, t, ht, hs⟩, hz⟩ := h
  have hsum : ∀ {T : SumTree (Fin n)} {s}, Sums 0 t T s → s = (T.leaves.map t).sum := by
    intro T s h
    induction h with
    | leaf i => simp [SumTree.leaves]
    | node _ _ hz ihl ihr => rw [r0 hz, ihl, ihr, SumTree.leaves, List.map_append, List.sum_append]
  have hx' : ∀ i, x i = affine (δ := Unit) (fun _ => a, fun _ => b) (P i) () := fun i => by
    obtain ⟨d, s, x0, x1, l, r, hd, h0, hs, h1, hl, hr, hx⟩ := hx i
    rw [r0 hx, r0 hl, r0 hr, r0 h0, r0 h1, r0 hd, r0 hs]
    simp only [affine]
  rw [r0 hz, r0 hg, r0 hl, r0 he, r0 hd, Real.sqrt_sq_eq_abs, hsum hs, (hT.map t).sum_eq, ← List.ofFn_eq_map,
    List.sum_ofFn]
  simp only [C1.integrate1, C1.integrate, C1.len_unit]
  rw [OneDim.vdot_ofFn (fun t => f (affine (δ := Unit) (fun _ => a, fun _ => b) t ()))]
  congr 1
  exact Finset.sum_congr rfl fun i _ => by rw [r0 (ht i), hy i, hx' i]

/-! Concrete case: the rule of Simpson for the sine on `[0, 1]`, evaluated without error, in a loop, with double
precision: the error of rounding is less than `3e-15`. -/

example {p w x y : Fin 3 → ℝ} {z : ℝ}
    (hp : ∀ i, Rnd (2⁻¹ ^ 53) (![-1, 0, 1] i) (p i)) (hw : ∀ i, Rnd (2⁻¹ ^ 53) (![1 / 3, 4 / 3, 1 / 3] i) (w i))
    (h : Integrate1 (2⁻¹ ^ 53) p w 0 1 ((SumTree.leaf 0).loop [1, 2]) x y z) (hy : ∀ i, y i = Real.sin (x i)) :
    |z - C1.integrate1 [-1, 0, 1] [1 / 3, 4 / 3, 1 / 3] Real.sin 0 1| ≤ 3e-15 := by
  have hlip : LipschitzWith 1 Real.sin := by
    refine lipschitzWith_of_nnnorm_deriv_le Real.differentiable_sin fun t => ?_
    rw [Real.deriv_sin, ← NNReal.coe_le_coe]
    simpa using Real.abs_cos_le_one t
  have := C75_integrate (u := 2⁻¹ ^ 53) (F := 1) (η := 0) (P := ![-1, 0, 1]) (W := ![1 / 3, 4 / 3, 1 / 3])
    (by positivity) (by norm_num) (fun i => by fin_cases i <;> norm_num) hp hw h hlip one_pos
    (fun i => Real.abs_sin_le_one _) (fun i => by rw [hy i, sub_self, abs_zero])
  rw [(C75_loop_depth _ _).1] at this
  simp only [List.ofFn_succ, List.ofFn_zero, Fin.sum_univ_three] at this
  refine this.trans ?_
  have e : |(1 / 3 : ℝ)| + |(4 / 3 : ℝ)| + |(1 / 3 : ℝ)| = 2 := by
    rw [abs_of_pos (by norm_num), abs_of_pos (by norm_num)]; norm_num
  simp only [Matrix.cons_val_zero, Matrix.cons_val_one, Matrix.cons_val, e]
  norm_num [SumTree.depth]

end Rounding
end Quadpy
