import Verif.Props.C37
import Mathlib.Topology.UniformSpace.HeineCantor
import Mathlib.Topology.MetricSpace.Pseudo.Pi
import Mathlib.Topology.Order.Compact
import Mathlib.Analysis.Convex.Segment
import Mathlib.Analysis.SpecificLimits.Basic

/-!
# Progress of the adaptive loop

When every interval is judged by its share of a fixed allowance, the part of the allowance that is
left per pending length never falls, because an accepted interval uses less than its share.  Together
with the continuity of the integrand this bounds the number of rounds.
-/

namespace Quadpy
namespace Adaptive

open Spec

set_option linter.unusedSectionVars false

variable {δ ι : Type} [Fintype δ] [Fintype ι]

/-! ### Estimates of one interval -/

theorem vdot_map_le : ∀ {P W : List ℝ} (_ : P.length = W.length) (_ : ∀ w ∈ W, 0 ≤ w) {g : ℝ → ℝ}
    {c : ℝ} (_ : ∀ x ∈ P, g x ≤ c), vdot (P.map g) W ≤ c * W.sum
  | [], [], _, _, _, _, _ => by simp [vdot]
  | x :: P, w :: W, hl, hW, g, c, hg => by
    have h1 := vdot_map_le (P := P) (W := W) (by simpa using hl)
      (fun w hw => hW w (List.mem_cons_of_mem _ hw)) (g := g) (c := c)
      (fun x hx => hg x (List.mem_cons_of_mem _ hx))
    have h2 := mul_le_mul_of_nonneg_right (hg x (List.mem_cons_self ..))
      (hW w (List.mem_cons_self ..))
    simp only [vdot, List.map_cons, List.zipWith_cons_cons, List.sum_cons] at h1 ⊢
    linarith

theorem vdot_map_sub : ∀ {P W : List ℝ} (_ : P.length = W.length) (g : ℝ → ℝ) (c : ℝ),
    vdot (P.map fun x => c - g x) W = c * W.sum - vdot (P.map g) W
  | [], [], _, _, _ => by simp [vdot]
  | x :: P, w :: W, hl, g, c => by
    have h1 := vdot_map_sub (P := P) (W := W) (by simpa using hl) g c
    simp only [vdot, List.map_cons, List.zipWith_cons_cons, List.sum_cons] at h1 ⊢
    rw [h1]
    ring

/-- The error estimate of an interval on which the integrand varies by at most `o`. -/
theorem errEst_le_osc {G : GK} (hW : ∀ w ∈ G.gkW, 0 ≤ w) (hl : G.pts.length = G.gkW.length)
    (hs : G.gkW.sum = 2) {f : (δ → ℝ) → ι → ℝ} {J : Ivl δ} {i : ι} {o : ℝ}
    (ho : ∀ x ∈ G.pts, ∀ y ∈ G.pts, |f (affine J x) i - f (affine J y) i| ≤ o) :
    errEst G f J i ≤ o * len J := by
  have hI := Itilde_nonneg (f := f) hW J i
  have h1 : errEst G f J i ≤ Itilde G f J i := by
    simp only [errEst]
    refine mul_le_of_le_one_left hI ?_
    split_ifs
    · exact min_le_left _ _
    · exact le_rfl
  refine h1.trans ?_
  have h2 : ∀ x ∈ G.pts, |f (affine J x) i - average G f J i| ≤ o := by
    intro x hx
    have e : f (affine J x) i - average G f J i =
        1 / 2 * vdot (G.pts.map fun y => f (affine J x) i - f (affine J y) i) G.gkW := by
      rw [vdot_map_sub hl (fun y => f (affine J y) i), hs, average]
      ring
    have e' : -(f (affine J x) i - average G f J i) =
        1 / 2 * vdot (G.pts.map fun y => -(f (affine J x) i) - -(f (affine J y) i)) G.gkW := by
      rw [vdot_map_sub hl (fun y => -(f (affine J y) i)), hs, average]
      have : vdot (G.pts.map fun y => -(f (affine J y) i)) G.gkW
          = - vdot (G.pts.map fun y => f (affine J y) i) G.gkW := by
        have := vdot_map_sub hl (fun y => f (affine J y) i) 0
        simpa using this
      rw [this]
      ring
    rw [abs_le', e', e]
    constructor
    · have := vdot_map_le hl hW (g := fun y => f (affine J x) i - f (affine J y) i) (c := o)
        (fun y hy => (le_abs_self _).trans (ho x hx y hy))
      rw [hs] at this
      linarith
    · have := vdot_map_le hl hW (g := fun y => -(f (affine J x) i) - -(f (affine J y) i)) (c := o)
        (fun y hy => by
          have := (neg_abs_le _).trans' (neg_le_neg (ho x hx y hy))
          linarith)
      rw [hs] at this
      linarith
  have h3 := vdot_map_le hl hW (g := fun x => |f (affine J x) i - average G f J i|) h2
  rw [hs] at h3
  have := mul_le_mul_of_nonneg_left h3 (by have := len_nonneg J; positivity : 0 ≤ 1 / 2 * len J)
  rw [Itilde]
  linarith

/-! ### Pending intervals -/

/-- The point `t` of the segment, `t` between 0 and 1. -/
def lin (I : Ivl δ) (t : ℝ) : δ → ℝ := fun i => I.1 i + t * (I.2 i - I.1 i)

/-- `J` is one of the pieces of length `2^{-k}` of `I`. -/
def Piece (I : Ivl δ) (k : ℕ) (J : Ivl δ) : Prop :=
  ∃ s, 0 ≤ s ∧ s + 1 / 2 ^ k ≤ 1 ∧ J = (lin I s, lin I (s + 1 / 2 ^ k))

theorem piece_zero (I : Ivl δ) : Piece I 0 I := by
  refine ⟨0, le_rfl, by norm_num, ?_⟩
  refine Prod.ext ?_ ?_ <;> funext i <;> simp [lin]

theorem piece_bisect {I : Ivl δ} {k : ℕ} {L : List (Ivl δ)} (h : ∀ J ∈ L, Piece I k J) :
    ∀ J ∈ bisect L, Piece I (k + 1) J := by
  intro J hJ
  have hk : (0 : ℝ) < 1 / 2 ^ (k + 1) := by positivity
  have h2 : (1 : ℝ) / 2 ^ k = 2 * (1 / 2 ^ (k + 1)) := by rw [pow_succ]; field_simp
  simp only [bisect, List.mem_append, List.mem_map] at hJ
  rcases hJ with ⟨K, hK, rfl⟩ | ⟨K, hK, rfl⟩ <;> obtain ⟨s, h0, h1, rfl⟩ := h K hK <;>
    rw [h2] at h1 ⊢
  · refine ⟨s, h0, by linarith, ?_⟩
    refine Prod.ext rfl ?_
    funext i
    simp only [lin]
    ring
  · refine ⟨s + 1 / 2 ^ (k + 1), by linarith, by linarith, ?_⟩
    refine Prod.ext ?_ ?_ <;> funext i <;> simp only [lin] <;> ring

theorem piece_len {I J : Ivl δ} {k : ℕ} (h : Piece I k J) : len J = len I / 2 ^ k := by
  obtain ⟨s, -, -, rfl⟩ := h
  simp only [len, lin]
  rw [show (∑ i, (I.1 i + (s + 1 / 2 ^ k) * (I.2 i - I.1 i) -
      (I.1 i + s * (I.2 i - I.1 i))) ^ 2) = (∑ i, (I.2 i - I.1 i) ^ 2) / (2 ^ k) ^ 2 by
    rw [Finset.sum_div]; exact Finset.sum_congr rfl fun i _ => by field_simp; ring]
  rw [Real.sqrt_div' _ (by positivity), Real.sqrt_sq (by positivity)]

theorem piece_affine {I J : Ivl δ} {k : ℕ} (h : Piece I k J) {x : ℝ} (hx : x ∈ Set.Icc (-1) 1) :
    ∃ s t, s + t ∈ Set.Icc (0 : ℝ) 1 ∧ affine J x = lin I (s + t) ∧ 0 ≤ t ∧ t ≤ 1 / 2 ^ k ∧
      J.1 = lin I s := by
  obtain ⟨s, h0, h1, rfl⟩ := h
  have hk : (0 : ℝ) < 1 / 2 ^ k := by positivity
  refine ⟨s, 1 / 2 ^ k * (1 / 2 * (1 + x)), ?_, ?_, ?_, ?_, rfl⟩
  · constructor
    · have := mul_nonneg hk.le (by linarith [hx.1] : 0 ≤ 1 / 2 * (1 + x))
      linarith
    · have := mul_le_mul_of_nonneg_left (by linarith [hx.2] : 1 / 2 * (1 + x) ≤ 1) hk.le
      linarith
  · funext i
    simp only [affine, lin]
    ring
  · exact mul_nonneg hk.le (by linarith [hx.1])
  · have := mul_le_mul_of_nonneg_left (by linarith [hx.2] : 1 / 2 * (1 + x) ≤ 1) hk.le
    linarith

theorem sum_len_bisect (L : List (Ivl δ)) : ((bisect L).map len).sum = (L.map len).sum := by
  induction L with
  | nil => simp [bisect]
  | cons I L ih =>
    simp only [bisect, List.map_append, List.sum_append, List.map_cons, List.sum_cons, List.map_map]
      at ih ⊢
    rw [len_left, len_right]
    linarith

/-! ### The allowance -/

/-- In the state `s` an interval is accepted exactly when its estimate is below its share of what is
left of the allowance `M`. -/
def Judged (G : GK) (c : Config) (f : (δ → ℝ) → ι → ℝ) (M : ι → ℝ) (s : State δ ι) : Prop :=
  ∀ J ∈ bisect s.bad, goodN G c f (fun i => s.values i + total (valGauss G f) (bisect s.bad) i) s.errors
      (((bisect s.bad).map len).sum) J = true ↔
    ((bisect s.bad).map len).sum ≠ 0 ∧
      ∀ i, errEst G f J i < (M i - s.errors i) * (len J / ((bisect s.bad).map len).sum)

/-- Pending intervals after `k` rounds, and the allowance that is left. -/
structure Live (M : ι → ℝ) (I : Ivl δ) (k : ℕ) (s : State δ ι) : Prop where
  pieces : ∀ J ∈ s.bad, Piece I k J
  share : ∀ i, M i * (s.bad.map len).sum ≤ (M i - s.errors i) * len I

theorem sum_filter (p : Ivl δ → Bool) (g : Ivl δ → ℝ) (L : List (Ivl δ)) :
    (L.map g).sum = ((L.filter p).map g).sum + ((L.filter fun x => !p x).map g).sum := by
  rw [← List.sum_append, ← List.map_append]
  exact ((filter_perm p L).map g).sum_eq.symm

theorem sum_le_share (L : List (Ivl δ)) (err : Ivl δ → ℝ) (B : ℝ)
    (h : ∀ J ∈ L, err J < B * len J) : (L.map err).sum ≤ B * (L.map len).sum := by
  induction L with
  | nil => simp
  | cons J L ih =>
    have h1 := h J (List.mem_cons_self ..)
    have h2 := ih fun K hK => h K (List.mem_cons_of_mem _ hK)
    simp only [List.map_cons, List.sum_cons]
    linarith

theorem sum_len_nonneg (L : List (Ivl δ)) : 0 ≤ (L.map len).sum :=
  List.sum_nonneg fun x hx => by
    obtain ⟨J, -, rfl⟩ := List.mem_map.1 hx
    exact len_nonneg J

theorem live_step {G : GK} {c : Config} {f : (δ → ℝ) → ι → ℝ} {M : ι → ℝ} {I : Ivl δ} {k : ℕ}
    {s s' : State δ ι} (hL : Live M I k s) (hj : Judged G c f M s)
    (h : round G c f s = .next s') : Live M I (k + 1) s' := by
  obtain ⟨-, -, rfl⟩ := round_next h
  refine ⟨fun J hJ => piece_bisect hL.pieces J (List.mem_filter.1 hJ).1, fun i => ?_⟩
  have h1 := hL.share i
  have hj' := hj
  simp only [Judged] at hj'
  generalize goodN G c f (fun i => s.values i + total (valGauss G f) (bisect s.bad) i) s.errors
      (((bisect s.bad).map len).sum) = p at hj' ⊢
  have h2 := sum_filter p len (bisect s.bad)
  rw [← sum_len_bisect] at h1
  generalize hB : ((bisect s.bad).map len).sum = B at *
  have hI := len_nonneg I
  have hB0 : 0 ≤ B := hB ▸ sum_len_nonneg _
  by_cases h0 : B = 0
  · have hf : (bisect s.bad).filter p = [] := by
      rw [List.filter_eq_nil_iff]
      intro J hJ hp
      exact ((hj' J hJ).1 hp).1 h0
    rw [hf] at h2 ⊢
    simp only [List.map_nil, List.sum_nil, zero_add] at h2
    simp only [total, List.map_nil, List.sum_nil, add_zero]
    rw [← h2]
    exact h1
  · have hBp : 0 < B := lt_of_le_of_ne hB0 (Ne.symm h0)
    have h3 := sum_le_share ((bisect s.bad).filter p) (fun J => errEst G f J i)
      ((M i - s.errors i) / B) (fun J hJ => by
        have := ((hj' J (List.mem_filter.1 hJ).1).1 (List.mem_filter.1 hJ).2).2 i
        calc errEst G f J i < _ := this
          _ = _ := by ring)
    have hb0 := sum_len_nonneg ((bisect s.bad).filter fun x => !p x)
    simp only [total]
    generalize (((bisect s.bad).filter p).map len).sum = g at *
    generalize (((bisect s.bad).filter fun x => !p x).map len).sum = b at *
    generalize (((bisect s.bad).filter p).map fun J => errEst G f J i).sum = e at *
    have hbB : b = B - g := by linarith
    have h4 : e * len I ≤ (M i - s.errors i) / B * g * len I := mul_le_mul_of_nonneg_right h3 hI
    have h5 : (M i - s.errors i) / B * B = M i - s.errors i := div_mul_cancel₀ _ h0
    have h6 : M i ≤ (M i - s.errors i) / B * len I := by
      rw [div_mul_eq_mul_div, le_div_iff₀ hBp]
      exact h1
    calc M i * b ≤ (M i - s.errors i) / B * len I * b := mul_le_mul_of_nonneg_right h6 hb0
      _ = (M i - s.errors i) / B * B * len I - (M i - s.errors i) / B * g * len I := by
        rw [hbB]; ring
      _ ≤ _ := by rw [h5]; linarith

theorem live_reach {G : GK} {c : Config} {f : (δ → ℝ) → ι → ℝ} {M : ι → ℝ} {I : Ivl δ}
    (hj : ∀ s acc, Inv G f [I] s acc → Judged G c f M s) {s s' : State δ ι} {k : ℕ}
    (h : Reach G c f s k s') {acc : List (Ivl δ)} (hi : Inv G f [I] s acc) (h0 : Live M I 0 s) :
    Live M I k s' := by
  induction h with
  | refl => exact h0
  | tail h1 h2 ih =>
    obtain ⟨acc', hi'⟩ := reach_inv h1 acc hi
    exact live_step ih (hj _ _ hi') h2.2

/-- The integrand varies by less than `o` on all small pieces. -/
theorem small_osc {f : (δ → ℝ) → ι → ℝ} {I : Ivl δ} (hf : ContinuousOn f (segment ℝ I.1 I.2))
    {o : ℝ} (ho : 0 < o) : ∃ n : ℕ, ∀ k, n ≤ k → ∀ J, Piece I k J → ∀ x ∈ Set.Icc (-1 : ℝ) 1,
      ∀ y ∈ Set.Icc (-1 : ℝ) 1, ∀ i, |f (affine J x) i - f (affine J y) i| ≤ o := by
  have hlin : Continuous (lin I) := by
    refine continuous_pi fun i => ?_
    simp only [lin]
    fun_prop
  have hmap : Set.MapsTo (lin I) (Set.Icc (0 : ℝ) 1) (segment ℝ I.1 I.2) := by
    intro t ht
    refine ⟨1 - t, t, by linarith [ht.2], ht.1, by ring, ?_⟩
    funext i
    simp only [lin, Pi.add_apply, Pi.smul_apply, smul_eq_mul]
    ring
  have hc : ContinuousOn (fun t => f (lin I t)) (Set.Icc (0 : ℝ) 1) := hf.comp hlin.continuousOn hmap
  have hu := isCompact_Icc.uniformContinuousOn_of_continuous hc
  rw [Metric.uniformContinuousOn_iff] at hu
  obtain ⟨η, hη, hu⟩ := hu o ho
  obtain ⟨n, hn⟩ := exists_pow_lt_of_lt_one hη (by norm_num : (1 / 2 : ℝ) < 1)
  refine ⟨n, fun k hk J hJ x hx y hy i => ?_⟩
  obtain ⟨s, t, h1, h2, h3, h4, h5⟩ := piece_affine hJ hx
  obtain ⟨s₀, hs0, hs1, rfl⟩ := hJ
  have hk' : (1 : ℝ) / 2 ^ k < η := by
    refine lt_of_le_of_lt ?_ hn
    rw [one_div, ← inv_pow, ← one_div]
    exact pow_le_pow_of_le_one (by norm_num) (by norm_num) hk
  have hk0 : (0 : ℝ) < 1 / 2 ^ k := by positivity
  have key : ∀ x ∈ Set.Icc (-1 : ℝ) 1, affine (lin I s₀, lin I (s₀ + 1 / 2 ^ k)) x =
      lin I (s₀ + 1 / 2 ^ k * (1 / 2 * (1 + x))) ∧
      s₀ + 1 / 2 ^ k * (1 / 2 * (1 + x)) ∈ Set.Icc (0 : ℝ) 1 := by
    intro x hx
    refine ⟨?_, ?_, ?_⟩
    · funext i
      simp only [affine, lin]
      ring
    · have := mul_nonneg hk0.le (by linarith [hx.1] : 0 ≤ 1 / 2 * (1 + x))
      linarith
    · have := mul_le_mul_of_nonneg_left (by linarith [hx.2] : 1 / 2 * (1 + x) ≤ 1) hk0.le
      linarith
  rw [(key x hx).1, (key y hy).1]
  have h6 := hu _ (key x hx).2 _ (key y hy).2 (by
    rw [Real.dist_eq, show s₀ + 1 / 2 ^ k * (1 / 2 * (1 + x)) - (s₀ + 1 / 2 ^ k * (1 / 2 * (1 + y)))
      = 1 / 2 ^ k * (1 / 2 * (x - y)) by ring, abs_mul, abs_of_pos hk0]
    refine lt_of_le_of_lt (mul_le_of_le_one_right hk0.le ?_) hk'
    rw [abs_le]
    constructor <;> linarith [hx.1, hx.2, hy.1, hy.2])
  have h7 := dist_le_pi_dist (f (lin I (s₀ + 1 / 2 ^ k * (1 / 2 * (1 + x)))))
    (f (lin I (s₀ + 1 / 2 ^ k * (1 / 2 * (1 + y))))) i
  rw [Real.dist_eq] at h7
  exact h7.trans h6.le

/-- The loop ends: from some number of rounds on it is not running. -/
theorem ends_of_judged {G : GK} (hW : ∀ w ∈ G.gkW, 0 ≤ w) (hl : G.pts.length = G.gkW.length)
    (hs : G.gkW.sum = 2) (hP : ∀ x ∈ G.pts, x ∈ Set.Icc (-1 : ℝ) 1) {c : Config}
    {f : (δ → ℝ) → ι → ℝ} {I : Ivl δ} (hf : ContinuousOn f (segment ℝ I.1 I.2)) {M : ι → ℝ} {M₀ : ℝ}
    (hM0 : 0 < M₀) (hM : ∀ i, M₀ ≤ M i) (hj : ∀ s acc, Inv G f [I] s acc → Judged G c f M s)
    (h0 : (∀ i, errEst G f I i < M i) → good0 G c f I = true)
    (hacc : good0 G c f I = true → ∀ i, errEst G f I i < M i) :
    ∃ n, ∀ fuel, n ≤ fuel → ∀ s, integrateAdaptive G c f [I] fuel ≠ .running s := by
  have hI := len_nonneg I
  rcases hI.eq_or_lt with hI0 | hI0
  · have hz : ∀ i, errEst G f I i < M i := by
      intro i
      simp only [errEst, Itilde, ← hI0]
      have := hM i
      simp
      linarith
    refine ⟨0, fun fuel _ s h => ?_⟩
    obtain ⟨h1, h2⟩ := loop_running (integrate_running h)
    have hb : (init G c f [I]).bad = [] := by simp [init, h0 hz]
    have := integrate_running h
    cases fuel <;> rw [loop, if_pos hb] at this <;> cases this
  · obtain ⟨n, hn⟩ := small_osc hf (o := M₀ / (2 * len I)) (by positivity)
    refine ⟨n + 1, fun fuel hfuel s h => ?_⟩
    obtain ⟨h1, h2⟩ := loop_running (integrate_running h)
    have hL0 : Live M I 0 (init G c f [I]) := by
      by_cases hg : good0 G c f I = true
      · refine ⟨by simp [init, hg], fun i => ?_⟩
        have := hacc hg i
        simp only [init, hg, List.filter_cons_of_pos, List.filter_nil, total, List.map_cons,
          List.map_nil, List.sum_cons, List.sum_nil]
        simp [hg]
        exact mul_nonneg (by linarith) hI
      · refine ⟨?_, fun i => ?_⟩
        · intro J hJ
          simp only [init, List.mem_filter, List.mem_singleton] at hJ
          rw [hJ.1]
          exact piece_zero I
        · simp [init, hg, total]
    cases h1 with
    | refl => omega
    | @tail k s' _ h3 h4 =>
      obtain ⟨acc, hi⟩ := reach_inv h3 _ (inv_init G c f [I])
      have hL := live_reach hj h3 (inv_init G c f [I]) hL0
      have hjs := hj _ _ hi
      obtain ⟨-, -, rfl⟩ := round_next h4.2
      obtain ⟨J, hJ⟩ := List.exists_mem_of_ne_nil _ h2
      obtain ⟨hJ1, hJ2⟩ := List.mem_filter.1 hJ
      have hpc := piece_bisect hL.pieces
      have hlenJ : 0 < len J := by
        rw [piece_len (hpc J hJ1)]
        positivity
      have hB : 0 < ((bisect s'.bad).map len).sum := by
        have := List.single_le_sum (l := (bisect s'.bad).map len) (fun x hx => by
          obtain ⟨K, -, rfl⟩ := List.mem_map.1 hx
          exact len_nonneg K) _ (List.mem_map_of_mem hJ1)
        linarith
      have hgood := (hjs J hJ1).2 ⟨hB.ne', fun i => ?_⟩
      · rw [hgood] at hJ2
        exact absurd hJ2 (by simp)
      · have h5 := errEst_le_osc hW hl hs (f := f) (J := J) (i := i) (o := M₀ / (2 * len I))
          fun x hx y hy => hn (k + 1) (by omega) J (hpc J hJ1) x (hP x hx) y (hP y hy) i
        have h6 := hL.share i
        rw [← sum_len_bisect] at h6
        refine lt_of_le_of_lt h5 ?_
        rw [mul_div_assoc']
        rw [lt_div_iff₀ hB]
        have h7 : M₀ / (2 * len I) * len J * ((bisect s'.bad).map len).sum * (len I) =
            len J * (M₀ / 2 * ((bisect s'.bad).map len).sum) := by
          field_simp
        refine lt_of_mul_lt_mul_right ?_ hI
        rw [h7, mul_right_comm, mul_comm _ (len J)]
        refine mul_lt_mul_of_pos_left ?_ hlenJ
        refine lt_of_lt_of_le ?_ h6
        refine mul_lt_mul_of_pos_right ?_ hB
        linarith [hM i]

end Adaptive
end Quadpy
