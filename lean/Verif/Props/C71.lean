import Verif.Props.C42
import Verif.Props.C12Space
import Mathlib.Topology.UniformSpace.HeineCantor
import Mathlib.Topology.MetricSpace.Pseudo.Pi
import Mathlib.Analysis.SpecificLimits.Basic

/-!
# C71: adaptive triangle integration ends

With the default minimum area the loop makes at most ten rounds (C42).  Here the minimum area is what
the caller passes; with zero it cuts nothing off, and the call returns for every continuous integrand.
-/

namespace Quadpy
namespace T2
open Spec

set_option linter.unusedSectionVars false

variable {ι : Type} [Fintype ι] {m : ℕ}

/-- What the two rules have to satisfy: the points lie in the triangle, the weights (of any sign) add
up to one. -/
structure InsideRule (w : List ℝ) (x : List (List ℝ)) : Prop where
  length : w.length = x.length
  sum : w.sum = 1
  inside : ∀ p ∈ x, (∀ i, 0 ≤ toVec 3 p i) ∧ ∑ i, toVec 3 p i = 1

theorem dot_osc : ∀ {w : List ℝ} {x : List (List ℝ)} (_ : w.length = x.length)
    {g : (Fin 3 → ℝ) → ℝ} {g0 o : ℝ} (_ : ∀ p ∈ x, |g (toVec 3 p) - g0| ≤ o),
    |dot 3 w x g - g0 * w.sum| ≤ o * (w.map abs).sum
  | [], [], _, _, _, _, _ => by simp [dot]
  | a :: w, p :: x, hl, g, g0, o, h => by
    have ih := dot_osc (w := w) (x := x) (by simpa using hl) (g := g) (g0 := g0) (o := o)
      fun q hq => h q (List.mem_cons_of_mem _ hq)
    have h1 := h p (List.mem_cons_self ..)
    simp only [dot, List.zipWith_cons_cons, List.sum_cons, List.map_cons] at ih ⊢
    generalize (List.zipWith (fun w x => w * g (toVec 3 x)) w x).sum = X at ih ⊢
    have e : |a * (g (toVec 3 p) - g0)| ≤ o * |a| := by
      rw [abs_mul, mul_comm]
      exact mul_le_mul_of_nonneg_right h1 (abs_nonneg a)
    have := abs_add_le (a * (g (toVec 3 p) - g0)) (X - g0 * w.sum)
    calc _ = |a * (g (toVec 3 p) - g0) + (X - g0 * w.sum)| := by
          congr 1; ring
      _ ≤ _ := by linarith

/-! ### Pending triangles -/

theorem parts_affine {V T : Tri m} (h : T ∈ parts V) : ∃ (c : ℝ) (b : Fin m → ℝ)
    (σ : Equiv.Perm (Fin 3)), |c| = 1 / 2 ∧ ∀ i k, T i k = c * V (σ i) k + b k := by
  simp only [parts, List.mem_cons, List.not_mem_nil, or_false] at h
  rcases h with rfl | rfl | rfl | rfl
  · refine ⟨1 / 2, fun k => 1 / 2 * V 0 k, Equiv.swap 1 2, by norm_num, fun i k => ?_⟩
    fin_cases i <;> simp [Equiv.swap_apply_def, mid] <;> ring
  · refine ⟨1 / 2, fun k => 1 / 2 * V 1 k, Equiv.swap 0 1, by norm_num, fun i k => ?_⟩
    fin_cases i <;> simp [Equiv.swap_apply_def, mid] <;> ring
  · refine ⟨1 / 2, fun k => 1 / 2 * V 2 k, Equiv.swap 0 2, by norm_num, fun i k => ?_⟩
    fin_cases i <;> simp [Equiv.swap_apply_def, mid] <;> ring
  · refine ⟨-(1 / 2), fun k => 1 / 2 * (V 0 k + V 1 k + V 2 k), 1, by norm_num, fun i k => ?_⟩
    fin_cases i <;> simp [mid] <;> ring

theorem parts_hull {V T : Tri m} (h : T ∈ parts V) :
    convexHull ℝ (Set.range T) ⊆ convexHull ℝ (Set.range V) := by
  have e := hull_parts (V 0) (V 1) (V 2)
  rw [tri_eta] at e
  rw [e]
  simp only [parts, List.mem_cons, List.not_mem_nil, or_false] at h
  rcases h with rfl | rfl | rfl | rfl
  · exact Set.subset_union_left
  · exact Set.subset_union_of_subset_right Set.subset_union_left _
  · exact Set.subset_union_of_subset_right
      (Set.subset_union_of_subset_right Set.subset_union_left _) _
  · exact Set.subset_union_of_subset_right
      (Set.subset_union_of_subset_right Set.subset_union_right _) _

/-- Sum of the lengths of the edges (in the maximum norm). -/
noncomputable def girth (U : Tri m) : ℝ := ∑ i, ∑ j, dist (U i) (U j)

/-- `T` is one of the pieces of `U` after `k` cuts into four. -/
structure Small (U : Tri m) (k : ℕ) (T : Tri m) : Prop where
  hull : convexHull ℝ (Set.range T) ⊆ convexHull ℝ (Set.range U)
  diam : ∀ i j, dist (T i) (T j) ≤ girth U * (1 / 2) ^ k
  vol : Tn.getVol T = Tn.getVol U * (1 / 4) ^ k

theorem small_zero (U : Tri m) : Small U 0 U := by
  refine ⟨subset_rfl, fun i j => ?_, by simp⟩
  rw [pow_zero, mul_one, girth]
  refine (Finset.single_le_sum (f := fun j => dist (U i) (U j)) (fun j _ => dist_nonneg)
    (Finset.mem_univ j)).trans ?_
  exact Finset.single_le_sum (f := fun i => ∑ j, dist (U i) (U j))
    (fun i _ => Finset.sum_nonneg fun j _ => dist_nonneg) (Finset.mem_univ i)

theorem small_succ {U V T : Tri m} {k : ℕ} (h : Small U k V) (hT : T ∈ parts V) :
    Small U (k + 1) T := by
  obtain ⟨c, b, σ, hc, he⟩ := parts_affine hT
  refine ⟨(parts_hull hT).trans h.hull, fun i j => ?_, ?_⟩
  · have e : T i - T j = c • (V (σ i) - V (σ j)) := by
      funext k
      simp only [Pi.sub_apply, Pi.smul_apply, smul_eq_mul, he]
      ring
    rw [dist_eq_norm, e, norm_smul, Real.norm_eq_abs, hc, ← dist_eq_norm, pow_succ]
    linarith [h.diam (σ i) (σ j)]
  · rw [getVol_half V T c hc b σ he, h.vol, pow_succ]
    ring

theorem mem_split {L : List (Tri m)} {T : Tri m} (h : T ∈ split L) : ∃ V ∈ L, T ∈ parts V := by
  have h := (split_perm L).mem_iff.1 h
  rw [List.mem_flatten] at h
  obtain ⟨l, hl, hT⟩ := h
  obtain ⟨U, hU, rfl⟩ := List.mem_map.1 hl
  exact ⟨U, hU, hT⟩

theorem small_reach {R : Rules} {f : (Fin m → ℝ) → ι → ℝ} {eps A minArea : ℝ} {k : ℕ}
    {s s' : State m ι} (h : Reach R f eps A minArea k s s') {Ts : List (Tri m)} {j : ℕ}
    (hs : ∀ T ∈ s.bad, ∃ U ∈ Ts, Small U j T) : ∀ T ∈ s'.bad, ∃ U ∈ Ts, Small U (j + k) T := by
  induction h generalizing j with
  | zero s => exact hs
  | @succ k s s' _ _ _ ih =>
    have := ih (j := j + 1) (fun T hT => by
      obtain ⟨V, hV, hp⟩ := mem_split (List.mem_filter.1 hT).1
      obtain ⟨U, hU, hsm⟩ := hs V hV
      exact ⟨U, hU, small_succ hsm hp⟩)
    rwa [show j + 1 + k = j + (k + 1) by ring] at this

theorem reach_bad {R : Rules} {f : (Fin m → ℝ) → ι → ℝ} {eps A minArea : ℝ} {k : ℕ}
    {s s' : State m ι} (h : Reach R f eps A minArea k s s')
    (hs : ∀ T ∈ s.bad, good R f eps A T = false) : ∀ T ∈ s'.bad, good R f eps A T = false := by
  induction h with
  | zero s => exact hs
  | succ _ _ _ ih =>
    refine ih fun T hT => ?_
    simpa using (List.mem_filter.1 hT).2

/-! ### The estimate of a small triangle -/

theorem transform_mem {T : Tri m} {xi : Fin 3 → ℝ} (h : ∀ i, 0 ≤ xi i) (h1 : ∑ i, xi i = 1) :
    Tn.transform xi T ∈ convexHull ℝ (Set.range T) := by
  have : Tn.transform xi T = ∑ i, xi i • T i := by
    funext k
    simp [Tn.transform]
  rw [this]
  exact (convex_convexHull ℝ _).sum_mem (fun i _ => h i) h1
    (fun i _ => subset_convexHull ℝ _ ⟨i, rfl⟩)

theorem transform_dist {T : Tri m} {xi : Fin 3 → ℝ} (h : ∀ i, 0 ≤ xi i) (h1 : ∑ i, xi i = 1)
    {d : ℝ} (hd : ∀ i j, dist (T i) (T j) ≤ d) : dist (Tn.transform xi T) (T 0) ≤ d := by
  have : Tn.transform xi T = ∑ i, xi i • T i := by
    funext k
    simp [Tn.transform]
  rw [this, dist_eq_norm]
  have e : (∑ i, xi i • T i) - T 0 = ∑ i, xi i • (T i - T 0) := by
    simp only [smul_sub, Finset.sum_sub_distrib, ← Finset.sum_smul, h1, one_smul]
  rw [e]
  refine (norm_sum_le _ _).trans ?_
  calc ∑ i, ‖xi i • (T i - T 0)‖ ≤ ∑ i, xi i * d := by
        refine Finset.sum_le_sum fun i _ => ?_
        rw [norm_smul, Real.norm_eq_abs, abs_of_nonneg (h i), ← dist_eq_norm]
        exact mul_le_mul_of_nonneg_left (hd i 0) (h i)
    _ = d := by rw [← Finset.sum_mul, h1, one_mul]

theorem err_le {R : Rules} (h1 : InsideRule R.w1 R.x1) (h2 : InsideRule R.w2 R.x2)
    {f : (Fin m → ℝ) → ι → ℝ} {T : Tri m} {i : ι} {o : ℝ}
    (ho : ∀ xi : Fin 3 → ℝ, (∀ i, 0 ≤ xi i) → ∑ i, xi i = 1 →
      |f (Tn.transform xi T) i - f (T 0) i| ≤ o) :
    err R f T i ≤ Tn.getVol T * (o * ((R.w1.map abs).sum + (R.w2.map abs).sum)) := by
  have hv := Tn.C12_nonneg T
  have e1 := dot_osc h1.length (g := fun xi => f (Tn.transform xi T) i) (g0 := f (T 0) i) (o := o)
    fun p hp => ho _ (h1.inside p hp).1 (h1.inside p hp).2
  have e2 := dot_osc h2.length (g := fun xi => f (Tn.transform xi T) i) (g0 := f (T 0) i) (o := o)
    fun p hp => ho _ (h2.inside p hp).1 (h2.inside p hp).2
  rw [h1.sum, mul_one] at e1
  rw [h2.sum, mul_one] at e2
  simp only [err, val1, val2, Tn.integrate]
  rw [← mul_sub, abs_mul, abs_of_nonneg hv]
  refine mul_le_mul_of_nonneg_left ?_ hv
  rw [abs_le] at *
  constructor <;> linarith [e1.1, e1.2, e2.1, e2.2]

theorem small_osc {f : (Fin m → ℝ) → ι → ℝ} {o : ℝ} (ho : 0 < o) : ∀ {Ts : List (Tri m)}
    (_ : ∀ U ∈ Ts, ContinuousOn f (convexHull ℝ (Set.range U))),
    ∃ n : ℕ, ∀ U ∈ Ts, ∀ k, n ≤ k → ∀ T, Small U k T → ∀ xi : Fin 3 → ℝ, (∀ i, 0 ≤ xi i) →
      ∑ i, xi i = 1 → ∀ i, |f (Tn.transform xi T) i - f (T 0) i| ≤ o
  | [], _ => ⟨0, by simp⟩
  | U :: Ts, hf => by
    obtain ⟨n, hn⟩ := small_osc ho (Ts := Ts) fun V hV => hf V (List.mem_cons_of_mem _ hV)
    have hu := ((Set.finite_range U).isCompact_convexHull ℝ).uniformContinuousOn_of_continuous
      (hf U (List.mem_cons_self ..))
    rw [Metric.uniformContinuousOn_iff] at hu
    obtain ⟨η, hη, hu⟩ := hu o ho
    have hg : 0 ≤ girth U :=
      Finset.sum_nonneg fun i _ => Finset.sum_nonneg fun j _ => dist_nonneg
    obtain ⟨n', hn'⟩ := exists_pow_lt_of_lt_one (div_pos hη (by linarith : 0 < girth U + 1))
      (by norm_num : (1 / 2 : ℝ) < 1)
    refine ⟨max n n', fun V hV k hk T hT xi h0 h1 i => ?_⟩
    rcases List.mem_cons.1 hV with rfl | hV
    · have hd : girth V * (1 / 2) ^ k < η := by
        have h3 : (1 / 2 : ℝ) ^ k ≤ (1 / 2) ^ n' :=
          pow_le_pow_of_le_one (by norm_num) (by norm_num) (le_trans (le_max_right _ _) hk)
        have h4 : (1 / 2 : ℝ) ^ k * (girth V + 1) < η :=
          (lt_div_iff₀ (by linarith)).1 (h3.trans_lt hn')
        have h5 : (0 : ℝ) < (1 / 2) ^ k := by positivity
        linarith
      have h6 := hu _ (hT.hull (transform_mem h0 h1)) _
        (hT.hull (subset_convexHull ℝ _ ⟨0, rfl⟩)) ((transform_dist h0 h1 hT.diam).trans_lt hd)
      have h7 := dist_le_pi_dist (f (Tn.transform xi T)) (f (T 0)) i
      rw [Real.dist_eq] at h7
      exact h7.trans h6.le
    · exact hn V hV k (le_trans (le_max_left _ _) hk) T hT xi h0 h1 i

/-- The loop ends for every integrand that is continuous on the triangles, whatever the minimum
area. -/
theorem C71_ends (R : Rules) (h1 : InsideRule R.w1 R.x1) (h2 : InsideRule R.w2 R.x2)
    (f : (Fin m → ℝ) → ι → ℝ) (Ts : List (Tri m)) (hT : ∀ T ∈ Ts, AffineIndependent ℝ T)
    (hf : ∀ T ∈ Ts, ContinuousOn f (convexHull ℝ (Set.range T))) (eps : ℝ) (heps : 0 < eps)
    (minArea : Option ℝ) :
    ∃ n, ∀ fuel, n ≤ fuel → ∀ s, integrateAdaptive R f Ts eps minArea fuel ≠ .running s := by
  have hpos : ∀ T ∈ Ts, 0 < Tn.getVol T := fun T h =>
    lt_of_le_of_ne (Tn.C12_nonneg T) fun e => (Tn.C12_zero_iff_space T).1 e.symm (hT T h)
  have hW1 : 0 ≤ (R.w1.map abs).sum := List.sum_nonneg fun x hx => by
    obtain ⟨y, -, rfl⟩ := List.mem_map.1 hx
    exact abs_nonneg y
  have hW2 : 0 ≤ (R.w2.map abs).sum := List.sum_nonneg fun x hx => by
    obtain ⟨y, -, rfl⟩ := List.mem_map.1 hx
    exact abs_nonneg y
  have hle : ∀ T ∈ Ts, Tn.getVol T ≤ (Ts.map Tn.getVol).sum := fun T hTs => by
    refine List.single_le_sum ?_ _ (List.mem_map_of_mem hTs)
    intro x hx
    obtain ⟨T, -, rfl⟩ := List.mem_map.1 hx
    exact Tn.C12_nonneg T
  generalize hA : (Ts.map Tn.getVol).sum = A at hle
  have hA0 : 0 ≤ A := hA ▸ List.sum_nonneg fun x hx => by
    obtain ⟨T, -, rfl⟩ := List.mem_map.1 hx
    exact Tn.C12_nonneg T
  generalize hW : (R.w1.map abs).sum + (R.w2.map abs).sum = W
  have hW0 : 0 ≤ W := by rw [← hW]; linarith
  obtain ⟨n, hn⟩ := small_osc (f := f) (o := eps / ((A + 1) * (W + 1))) (by positivity) hf
  refine ⟨n, fun fuel hfuel s h => ?_⟩
  rw [integrateAdaptive] at h
  simp only [hA] at h
  obtain ⟨hr, hb⟩ := loop_running h
  obtain ⟨T, hTb⟩ := List.exists_mem_of_ne_nil _ hb
  obtain ⟨U, hU, hsm⟩ := small_reach hr (Ts := Ts) (j := 0)
    (fun T hT => ⟨T, (List.mem_filter.1 hT).1, small_zero T⟩) T hTb
  rw [zero_add] at hsm
  have hbad := reach_bad hr (fun T hT => by simpa using (List.mem_filter.1 hT).2) T hTb
  have hAp : 0 < A := (hpos U hU).trans_le (hle U hU)
  have hTp : 0 < Tn.getVol T := by
    rw [hsm.vol]
    have := hpos U hU
    positivity
  rw [good, decide_eq_false_iff_not] at hbad
  refine hbad ⟨hAp.ne', fun i => ?_⟩
  have h3 := err_le h1 h2 (f := f) (T := T) (i := i) (o := eps / ((A + 1) * (W + 1)))
    fun xi e0 e1 => hn U hU fuel hfuel T hsm xi e0 e1 i
  refine h3.trans_lt ?_
  rw [hW, mul_comm eps, mul_div_assoc]
  refine mul_lt_mul_of_pos_left ?_ hTp
  rw [div_mul_eq_mul_div, div_lt_div_iff₀ (by positivity) hAp]
  have : W * A < (A + 1) * (W + 1) := by nlinarith
  have := mul_lt_mul_of_pos_left this heps
  linarith

/-- When the caller asks for no minimum area (zero), the call returns, and the error it reports is
below `eps`. -/
theorem C71_returns (R : Rules) (h1 : InsideRule R.w1 R.x1) (h2 : InsideRule R.w2 R.x2)
    (f : (Fin m → ℝ) → ι → ℝ) (Ts : List (Tri m)) (hne : Ts ≠ [])
    (hT : ∀ T ∈ Ts, AffineIndependent ℝ T)
    (hf : ∀ T ∈ Ts, ContinuousOn f (convexHull ℝ (Set.range T))) (eps : ℝ) (heps : 0 < eps) :
    ∃ n v e, integrateAdaptive R f Ts eps (some 0) n = .returned v e ∧ ∀ i, e i < eps := by
  obtain ⟨n, hn⟩ := C71_ends R h1 h2 f Ts hT hf eps heps (some 0)
  have hpos : ∀ T ∈ Ts, 0 < Tn.getVol T := fun T h =>
    lt_of_le_of_ne (Tn.C12_nonneg T) fun e => (Tn.C12_zero_iff_space T).1 e.symm (hT T h)
  have key : ∀ (k j : ℕ) (A : ℝ) (s : State m ι), (∀ T ∈ s.bad, ∃ U ∈ Ts, Small U j T) →
      loop R f eps A 0 k s ≠ .assertion := by
    intro k
    induction k with
    | zero =>
      intro j A s _
      rw [loop]
      split_ifs <;> simp
    | succ k ih =>
      intro j A s hs
      have hs' : ∀ T ∈ split s.bad, ∃ U ∈ Ts, Small U (j + 1) T := by
        intro T hT
        obtain ⟨V, hV, hp⟩ := mem_split hT
        obtain ⟨U, hU, hsm⟩ := hs V hV
        exact ⟨U, hU, small_succ hsm hp⟩
      rw [loop]
      split_ifs with hb ha
      · simp
      · exact ih (j + 1) A _ fun T hT => hs' T (List.mem_filter.1 hT).1
      · refine absurd (fun T hT => ?_) ha
        obtain ⟨U, hU, hsm⟩ := hs' T hT
        rw [gt_iff_lt, hsm.vol]
        have := hpos U hU
        positivity
  have h3 := key n 0 (Ts.map Tn.getVol).sum (evaluate R f eps (Ts.map Tn.getVol).sum 0 0 Ts)
    fun T hT => ⟨T, (List.mem_filter.1 hT).1, small_zero T⟩
  cases h : integrateAdaptive R f Ts eps (some 0) n with
  | returned v e => exact ⟨n, v, e, h, C42_error R f Ts hne eps (some 0) n v e h⟩
  | running s => exact absurd h (hn n le_rfl s)
  | assertion => exact absurd h h3

/-- The default minimum area admits nine rounds for one proper triangle, for every integrand: the assertion can
fail in the tenth at the earliest (where `C42_stops` says that it ends). -/
theorem C71_nine (R : Rules) (f : (Fin m → ℝ) → ι → ℝ) (T : Tri m) (hT : AffineIndependent ℝ T) (eps : ℝ)
    (fuel : ℕ) (hf : fuel ≤ 9) : integrateAdaptive R f [T] eps none fuel ≠ .assertion := by
  have hpos : 0 < Tn.getVol T :=
    lt_of_le_of_ne (Tn.C12_nonneg T) fun e => (Tn.C12_zero_iff_space T).1 e.symm hT
  have key : ∀ (k j : ℕ) (A : ℝ) (s : State m ι), k + j ≤ 9 → (∀ V ∈ s.bad, Small T j V) →
      loop R f eps A (Tn.getVol T * 0.25 ^ 10) k s ≠ .assertion := by
    intro k
    induction k with
    | zero =>
      intro j A s _ _
      rw [loop]
      split_ifs <;> simp
    | succ k ih =>
      intro j A s hk hs
      have hs' : ∀ V ∈ split s.bad, Small T (j + 1) V := by
        intro V hV
        obtain ⟨U, hU, hp⟩ := mem_split hV
        exact small_succ (hs U hU) hp
      rw [loop]
      split_ifs with hb ha
      · simp
      · exact ih (j + 1) A _ (by omega) fun V hV => hs' V (List.mem_filter.1 hV).1
      · refine absurd (fun V hV => ?_) ha
        rw [gt_iff_lt, (hs' V hV).vol]
        have : (1 / 4 : ℝ) ^ 9 ≤ (1 / 4) ^ (j + 1) := pow_le_pow_of_le_one (by norm_num) (by norm_num) (by omega)
        refine mul_lt_mul_of_pos_left (lt_of_lt_of_le ?_ this) hpos
        norm_num
  have := key fuel 0 ([T].map Tn.getVol).sum (evaluate R f eps ([T].map Tn.getVol).sum 0 0 [T]) (by omega)
    fun V hV => by
      have : V = T := by simpa using (List.mem_filter.1 hV).1
      exact this ▸ small_zero T
  simpa [integrateAdaptive] using this

/-- One triangle in space, an integrand with a jump: nine rounds without a failure. -/
example (R : Rules) (hT : AffineIndependent ℝ (![![0, 0, 0], ![1, 0, 0], ![0, 0, 2]] : Tri 3)) :
    integrateAdaptive (ι := Unit) R (fun x _ => if x 0 < 1 / 3 then 0 else 1)
      [![![0, 0, 0], ![1, 0, 0], ![0, 0, 2]]] (1 / 10 ^ 6) none 9 ≠ .assertion :=
  C71_nine R _ _ hT _ 9 le_rfl

/-- The centroid rule and the rule of the three edge midpoints, on a triangle in space, with the
distance from the origin as integrand (not a polynomial). -/
example : ∃ n v e, integrateAdaptive (ι := Unit)
    ⟨[1], [[1 / 3, 1 / 3, 1 / 3]], [1 / 3, 1 / 3, 1 / 3],
      [[1 / 2, 1 / 2, 0], [1 / 2, 0, 1 / 2], [0, 1 / 2, 1 / 2]]⟩
    (fun x _ => √(x 0 ^ 2 + x 1 ^ 2 + x 2 ^ 2)) [![![0, 0, 0], ![1, 0, 0], ![0, 0, 2]]]
    (1 / 10 ^ 6) (some 0) n = .returned v e ∧ ∀ i, e i < 1 / 10 ^ 6 := by
  refine C71_returns _ ⟨rfl, by norm_num, ?_⟩ ⟨rfl, by norm_num, ?_⟩ _ _ (by simp) ?_ ?_ _
    (by norm_num)
  · simp only [List.mem_singleton, forall_eq, Fin.sum_univ_three]
    refine ⟨fun i => ?_, ?_⟩
    · fin_cases i <;> norm_num [toVec]
    · norm_num [toVec]
  · intro p hp
    simp only [List.mem_cons, List.not_mem_nil, or_false] at hp
    rw [Fin.sum_univ_three]
    refine ⟨fun i => ?_, ?_⟩ <;> rcases hp with rfl | rfl | rfl
    all_goals first | (fin_cases i <;> norm_num [toVec]; done) | (norm_num [toVec]; done)
  · intro T hT
    rw [List.mem_singleton] at hT
    by_contra h
    have h1 := (Tn.C12_zero_iff_space T).2 h
    rw [hT, Tn.C12_gram, div_eq_zero_iff, or_iff_left (by norm_num)] at h1
    have h2 : (Tn.edgeMatrix ![![0, 0, 0], ![1, 0, 0], ![0, 0, (2 : ℝ)]] *
        (Tn.edgeMatrix ![![0, 0, 0], ![1, 0, 0], ![0, 0, (2 : ℝ)]]).transpose).det = 2 ^ 2 := by
      rw [Matrix.det_fin_two]
      simp [Tn.edgeMatrix, Matrix.mul_apply, Fin.sum_univ_three]
      norm_num
    rw [h2, Real.sqrt_sq (by norm_num)] at h1
    norm_num at h1
  · intro T _
    refine Continuous.continuousOn (continuous_pi fun _ => ?_)
    fun_prop

end T2
end Quadpy
