import Verif.Props.C41
import Verif.Props.C42
import Verif.Props.C74
import Verif.Props.C74Transfer
import Mathlib.MeasureTheory.Integral.IntervalIntegral.FundThmCalculus

/-!
# C76: what adaptive integration says about the true error

The tolerance is compared with an estimate.  A returned value is always as good as the accepted
intervals make it; the tolerance does not bound the distance to the integral.
-/

namespace Quadpy

/-- Sums of numbers that are close are close. -/
theorem list_sum_close {α : Type} (F H A : α → ℝ) (c : ℝ) :
    ∀ L : List α, (∀ x ∈ L, |F x - H x| ≤ c * A x) → |(L.map F).sum - (L.map H).sum| ≤ c * (L.map A).sum
  | [], _ => by simp
  | x :: L, h => by
    have h1 := h x (List.mem_cons_self ..)
    have h2 := list_sum_close F H A c L fun y hy => h y (List.mem_cons_of_mem _ hy)
    simp only [List.map_cons, List.sum_cons]
    rw [add_sub_add_comm, mul_add]
    exact (abs_add_le _ _).trans (add_le_add h1 h2)

theorem dot_const_zero {n : ℕ} (w : List ℝ) (pts : List (List ℝ)) : dot n w pts (fun _ => 0) = 0 := by
  unfold dot
  induction w generalizing pts with
  | nil => simp
  | cons a w ih =>
    cases pts with
    | nil => simp
    | cons x pts => simpa using ih pts

namespace Adaptive

open Spec Polynomial MeasureTheory

set_option linter.unusedSectionVars false

variable {ι : Type} [Fintype ι]

/-- Integrals over the parts of a bisection add up. -/
theorem bisection_integral {g : ℝ → ℝ} {I : Ivl Unit} {L : List (Ivl Unit)} (h : Bisection I L)
    (hI : I.1 () ≤ I.2 ()) (hg : ContinuousOn g (Set.Icc (I.1 ()) (I.2 ()))) :
    (L.map fun J => ∫ x in J.1 ()..J.2 (), g x).sum = ∫ x in I.1 ()..I.2 (), g x := by
  induction h with
  | whole I => simp
  | cut a b L R _ _ ih1 ih2 =>
    simp only [mid] at ih1 ih2 hI hg ⊢
    have h1 : a () ≤ (a () + b ()) / 2 := by linarith
    have h2 : (a () + b ()) / 2 ≤ b () := by linarith
    have s1 : Set.Icc (a ()) ((a () + b ()) / 2) ⊆ Set.Icc (a ()) (b ()) := Set.Icc_subset_Icc_right h2
    have s2 : Set.Icc ((a () + b ()) / 2) (b ()) ⊆ Set.Icc (a ()) (b ()) := Set.Icc_subset_Icc_left h1
    rw [List.map_append, List.sum_append, ih1 h1 (hg.mono s1), ih2 h2 (hg.mono s2)]
    refine intervalIntegral.integral_add_adjacent_intervals ?_ ?_
    · exact ((hg.mono s1).mono (by rw [Set.uIcc_of_le h1])).intervalIntegrable
    · exact ((hg.mono s2).mono (by rw [Set.uIcc_of_le h2])).intervalIntegrable

/-- A returned value belongs to a partition by bisections into accepted intervals.  On it the error is at
most the sum of what the Gauss rule can miss on the parts: for every choice of one polynomial of the degree
of the Gauss rule per part, the lengths times the distances to these polynomials. -/
theorem C76_parts (G : GK) (d : ℕ) (hG : ExactC1 (odds G.pts) G.glW d)
    (hin : ∀ x ∈ odds G.pts, -1 ≤ x ∧ x ≤ 1) (hW : ∀ w ∈ G.glW, 0 ≤ w) (c : Config)
    (f : ℝ → ι → ℝ) (a b : ℝ) (hf : ∀ i, ContinuousOn (fun x => f x i) (Set.Icc a b)) (fuel : ℕ) (v e : ι → ℝ)
    (h : integrateAdaptive (δ := Unit) G c (fun x => f (x ())) [(fun _ => a, fun _ => b)] fuel
      = .returned v e) :
    ∃ L, Bisection (fun _ => a, fun _ => b) L ∧
      (∀ i, v i = (L.map fun J => C1.integrate1 (odds G.pts) G.glW (fun x => f x i) (J.1 ()) (J.2 ())).sum) ∧
      ∀ i (ε : Ivl Unit → ℝ), (∀ J ∈ L, ∃ p : ℝ[X], p.natDegree ≤ d ∧
        ∀ x ∈ Set.Icc (J.1 ()) (J.2 ()), |f x i - p.eval x| ≤ ε J) →
      |v i - ∫ x in a..b, f x i| ≤ 2 * (L.map fun J => (J.2 () - J.1 ()) * ε J).sum := by
  have hab : a ≤ b := by
    have := (integrate_returned h).1
    simpa using this
  obtain ⟨L, hL, hv, -⟩ := C36_returned _ _ _ _ _ _ _ h
  have hv' : ∀ i, v i = (L.map fun J =>
      C1.integrate1 (odds G.pts) G.glW (fun x => f x i) (J.1 ()) (J.2 ())).sum := fun i => by
    rw [hv i]
    exact congrArg List.sum (List.map_congr_left fun J _ => valGauss_eq _ _ _ _)
  refine ⟨L, hL, hv', fun i ε hε => ?_⟩
  have hJ := C36_bisection_inside hL hab
  rw [hv' i, ← bisection_integral hL hab (hf i)]
  refine list_sum_close _ _ _ _ L fun J hJL => ?_
  obtain ⟨p, hp, he⟩ := hε J hJL
  obtain ⟨h1, h2, h3⟩ := hJ J hJL
  have := C74_best_nonneg hG hin hW h2 ((hf i).mono (Set.Icc_subset_Icc h1 h3)) p hp he
  linarith

/-- Whatever was bisected: adaptive integration is never worse than the bound for the Gauss rule on the
whole interval, twice the length times the distance of the integrand to the polynomials of its degree. -/
theorem C76_uniform (G : GK) (d : ℕ) (hG : ExactC1 (odds G.pts) G.glW d)
    (hin : ∀ x ∈ odds G.pts, -1 ≤ x ∧ x ≤ 1) (hW : ∀ w ∈ G.glW, 0 ≤ w) (c : Config)
    (f : ℝ → ι → ℝ) (a b : ℝ) (hf : ∀ i, ContinuousOn (fun x => f x i) (Set.Icc a b)) (fuel : ℕ) (v e : ι → ℝ)
    (h : integrateAdaptive (δ := Unit) G c (fun x => f (x ())) [(fun _ => a, fun _ => b)] fuel
      = .returned v e) (i : ι) (p : ℝ[X]) (hp : p.natDegree ≤ d) (ε : ℝ)
    (he : ∀ x ∈ Set.Icc a b, |f x i - p.eval x| ≤ ε) :
    |v i - ∫ x in a..b, f x i| ≤ 2 * (b - a) * ε := by
  have hab : a ≤ b := by
    have := (integrate_returned h).1
    simpa using this
  obtain ⟨L, hL, -, h2⟩ := C76_parts G d hG hin hW c f a b hf fuel v e h
  have hJ := C36_bisection_inside hL hab
  have := h2 i (fun _ => ε) fun J hJL => ⟨p, hp, fun x hx =>
    he x ⟨(hJ J hJL).1.trans hx.1, hx.2.trans (hJ J hJL).2.2⟩⟩
  rw [List.sum_map_mul_right, C36_bisection_additive (fun x y => y - x) (fun x y z => by ring) hL] at this
  linarith

/-- The bound by the largest variation of the integrand on an accepted interval. -/
theorem C76_variation (G : GK) (d : ℕ) (hG : ExactC1 (odds G.pts) G.glW d)
    (hin : ∀ x ∈ odds G.pts, -1 ≤ x ∧ x ≤ 1) (hW : ∀ w ∈ G.glW, 0 ≤ w) (c : Config)
    (f : ℝ → ι → ℝ) (a b : ℝ) (K : ℝ) (hf : ∀ i, ∀ x y, |f x i - f y i| ≤ K * |x - y|)
    (fuel : ℕ) (v e : ι → ℝ)
    (h : integrateAdaptive (δ := Unit) G c (fun x => f (x ())) [(fun _ => a, fun _ => b)] fuel
      = .returned v e) :
    ∃ L, Bisection (fun _ => a, fun _ => b) L ∧
      ∀ i, |v i - ∫ x in a..b, f x i| ≤ K * (L.map fun J => (J.2 () - J.1 ()) ^ 2).sum := by
  have hab : a ≤ b := by
    have := (integrate_returned h).1
    simpa using this
  have hc : ∀ i, Continuous fun x => f x i := fun i =>
    (LipschitzWith.of_dist_le_mul (K := K.toNNReal) fun x y => by
      rw [Real.dist_eq, Real.dist_eq]
      exact (hf i x y).trans (mul_le_mul_of_nonneg_right (Real.le_coe_toNNReal K) (abs_nonneg _))).continuous
  obtain ⟨L, hL, -, h2⟩ := C76_parts G d hG hin hW c f a b (fun i => (hc i).continuousOn) fuel v e h
  refine ⟨L, hL, fun i => ?_⟩
  have hJ := C36_bisection_inside hL hab
  have hK : 0 ≤ K := by simpa using (abs_nonneg _).trans (hf i 1 0)
  have := h2 i (fun J => K * (J.2 () - J.1 ()) / 2) fun J hJL =>
    ⟨Polynomial.C (f ((J.1 () + J.2 ()) / 2) i), by simp, fun x hx => by
      rw [Polynomial.eval_C]
      refine (hf i _ _).trans ?_
      rw [mul_div_assoc]
      refine mul_le_mul_of_nonneg_left ?_ hK
      rw [abs_le]
      constructor <;> linarith [hx.1, hx.2]⟩
  refine this.trans (le_of_eq ?_)
  rw [← List.sum_map_mul_left, ← List.sum_map_mul_left]
  refine congrArg List.sum (List.map_congr_left fun J _ => ?_)
  ring

/-- An integrand that vanishes at all Kronrod points of the interval has the estimate 0. -/
theorem errEst_zero (G : GK) (f : (Unit → ℝ) → ι → ℝ) (I : Ivl Unit)
    (h : ∀ x ∈ G.pts, ∀ i, f (affine I x) i = 0) (i : ι) : errEst G f I i = 0 ∧ valGauss G f I i = 0 := by
  have h0 : (G.pts.map fun x => f (affine I x) i) = G.pts.map fun _ => (0 : ℝ) :=
    List.map_congr_left fun x hx => h x hx i
  have hz : ∀ (L : List ℝ) (W : List ℝ), (∀ x ∈ L, x = 0) → vdot L W = 0 := by
    intro L
    induction L with
    | nil => intro W _; simp [vdot]
    | cons x L ih =>
      intro W hx
      cases W with
      | nil => simp [vdot]
      | cons w W =>
        have := ih W fun y hy => hx y (List.mem_cons_of_mem _ hy)
        simp only [vdot, List.zipWith_cons_cons, List.sum_cons] at this ⊢
        rw [this, hx x (List.mem_cons_self ..)]
        ring
  have ha : average G f I i = 0 := by
    rw [average, h0, hz _ _ (by simp)]
    ring
  have hI : Itilde G f I i = 0 := by
    rw [Itilde, hz, mul_zero]
    intro y hy
    obtain ⟨x, hx, rfl⟩ := List.mem_map.1 hy
    rw [h x hx i, ha]
    simp
  refine ⟨by rw [errEst, hI, mul_zero], ?_⟩
  rw [valGauss, h0, odds_map, hz _ _ (by simp), mul_zero]

/-- A polynomial that no Kronrod point of the interval sees. -/
theorem exists_hidden (G : GK) (a b : ℝ) (hab : a < b) (M : ℝ) (hM : 0 < M) :
    ∃ p : ℝ[X], (∀ x, 0 ≤ p.eval x) ∧ (∫ x in a..b, p.eval x) = M ∧
      ∀ x ∈ G.pts, p.eval (affine ((fun _ => a, fun _ => b) : Ivl Unit) x ()) = 0 := by
  set q : ℝ[X] := ((G.pts.map fun x => X - C (affine ((fun _ => a, fun _ => b) : Ivl Unit) x ())).prod) with hq
  have hq0 : q ≠ 0 := by
    rw [hq, ne_eq, List.prod_eq_zero_iff]
    simp [X_sub_C_ne_zero]
  have hI : 0 < ∫ x in a..b, (q ^ 2).eval x := by
    refine intervalIntegral.integral_pos hab (q ^ 2).continuous.continuousOn (fun x _ => by
      rw [eval_pow]; positivity) ?_
    by_contra hcon
    push Not at hcon
    have hroot : ∀ x ∈ Set.Icc a b, q.IsRoot x := fun x hx => by
      have := hcon x hx
      rw [eval_pow] at this
      exact pow_eq_zero_iff (two_ne_zero) |>.1 (le_antisymm this (sq_nonneg _))
    exact hq0 (q.eq_zero_of_infinite_isRoot ((Set.Icc_infinite hab).mono hroot))
  refine ⟨C (M / ∫ x in a..b, (q ^ 2).eval x) * q ^ 2, fun x => ?_, ?_, fun x hx => ?_⟩
  · rw [eval_mul, eval_C, eval_pow]
    positivity
  · simp only [eval_mul, eval_C]
    rw [intervalIntegral.integral_const_mul, div_mul_cancel₀ _ hI.ne']
  · have : q.eval (affine ((fun _ => a, fun _ => b) : Ivl Unit) x ()) = 0 := by
      rw [hq, eval_list_prod]
      refine List.prod_eq_zero ?_
      rw [List.map_map]
      exact List.mem_map.2 ⟨x, hx, by simp⟩
    rw [eval_mul, eval_pow, this]
    ring

/-- The tolerance does not bound the error: for every rule, interval and number `M` there is a polynomial
`f ≥ 0` with the integral `M` for which `integrate_adaptive` returns at once the value 0 and the error
estimate 0, whatever absolute tolerance is asked for. -/
theorem C76_no_bound (G : GK) (a b : ℝ) (hab : a < b) (M : ℝ) (hM : 0 < M) :
    ∃ p : ℝ[X], (∀ x, 0 ≤ p.eval x) ∧ (∫ x in a..b, p.eval x) = M ∧
      ∀ (eps : ℝ), 0 < eps → ∀ (er : Option ℝ) (m : ℝ) (ms : Option ℝ) (fuel : ℕ),
        integrateAdaptive (δ := Unit) (ι := Unit) G ⟨some eps, er, npAny, m, ms⟩
          (fun x _ => p.eval (x ())) [(fun _ => a, fun _ => b)] fuel = .returned 0 0 := by
  obtain ⟨p, hp0, hpM, hpz⟩ := exists_hidden G a b hab M hM
  refine ⟨p, hp0, hpM, fun eps heps er m ms fuel => ?_⟩
  set f : (Unit → ℝ) → Unit → ℝ := fun x _ => p.eval (x ())
  set I : Ivl Unit := (fun _ => a, fun _ => b) with hIdef
  have h0 : ∀ x ∈ G.pts, ∀ i, f (affine I x) i = 0 := fun x hx i => hpz x hx
  have hgood : good0 G ⟨some eps, er, npAny, m, ms⟩ f I = true := by
    have : ∀ i, errEst G f I i < eps := fun i => by rw [(errEst_zero G f I h0 i).1]; exact heps
    simp [good0, npAny, this]
  have hb : (init G ⟨some eps, er, npAny, m, ms⟩ f [I]).bad = [] := by simp [init, hgood]
  have hv : (init G ⟨some eps, er, npAny, m, ms⟩ f [I]).values = 0 := by
    funext i
    simp [init, hgood, total, (errEst_zero G f I h0 i).2]
  have he : (init G ⟨some eps, er, npAny, m, ms⟩ f [I]).errors = 0 := by
    funext i
    simp [init, hgood, total, (errEst_zero G f I h0 i).1]
  rw [integrateAdaptive, if_pos (by simp [I, hab.le])]
  cases fuel <;> rw [loop, if_pos hb, hv, he] <;> simp [reshape]

theorem vdot_const (G W : List ℝ) (κ : ℝ) :
    vdot (G.map fun _ => κ) W = κ * vdot (G.map fun _ => 1) W := by
  induction G generalizing W with
  | nil => simp [vdot]
  | cons x G ih =>
    cases W with
    | nil => simp [vdot]
    | cons w W =>
      have := ih W
      simp only [vdot, List.map_cons, List.zipWith_cons_cons, List.sum_cons] at this ⊢
      rw [this]
      ring

/-- An integrand with one value at all Kronrod points of the interval has the estimate 0. -/
theorem errEst_const (G : GK) (hk : vdot (G.pts.map fun _ => 1) G.gkW = 2)
    (hg : vdot ((odds G.pts).map fun _ => 1) G.glW = 2) (f : (Unit → ℝ) → ι → ℝ) (I : Ivl Unit) (i : ι) (κ : ℝ)
    (h : ∀ x ∈ G.pts, f (affine I x) i = κ) : errEst G f I i = 0 ∧ valGauss G f I i = κ * len I := by
  have h0 : (G.pts.map fun x => f (affine I x) i) = G.pts.map fun _ => κ :=
    List.map_congr_left fun x hx => h x hx
  have ha : average G f I i = κ := by
    rw [average, h0, vdot_const, hk]
    ring
  have hI : Itilde G f I i = 0 := by
    have h1 : (G.pts.map fun x => |f (affine I x) i - average G f I i|) = G.pts.map fun _ => (0 : ℝ) :=
      List.map_congr_left fun x hx => by rw [h x hx, ha, sub_self, abs_zero]
    rw [Itilde, h1, vdot_const, zero_mul, mul_zero]
  refine ⟨by rw [errEst, hI, mul_zero], ?_⟩
  rw [valGauss, h0, odds_map, vdot_const, hg]
  ring

/-- With relative tolerances too, alone or together with absolute ones: there is a polynomial `f ≥ 1` with
the integral `b - a + M` for which `b - a` is returned at once with the error estimate 0, whatever
tolerances are asked for and however they are connected. -/
theorem C76_no_bound_rel (G : GK) (hk : vdot (G.pts.map fun _ => 1) G.gkW = 2)
    (hg : vdot ((odds G.pts).map fun _ => 1) G.glW = 2) (a b : ℝ) (hab : a < b) (M : ℝ) (hM : 0 < M) :
    ∃ p : ℝ[X], (∀ x, 1 ≤ p.eval x) ∧ (∫ x in a..b, p.eval x) = b - a + M ∧
      ∀ ea er : Option ℝ, (ea.isSome ∨ er.isSome) → (∀ t ∈ ea, 0 < t) → (∀ t ∈ er, 0 < t) →
      ∀ conn, conn = npAny ∨ conn = npAll → ∀ (m : ℝ) (ms : Option ℝ) (fuel : ℕ),
        integrateAdaptive (δ := Unit) (ι := Unit) G ⟨ea, er, conn, m, ms⟩
          (fun x _ => p.eval (x ())) [(fun _ => a, fun _ => b)] fuel = .returned (fun _ => b - a) 0 := by
  obtain ⟨q, hq0, hqM, hqz⟩ := exists_hidden G a b hab M hM
  refine ⟨1 + q, fun x => by rw [eval_add, eval_one]; linarith [hq0 x], ?_,
    fun ea er hs hea her conn hc m ms fuel => ?_⟩
  · simp only [eval_add, eval_one]
    rw [intervalIntegral.integral_add (by simp) (q.continuous.intervalIntegrable _ _), hqM]
    simp
  · set f : (Unit → ℝ) → Unit → ℝ := fun x _ => (1 + q).eval (x ())
    set I : Ivl Unit := (fun _ => a, fun _ => b) with hIdef
    have h0 : ∀ x ∈ G.pts, f (affine I x) () = 1 := fun x hx => by
      simp only [f, eval_add, eval_one]
      rw [hqz x hx, add_zero]
    obtain ⟨h1, h2⟩ := errEst_const G hk hg f I () 1 h0
    have hlen : len I = b - a := by
      rw [hIdef, C1.len_unit, abs_of_pos (sub_pos.2 hab)]
    rw [hlen, one_mul] at h2
    have hba : 0 < |b - a| := abs_pos.2 (sub_pos.2 hab).ne'
    have hgood : good0 G ⟨ea, er, conn, m, ms⟩ f I = true := by
      cases ea with
      | none =>
        cases er with
        | none => simp at hs
        | some er =>
          have := mul_pos (her er rfl) hba
          rcases hc with rfl | rfl <;> simp [good0, npAny, npAll, h1, h2, this]
      | some ea =>
        have h3 := hea ea rfl
        cases er with
        | none => rcases hc with rfl | rfl <;> simp [good0, npAny, npAll, h1, h3]
        | some er =>
          have := mul_pos (her er rfl) hba
          rcases hc with rfl | rfl <;> simp [good0, npAny, npAll, h1, h2, h3, this]
    have hb : (init G ⟨ea, er, conn, m, ms⟩ f [I]).bad = [] := by simp [init, hgood]
    have hv : (init G ⟨ea, er, conn, m, ms⟩ f [I]).values = fun _ => b - a := by
      funext i
      simp [init, hgood, total, h2]
    have he : (init G ⟨ea, er, conn, m, ms⟩ f [I]).errors = 0 := by
      funext i
      simp [init, hgood, total, h1]
    rw [integrateAdaptive, if_pos ⟨by simp [I, hab.le], hs⟩]
    cases fuel <;> rw [loop, if_pos hb, hv, he] <;> simp [reshape]

/-- The midpoint rule with the Simpson rule as its "Kronrod" rule: no tolerance at all tells the integral of
some polynomial `f ≥ 1` over `[0, 1]` from 1, though it is 1000001. -/
example : ∃ p : ℝ[X], (∀ x, 1 ≤ p.eval x) ∧ (∫ x in (0 : ℝ)..1, p.eval x) = 1000001 ∧
    ∀ eps : ℝ, 0 < eps → integrateAdaptive (δ := Unit) (ι := Unit)
      ⟨[-1, 0, 1], [1 / 3, 4 / 3, 1 / 3], [2]⟩ ⟨some eps, some eps, npAll, 0, none⟩ (fun x _ => p.eval (x ()))
      [(fun _ => 0, fun _ => 1)] 0 = .returned (fun _ => 1) 0 := by
  obtain ⟨p, h1, h2, h3⟩ := C76_no_bound_rel ⟨[-1, 0, 1], [1 / 3, 4 / 3, 1 / 3], [2]⟩
    (by norm_num [vdot]) (by norm_num [vdot, odds]) 0 1 one_pos 1000000 (by norm_num)
  refine ⟨p, h1, by rw [h2]; norm_num, fun eps he => ?_⟩
  have := h3 (some eps) (some eps) (by simp) (by simpa using he) (by simpa using he) npAll (Or.inr rfl) 0 none 0
  simpa using this

/-- The same rules: a value returned for `|x - 1/3|` over `[0, 1]` is within 2/3 of the integral,
whatever was bisected. -/
example (c : Config) (fuel : ℕ) (v e : Unit → ℝ)
    (h : integrateAdaptive (δ := Unit) (ι := Unit) ⟨[-1, 0, 1], [1 / 3, 4 / 3, 1 / 3], [2]⟩ c
      (fun x _ => |x () - 1 / 3|) [(fun _ => 0, fun _ => 1)] fuel = .returned v e) :
    |v () - ∫ x in (0 : ℝ)..1, abs (x - 1 / 3)| ≤ 2 * (1 - 0) * (1 / 3) := by
  refine C76_uniform _ 1 (exactC1_of_moments rfl fun k hk => ?_) (by simp [odds]) (by simp) c
    (fun x _ => |x - 1 / 3|) 0 1 (fun _ => (by fun_prop : Continuous fun x : ℝ => |x - 1 / 3|).continuousOn)
    fuel v e h () (C (1 / 3)) (by simp) _ fun x hx => ?_
  · interval_cases k <;> norm_num [odds, vdot]
  · rw [eval_C]
    rcases abs_cases (x - 1 / 3) with ⟨h1, h2⟩ | ⟨h1, h2⟩ <;> rw [h1, abs_le] <;> constructor <;>
      linarith [hx.1, hx.2]

end Adaptive

namespace T2

open Spec MeasureTheory

variable {ι : Type} [Fintype ι]

/-- What holds of triangles with all their parts holds of a partition. -/
theorem triforce_forall {P : Tri 2 → Prop} (hP : ∀ T T' : Tri 2,
    convexHull ℝ (Set.range T') ⊆ convexHull ℝ (Set.range T) → P T → P T') {Ts L : List (Tri 2)}
    (h : Triforce Ts L) (hT : ∀ T ∈ Ts, P T) : ∀ T ∈ L, P T := by
  induction h with
  | whole => exact hT
  | perm L L' _ hp ih => exact fun T h => ih T (hp.mem_iff.2 h)
  | cut a b c L _ ih =>
    have h0 := ih _ (List.mem_cons_self ..)
    have hh := hull_parts a b c
    intro T hTL
    simp only [List.mem_cons] at hTL
    rcases hTL with rfl | rfl | rfl | rfl | hTL
    · exact hP _ _ (by rw [hh]; intro x hx; exact Or.inl hx) h0
    · exact hP _ _ (by rw [hh]; intro x hx; exact Or.inr (Or.inl hx)) h0
    · exact hP _ _ (by rw [hh]; intro x hx; exact Or.inr (Or.inr (Or.inl hx))) h0
    · exact hP _ _ (by rw [hh]; intro x hx; exact Or.inr (Or.inr (Or.inr hx))) h0
    · exact ih _ (List.mem_cons_of_mem _ hTL)

/-- Triangles: a returned value is as close to the integral as the integrand is to the polynomials of the
degree of the first rule on the given triangles, whatever was cut. -/
theorem C76_triangles {S1 : Scheme} (h1 : S1.ExactOnSimplex 2)
    (hin : ∀ x ∈ S1.points, ∀ i, 0 ≤ toVec 3 x i) (w2 : List ℝ) (x2 : List (List ℝ))
    (f : (Fin 2 → ℝ) → ι → ℝ) (hf : ∀ i, Continuous fun x => f x i) (Ts : List (Tri 2)) (eps : ℝ)
    (minArea : Option ℝ) (fuel : ℕ) (v e : ι → ℝ)
    (h : integrateAdaptive ⟨S1.weights, S1.points, w2, x2⟩ f Ts eps minArea fuel = .returned v e) (i : ι)
    (ε : ℝ) (hε : 0 ≤ ε) (he : ∀ T ∈ Ts, ∃ p : MvPolynomial (Fin 2) ℝ, p.totalDegree ≤ S1.degree ∧
      ∀ x ∈ convexHull ℝ (Set.range T), |f x i - MvPolynomial.eval x p| ≤ ε) :
    |v i - (Ts.map fun T => ∫ x in convexHull ℝ (Set.range T), f x i).sum| ≤
      ((S1.weights.map abs).sum + 1) * ε * (Ts.map Tn.getVol).sum := by
  obtain ⟨L, hL, hv, -⟩ := C42_returned _ _ _ _ _ _ _ _ h
  rw [hv i, ← C42_integral hL _ (hf i), ← C42_area hL]
  refine list_sum_close _ _ _ _ L fun T hT => ?_
  obtain ⟨p, hp, hpe⟩ := triforce_forall (P := fun T => ∃ p : MvPolynomial (Fin 2) ℝ,
    p.totalDegree ≤ S1.degree ∧ ∀ x ∈ convexHull ℝ (Set.range T), |f x i - MvPolynomial.eval x p| ≤ ε)
    (fun T T' hs ⟨p, hp, hpe⟩ => ⟨p, hp, fun x hx => hpe x (hs hx)⟩) hL he T hT
  refine (C74_simplex h1 hin T (hf i) p hp hε hpe).trans (le_of_eq ?_)
  ring

/-- What the tolerance does give: if on every triangle the second rule is better than the first by a factor
`θ < 1`, the true error is at most the estimate divided by `1 - θ`, hence below the tolerance divided by
`1 - θ`. -/
theorem C76_saturation (R : Rules) (f : (Fin 2 → ℝ) → ι → ℝ) (hf : ∀ i, Continuous fun x => f x i)
    (Ts : List (Tri 2)) (hT : Ts ≠ []) (eps : ℝ) (minArea : Option ℝ) (fuel : ℕ) (v e : ι → ℝ)
    (h : integrateAdaptive R f Ts eps minArea fuel = .returned v e) (i : ι) (θ : ℝ) (hθ : θ < 1)
    (hs : ∀ T : Tri 2, |Tn.integrate R.w2 R.x2 (fun x => f x i) T - ∫ x in convexHull ℝ (Set.range T), f x i| ≤
      θ * |Tn.integrate R.w1 R.x1 (fun x => f x i) T - ∫ x in convexHull ℝ (Set.range T), f x i|) :
    |v i - (Ts.map fun T => ∫ x in convexHull ℝ (Set.range T), f x i).sum| ≤ e i / (1 - θ) ∧
      e i / (1 - θ) < eps / (1 - θ) := by
  have h1 : 0 < 1 - θ := sub_pos.2 hθ
  refine ⟨?_, div_lt_div_of_pos_right (C42_error R f Ts hT eps minArea fuel v e h i) h1⟩
  obtain ⟨L, hL, hv, he⟩ := C42_returned _ _ _ _ _ _ _ _ h
  rw [hv i, he i, ← C42_integral hL _ (hf i), div_eq_inv_mul]
  refine list_sum_close _ _ _ _ L fun T _ => ?_
  rw [← div_eq_inv_mul, le_div_iff₀ h1]
  have := hs T
  simp only [val1, val2]
  have h2 := abs_sub_abs_le_abs_sub
    (Tn.integrate R.w1 R.x1 (fun x => f x i) T - ∫ x in convexHull ℝ (Set.range T), f x i)
    (Tn.integrate R.w2 R.x2 (fun x => f x i) T - ∫ x in convexHull ℝ (Set.range T), f x i)
  rw [sub_sub_sub_cancel_right] at h2
  linarith

/-- The square distances to the points of both rules in the given triangles, multiplied. -/
theorem exists_hidden (R : Rules) (Ts : List (Tri 2)) (hT : ∃ T ∈ Ts, AffineIndependent ℝ T) (M : ℝ)
    (hM : 0 < M) :
    ∃ g : (Fin 2 → ℝ) → ℝ, Continuous g ∧ (∀ x, 0 ≤ g x) ∧
      (Ts.map fun T => ∫ x in convexHull ℝ (Set.range T), g x).sum = M ∧
      ∀ T ∈ Ts, ∀ x, x ∈ R.x1 ∨ x ∈ R.x2 → g (Tn.transform (toVec 3 x) T) = 0 := by
  set Z : List (Fin 2 → ℝ) := Ts.flatMap fun T => (R.x1 ++ R.x2).map fun x => Tn.transform (toVec 3 x) T with hZ
  set q : (Fin 2 → ℝ) → ℝ := fun x => (Z.map fun z => ‖x - z‖).prod with hq
  have hqc : Continuous q := continuous_list_prod _ fun z _ => (continuous_id.sub continuous_const).norm
  have hq0 : ∀ x, 0 ≤ q x := fun x => List.prod_nonneg fun y hy => by
    obtain ⟨z, -, rfl⟩ := List.mem_map.1 hy
    exact norm_nonneg _
  have hqz : ∀ x, q x = 0 ↔ x ∈ Z := fun x => by
    rw [hq]
    simp only [List.prod_eq_zero_iff, List.mem_map, norm_eq_zero, sub_eq_zero]
    exact ⟨fun ⟨z, hz, e⟩ => e ▸ hz, fun h => ⟨x, h, rfl⟩⟩
  have hcomp : ∀ T : Tri 2, IsCompact (convexHull ℝ (Set.range T)) := fun T =>
    (Set.finite_range T).isCompact_convexHull ℝ
  have hnn : ∀ T : Tri 2, 0 ≤ ∫ x in convexHull ℝ (Set.range T), q x := fun T =>
    integral_nonneg hq0
  have hpos : 0 < (Ts.map fun T => ∫ x in convexHull ℝ (Set.range T), q x).sum := by
    obtain ⟨T, hTs, hT⟩ := hT
    refine lt_of_lt_of_le ?_ (List.single_le_sum (fun y hy => ?_) _ (List.mem_map_of_mem hTs))
    · have hvol : 0 < volume (convexHull ℝ (Set.range T)) := by
        have : 0 < Tn.getVol T := lt_of_le_of_ne (Tn.C12_nonneg T) fun e => (Tn.C12_zero_iff T).1 e.symm hT
        rw [Tn.C11_volume] at this
        exact (ENNReal.toReal_pos_iff.1 this).1
      rw [integral_pos_iff_support_of_nonneg hq0 (hqc.continuousOn.integrableOn_compact (hcomp T)),
        Measure.restrict_apply' (hcomp T).measurableSet]
      have hfin : volume {x | x ∈ Z} = 0 := (List.finite_toSet Z).measure_zero _
      have hsub : convexHull ℝ (Set.range T) ⊆
          (Function.support q ∩ convexHull ℝ (Set.range T)) ∪ {x | x ∈ Z} := fun x hx => by
        by_cases hz : x ∈ Z
        · exact Or.inr hz
        · exact Or.inl ⟨fun h0 => hz ((hqz x).1 h0), hx⟩
      have := (measure_mono (μ := volume) hsub).trans (measure_union_le _ _)
      rw [hfin, add_zero] at this
      exact hvol.trans_le this
    · obtain ⟨T, -, rfl⟩ := List.mem_map.1 hy
      exact hnn T
  refine ⟨fun x => M / (Ts.map fun T => ∫ x in convexHull ℝ (Set.range T), q x).sum * q x,
    continuous_const.mul hqc, fun x => mul_nonneg (div_pos hM hpos).le (hq0 x), ?_, fun T hTs x hx => ?_⟩
  · simp only [integral_const_mul]
    rw [List.sum_map_mul_left, div_mul_cancel₀ _ hpos.ne']
  · have : q (Tn.transform (toVec 3 x) T) = 0 := (hqz _).2 (by
      rw [hZ, List.mem_flatMap]
      exact ⟨T, hTs, List.mem_map.2 ⟨x, by simpa using hx, rfl⟩⟩)
    simp only [this, mul_zero]

/-- Triangles: for all rules, all lists of non-degenerate triangles and every `M` there is a continuous
`f ≥ 0` with the integral `M` for which the value 0 with the error estimate 0 is returned at once, whatever
the tolerance. -/
theorem C76_triangles_no_bound (R : Rules) (Ts : List (Tri 2)) (hne : Ts ≠ [])
    (hT : ∀ T ∈ Ts, AffineIndependent ℝ T) (M : ℝ) (hM : 0 < M) :
    ∃ g : (Fin 2 → ℝ) → ℝ, Continuous g ∧ (∀ x, 0 ≤ g x) ∧
      (Ts.map fun T => ∫ x in convexHull ℝ (Set.range T), g x).sum = M ∧
      ∀ eps : ℝ, 0 < eps → ∀ (minArea : Option ℝ) (fuel : ℕ),
        integrateAdaptive (ι := Unit) R (fun x _ => g x) Ts eps minArea fuel = .returned 0 0 := by
  obtain ⟨T0, hT0⟩ := List.exists_mem_of_ne_nil _ hne
  obtain ⟨g, hgc, hg0, hgM, hgz⟩ := exists_hidden R Ts ⟨T0, hT0, hT T0 hT0⟩ M hM
  refine ⟨g, hgc, hg0, hgM, fun eps heps minArea fuel => ?_⟩
  have hzero : ∀ (w : List ℝ) (xs : List (List ℝ)), (∀ x ∈ xs, x ∈ R.x1 ∨ x ∈ R.x2) → ∀ T ∈ Ts,
      Tn.integrate w xs (fun x => g x) T = 0 := fun w xs hxs T hTs => by
    rw [Tn.integrate, Tn.dot_congr_mem (g := fun _ => 0) fun x hx => hgz T hTs x (hxs x hx),
      dot_const_zero, mul_zero]
  have hv1 : ∀ T ∈ Ts, ∀ i, val1 (ι := Unit) R (fun x _ => g x) T i = 0 := fun T hTs i =>
    hzero _ _ (fun x hx => Or.inl hx) T hTs
  have hv2 : ∀ T ∈ Ts, ∀ i, val2 (ι := Unit) R (fun x _ => g x) T i = 0 := fun T hTs i =>
    hzero _ _ (fun x hx => Or.inr hx) T hTs
  have herr : ∀ T ∈ Ts, ∀ i, err (ι := Unit) R (fun x _ => g x) T i = 0 := fun T hTs i => by
    rw [err, hv1 T hTs, hv2 T hTs, sub_zero, abs_zero]
  have hpos : ∀ T ∈ Ts, 0 < Tn.getVol T := fun T h =>
    lt_of_le_of_ne (Tn.C12_nonneg T) fun e => (Tn.C12_zero_iff T).1 e.symm (hT T h)
  have hgood : ∀ T ∈ Ts, good (ι := Unit) R (fun x _ => g x) eps (Ts.map Tn.getVol).sum T = true := by
    intro T hTs
    rw [good, decide_eq_true_iff]
    have hle : Tn.getVol T ≤ (Ts.map Tn.getVol).sum := by
      refine List.single_le_sum ?_ _ (List.mem_map_of_mem hTs)
      intro x hx
      obtain ⟨T, -, rfl⟩ := List.mem_map.1 hx
      exact Tn.C12_nonneg T
    have h0 := hpos T hTs
    have hA : 0 < (Ts.map Tn.getVol).sum := h0.trans_le hle
    refine ⟨hA.ne', fun i => ?_⟩
    rw [herr T hTs i]
    positivity
  have hf : Ts.filter (fun T => good (ι := Unit) R (fun x _ => g x) eps (Ts.map Tn.getVol).sum T) = Ts :=
    List.filter_eq_self.2 hgood
  have hb : (evaluate (ι := Unit) R (fun x _ => g x) eps (Ts.map Tn.getVol).sum 0 0 Ts).bad = [] := by
    simp only [evaluate, List.filter_eq_nil_iff, Bool.not_eq_true', Bool.not_eq_false]
    exact hgood
  have hv : (evaluate (ι := Unit) R (fun x _ => g x) eps (Ts.map Tn.getVol).sum 0 0 Ts).values = 0 := by
    funext i
    simp only [evaluate, hf, total, Pi.zero_apply, zero_add]
    refine List.sum_eq_zero fun y hy => ?_
    obtain ⟨T, hTs, rfl⟩ := List.mem_map.1 hy
    exact hv1 T hTs i
  have he : (evaluate (ι := Unit) R (fun x _ => g x) eps (Ts.map Tn.getVol).sum 0 0 Ts).errors = 0 := by
    funext i
    simp only [evaluate, hf, total, Pi.zero_apply, zero_add]
    refine List.sum_eq_zero fun y hy => ?_
    obtain ⟨T, hTs, rfl⟩ := List.mem_map.1 hy
    exact herr T hTs i
  rw [integrateAdaptive]
  cases fuel <;> rw [loop, if_pos hb, hv, he]

end T2
end Quadpy
