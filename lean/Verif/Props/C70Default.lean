import Verif.Props.C70
import Verif.Props.C44

/-!
# C70: a continuous integrand on which the default criteria never stop

With both tolerances joined by `np.any`, the allowance of a round is the larger of `eps_abs` and
`eps_rel * |tentative total value|`.  A coarse round can overestimate the total value, accept an
interval on the strength of it, and leave an accepted error that is larger than the allowance of every
later round.  Then nothing is accepted any more.
-/

namespace Quadpy
namespace Adaptive

open Spec

set_option linter.unusedSectionVars false

/-- `gauss_kronrod(1)` and `gauss_legendre(1)`: the three-point Gauss rule and the midpoint rule
(the only Kronrod extension of the midpoint rule). -/
noncomputable def gk1 : GK := ⟨[-√(3 / 5), 0, √(3 / 5)], [5 / 9, 8 / 9, 5 / 9], [2]⟩

theorem sqrt35_sq : √(3 / 5 : ℝ) * √(3 / 5 : ℝ) = 3 / 5 := Real.mul_self_sqrt (by norm_num)

theorem gk1_rule : KronrodRule gk1 := by
  have h0 : 0 ≤ √(3 / 5 : ℝ) := Real.sqrt_nonneg _
  have h1 : √(3 / 5 : ℝ) ≤ 1 := Real.sqrt_le_one.2 (by norm_num)
  refine ⟨rfl, ?_, ?_, ?_⟩
  · simp [gk1]; norm_num
  · norm_num [gk1]
  · intro x hx
    simp only [gk1, List.mem_cons, List.not_mem_nil, or_false] at hx
    rcases hx with rfl | rfl | rfl <;> constructor <;> linarith

variable {f : (Unit → ℝ) → Unit → ℝ} {J : Ivl Unit}

theorem len_unit (J : Ivl Unit) (h : J.1 () ≤ J.2 ()) : len J = J.2 () - J.1 () := by
  simp only [len, Finset.univ_unique, Finset.sum_singleton]
  exact Real.sqrt_sq (sub_nonneg.2 h)

theorem affine_zero (J : Ivl Unit) : affine J 0 = fun _ => (J.1 () + J.2 ()) / 2 := by
  funext i; simp only [affine]; ring

theorem gk1_val (f : (Unit → ℝ) → Unit → ℝ) (J : Ivl Unit) :
    valGauss gk1 f J () = len J * f (fun _ => (J.1 () + J.2 ()) / 2) () := by
  simp only [valGauss, gk1, List.map_cons, List.map_nil, odds, vdot, List.zipWith_cons_cons,
    List.zipWith_nil_left, List.sum_cons, List.sum_nil, affine_zero]
  ring

theorem gk1_avg {A B C : ℝ} (hA : f (affine J (-√(3 / 5))) () = A) (hB : f (affine J 0) () = B)
    (hC : f (affine J √(3 / 5)) () = C) : average gk1 f J () = 5 / 18 * A + 4 / 9 * B + 5 / 18 * C := by
  simp only [average, gk1, List.map_cons, List.map_nil, vdot, List.zipWith_cons_cons,
    List.zipWith_nil_left, List.sum_cons, List.sum_nil, hA, hB, hC]
  ring

theorem gk1_diff {A B C : ℝ} (hA : f (affine J (-√(3 / 5))) () = A) (hB : f (affine J 0) () = B)
    (hC : f (affine J √(3 / 5)) () = C) :
    valKronrod gk1 f J () - valGauss gk1 f J () = len J * (5 / 18 * (A - B + (C - B))) := by
  rw [valKronrod, gk1_avg hA hB hC, gk1_val, ← affine_zero, hB]
  ring

theorem gk1_tilde {A B C : ℝ} (hA : f (affine J (-√(3 / 5))) () = A) (hB : f (affine J 0) () = B)
    (hC : f (affine J √(3 / 5)) () = C) : Itilde gk1 f J () =
      len J * (5 / 18 * |A - (5 / 18 * A + 4 / 9 * B + 5 / 18 * C)| +
        4 / 9 * |B - (5 / 18 * A + 4 / 9 * B + 5 / 18 * C)| +
        5 / 18 * |C - (5 / 18 * A + 4 / 9 * B + 5 / 18 * C)|) := by
  rw [Itilde, gk1_avg hA hB hC]
  simp only [gk1, List.map_cons, List.map_nil, vdot, List.zipWith_cons_cons,
    List.zipWith_nil_left, List.sum_cons, List.sum_nil, hA, hB, hC]
  ring

/-- The estimate when the two outer values agree. -/
theorem gk1_err {A B : ℝ} (hl : 0 < len J) (hAB : A ≠ B) (hA : f (affine J (-√(3 / 5))) () = A)
    (hB : f (affine J 0) () = B) (hC : f (affine J √(3 / 5)) () = A) :
    errEst gk1 f J () = 40 / 81 * len J * |A - B| := by
  have hpos : 0 < |A - B| := abs_pos.2 (sub_ne_zero.2 hAB)
  have hT : Itilde gk1 f J () = 40 / 81 * len J * |A - B| := by
    rw [gk1_tilde hA hB hC, show A - (5 / 18 * A + 4 / 9 * B + 5 / 18 * A) = 4 / 9 * (A - B) by ring,
      show B - (5 / 18 * A + 4 / 9 * B + 5 / 18 * A) = -(5 / 9) * (A - B) by ring, abs_mul, abs_mul]
    norm_num [abs_of_pos]
    ring
  rw [← hT]
  refine C44_saturated _ _ _ _ (by rw [hT]; positivity) ?_
  rw [hT, gk1_diff hA hB hC, abs_mul, abs_of_pos hl,
    show 5 / 18 * (A - B + (A - B)) = 5 / 9 * (A - B) by ring, abs_mul,
    abs_of_pos (by norm_num : (0 : ℝ) < 5 / 9)]
  nlinarith [mul_pos hl hpos]

/-! ### The integrand -/

/-- Two parabolas: a flat one on the left of zero, a steep one on the right. -/
noncomputable def bowl (S t D : ℝ) : (Unit → ℝ) → Unit → ℝ :=
  fun x _ => S * ((if x () ≤ 0 then t * (x () ^ 2 + x ()) else x () ^ 2 - x ()) + D)

theorem bowl_continuous (S t D : ℝ) : Continuous (bowl S t D) := by
  refine continuous_pi fun _ => ?_
  simp only [bowl]
  refine continuous_const.mul (Continuous.add ?_ continuous_const)
  refine Continuous.if_le ?_ ?_ (continuous_apply ()) continuous_const ?_
  · fun_prop
  · fun_prop
  · intro x hx
    rw [hx]; ring

theorem bowl_left {S t D : ℝ} {x : Unit → ℝ} (h : x () ≤ 0) :
    bowl S t D x () = S * (t * (x () ^ 2 + x ()) + D) := by rw [bowl, if_pos h]

theorem bowl_right {S t D : ℝ} {x : Unit → ℝ} (h : 0 ≤ x ()) :
    bowl S t D x () = S * (x () ^ 2 - x () + D) := by
  rcases h.eq_or_lt with h | h
  · rw [bowl, ← h]; simp
  · rw [bowl, if_neg (not_le.2 h)]

/-- The interval from `a` to `b`. -/
def seg (a b : ℝ) : Ivl Unit := (fun _ => a, fun _ => b)

theorem len_seg {a b : ℝ} (h : a ≤ b) : len (seg a b) = b - a := len_unit _ h

theorem affine_seg (a b x : ℝ) : affine (seg a b) x = fun _ => (a + b) / 2 + (b - a) / 2 * x := by
  funext i; simp only [affine, seg]; ring

theorem bowl_err_left {S t D : ℝ} (hS : 0 < S) (ht : 0 < t) :
    errEst gk1 (bowl S t D) (seg (-1) 0) () = 2 / 27 * t * S := by
  have h0 : 0 ≤ √(3 / 5 : ℝ) := Real.sqrt_nonneg _
  have h1 : √(3 / 5 : ℝ) ≤ 1 := Real.sqrt_le_one.2 (by norm_num)
  have h2 := sqrt35_sq
  have hl : len (seg (-1) 0) = 1 := by rw [len_seg (by norm_num)]; norm_num
  rw [gk1_err (A := S * (t * (-1 / 10) + D)) (B := S * (t * (-1 / 4) + D)) (by rw [hl]; norm_num), hl]
  · rw [show S * (t * (-1 / 10) + D) - S * (t * (-1 / 4) + D) = 3 / 20 * (t * S) by ring,
      abs_of_pos (by positivity)]
    ring
  · intro h
    have : S * t = 0 := by linear_combination 20 / 3 * h
    exact absurd this (by positivity)
  · rw [affine_seg, bowl_left (by beta_reduce; linarith)]
    linear_combination S * t / 4 * h2
  · rw [affine_seg, bowl_left (by norm_num)]
    ring
  · rw [affine_seg, bowl_left (by beta_reduce; linarith)]
    linear_combination S * t / 4 * h2

theorem bowl_err_right {S t D : ℝ} (hS : 0 < S) :
    errEst gk1 (bowl S t D) (seg 0 1) () = 2 / 27 * S := by
  have h0 : 0 ≤ √(3 / 5 : ℝ) := Real.sqrt_nonneg _
  have h1 : √(3 / 5 : ℝ) ≤ 1 := Real.sqrt_le_one.2 (by norm_num)
  have h2 := sqrt35_sq
  have hl : len (seg 0 1) = 1 := by rw [len_seg (by norm_num)]; norm_num
  rw [gk1_err (A := S * (-1 / 10 + D)) (B := S * (-1 / 4 + D)) (by rw [hl]; norm_num), hl]
  · rw [show S * (-1 / 10 + D) - S * (-1 / 4 + D) = 3 / 20 * S by ring,
      abs_of_pos (by positivity)]
    ring
  · intro h
    have : S = 0 := by linear_combination 20 / 3 * h
    exact absurd this (by positivity)
  · rw [affine_seg, bowl_right (by beta_reduce; linarith)]
    linear_combination S / 4 * h2
  · rw [affine_seg, bowl_right (by norm_num)]
    ring
  · rw [affine_seg, bowl_right (by beta_reduce; linarith)]
    linear_combination S / 4 * h2

/-- The first evaluation, over `[-1, 1]`. -/
theorem bowl_err_whole {S t D : ℝ} (hS : 0 < S) (ht : 0 < t) :
    1 / 30 * (1 + t) * S ≤ errEst gk1 (bowl S t D) (seg (-1) 1) () := by
  have h0 : 0 ≤ √(3 / 5 : ℝ) := Real.sqrt_nonneg _
  have h2 := sqrt35_sq
  have hl : len (seg (-1) 1) = 2 := by rw [len_seg (by norm_num)]; norm_num
  have hs : (77 / 100 : ℝ) < √(3 / 5) := Real.lt_sqrt_of_sq_lt (by norm_num)
  have hA : bowl S t D (affine (seg (-1) 1) (-√(3 / 5))) () = S * (t * (3 / 5 - √(3 / 5)) + D) := by
    rw [affine_seg, bowl_left (by beta_reduce; linarith)]
    linear_combination S * t * h2
  have hB : bowl S t D (affine (seg (-1) 1) 0) () = S * D := by
    rw [affine_seg, bowl_left (by norm_num)]
    ring
  have hC : bowl S t D (affine (seg (-1) 1) √(3 / 5)) () = S * (3 / 5 - √(3 / 5) + D) := by
    rw [affine_seg, bowl_right (by beta_reduce; linarith)]
    linear_combination S * h2
  have hd := gk1_diff hA hB hC
  have hT := gk1_tilde hA hB hC
  rw [hl] at hd hT
  obtain ⟨u, hu⟩ : ∃ u, u = √(3 / 5 : ℝ) - 3 / 5 := ⟨_, rfl⟩
  have hu0 : 17 / 100 < u := by rw [hu]; linarith
  have e1 : S * (t * (3 / 5 - √(3 / 5)) + D) = S * D - S * t * u := by rw [hu]; ring
  have e2 : S * (3 / 5 - √(3 / 5) + D) = S * D - S * u := by rw [hu]; ring
  rw [e1, e2] at hd hT
  have hSu : 0 < S * u := by positivity
  have hStu : 0 < S * t * u := by positivity
  rw [show 2 * (5 / 18 * (S * D - S * t * u - S * D + (S * D - S * u - S * D))) =
    -(5 / 9 * (S * u + S * t * u)) by ring] at hd
  have a1 := abs_nonneg (S * D - S * t * u - (5 / 18 * (S * D - S * t * u) + 4 / 9 * (S * D) +
    5 / 18 * (S * D - S * u)))
  have a2 := abs_nonneg (S * D - S * u - (5 / 18 * (S * D - S * t * u) + 4 / 9 * (S * D) +
    5 / 18 * (S * D - S * u)))
  have b1 : |S * D - S * t * u - (5 / 18 * (S * D - S * t * u) + 4 / 9 * (S * D) +
      5 / 18 * (S * D - S * u))| ≤ S * u + S * t * u := by
    rw [abs_le]; constructor <;> linarith
  have b2 : |S * D - S * u - (5 / 18 * (S * D - S * t * u) + 4 / 9 * (S * D) +
      5 / 18 * (S * D - S * u))| ≤ S * u + S * t * u := by
    rw [abs_le]; constructor <;> linarith
  have b3 : |S * D - (5 / 18 * (S * D - S * t * u) + 4 / 9 * (S * D) +
      5 / 18 * (S * D - S * u))| = 5 / 18 * (S * u + S * t * u) := by
    rw [abs_of_nonneg] <;> linarith
  have hT1 : 20 / 81 * (S * u + S * t * u) ≤ Itilde gk1 (bowl S t D) (seg (-1) 1) () := by
    rw [hT, b3]; linarith
  have hT2 : Itilde gk1 (bowl S t D) (seg (-1) 1) () ≤ 3 * (S * u + S * t * u) := by
    rw [hT, b3]; linarith
  rw [C44_saturated]
  · refine le_trans ?_ hT1
    have : 17 / 100 * (S + S * t) ≤ S * u + S * t * u := by
      have : 0 < S + S * t := by positivity
      nlinarith
    have h9 : 0 < S + S * t := by positivity
    linarith
  · linarith
  · rw [hd, abs_neg, abs_of_pos (by positivity)]
    linarith

/-! ### The rounds -/

theorem bisect_seg {a b : ℝ} : bisect [seg a b] = [seg a ((a + b) / 2), seg ((a + b) / 2) b] := by
  simp only [bisect, seg, List.map_cons, List.map_nil, List.singleton_append]
  congr 2
  · funext; ring
  · congr 1
    funext; ring

/-- The sum of the Gauss values over intervals to the right of zero. -/
theorem bowl_total {S t D : ℝ} : ∀ {L : List (Ivl Unit)}
    (_ : ∀ J ∈ L, 0 ≤ J.1 () ∧ J.1 () ≤ J.2 ()), total (valGauss gk1 (bowl S t D)) L () =
      S * (L.map fun J => (J.2 () ^ 3 - J.1 () ^ 3) / 3 - (J.2 () ^ 2 - J.1 () ^ 2) / 2 +
        D * (J.2 () - J.1 ())).sum - S / 12 * (L.map fun J => (J.2 () - J.1 ()) ^ 3).sum
  | [], _ => by simp [total]
  | J :: L, h => by
    have ih := bowl_total (S := S) (t := t) (D := D) (L := L)
      fun K hK => h K (List.mem_cons_of_mem _ hK)
    obtain ⟨h1, h2⟩ := h J (List.mem_cons_self ..)
    simp only [total, List.map_cons, List.sum_cons] at ih ⊢
    rw [ih, gk1_val, len_unit J h2, bowl_right (by beta_reduce; linarith)]
    ring

theorem sum_bisect_add (F : ℝ → ℝ) : ∀ L : List (Ivl Unit),
    ((bisect L).map fun J => F (J.2 ()) - F (J.1 ())).sum =
      (L.map fun J => F (J.2 ()) - F (J.1 ())).sum
  | [] => by simp [bisect]
  | J :: L => by
    have ih := sum_bisect_add F L
    simp only [bisect, List.map_append, List.sum_append, List.map_cons, List.sum_cons,
      List.map_map, Function.comp_def] at ih ⊢
    linarith

theorem sum_bisect_cube : ∀ L : List (Ivl Unit),
    ((bisect L).map fun J => (J.2 () - J.1 ()) ^ 3).sum =
      (L.map fun J => (J.2 () - J.1 ()) ^ 3).sum / 4
  | [] => by simp [bisect]
  | J :: L => by
    have ih := sum_bisect_cube L
    simp only [bisect, List.map_append, List.sum_append, List.map_cons, List.sum_cons,
      List.map_map, Function.comp_def] at ih ⊢
    rw [add_div, ← ih]
    ring

theorem right_bisect {L : List (Ivl Unit)} (h : ∀ J ∈ L, 0 ≤ J.1 () ∧ J.1 () ≤ J.2 ()) :
    ∀ J ∈ bisect L, 0 ≤ J.1 () ∧ J.1 () ≤ J.2 () := by
  intro J hJ
  simp only [bisect, List.mem_append, List.mem_map] at hJ
  rcases hJ with ⟨K, hK, rfl⟩ | ⟨K, hK, rfl⟩ <;> obtain ⟨h1, h2⟩ := h K hK <;>
    constructor <;> simp only [] <;> linarith

/-- The states of the call from the first round on: all pending intervals lie on the right, and
nothing but the left half has been accepted. -/
structure Stuck (ea S D t : ℝ) (k : ℕ) (s : State Unit Unit) : Prop where
  ne : s.bad ≠ []
  vals : s.values () = S * (t * (-1 / 4) + D)
  errs : s.errors () = ea
  cnt : s.num + s.lastGood = 2
  right : ∀ J ∈ s.bad, 0 ≤ J.1 () ∧ J.1 () ≤ J.2 ()
  area : (s.bad.map fun J => (J.2 () ^ 3 / 3 - J.2 () ^ 2 / 2 + D * J.2 ()) -
    (J.1 () ^ 3 / 3 - J.1 () ^ 2 / 2 + D * J.1 ())).sum = -1 / 6 + D
  cube : (s.bad.map fun J => (J.2 () - J.1 ()) ^ 3).sum = 1 / 4 ^ k

theorem not_good {G : GK} (hW : ∀ w ∈ G.gkW, 0 ≤ w) {ea er : ℝ} {mx : Option ℝ} {ttv ge : Unit → ℝ}
    {B : ℝ} (hB : 0 ≤ B) {J : Ivl Unit} (h1 : ea ≤ ge ()) (h2 : er * |ttv ()| ≤ ge ()) :
    goodN G ⟨some ea, some er, npAny, 0, mx⟩ f ttv ge B J = false := by
  have h3 := errEst_nonneg (f := f) hW J ()
  have h4 : 0 ≤ len J / B := div_nonneg (len_nonneg J) hB
  simp only [goodN, npAny, List.singleton_append, List.any_cons, List.any_nil, id, Bool.or_false,
    Bool.or_eq_false_iff, decide_eq_false_iff_not, forall_unit, not_and, not_lt]
  constructor <;> intro _ <;> refine le_trans (mul_nonpos_of_nonpos_of_nonneg ?_ h4) h3 <;> linarith

theorem stuck_step {ea er : ℝ} {mx : Option ℝ} (hmx : ∀ m, mx = some m → 2 ≤ m) {S D t : ℝ}
    (hS : 0 < S) (hD : D = 1 / 12 + t / 8) (hSe : er * S = 30 * ea) (her : 0 < er) (hea : 0 < ea)
    {k : ℕ} {s : State Unit Unit} (h : Stuck ea S D t k s) :
    ∃ s', Step gk1 ⟨some ea, some er, npAny, 0, mx⟩ (bowl S t D) s s' ∧
      Stuck ea S D t (k + 1) s' := by
  have hr := right_bisect h.right
  have htot := bowl_total (S := S) (t := t) (D := D) hr
  have e1 : ((bisect s.bad).map fun J => (J.2 () ^ 3 - J.1 () ^ 3) / 3 -
      (J.2 () ^ 2 - J.1 () ^ 2) / 2 + D * (J.2 () - J.1 ())).sum = -1 / 6 + D := by
    rw [← h.area, ← sum_bisect_add fun x => x ^ 3 / 3 - x ^ 2 / 2 + D * x]
    refine congrArg List.sum (List.map_congr_left fun J _ => ?_)
    ring
  have e2 : ((bisect s.bad).map fun J => (J.2 () - J.1 ()) ^ 3).sum = 1 / 4 ^ (k + 1) := by
    rw [sum_bisect_cube, h.cube, pow_succ]
    field_simp
  rw [e1, e2] at htot
  have hg : ∀ J ∈ bisect s.bad, goodN gk1 ⟨some ea, some er, npAny, 0, mx⟩ (bowl S t D)
      (fun i => s.values i + total (valGauss gk1 (bowl S t D)) (bisect s.bad) i) s.errors
      (((bisect s.bad).map len).sum) J = false := by
    intro J _
    refine not_good gk1_rule.nonneg (sum_len_nonneg _) h.errs.ge ?_
    rw [h.errs, htot, h.vals, hD,
      show S * (t * (-1 / 4) + (1 / 12 + t / 8)) + (S * (-1 / 6 + (1 / 12 + t / 8)) -
        S / 12 * (1 / 4 ^ (k + 1))) = -(S / 12 * (1 / 4 ^ (k + 1))) by ring, abs_neg,
      abs_of_nonneg (by positivity)]
    have h4 : (1 : ℝ) / 4 ^ (k + 1) ≤ 1 / 4 := by
      rw [pow_succ]
      have : (1 : ℝ) ≤ 4 ^ k := one_le_pow₀ (by norm_num)
      rw [div_le_div_iff₀ (by positivity) (by norm_num)]
      linarith
    calc er * (S / 12 * (1 / 4 ^ (k + 1))) = er * S / 12 * (1 / 4 ^ (k + 1)) := by ring
      _ ≤ er * S / 12 * (1 / 4) := mul_le_mul_of_nonneg_left h4 (by positivity)
      _ ≤ ea := by rw [hSe]; linarith
  have hf : (bisect s.bad).filter (fun J => goodN gk1 ⟨some ea, some er, npAny, 0, mx⟩ (bowl S t D)
      (fun i => s.values i + total (valGauss gk1 (bowl S t D)) (bisect s.bad) i) s.errors
      (((bisect s.bad).map len).sum) J) = [] := by
    rw [List.filter_eq_nil_iff]
    exact fun J hJ => by simp [hg J hJ]
  have hf' : (bisect s.bad).filter (fun J => !goodN gk1 ⟨some ea, some er, npAny, 0, mx⟩
      (bowl S t D) (fun i => s.values i + total (valGauss gk1 (bowl S t D)) (bisect s.bad) i)
      s.errors (((bisect s.bad).map len).sum) J) = bisect s.bad := by
    rw [List.filter_eq_self]
    exact fun J hJ => by simp [hg J hJ]
  obtain ⟨s', hs'⟩ : ∃ s', round gk1 ⟨some ea, some er, npAny, 0, mx⟩ (bowl S t D) s = .next s' := by
    simp only [round]
    rw [if_neg, if_neg]
    · exact ⟨_, rfl⟩
    · rintro ⟨J, -, hJ⟩
      linarith [len_nonneg J]
    · cases mx with
      | none => simp
      | some m =>
        have := hmx m rfl
        simp only [h.cnt, not_lt]
        exact_mod_cast this
  refine ⟨s', ⟨h.ne, hs'⟩, ?_⟩
  obtain ⟨-, -, rfl⟩ := round_next hs'
  simp only [hf, hf', List.length_nil]
  refine ⟨bisect_ne_nil h.ne, ?_, ?_, ?_, hr, ?_, e2⟩
  · simp [total, h.vals]
  · simp [total, h.errs]
  · have := h.cnt
    omega
  · rw [sum_bisect_add fun x => x ^ 3 / 3 - x ^ 2 / 2 + D * x]
    exact h.area

theorem stuck_start {ea er : ℝ} {mx : Option ℝ} (hmx : ∀ m, mx = some m → 2 ≤ m) (her : 0 < er)
    (her' : er ≤ 1 / 10) (hea : 0 < ea) {S D t : ℝ} (ht : t = 9 / 20 * er) (hS : S = 30 * ea / er)
    (hD : D = 1 / 12 + t / 8) :
    ∃ s', Step gk1 ⟨some ea, some er, npAny, 0, mx⟩ (bowl S t D)
        (init gk1 ⟨some ea, some er, npAny, 0, mx⟩ (bowl S t D) [seg (-1) 1]) s' ∧
      Stuck ea S D t 0 s' := by
  have hSp : 0 < S := by rw [hS]; positivity
  have htp : 0 < t := by rw [ht]; positivity
  have hSe : er * S = 30 * ea := by rw [hS]; field_simp
  have hSea : 300 * ea ≤ S := by
    rw [hS, le_div_iff₀ her]
    nlinarith
  have heI := bowl_err_whole (D := D) hSp htp
  have heL := bowl_err_left (D := D) hSp htp
  have heR := bowl_err_right (t := t) (D := D) hSp
  have heL' : errEst gk1 (bowl S t D) (seg (-1) 0) () = ea := by
    rw [heL, ht]
    linear_combination 1 / 30 * hSe
  have hvI : valGauss gk1 (bowl S t D) (seg (-1) 1) () = 2 * S * D := by
    rw [gk1_val, len_seg (by norm_num), bowl_left (by simp [seg])]
    simp only [seg]
    ring
  have hvL : valGauss gk1 (bowl S t D) (seg (-1) 0) () = S * (t * (-1 / 4) + D) := by
    rw [gk1_val, len_seg (by norm_num), bowl_left (by norm_num [seg])]
    simp only [seg]
    ring
  have hvR : valGauss gk1 (bowl S t D) (seg 0 1) () = S * (-1 / 4 + D) := by
    rw [gk1_val, len_seg (by norm_num), bowl_right (by simp [seg])]
    simp only [seg]
    ring
  have hDp : 0 < D := by rw [hD]; positivity
  have hg0 : good0 gk1 ⟨some ea, some er, npAny, 0, mx⟩ (bowl S t D) (seg (-1) 1) = false := by
    simp only [good0, npAny, List.singleton_append, List.any_cons, List.any_nil, id, Bool.or_false,
      Bool.or_eq_false_iff, decide_eq_false_iff_not, forall_unit, not_lt]
    constructor
    · nlinarith [mul_pos htp hSp]
    · rw [hvI, abs_of_pos (by positivity)]
      refine le_trans ?_ heI
      have : er * (2 * S * D) = 30 * ea * (2 * D) := by linear_combination 2 * D * hSe
      rw [this, hD]
      have h1 : 0 < ea * t := by positivity
      nlinarith [mul_pos htp hSp, mul_le_mul_of_nonneg_left hSea htp.le]
  have hinit : init gk1 ⟨some ea, some er, npAny, 0, mx⟩ (bowl S t D) [seg (-1) 1] =
      ⟨[seg (-1) 1], fun _ => 0, fun _ => 0, 1, 0⟩ := by
    have h1 : [seg (-1) 1].filter (fun J => good0 gk1 ⟨some ea, some er, npAny, 0, mx⟩
        (bowl S t D) J) = [] := by
      rw [List.filter_cons_of_neg (by rw [hg0]; simp), List.filter_nil]
    have h2 : [seg (-1) 1].filter (fun J => !good0 gk1 ⟨some ea, some er, npAny, 0, mx⟩
        (bowl S t D) J) = [seg (-1) 1] := by
      rw [List.filter_cons_of_pos (by rw [hg0]; simp), List.filter_nil]
    simp only [init, h1, h2, List.length_nil]
    rfl
  rw [hinit]
  have hb : bisect [seg (-1) 1] = [seg (-1) 0, seg 0 1] := by
    rw [bisect_seg]; norm_num
  have hlen : ([seg (-1) 0, seg 0 1].map len).sum = 2 := by
    simp only [List.map_cons, List.map_nil, List.sum_cons, List.sum_nil]
    rw [len_seg (by norm_num), len_seg (by norm_num)]
    norm_num
  have httv : total (valGauss gk1 (bowl S t D)) [seg (-1) 0, seg 0 1] () = -(S / 12) := by
    simp only [total, List.map_cons, List.map_nil, List.sum_cons, List.sum_nil, hvL, hvR]
    rw [hD]
    ring
  have hgL : goodN gk1 ⟨some ea, some er, npAny, 0, mx⟩ (bowl S t D)
      (fun i => (0 : ℝ) + total (valGauss gk1 (bowl S t D)) [seg (-1) 0, seg 0 1] i) (fun _ => 0) 2
      (seg (-1) 0) = true := by
    simp only [goodN, npAny, List.singleton_append, List.any_cons, List.any_nil, id, Bool.or_false,
      Bool.or_eq_true, decide_eq_true_eq, forall_unit]
    right
    refine ⟨two_ne_zero, ?_⟩
    rw [heL', httv, zero_add, abs_neg, abs_of_pos (by positivity), len_seg (by norm_num)]
    norm_num
    linarith
  have hgR : goodN gk1 ⟨some ea, some er, npAny, 0, mx⟩ (bowl S t D)
      (fun i => (0 : ℝ) + total (valGauss gk1 (bowl S t D)) [seg (-1) 0, seg 0 1] i) (fun _ => 0) 2
      (seg 0 1) = false := by
    simp only [goodN, npAny, List.singleton_append, List.any_cons, List.any_nil, id, Bool.or_false,
      Bool.or_eq_false_iff, decide_eq_false_iff_not, forall_unit, not_and, not_lt]
    rw [heR, httv, zero_add, abs_neg, abs_of_pos (by positivity), len_seg (by norm_num)]
    constructor <;> intro _ <;> norm_num <;> linarith
  obtain ⟨s', hs'⟩ : ∃ s', round gk1 ⟨some ea, some er, npAny, 0, mx⟩ (bowl S t D)
      ⟨[seg (-1) 1], fun _ => 0, fun _ => 0, 1, 0⟩ = .next s' := by
    simp only [round]
    rw [if_neg, if_neg]
    · exact ⟨_, rfl⟩
    · rintro ⟨J, -, hJ⟩
      linarith [len_nonneg J]
    · cases mx with
      | none => simp
      | some m =>
        have := hmx m rfl
        norm_num
        linarith
  refine ⟨s', ⟨by simp, hs'⟩, ?_⟩
  obtain ⟨-, -, rfl⟩ := round_next hs'
  simp only [hb, hlen]
  have hfg : [seg (-1) 0, seg 0 1].filter (fun J => goodN gk1 ⟨some ea, some er, npAny, 0, mx⟩
      (bowl S t D) (fun i => (0 : ℝ) + total (valGauss gk1 (bowl S t D)) [seg (-1) 0, seg 0 1] i)
      (fun _ => 0) 2 J) = [seg (-1) 0] := by
    rw [List.filter_cons_of_pos hgL, List.filter_cons_of_neg (by rw [hgR]; simp), List.filter_nil]
  have hfb : [seg (-1) 0, seg 0 1].filter (fun J => !goodN gk1 ⟨some ea, some er, npAny, 0, mx⟩
      (bowl S t D) (fun i => (0 : ℝ) + total (valGauss gk1 (bowl S t D)) [seg (-1) 0, seg 0 1] i)
      (fun _ => 0) 2 J) = [seg 0 1] := by
    rw [List.filter_cons_of_neg (by rw [hgL]; simp), List.filter_cons_of_pos (by rw [hgR]; simp),
      List.filter_nil]
  rw [hfg, hfb]
  refine ⟨by simp, ?_, ?_, rfl, ?_, ?_, ?_⟩
  · simp [total, hvL]
  · simp [total, heL']
  · simp [seg]
  · simp [seg]; ring
  · simp [seg]

/-- Refutation for the default criteria: for every `eps_abs > 0` and every `eps_rel` up to `1 / 10`
(the defaults are `10⁻¹⁰`) there is a continuous integrand for which
`integrate_adaptive(f, [-1, 1], eps_abs, eps_rel, kronrod_degree=1)` never stops, with or without a
limit `max_num_subintervals ≥ 2`. -/
theorem C70_default_runs (ea er : ℝ) (hea : 0 < ea) (her : 0 < er) (her' : er ≤ 1 / 10)
    (mx : Option ℝ) (hmx : ∀ m, mx = some m → 2 ≤ m) :
    ∃ f : (Unit → ℝ) → Unit → ℝ, Continuous f ∧ ∀ fuel, ∃ s,
      integrateAdaptive gk1 ⟨some ea, some er, npAny, 0, mx⟩ f [(fun _ => -1, fun _ => 1)] fuel =
        .running s := by
  obtain ⟨t, ht⟩ : ∃ t, t = 9 / 20 * er := ⟨_, rfl⟩
  obtain ⟨S, hS⟩ : ∃ S, S = 30 * ea / er := ⟨_, rfl⟩
  obtain ⟨D, hD⟩ : ∃ D, D = 1 / 12 + t / 8 := ⟨_, rfl⟩
  have hSp : 0 < S := by rw [hS]; positivity
  have hSe : er * S = 30 * ea := by rw [hS]; field_simp
  refine ⟨bowl S t D, bowl_continuous S t D, fun fuel => ?_⟩
  obtain ⟨s1, h1, h2⟩ := stuck_start hmx her her' hea ht hS hD
  have h3 : ∀ k, ∃ s, Reach gk1 ⟨some ea, some er, npAny, 0, mx⟩ (bowl S t D)
      (init gk1 ⟨some ea, some er, npAny, 0, mx⟩ (bowl S t D) [seg (-1) 1]) (k + 1) s ∧
      Stuck ea S D t k s := by
    intro k
    induction k with
    | zero => exact ⟨s1, .tail .refl h1, h2⟩
    | succ k ih =>
      obtain ⟨s, h4, h5⟩ := ih
      obtain ⟨s', h6, h7⟩ := stuck_step hmx hSp hD hSe her hea h5
      exact ⟨s', .tail h4 h6, h7⟩
  obtain ⟨s, h4⟩ : ∃ s, loop gk1 ⟨some ea, some er, npAny, 0, mx⟩ (bowl S t D) fuel
      (init gk1 ⟨some ea, some er, npAny, 0, mx⟩ (bowl S t D) [seg (-1) 1]) = .running s := by
    cases fuel with
    | zero => exact ⟨_, by rw [loop, if_neg h1.1]⟩
    | succ k =>
      obtain ⟨s, h4, h5⟩ := h3 k
      have h6 := loop_of_reach h4 0
      rw [Nat.add_zero] at h6
      exact ⟨s, by rw [h6, loop, if_neg h5.ne]⟩
  refine ⟨s, ?_⟩
  rw [integrateAdaptive, if_pos ⟨by simp, by simp⟩]
  exact (congrArg (reshape 1) h4)

/-- The same call with the relative tolerance left out returns. -/
example (ea : ℝ) (hea : 0 < ea) (S t D : ℝ) : ∃ n v e, (∀ fuel, n ≤ fuel →
    integrateAdaptive gk1 ⟨some ea, none, npAny, 0, none⟩ (bowl S t D)
      [(fun _ => -1, fun _ => 1)] fuel = .returned v e) ∧ ∀ i, e i < ea :=
  C70_returns _ gk1_rule _ _ hea rfl rfl (.inl rfl) rfl le_rfl _ _ (fun _ => by norm_num)
    (bowl_continuous S t D).continuousOn

end Adaptive
end Quadpy
