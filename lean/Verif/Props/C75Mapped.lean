import Verif.Props.C75Space
import Verif.Props.C74Solid
import Verif.Model.RoundingExpr
import Verif.Model.WedgePyramid

/-!
# C75: the effect of rounding on `P3Scheme.integrate` and `W3Scheme.integrate`
-/

namespace Quadpy
open Adaptive Spec
namespace Rounding

theorem Within.neg {q X x r : ℝ} (h : Within q X x r) : Within q X (-x) (-r) :=
  ⟨by rw [neg_sub_neg, abs_sub_comm]; exact h.1, by rw [abs_neg]; exact h.2⟩

theorem Within.sub {q X Y x y r s : ℝ} (h : Within q X x r) (h' : Within q Y y s) :
    Within q (X + Y) (x - y) (r - s) := by
  rw [sub_eq_add_neg, sub_eq_add_neg]
  exact h.add h'.neg

namespace Expr
variable {ι : Type} (e e' : Expr ι) (P X : ι → ℝ)

@[simp] theorem eval_neg : (-e).eval P = -e.eval P := rfl
@[simp] theorem eval_add : (e + e').eval P = e.eval P + e'.eval P := rfl
@[simp] theorem eval_sub : (e - e').eval P = e.eval P - e'.eval P := rfl
@[simp] theorem eval_mul : (e * e').eval P = e.eval P * e'.eval P := rfl
@[simp] theorem mag_neg : (-e).mag X = e.mag X := rfl
@[simp] theorem mag_add : (e + e').mag X = e.mag X + e'.mag X := rfl
@[simp] theorem mag_sub : (e - e').mag X = e.mag X + e'.mag X := rfl
@[simp] theorem mag_mul : (e * e').mag X = e.mag X * e'.mag X := rfl
@[simp] theorem ops_neg : (-e).ops = e.ops := rfl
@[simp] theorem ops_add : (e + e').ops = max e.ops e'.ops + 1 := rfl
@[simp] theorem ops_sub : (e - e').ops = max e.ops e'.ops + 1 := rfl
@[simp] theorem ops_mul : (e * e').ops = e.ops + e'.ops + 1 := rfl

end Expr

/-- The error of a formula: every rounding of it contributes at most a factor `1 + u` to the terms, which are at most
`mag` together. -/
theorem C75_expr {ι : Type} {u : ℝ} {P p X : ι → ℝ} (hu : 0 ≤ u) (hp : ∀ i, Rnd u (P i) (p i)) (hX : ∀ i, |P i| ≤ X i)
    (e : Expr ι) {r : ℝ} (h : e.Fl u p r) : Within ((1 + u) ^ e.ops) (e.mag X) (e.eval P) r := by
  have h1 : 1 ≤ 1 + u := by linarith
  induction e generalizing r with
  | const c =>
    rw [show r = c from h]
    simpa [Expr.ops, Expr.mag, Expr.eval] using within_rfl le_rfl
  | var i =>
    rw [show r = p i from h, Expr.ops, pow_one]
    exact ⟨by
      have : |p i - P i| ≤ u * |P i| := hp i
      have := mul_le_mul_of_nonneg_left (hX i) hu
      simp only [Expr.mag, Expr.eval]
      linarith, hX i⟩
  | neg e ih =>
    obtain ⟨s, hs, rfl⟩ := h
    exact (ih hs).neg
  | add e e' ih ih' =>
    obtain ⟨s, t, hs, ht, hr⟩ := h
    rw [Expr.ops, pow_succ]
    exact (((ih hs).mono (pow_le_pow_right₀ h1 (le_max_left _ _))).add
      ((ih' ht).mono (pow_le_pow_right₀ h1 (le_max_right _ _)))).rnd hu hr
  | sub e e' ih ih' =>
    obtain ⟨s, t, hs, ht, hr⟩ := h
    rw [Expr.ops, pow_succ]
    exact (((ih hs).mono (pow_le_pow_right₀ h1 (le_max_left _ _))).sub
      ((ih' ht).mono (pow_le_pow_right₀ h1 (le_max_right _ _)))).rnd hu hr
  | mul e e' ih ih' =>
    obtain ⟨s, t, hs, ht, hr⟩ := h
    rw [Expr.ops, pow_succ, pow_add]
    exact (Within.mul (one_le_pow₀ h1) (ih hs) (ih' ht)).rnd hu hr

/-- The magnitude may be replaced by a larger one. -/
theorem Within.mono' {q X X' x r : ℝ} (hq : 1 ≤ q) (h : Within q X x r) (hX : X ≤ X') : Within q X' x r :=
  ⟨h.1.trans (mul_le_mul_of_nonneg_left hX (by linarith)), h.2.trans hX⟩

section
variable {k : ℕ} {u F η B D : ℝ} {P p : Fin k → Fin 3 → ℝ} {W w : Fin k → ℝ} {T : SumTree (Fin k)}
  {x : Fin k → Fin 3 → ℝ} {y : Fin k → ℝ} {z : ℝ} {f : (Fin 3 → ℝ) → ℝ} {L : NNReal}

/-- The common part: `a` roundings in `_transform`, `b` roundings in the determinant. -/
theorem C75_mapped {tr : Fin 3 → Expr (Fin 3)} {det : Expr (Fin 3)} {a b : ℕ} (hu : 0 ≤ u) (hP : ∀ i j, |P i j| ≤ 1)
    (hp : ∀ i j, Rnd u (P i j) (p i j)) (hw : ∀ i, Rnd u (W i) (w i))
    (ha : ∀ j, (tr j).ops ≤ a ∧ (tr j).mag (fun _ => 1) ≤ B) (hb : det.ops ≤ b ∧ det.mag (fun _ => 1) ≤ D)
    (h : IntegrateMapped u tr det p w T x y z) (hL : LipschitzWith L f) (hF0 : 0 < F)
    (hF : ∀ i, |f (fun j => (tr j).eval (P i))| ≤ F) (hy : ∀ i, |y i - f (x i)| ≤ η) :
    |z - ∑ i, f (fun j => (tr j).eval (P i)) * |det.eval (P i)| * W i| ≤
      D * (∑ i, |W i|) * ((1 + u) ^ (b + T.depth + 3) * (F + η + L * (((1 + u) ^ a - 1) * B)) - F) := by
  obtain ⟨hx, J, g, hJ, hg, hs⟩ := h
  obtain ⟨i0⟩ := sumTree_nonempty hs.1
  have h1 : 1 ≤ 1 + u := by linarith
  have hxw : ∀ i j, Within ((1 + u) ^ a) B ((tr j).eval (P i)) (x i j) := fun i j =>
    ((C75_expr hu (hp i) (hP i) (tr j) (hx i j)).mono (pow_le_pow_right₀ h1 (ha j).1)).mono' (one_le_pow₀ h1) (ha j).2
  have hJw : ∀ i, Within ((1 + u) ^ b) D |det.eval (P i)| |J i| := fun i => by
    have := ((C75_expr hu (hp i) (hP i) det (hJ i)).mono (pow_le_pow_right₀ h1 hb.1)).mono' (one_le_pow₀ h1) hb.2
    exact ⟨(abs_abs_sub_abs_le _ _).trans this.1, by rw [abs_abs]; exact this.2⟩
  set δ := ((1 + u) ^ a - 1) * B with hδ
  have hδ0 : 0 ≤ δ := (abs_nonneg _).trans (hxw i0 0).1
  have hη : 0 ≤ η := (abs_nonneg _).trans (hy i0)
  have hρ0 : 0 ≤ η + L * δ := by positivity
  have hq1 : 1 ≤ (F + (η + L * δ)) / F := by rw [le_div_iff₀ hF0]; linarith
  have hval : ∀ i, Within ((F + (η + L * δ)) / F) F (f fun j => (tr j).eval (P i)) (y i) := fun i => by
    refine ⟨?_, hF i⟩
    rw [show ((F + (η + L * δ)) / F - 1) * F = η + L * δ by field_simp; ring]
    refine (abs_sub_le _ (f (x i)) _).trans (add_le_add (hy i) ?_)
    have h2 := hL.dist_le_mul (x i) fun j => (tr j).eval (P i)
    rw [Real.dist_eq] at h2
    refine h2.trans (mul_le_mul_of_nonneg_left ((dist_pi_le_iff hδ0).2 fun j => ?_) L.2)
    rw [Real.dist_eq]
    exact (hxw i j).1
  have hprod : ∀ i, Within ((F + (η + L * δ)) / F * (1 + u) ^ b * (1 + u)) (F * D)
      (f (fun j => (tr j).eval (P i)) * |det.eval (P i)|) (g i) := fun i =>
    (Within.mul hq1 (hval i) (hJw i)).rnd hu (hg i)
  have hQ : 1 ≤ (F + (η + L * δ)) / F * (1 + u) ^ b * (1 + u) :=
    one_le_mul_of_one_le_of_one_le (one_le_mul_of_one_le_of_one_le hq1 (one_le_pow₀ h1)) h1
  refine (C75_dot hu hQ (fun i => ⟨(hprod i).2, (hprod i).1⟩) hw hs).1.trans (le_of_eq ?_)
  rw [show (1 + u) ^ (b + T.depth + 3) = (1 + u) ^ b * (1 + u) * (1 + u) ^ (T.depth + 2) by ring]
  field_simp
  ring

theorem p3_eval (pyra : Fin 5 → Fin 3 → ℝ) (Q : Fin 3 → ℝ) :
    (fun j => (p3Transform pyra j).eval Q) = P3.transform Q pyra ∧ (p3Det pyra).eval Q = P3.getDetJ pyra Q := by
  constructor
  · funext j
    simp only [p3Transform, P3.transform, Expr.eval_add, Expr.eval_mul, Expr.eval_sub, Expr.eval]
    norm_num
  · simp only [p3Det, det3E, p3J0, p3J1, p3J2, P3.getDetJ, P3.det3, P3.J0, P3.J1, P3.J2, Expr.eval_add, Expr.eval_mul,
      Expr.eval_sub, Expr.eval_neg, Expr.eval]
    norm_num

theorem w3_eval (wedge : Fin 2 → Fin 3 → Fin 3 → ℝ) (Q : Fin 3 → ℝ) :
    (fun j => (w3Transform wedge j).eval Q) = W3.transform Q wedge ∧ (w3Det wedge).eval Q = W3.getDetJ Q wedge := by
  constructor
  · funext j
    simp only [w3Transform, W3.transform, Expr.eval_add, Expr.eval_mul, Expr.eval_sub, Expr.eval]
    norm_num
  · simp only [w3Det, det3E, w3J0, w3J1, w3J2, W3.getDetJ, P3.det3, W3.J0, W3.J1, W3.J2, Expr.eval_add, Expr.eval_mul,
      Expr.eval_sub, Expr.eval_neg, Expr.eval]
    norm_num

theorem det3_mag {J0 J1 J2 : Fin 3 → Expr (Fin 3)} {X : Fin 3 → ℝ} {A B C : ℝ} (h0 : ∀ i, (J0 i).mag X ≤ A)
    (h1 : ∀ i, (J1 i).mag X ≤ B) (h2 : ∀ i, (J2 i).mag X ≤ C) (k0 : ∀ i, 0 ≤ (J0 i).mag X)
    (k1 : ∀ i, 0 ≤ (J1 i).mag X) (k2 : ∀ i, 0 ≤ (J2 i).mag X) : (det3E J0 J1 J2).mag X ≤ 6 * (A * B * C) := by
  have hA : 0 ≤ A := (k0 0).trans (h0 0)
  have hB : 0 ≤ B := (k1 0).trans (h1 0)
  have m : ∀ i j l, (J0 i).mag X * (J1 j).mag X * (J2 l).mag X ≤ A * B * C := fun i j l =>
    mul_le_mul (mul_le_mul (h0 i) (h1 j) (k1 j) hA) (h2 l) (k2 l) (mul_nonneg hA hB)
  simp only [det3E, Expr.mag_add, Expr.mag_sub, Expr.mag_mul]
  linarith [m 0 1 2, m 2 0 1, m 1 2 0, m 2 1 0, m 0 2 1, m 1 0 2]

theorem mag_nonneg {ι : Type} {X : ι → ℝ} (hX : ∀ i, 0 ≤ X i) (e : Expr ι) : 0 ≤ e.mag X := by
  induction e with
  | const c => exact abs_nonneg c
  | var i => exact hX i
  | neg e ih => exact ih
  | add e e' ih ih' => exact add_nonneg ih ih'
  | sub e e' ih ih' => exact add_nonneg ih ih'
  | mul e e' ih ih' => exact mul_nonneg ih ih'

/-- `P3Scheme.integrate(f, pyra)` for a rule with coordinates in `[-1, 1]` and a pyramid whose corners have coordinates
of at most `B`: a coordinate of a point has an error of at most `((1 + u)^14 - 1) * 5 B`, a determinant has 38 roundings. -/
theorem C75_pyramid {pyra : Fin 5 → Fin 3 → ℝ} (hu : 0 ≤ u) (hP : ∀ i j, |P i j| ≤ 1)
    (hp : ∀ i j, Rnd u (P i j) (p i j)) (hw : ∀ i, Rnd u (W i) (w i)) (hB : ∀ c j, |pyra c j| ≤ B)
    (h : IntegrateMapped u (p3Transform pyra) (p3Det pyra) p w T x y z) (hL : LipschitzWith L f) (hF0 : 0 < F)
    (hF : ∀ i, |f (P3.transform (P i) pyra)| ≤ F) (hy : ∀ i, |y i - f (x i)| ≤ η) {S : Scheme}
    (hW : S.weights = List.ofFn W) (hS : S.points = List.ofFn fun i => List.ofFn (P i)) :
    |z - P3.integrate S f pyra| ≤
      60 * B ^ 3 * (∑ i, |W i|) * ((1 + u) ^ (T.depth + 41) * (F + η + L * (((1 + u) ^ 14 - 1) * (5 * B))) - F) := by
  have n : ∀ e : Expr (Fin 3), 0 ≤ e.mag fun _ => 1 := mag_nonneg fun _ => zero_le_one
  have := C75_mapped (a := 14) (b := 38) (B := 5 * B) (D := 6 * (2 * B * (2 * B) * (5 / 2 * B))) hu hP hp hw (fun j => ⟨by
      simp [p3Transform, Expr.ops], by
      simp only [p3Transform, Expr.mag_add, Expr.mag_mul, Expr.mag_sub, Expr.mag]
      norm_num
      linarith [hB 0 j, hB 1 j, hB 2 j, hB 3 j, hB 4 j]⟩) ⟨by
      simp [p3Det, det3E, p3J0, p3J1, p3J2, Expr.ops], by
      refine det3_mag (fun j => ?_) (fun j => ?_) (fun j => ?_) (fun _ => n _) (fun _ => n _) fun _ => n _
      · simp only [p3J0, Expr.mag_add, Expr.mag_mul, Expr.mag_sub, Expr.mag_neg, Expr.mag]
        norm_num
        linarith [hB 0 j, hB 1 j, hB 2 j, hB 3 j, hB 4 j]
      · simp only [p3J1, Expr.mag_add, Expr.mag_mul, Expr.mag_sub, Expr.mag_neg, Expr.mag]
        norm_num
        linarith [hB 0 j, hB 1 j, hB 2 j, hB 3 j, hB 4 j]
      · simp only [p3J2, Expr.mag_add, Expr.mag_mul, Expr.mag_sub, Expr.mag_neg, Expr.mag]
        norm_num
        linarith [hB 0 j, hB 1 j, hB 2 j, hB 3 j, hB 4 j]⟩ h hL hF0
    (fun i => by rw [(p3_eval pyra (P i)).1]; exact hF i) hy
  simp only [fun i => (p3_eval pyra (P i)).1, fun i => (p3_eval pyra (P i)).2] at this
  rw [P3.integrate, hW, hS, dot_ofFn]
  convert this using 2
  · ring
  · ring

/-- `W3Scheme.integrate(f, wedge)` in the same way: an error of at most `((1 + u)^13 - 1) * 10 B` in the points, 31
roundings in the determinant. -/
theorem C75_wedge {wedge : Fin 2 → Fin 3 → Fin 3 → ℝ} (hu : 0 ≤ u) (hP : ∀ i j, |P i j| ≤ 1)
    (hp : ∀ i j, Rnd u (P i j) (p i j)) (hw : ∀ i, Rnd u (W i) (w i)) (hB : ∀ a c j, |wedge a c j| ≤ B)
    (h : IntegrateMapped u (w3Transform wedge) (w3Det wedge) p w T x y z) (hL : LipschitzWith L f) (hF0 : 0 < F)
    (hF : ∀ i, |f (W3.transform (P i) wedge)| ≤ F) (hy : ∀ i, |y i - f (x i)| ≤ η) {S : Scheme}
    (hW : S.weights = List.ofFn W) (hS : S.points = List.ofFn fun i => List.ofFn (P i)) :
    |z - W3.integrate S f wedge| ≤
      480 * B ^ 3 * (∑ i, |W i|) * ((1 + u) ^ (T.depth + 34) * (F + η + L * (((1 + u) ^ 13 - 1) * (10 * B))) - F) := by
  have n : ∀ e : Expr (Fin 3), 0 ≤ e.mag fun _ => 1 := mag_nonneg fun _ => zero_le_one
  have := C75_mapped (a := 13) (b := 31) (B := 10 * B) (D := 6 * (4 * B * (4 * B) * (5 * B))) hu hP hp hw (fun j => ⟨by
      simp [w3Transform, Expr.ops], by
      simp only [w3Transform, Expr.mag_add, Expr.mag_mul, Expr.mag_sub, Expr.mag]
      norm_num
      linarith [hB 0 0 j, hB 0 1 j, hB 0 2 j, hB 1 0 j, hB 1 1 j, hB 1 2 j]⟩) ⟨by
      simp [w3Det, det3E, w3J0, w3J1, w3J2, Expr.ops], by
      refine det3_mag (fun j => ?_) (fun j => ?_) (fun j => ?_) (fun _ => n _) (fun _ => n _) fun _ => n _
      · simp only [w3J0, Expr.mag_add, Expr.mag_mul, Expr.mag_sub, Expr.mag_neg, Expr.mag]
        norm_num
        linarith [hB 0 0 j, hB 0 1 j, hB 0 2 j, hB 1 0 j, hB 1 1 j, hB 1 2 j]
      · simp only [w3J1, Expr.mag_add, Expr.mag_mul, Expr.mag_sub, Expr.mag_neg, Expr.mag]
        norm_num
        linarith [hB 0 0 j, hB 0 1 j, hB 0 2 j, hB 1 0 j, hB 1 1 j, hB 1 2 j]
      · simp only [w3J2, Expr.mag_add, Expr.mag_mul, Expr.mag_sub, Expr.mag_neg, Expr.mag]
        norm_num
        linarith [hB 0 0 j, hB 0 1 j, hB 0 2 j, hB 1 0 j, hB 1 1 j, hB 1 2 j]⟩ h hL hF0
    (fun i => by rw [(w3_eval wedge (P i)).1]; exact hF i) hy
  simp only [fun i => (w3_eval wedge (P i)).1, fun i => (w3_eval wedge (P i)).2] at this
  rw [W3.integrate, hW, hS, dot_ofFn]
  convert this using 2
  · ring
  · ring

open MeasureTheory in
/-- The total error on a pyramid with a parallelogram as base and a rule with nonnegative weights: rounding, evaluation
of the integrand and rule. -/
theorem C75_pyramid_total {pyra : Fin 5 → Fin 3 → ℝ} (hpar : pyra 0 + pyra 2 = pyra 1 + pyra 3) {S : Scheme}
    (hE : P3.Exact S) (hW : S.weights = List.ofFn W) (hS : S.points = List.ofFn fun i => List.ofFn (P i))
    (hW0 : ∀ i, 0 ≤ W i) (hu : 0 ≤ u) (hP : ∀ i j, |P i j| ≤ 1)
    (hp : ∀ i j, Rnd u (P i j) (p i j)) (hw : ∀ i, Rnd u (W i) (w i)) (hB : ∀ c j, |pyra c j| ≤ B)
    (h : IntegrateMapped u (p3Transform pyra) (p3Det pyra) p w T x y z) (hL : LipschitzWith L f) (hF0 : 0 < F)
    (hF : ∀ t ∈ convexHull ℝ (Set.range pyra), |f t| ≤ F) (hy : ∀ i, |y i - f (x i)| ≤ η)
    (g : MvPolynomial (Fin 3) ℝ) (hg : g.totalDegree ≤ S.degree) {ε : ℝ}
    (he : ∀ t ∈ convexHull ℝ (Set.range pyra), |f t - MvPolynomial.eval t g| ≤ ε) :
    |z - ∫ t in convexHull ℝ (Set.range pyra), f t| ≤
      60 * B ^ 3 * (∑ i, W i) * ((1 + u) ^ (T.depth + 41) * (F + η + L * (((1 + u) ^ 14 - 1) * (5 * B))) - F) +
        2 * (volume (convexHull ℝ (Set.range pyra))).toReal * ε := by
  have h1 := C75_pyramid hu hP hp hw hB h hL hF0 (fun i => hF _ (P3.transform_mem hpar (hP i))) hy hW hS
  have h2 := P3.C74_pyramid hE (fun v hv => by
    rw [hW] at hv
    obtain ⟨i, rfl⟩ := (List.mem_ofFn' _ _).1 hv
    exact hW0 i) (fun t ht => by
    rw [hS] at ht
    obtain ⟨i, rfl⟩ := (List.mem_ofFn' _ _).1 ht
    rw [toVec_ofFn]
    exact hP i) hpar hL.continuous g hg he
  rw [Finset.sum_congr rfl fun i _ => abs_of_nonneg (hW0 i)] at h1
  exact (abs_sub_le _ _ _).trans (add_le_add h1 h2)

open MeasureTheory in
/-- The total error on a prism. -/
theorem C75_prism_total {wedge : Fin 2 → Fin 3 → Fin 3 → ℝ} (hpr : W3.IsPrism wedge) {S : Scheme}
    (hE : W3.Exact S) (hW : S.weights = List.ofFn W) (hS : S.points = List.ofFn fun i => List.ofFn (P i))
    (hW0 : ∀ i, 0 ≤ W i) (hu : 0 ≤ u) (hP : ∀ i, 0 ≤ P i 0 ∧ 0 ≤ P i 1 ∧ P i 0 + P i 1 ≤ 1 ∧ |P i 2| ≤ 1)
    (hp : ∀ i j, Rnd u (P i j) (p i j)) (hw : ∀ i, Rnd u (W i) (w i)) (hB : ∀ a c j, |wedge a c j| ≤ B)
    (h : IntegrateMapped u (w3Transform wedge) (w3Det wedge) p w T x y z) (hL : LipschitzWith L f) (hF0 : 0 < F)
    (hF : ∀ t ∈ convexHull ℝ (Set.range fun k : Fin 2 × Fin 3 => wedge k.1 k.2), |f t| ≤ F)
    (hy : ∀ i, |y i - f (x i)| ≤ η) (g : MvPolynomial (Fin 3) ℝ) (hg : g.totalDegree ≤ S.degree) {ε : ℝ}
    (he : ∀ t ∈ convexHull ℝ (Set.range fun k : Fin 2 × Fin 3 => wedge k.1 k.2), |f t - MvPolynomial.eval t g| ≤ ε) :
    |z - ∫ t in convexHull ℝ (Set.range fun k : Fin 2 × Fin 3 => wedge k.1 k.2), f t| ≤
      480 * B ^ 3 * (∑ i, W i) * ((1 + u) ^ (T.depth + 34) * (F + η + L * (((1 + u) ^ 13 - 1) * (10 * B))) - F) +
        2 * (volume (convexHull ℝ (Set.range fun k : Fin 2 × Fin 3 => wedge k.1 k.2))).toReal * ε := by
  have hP1 : ∀ i j, |P i j| ≤ 1 := fun i j => by
    obtain ⟨h0, h1, h2, h3⟩ := hP i
    fin_cases j
    · exact abs_le.2 ⟨by simp; linarith, by simp; linarith⟩
    · exact abs_le.2 ⟨by simp; linarith, by simp; linarith⟩
    · exact h3
  have h1 := C75_wedge hu hP1 hp hw hB h hL hF0 (fun i => hF _ (W3.transform_mem hpr (hP i))) hy hW hS
  have h2 := W3.C74_prism hE (fun v hv => by
    rw [hW] at hv
    obtain ⟨i, rfl⟩ := (List.mem_ofFn' _ _).1 hv
    exact hW0 i) (fun t ht => by
    rw [hS] at ht
    obtain ⟨i, rfl⟩ := (List.mem_ofFn' _ _).1 ht
    rw [toVec_ofFn]
    exact hP i) hpr hL.continuous g hg he
  rw [Finset.sum_congr rfl fun i _ => abs_of_nonneg (hW0 i)] at h1
  exact (abs_sub_le _ _ _).trans (add_le_add h1 h2)

/-- Without rounding both are the exact models, for any points and any order of the additions. -/
theorem C75_mapped_exact {S : Scheme} (hW : S.weights = List.ofFn W)
    (hS : S.points = List.ofFn fun i => List.ofFn (P i)) (hy : ∀ i, y i = f (x i)) :
    (∀ pyra, IntegrateMapped 0 (p3Transform pyra) (p3Det pyra) P W T x y z → z = P3.integrate S f pyra) ∧
      ∀ wedge, IntegrateMapped 0 (w3Transform wedge) (w3Det wedge) P W T x y z → z = W3.integrate S f wedge := by
  have hfl : ∀ (e : Expr (Fin 3)) (Q : Fin 3 → ℝ) (r : ℝ), e.Fl 0 Q r → r = e.eval Q := fun e Q r h => by
    have := (C75_expr (X := fun i => |Q i|) le_rfl (fun i => by simp [Rnd]) (fun i => le_rfl) e h).1
    rw [add_zero, one_pow, sub_self, zero_mul] at this
    exact sub_eq_zero.1 (abs_nonpos_iff.1 this)
  have hm : ∀ tr det, IntegrateMapped 0 tr det P W T x y z →
      z = ∑ i, f (fun j => (tr j).eval (P i)) * |det.eval (P i)| * W i := fun tr det h => by
    obtain ⟨hx, J, g, hJ, hg, hs⟩ := h
    rw [dot_zero hs]
    refine Finset.sum_congr rfl fun i _ => ?_
    rw [rnd_zero (hg i), hy, hfl _ _ _ (hJ i), show x i = fun j => (tr j).eval (P i) from funext fun j => hfl _ _ _ (hx i j)]
  refine ⟨fun pyra h => ?_, fun wedge h => ?_⟩
  · rw [hm _ _ h, P3.integrate, hW, hS, dot_ofFn]
    simp only [fun i => (p3_eval pyra (P i)).1, fun i => (p3_eval pyra (P i)).2]
  · rw [hm _ _ h, W3.integrate, hW, hS, dot_ofFn]
    simp only [fun i => (w3_eval wedge (P i)).1, fun i => (w3_eval wedge (P i)).2]

end

/-- The wedge with corners `(0, 0, a)`, `(1, 0, a)`, `(0, 1, a)` for `a = 0, 1`. -/
noncomputable def wedge01 : Fin 2 → Fin 3 → Fin 3 → ℝ := fun a c j =>
  if j = 2 then (a : ℕ) else if c.val = j.val + 1 then 1 else 0

/-- Felippa's first rule for this wedge and the integrand `z` in double precision. -/
example {p : Fin 1 → Fin 3 → ℝ} {w : Fin 1 → ℝ} {x : Fin 1 → Fin 3 → ℝ} {y : Fin 1 → ℝ} {z : ℝ}
    (hp : ∀ i j, Rnd (1 / 2 ^ 53) (if j = 2 then 0 else 1 / 3) (p i j)) (hw : ∀ i, Rnd (1 / 2 ^ 53) 1 (w i))
    (h : IntegrateMapped (1 / 2 ^ 53) (w3Transform wedge01) (w3Det wedge01) p w (.leaf 0) x y z)
    (hy : ∀ i, y i = x i 2) : |z - 1 / 4| ≤ 1 / 10 ^ 10 := by
  have e2 : W3.felippa_1.weights = List.ofFn fun _ : Fin 1 => (1 : ℝ) := by
    simp [W3.felippa_1, W3.s3, schemeOf, untangle]
  have e3 : W3.felippa_1.points = List.ofFn fun _ : Fin 1 => List.ofFn fun j : Fin 3 => if j = 2 then (0 : ℝ) else 1 / 3 := by
    simp [W3.felippa_1, W3.s3, schemeOf, untangle]
  have e1 : W3.transform (fun j => if j = 2 then 0 else 1 / 3) wedge01 2 = 1 / 2 := by
    norm_num [W3.transform, wedge01, Fin.ext_iff]
  have hb := C75_wedge (P := fun _ j => if j = 2 then 0 else 1 / 3) (W := fun _ => 1) (F := 1 / 2) (B := 1) (η := 0)
    (L := 1) (f := fun v => v 2) (S := W3.felippa_1) (by positivity)
    (fun i j => by split_ifs <;> norm_num [abs_le]) hp hw
    (fun a c j => by
      unfold wedge01
      split_ifs
      · rw [abs_of_nonneg (Nat.cast_nonneg _)]
        exact_mod_cast Nat.le_of_lt_succ a.2
      · simp
      · simp) h (LipschitzWith.eval 2)
    (by norm_num) (fun i => by rw [e1]; norm_num) (fun i => by rw [hy]; simp) e2 e3
  have hv : W3.integrate W3.felippa_1 (fun v => v 2) wedge01 = 1 / 4 := by
    rw [W3.integrate, e2, e3, dot_ofFn, Fin.sum_univ_one, e1]
    norm_num [W3.getDetJ, P3.det3, W3.J0, W3.J1, W3.J2, wedge01, Fin.ext_iff, abs_of_pos]
  rw [hv] at hb
  refine hb.trans ?_
  norm_num [SumTree.depth]

end Rounding
end Quadpy
