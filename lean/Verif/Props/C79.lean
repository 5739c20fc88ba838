import Verif.Props.C43
import Verif.Props.C72Default

/-!
# C79: `quad` with its own rule

The values of `quad`, from the algorithms for its two rules to the integral over the original range.
-/

namespace Quadpy
namespace Quad

open Adaptive Spec Polynomial MeasureTheory Set OneDim

/-- A rule with points strictly inside does not see the ends of the interval. -/
theorem integrate1_congr {P W : List ℝ} {f g : ℝ → ℝ} {a b : ℝ} (hP : ∀ x ∈ P, -1 < x ∧ x < 1) (hab : a ≤ b)
    (h : ∀ x ∈ Ioo a b, f x = g x) : C1.integrate1 P W f a b = C1.integrate1 P W g a b := by
  rcases hab.eq_or_lt with rfl | hab
  · simp [C1.integrate1, C1.integrate, len]
  · simp only [C1.integrate1, C1.integrate]
    congr 2
    refine List.map_congr_left fun x hx => h _ ?_
    obtain ⟨h1, h2⟩ := hP x hx
    constructor <;> simp only [affine] <;> nlinarith

theorem valKronrod_eq (G : GK) (f : (Unit → ℝ) → Unit → ℝ) (I : Ivl Unit) :
    valKronrod G f I () = C1.integrate1 G.pts G.gkW (fun x => f (fun _ => x) ()) (I.1 ()) (I.2 ()) := by
  simp only [valKronrod, Adaptive.average, C1.integrate1, C1.integrate]
  rw [mul_right_comm]

/-- Equal values of the two rules: the estimate is at most `1e-15`. -/
theorem errEst_le {G : GK} {f : (Unit → ℝ) → Unit → ℝ} {I : Ivl Unit}
    (h : valKronrod G f I () = valGauss G f I ()) : errEst G f I () ≤ 1 / 10 ^ 15 := by
  simp only [errEst, h, sub_self, abs_zero, mul_zero, zero_div]
  split_ifs with h1
  · rw [Real.zero_rpow (by norm_num), min_eq_right zero_le_one, zero_mul]
    positivity
  · rw [one_mul]
    exact (le_abs_self _).trans (not_lt.1 h1)

/-- An estimate below the absolute tolerance: returned at once. -/
theorem returned_at_once {G : GK} {f : (Unit → ℝ) → Unit → ℝ} {I : Ivl Unit} {ea er : ℝ} {limit : Option ℝ}
    (hI : I.1 () ≤ I.2 ()) (he : errEst G f I () < ea) (fuel : ℕ) :
    integrateAdaptive G ⟨some ea, some er, fun l => l.any id, 0, limit⟩ f [I] fuel =
      .returned (valGauss G f I) (errEst G f I) := by
  have hg : good0 G ⟨some ea, some er, fun l => l.any id, 0, limit⟩ f I = true := by
    simp [good0, forall_unit, he]
  have hi : init G ⟨some ea, some er, fun l => l.any id, 0, limit⟩ f [I] =
      ⟨[], valGauss G f I, errEst G f I, 1, 1⟩ := by
    simp only [init, List.filter_cons, hg, if_true, List.filter_nil, Bool.not_true, Bool.false_eq_true, if_false,
      List.length_singleton, State.mk.injEq, true_and, and_true]
    exact ⟨funext fun i => by simp [total], funext fun i => by simp [total]⟩
  rw [integrateAdaptive, if_pos ⟨by simpa using fun _ => hI, by simp⟩, hi, loop.eq_def]
  simp [reshape]

/-- The limits that `setup` hands on are ordered. -/
theorem setup_le {f : ℝ → List ℝ → ℝ} {a b : Lim} {args : List ℝ} {g : ℝ → ℝ} {a' b' : ℝ} {s : Bool}
    (h : setup f a b args = .ok g a' b' s) : a' ≤ b' := by
  cases a <;> cases b <;> simp only [setup, reduceCtorEq, Setup.ok.injEq] at h
  all_goals try (obtain ⟨-, rfl, rfl, -⟩ := h; exact zero_le_one)
  split_ifs at h with h1
  · obtain ⟨-, rfl, rfl, -⟩ := Setup.ok.injEq .. ▸ h
    exact h1.le
  · obtain ⟨-, rfl, rfl, -⟩ := Setup.ok.injEq .. ▸ h
    exact not_lt.1 h1

variable {P W Q V : List ℝ}

/-- If the integrand after the substitution is a polynomial of degree at most 19 inside the interval, `quad` returns
its integral after one evaluation, whatever `epsrel` and `limit` are, and reports an error of at most `1e-15`. -/
theorem C79_at_once (hP : GaussKronrod 10 0 0 P W) (hQ : GaussLegendre 10 Q V) (f : ℝ → List ℝ → ℝ) (a b : Lim)
    (args : List ℝ) {g : ℝ → ℝ} {a' b' : ℝ} {s : Bool} (h : setup f a b args = .ok g a' b' s) (p : ℝ[X])
    (hp : p.natDegree ≤ 19) (hg : ∀ t ∈ Ioo a' b', g t = p.eval t) (epsabs epsrel limit : ℝ)
    (he : 1 / 10 ^ 15 < epsabs) :
    ∃ e ≤ 1 / 10 ^ 15, ∀ fuel, quad ⟨P, W, V⟩ f a b args epsabs epsrel limit fuel =
      .returned (if s then -∫ t in a'..b', p.eval t else ∫ t in a'..b', p.eval t) e := by
  have hab := setup_le h
  obtain ⟨h1, h2, h3, h4⟩ := C70_default_rule hP hQ
  obtain ⟨-, k2, -, -, k5, -⟩ := C72_default.2.2 P W hP
  have kin : ∀ x ∈ odds P, -1 < x ∧ x < 1 := fun x hx => k2 x ((Legendre.odds_sublist P).subset hx)
  have hv : valGauss (ι := Unit) ⟨P, W, V⟩ (fun x _ => g (x ())) (fun _ => a', fun _ => b') () =
      ∫ t in a'..b', p.eval t := by
    rw [valGauss_eq, integrate1_congr kin hab hg]
    exact C1.C10_exact _ _ 19 h2 p hp _ _ hab
  have hk : valKronrod (ι := Unit) ⟨P, W, V⟩ (fun x _ => g (x ())) (fun _ => a', fun _ => b') () =
      ∫ t in a'..b', p.eval t := by
    rw [valKronrod_eq, integrate1_congr k2 hab hg]
    exact C1.C10_exact _ _ 31 k5 p (hp.trans (by norm_num)) _ _ hab
  have herr := errEst_le (hk.trans hv.symm)
  refine ⟨_, herr, fun fuel => ?_⟩
  rw [quad, h]
  simp only
  rw [returned_at_once hab (herr.trans_lt he)]
  simp only [hv, mul_neg, mul_one]

/-- `quad(p, a, b)` for a polynomial of degree at most 19 and finite limits in any order, with arguments. -/
theorem C79_polynomial (hP : GaussKronrod 10 0 0 P W) (hQ : GaussLegendre 10 Q V) (f : ℝ → List ℝ → ℝ) (a b : ℝ)
    (args : List ℝ) (p : ℝ[X]) (hp : p.natDegree ≤ 19) (hf : ∀ x, f x args = p.eval x) (epsabs epsrel limit : ℝ)
    (he : 1 / 10 ^ 15 < epsabs) :
    ∃ e ≤ 1 / 10 ^ 15, ∀ fuel, quad ⟨P, W, V⟩ f (.fin a) (.fin b) args epsabs epsrel limit fuel =
      .returned (∫ x in a..b, p.eval x) e := by
  by_cases hab : a > b
  · have := C79_at_once hP hQ f (.fin a) (.fin b) args (if_pos hab) p hp (fun t _ => hf t) epsabs epsrel limit he
    rwa [if_pos rfl, ← intervalIntegral.integral_symm] at this
  · exact C79_at_once hP hQ f (.fin a) (.fin b) args (if_neg hab) p hp (fun t _ => hf t) epsabs epsrel limit he

theorem integral_of_Ioc {g : ℝ → ℝ} {p : ℝ[X]} (h : ∀ t ∈ Ioc (0 : ℝ) 1, g t = p.eval t) :
    ∫ t in (0 : ℝ)..1, p.eval t = ∫ t in Ioc (0 : ℝ) 1, g t := by
  rw [intervalIntegral.integral_of_le zero_le_one]
  exact (setIntegral_congr_fun measurableSet_Ioc h).symm

/-- `quad(f, a, inf)` for a sum of `c[k] / (1 + x - a) ** (k + 2)` with `k` up to 19. -/
theorem C79_right (hP : GaussKronrod 10 0 0 P W) (hQ : GaussLegendre 10 Q V) (f : ℝ → List ℝ → ℝ) (a : ℝ)
    (args : List ℝ) (p : ℝ[X]) (hp : p.natDegree ≤ 19)
    (hf : ∀ x ≥ a, f x args = p.eval (1 / (1 + x - a)) / (1 + x - a) ^ 2) (epsabs epsrel limit : ℝ)
    (he : 1 / 10 ^ 15 < epsabs) :
    ∃ e ≤ 1 / 10 ^ 15, ∀ fuel, quad ⟨P, W, V⟩ f (.fin a) .posInf args epsabs epsrel limit fuel =
      .returned (∫ x in Ici a, f x args) e := by
  have hg : ∀ t ∈ Ioc (0 : ℝ) 1, f (a + (1 - t) / t) args / t ^ 2 = p.eval t := fun t ht => by
    have h0 := ht.1
    rw [hf _ (by have := div_nonneg (by linarith [ht.2] : 0 ≤ 1 - t) h0.le; linarith),
      show 1 + (a + (1 - t) / t) - a = 1 / t by field_simp; ring, one_div_one_div]
    field_simp
  have := C79_at_once hP hQ f (.fin a) .posInf args rfl p hp (fun t ht => hg t ⟨ht.1, ht.2.le⟩) epsabs epsrel limit he
  rwa [if_neg Bool.false_ne_true, integral_of_Ioc hg, subst_right (fun x => f x args)] at this

/-- `quad(f, -inf, b)` for a sum of `c[k] / (1 + b - x) ** (k + 2)` with `k` up to 19. -/
theorem C79_left (hP : GaussKronrod 10 0 0 P W) (hQ : GaussLegendre 10 Q V) (f : ℝ → List ℝ → ℝ) (b : ℝ)
    (args : List ℝ) (p : ℝ[X]) (hp : p.natDegree ≤ 19)
    (hf : ∀ x ≤ b, f x args = p.eval (1 / (1 + b - x)) / (1 + b - x) ^ 2) (epsabs epsrel limit : ℝ)
    (he : 1 / 10 ^ 15 < epsabs) :
    ∃ e ≤ 1 / 10 ^ 15, ∀ fuel, quad ⟨P, W, V⟩ f .negInf (.fin b) args epsabs epsrel limit fuel =
      .returned (∫ x in Iic b, f x args) e := by
  have hg : ∀ t ∈ Ioc (0 : ℝ) 1, f (b - (1 - t) / t) args / t ^ 2 = p.eval t := fun t ht => by
    have h0 := ht.1
    rw [hf _ (by have := div_nonneg (by linarith [ht.2] : 0 ≤ 1 - t) h0.le; linarith),
      show 1 + b - (b - (1 - t) / t) = 1 / t by field_simp; ring, one_div_one_div]
    field_simp
  have := C79_at_once hP hQ f .negInf (.fin b) args rfl p hp (fun t ht => hg t ⟨ht.1, ht.2.le⟩) epsabs epsrel limit he
  rwa [if_neg Bool.false_ne_true, integral_of_Ioc hg, subst_left (fun x => f x args)] at this

/-- Whatever `quad` returns: if the integrand after the substitution has a continuous extension `k` to the closed
interval, the value is off by at most twice the length times the distance of `k` to a polynomial of degree 19. -/
theorem C79_error (hP : GaussKronrod 10 0 0 P W) (hQ : GaussLegendre 10 Q V) (f : ℝ → List ℝ → ℝ) (a b : Lim)
    (args : List ℝ) {g : ℝ → ℝ} {a' b' : ℝ} {s : Bool} (h : setup f a b args = .ok g a' b' s) (k : ℝ → ℝ)
    (hk : ContinuousOn k (Icc a' b')) (hg : ∀ t ∈ Ioo a' b', g t = k t) (epsabs epsrel limit : ℝ) (fuel : ℕ)
    (v e : ℝ) (hr : quad ⟨P, W, V⟩ f a b args epsabs epsrel limit fuel = .returned v e) (p : ℝ[X])
    (hp : p.natDegree ≤ 19) (ε : ℝ) (hε : ∀ t ∈ Icc a' b', |k t - p.eval t| ≤ ε) :
    |v - (if s then -∫ t in a'..b', g t else ∫ t in a'..b', g t)| ≤ 2 * (b' - a') * ε := by
  have hab := setup_le h
  obtain ⟨h1, h2, h3, h4⟩ := C70_default_rule hP hQ
  obtain ⟨-, k2, -⟩ := C72_default.2.2 P W hP
  have kin : ∀ x ∈ odds P, -1 < x ∧ x < 1 := fun x hx => k2 x ((Legendre.odds_sublist P).subset hx)
  rw [quad, h] at hr
  simp only at hr
  split at hr
  · rename_i v' e' hv
    obtain ⟨L, hL, hv', -⟩ := C36_returned _ _ _ _ _ _ _ hv
    have hJ := C36_bisection_inside hL hab
    have hint : ∫ t in a'..b', g t = ∫ t in a'..b', k t := by
      rw [intervalIntegral.integral_of_le hab, intervalIntegral.integral_of_le hab, integral_Ioc_eq_integral_Ioo,
        integral_Ioc_eq_integral_Ioo]
      exact setIntegral_congr_fun measurableSet_Ioo hg
    have key : |v' () - ∫ t in a'..b', g t| ≤ 2 * (b' - a') * ε := by
      rw [hv' (), hint, ← bisection_integral hL hab hk]
      have h5 := C36_bisection_additive (fun x y => y - x) (fun x y z => by ring) hL
      simp only at h5
      rw [← h5, mul_right_comm]
      refine list_sum_close _ _ _ _ L fun J hJL => ?_
      obtain ⟨m1, m2, m3⟩ := hJ J hJL
      rw [valGauss_eq, integrate1_congr (g := k) kin m2 fun x hx => hg x ⟨m1.trans_lt hx.1, hx.2.trans_le m3⟩]
      have := C74_best_nonneg h2 h3 h4 m2 (hk.mono (Icc_subset_Icc m1 m3)) p hp
        fun x hx => hε x ⟨m1.trans hx.1, hx.2.trans m3⟩
      linarith
    obtain ⟨rfl, -⟩ := Outcome.returned.injEq .. ▸ hr
    cases s
    · simpa using key
    · simp only [if_true, mul_neg, mul_one]
      rwa [← neg_sub', abs_neg]
  · simp at hr

/-- Finite limits in any order and a continuous integrand. -/
theorem C79_finite (hP : GaussKronrod 10 0 0 P W) (hQ : GaussLegendre 10 Q V) (f : ℝ → List ℝ → ℝ) (a b : ℝ)
    (args : List ℝ) (hf : ContinuousOn (fun x => f x args) (uIcc a b)) (epsabs epsrel limit : ℝ) (fuel : ℕ)
    (v e : ℝ) (hr : quad ⟨P, W, V⟩ f (.fin a) (.fin b) args epsabs epsrel limit fuel = .returned v e) (p : ℝ[X])
    (hp : p.natDegree ≤ 19) (ε : ℝ) (hε : ∀ x ∈ uIcc a b, |f x args - p.eval x| ≤ ε) :
    |v - ∫ x in a..b, f x args| ≤ 2 * |b - a| * ε := by
  by_cases hab : a > b
  · rw [uIcc_of_ge hab.le] at hf hε
    have := C79_error hP hQ f (.fin a) (.fin b) args (if_pos hab) _ hf (fun _ _ => rfl) _ _ _ fuel v e hr p hp ε hε
    rw [if_pos rfl, ← intervalIntegral.integral_symm] at this
    rwa [abs_of_neg (by linarith : b - a < 0), neg_sub]
  · rw [uIcc_of_le (not_lt.1 hab)] at hf hε
    have := C79_error hP hQ f (.fin a) (.fin b) args (if_neg hab) _ hf (fun _ _ => rfl) _ _ _ fuel v e hr p hp ε hε
    rw [if_neg Bool.false_ne_true] at this
    rwa [abs_of_nonneg (by linarith : 0 ≤ b - a)]

/-- Infinite ranges: the distance of the value to the integral over the original range. -/
theorem C79_infinite (hP : GaussKronrod 10 0 0 P W) (hQ : GaussLegendre 10 Q V) (f : ℝ → List ℝ → ℝ) (a b : Lim)
    (args : List ℝ) (hi : IntegrableOn (fun x => f x args) (range a b))
    (hargs : a = .negInf → b = .posInf → args = []) (hinf : a = .negInf ∨ b = .posInf) {g : ℝ → ℝ} {a' b' : ℝ}
    {s : Bool} (h : setup f a b args = .ok g a' b' s) (k : ℝ → ℝ) (hk : ContinuousOn k (Icc 0 1))
    (hg : ∀ t ∈ Ioo (0 : ℝ) 1, g t = k t) (epsabs epsrel limit : ℝ) (fuel : ℕ) (v e : ℝ)
    (hr : quad ⟨P, W, V⟩ f a b args epsabs epsrel limit fuel = .returned v e) (p : ℝ[X]) (hp : p.natDegree ≤ 19)
    (ε : ℝ) (hε : ∀ t ∈ Icc (0 : ℝ) 1, |k t - p.eval t| ≤ ε) :
    |v - ∫ x in range a b, f x args| ≤ 2 * ε := by
  have hs := C43_substitution f a b args hi hargs (by rintro x y rfl rfl; simp at hinf) g a' b' s h
  have h01 : a' = 0 ∧ b' = 1 := by
    cases a <;> cases b <;> simp only [setup, reduceCtorEq, Setup.ok.injEq, or_self] at h hinf
    all_goals exact ⟨h.2.1.symm, h.2.2.1.symm⟩
  obtain ⟨rfl, rfl⟩ := h01
  have := C79_error hP hQ f a b args h k hk hg _ _ _ fuel v e hr p hp ε hε
  rw [hs.1, if_neg Bool.false_ne_true, hs.2.2] at this
  linarith

/-- `quad(lambda x: 1 / (1 + x)**2, 0, inf)` is 1. -/
example : ∃ P W Q V, GaussKronrod 10 0 0 P W ∧ GaussLegendre 10 Q V ∧ ∃ e ≤ 1 / 10 ^ 15,
    ∀ fuel, quad ⟨P, W, V⟩ (fun x _ => 1 / (1 + x) ^ 2) (.fin 0) .posInf [] 1.49e-8 1.49e-8 50 fuel =
      .returned 1 e := by
  obtain ⟨⟨P, W, hP⟩, ⟨Q, V, hQ⟩, -⟩ := C72_default
  have := C79_at_once hP hQ (fun x _ => 1 / (1 + x) ^ 2) (.fin 0) .posInf [] rfl 1 (by simp) (fun t ht => by
    have := ht.1
    simp only [eval_one]
    field_simp
    ring) 1.49e-8 1.49e-8 50 (by norm_num)
  refine ⟨P, W, Q, V, hP, hQ, ?_⟩
  simpa using this

end Quad
end Quadpy
