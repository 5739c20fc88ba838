import Verif.Lemmas.Moments9

/-!
# C21, C24, C26, C27: the McNamee-Stenger rules

The four constructions get the moments of the domain from a function `integrator`.  For the cube that
function is part of quadpy and modelled; for the ball, `exp(-|x|)` and `exp(-|x|^2)` it is
`integrate_monomial` of the package `ndim`, and enters as the hypothesis `Integrates`.
-/

namespace Quadpy
open Finset

namespace McNameeStenger

/-- `I k` is the integral of the monomial with exponents `k` (followed by zeros), up to one common
positive factor. -/
def Integrates (n : ℕ) (J : Spec.Functional n) (I : List ℕ → ℝ) : Prop :=
  ∃ c : ℝ, 0 < c ∧ ∀ k : List ℕ, k.length ≤ n →
    I k = c * J (fun x => ∏ i : Fin n, x i ^ k.getD i 0)

theorem RelMom.scale {n : ℕ} {J : Spec.Functional n} {m2 m4 m22 m6 m42 m222 c : ℝ}
    (h : RelMom J m2 m4 m22 m6 m42 m222) :
    RelMom (fun f => c * J f) m2 m4 m22 m6 m42 m222 := by
  obtain ⟨M, hl, hm, hs⟩ := h
  exact ⟨M, hl.const_mul c, fun α => by beta_reduce; rw [hm α]; ring, hs⟩

theorem RelMom9.scale {n : ℕ} {J : Spec.Functional n} {c : ℝ}
    {m2 m4 m22 m6 m42 m222 m8 m62 m44 m422 m2222 : ℝ}
    (h : RelMom9 J m2 m4 m22 m6 m42 m222 m8 m62 m44 m422 m2222) :
    RelMom9 (fun f => c * J f) m2 m4 m22 m6 m42 m222 m8 m62 m44 m422 m2222 := by
  obtain ⟨M, hl, hm, hs⟩ := h
  exact ⟨M, hl.const_mul c, fun α => by beta_reduce; rw [hm α]; ring, hs⟩

theorem exactRel_unscale {n : ℕ} {J : Spec.Functional n} {S : Scheme} {c : ℝ} (hc : 0 < c)
    (h : S.ExactRel n (fun f => c * J f)) : S.ExactRel n J := by
  refine ⟨h.1, fun p hp => ?_⟩
  have := h.2 p hp
  beta_reduce at this ⊢
  rw [mul_assoc] at this
  exact mul_left_cancel₀ hc.ne' this

/-- What all instances have in common: positivity and strict Cauchy-Schwarz for the moments. -/
theorem instance7 {n : ℕ} {J : Spec.Functional n} {I : List ℕ → ℝ} (hI : Integrates n J I)
    {m2 m4 m22 m6 m42 m222 : ℝ} (hJ : RelMom J m2 m4 m22 m6 m42 m222) (hV : 0 < J (fun _ => 1))
    (h2 : 0 < m2) (H2 : m2 ^ 2 < m4) (H3 : m4 ^ 2 < m2 * m6) :
    (1 ≤ n → ∃ S, ms3 n I = some S ∧ S.degree = 3 ∧ S.ExactRel n J) ∧
    (2 ≤ n → ∃ S, ms5 n I = some S ∧ S.degree = 5 ∧ S.ExactRel n J) ∧
    (3 ≤ n → ∀ sw, ∃ S, ms7 n I sw = some S ∧ S.degree = 7 ∧ S.ExactRel n J) := by
  obtain ⟨c, hc, hI⟩ := hI
  have hI' : IsIntegrator n (fun f => c * J f) I := hI
  have hV' : 0 < (fun f => c * J f) (fun _ : Fin n → ℝ => (1 : ℝ)) := mul_pos hc hV
  refine ⟨fun hn => ?_, fun hn => ?_, fun hn sw => ?_⟩
  · obtain ⟨S, h1, h2, h3⟩ := ms3_rel hn hI' (RelMom.scale hJ) hV' h2
    exact ⟨S, h1, h2, exactRel_unscale hc h3⟩
  · obtain ⟨S, h1, h2, h3⟩ := ms5_rel hn hI' (RelMom.scale hJ) hV' h2
      (lt_of_le_of_lt (sq_nonneg _) H2)
    exact ⟨S, h1, h2, exactRel_unscale hc h3⟩
  · obtain ⟨S, h1, h2, h3⟩ := ms7_rel hn hI' (RelMom.scale hJ) hV' h2 H2 H3 sw
    exact ⟨S, h1, h2, exactRel_unscale hc h3⟩

theorem instance9 {n : ℕ} {J : Spec.Functional n} {I : List ℕ → ℝ} (hI : Integrates n J I)
    {m2 m4 m22 m6 m42 m222 m8 m62 m44 m422 m2222 : ℝ}
    (hJ : RelMom9 J m2 m4 m22 m6 m42 m222 m8 m62 m44 m422 m2222) (hV : 0 < J (fun _ => 1))
    (h2 : 0 < m2) (h4 : 0 < m4) (H3 : m4 ^ 2 < m2 * m6) (H4 : m6 ^ 2 < m4 * m8)
    (h22 : (m4 ^ 2 - m2 * m6) * m62 - (m4 * m6 - m2 * m8) * m42 + (m6 ^ 2 - m4 * m8) * m22 = 0)
    (hn : 4 ≤ n) (sw : Bool) :
    ∃ S, ms9 n I sw = some S ∧ S.degree = 9 ∧ S.ExactRel n J := by
  obtain ⟨c, hc, hI⟩ := hI
  have hI' : IsIntegrator n (fun f => c * J f) I := hI
  have hV' : 0 < (fun f => c * J f) (fun _ : Fin n → ℝ => (1 : ℝ)) := mul_pos hc hV
  obtain ⟨S, h1, h2, h3, -⟩ := ms9_rel hn hI' (RelMom9.scale hJ) hV' h2 h4 H3 H4 sw
  exact ⟨S, h1, h2, exactRel_unscale hc (h3 h22)⟩

/-! The cube -/

theorem cubeInt_prod : ∀ {n : ℕ} (k : List ℕ), k.length ≤ n →
    cubeIntegrator n k = 2 ^ n * ∏ i : Fin n, m1 (k.getD i 0) := by
  intro n k hk
  have key : ∀ (k : List ℕ) (n : ℕ), k.length ≤ n → ∏ i : Fin n, m1 (k.getD i 0) =
      if k.any (· % 2 == 1) then (0 : ℝ) else 1 / (((k.map (· + 1)).prod : ℕ) : ℝ) := by
    intro k
    induction k with
    | nil => intro n _; simp [m1_zero]
    | cons a k ih =>
      intro n hn
      obtain ⟨m, rfl⟩ : ∃ m, n = m + 1 := ⟨n - 1, by simp at hn; omega⟩
      rw [Fin.prod_univ_succ]
      simp only [Fin.val_zero, List.getD_cons_zero, Fin.val_succ, List.getD_cons_succ]
      rw [ih m (by simpa using hn)]
      rcases Nat.even_or_odd a with ha | ha
      · have : a % 2 = 0 := Nat.even_iff.1 ha
        simp only [List.any_cons, this, List.map_cons, List.prod_cons, m1, ha, if_true]
        split_ifs with h1 h2 h2
        · simp
        · simp at h1 h2; obtain ⟨x, hx, hx'⟩ := h1; have := h2 x hx; omega
        · simp at h1 h2; obtain ⟨x, hx, hx'⟩ := h2; have := h1 x hx; omega
        · push_cast; field_simp
      · have : a % 2 = 1 := Nat.odd_iff.1 ha
        simp [m1, Nat.not_even_iff_odd.2 ha, this]
  rw [key k n hk, cubeIntegrator]
  split_ifs
  · simp
  · ring

/-- cn/_mcnamee_stenger.py:256-266: the cube's `integrator` returns the integrals of the monomials. -/
theorem C21_cubeIntegrator (n : ℕ) (k : List ℕ) (hk : k.length ≤ n) :
    cubeIntegrator n k = Spec.cube n (fun x => ∏ i : Fin n, x i ^ k.getD i 0) := by
  have := cube_mono (n := n) fun i => k.getD i 0
  rw [cubeInt_prod k hk]
  exact this.symm

theorem cube_integrates (n : ℕ) : Integrates n (Spec.cube n) (cubeIntegrator n) :=
  ⟨1, one_pos, fun k hk => by rw [one_mul, C21_cubeIntegrator n k hk]⟩

theorem exactOnCube_of_rel {n : ℕ} {S : Scheme} (h : S.ExactRel n (Spec.cube n)) :
    S.ExactOnCube n := by
  rw [Scheme.ExactRel, cube_one] at h; exact h

theorem cube_inst7 (n : ℕ) :
    (1 ≤ n → ∃ S, ms3 n (cubeIntegrator n) = some S ∧ S.degree = 3 ∧ S.ExactRel n (Spec.cube n)) ∧
    (2 ≤ n → ∃ S, ms5 n (cubeIntegrator n) = some S ∧ S.degree = 5 ∧ S.ExactRel n (Spec.cube n)) ∧
    (3 ≤ n → ∀ sw, ∃ S, ms7 n (cubeIntegrator n) sw = some S ∧ S.degree = 7 ∧
      S.ExactRel n (Spec.cube n)) :=
  instance7 (cube_integrates n) (cube_relMom n)
    (by rw [cube_one]; positivity) (by norm_num) (by norm_num) (by norm_num)

/-- cn/_mcnamee_stenger.py:269-270 -/
theorem C21_mcnamee_stenger_3 (n : ℕ) (hn : 1 ≤ n) :
    ∃ S, ms3 n (cubeIntegrator n) = some S ∧ S.degree = 3 ∧ S.ExactOnCube n := by
  obtain ⟨S, h1, h2, h3⟩ := (cube_inst7 n).1 hn
  exact ⟨S, h1, h2, exactOnCube_of_rel h3⟩

/-- cn/_mcnamee_stenger.py:273-274 -/
theorem C21_mcnamee_stenger_5 (n : ℕ) (hn : 2 ≤ n) :
    ∃ S, ms5 n (cubeIntegrator n) = some S ∧ S.degree = 5 ∧ S.ExactOnCube n := by
  obtain ⟨S, h1, h2, h3⟩ := (cube_inst7 n).2.1 hn
  exact ⟨S, h1, h2, exactOnCube_of_rel h3⟩

/-- cn/_mcnamee_stenger.py:277-286; `sw = false` is `7a`, `sw = true` is `7b`. -/
theorem C21_mcnamee_stenger_7 (n : ℕ) (hn : 3 ≤ n) (sw : Bool) :
    ∃ S, ms7 n (cubeIntegrator n) sw = some S ∧ S.degree = 7 ∧ S.ExactOnCube n := by
  obtain ⟨S, h1, h2, h3⟩ := (cube_inst7 n).2.2 hn sw
  exact ⟨S, h1, h2, exactOnCube_of_rel h3⟩

/-- cn/_mcnamee_stenger.py:289-298; `sw = false` is `9a`, `sw = true` is `9b`. -/
theorem C21_mcnamee_stenger_9 (n : ℕ) (hn : 4 ≤ n) (sw : Bool) :
    ∃ S, ms9 n (cubeIntegrator n) sw = some S ∧ S.degree = 9 ∧ S.ExactOnCube n := by
  obtain ⟨S, h1, h2, h3⟩ := instance9 (cube_integrates n) (cube_relMom9 n)
    (by rw [cube_one]; positivity) (by norm_num) (by norm_num) (by norm_num) (by norm_num)
    (by norm_num) hn sw
  exact ⟨S, h1, h2, exactOnCube_of_rel h3⟩

/-- Below the asserted dimension nothing is returned. -/
theorem C21_mcnamee_stenger_guard (n : ℕ) (I : List ℕ → ℝ) (sw : Bool) :
    (n < 2 → ms5 n I = none) ∧ (n < 3 → ms7 n I sw = none) ∧ (n < 4 → ms9 n I sw = none) := by
  refine ⟨fun h => ?_, fun h => ?_, fun h => ?_⟩
  · simp [ms5, guard, show ¬ 2 ≤ n by omega]
  · simp [ms7, guard, show ¬ 3 ≤ n by omega]
  · simp [ms9, guard, show ¬ 4 ≤ n by omega]

/-! The ball -/

theorem ball_cs {n : ℕ} (hn : 0 < n) :
    (1 / ((n : ℝ) + 2)) ^ 2 < 3 / ((n + 2) * (n + 4)) ∧
    (3 / (((n : ℝ) + 2) * (n + 4))) ^ 2 < 1 / (n + 2) * (15 / ((n + 2) * (n + 4) * (n + 6))) ∧
    (15 / (((n : ℝ) + 2) * (n + 4) * (n + 6))) ^ 2 <
      3 / ((n + 2) * (n + 4)) * (105 / ((n + 2) * (n + 4) * (n + 6) * (n + 8))) := by
  have h : (0 : ℝ) < n := by exact_mod_cast hn
  refine ⟨?_, ?_, ?_⟩
  · rw [div_pow, div_lt_div_iff₀ (by positivity) (by positivity)]; nlinarith
  · rw [div_pow, div_mul_div_comm, div_lt_div_iff₀ (by positivity) (by positivity)]
    have : 0 < (n + 2 : ℝ) ^ 2 * (n + 4) := by positivity
    nlinarith
  · rw [div_pow, div_mul_div_comm, div_lt_div_iff₀ (by positivity) (by positivity)]
    have : 0 < (n + 2 : ℝ) ^ 2 * (n + 4) ^ 2 * (n + 6) := by positivity
    nlinarith

/-- sn/_mcnamee_stenger.py: the rules of degree 3, 5, 7a, 7b on the ball. -/
theorem C24_mcnamee_stenger_357 (n : ℕ) (hn : 1 ≤ n) (I : List ℕ → ℝ)
    (hI : Integrates n (Spec.ball n) I) :
    (∃ S, ms3 n I = some S ∧ S.degree = 3 ∧ S.ExactOnBall n) ∧
    (2 ≤ n → ∃ S, ms5 n I = some S ∧ S.degree = 5 ∧ S.ExactOnBall n) ∧
    (3 ≤ n → ∀ sw, ∃ S, ms7 n I sw = some S ∧ S.degree = 7 ∧ S.ExactOnBall n) := by
  obtain ⟨h1, h2, -⟩ := ball_cs hn
  obtain ⟨a, b, c⟩ := instance7 hI (ball_relMom hn) (ball_pos hn) (by positivity) h1 h2
  exact ⟨a hn, b, c⟩

/-- sn/_mcnamee_stenger.py: the rules 9a and 9b on the ball. -/
theorem C24_mcnamee_stenger_9 (n : ℕ) (hn : 4 ≤ n) (I : List ℕ → ℝ)
    (hI : Integrates n (Spec.ball n) I) (sw : Bool) :
    ∃ S, ms9 n I sw = some S ∧ S.degree = 9 ∧ S.ExactOnBall n := by
  have h0 : 0 < n := by omega
  obtain ⟨-, h2, h3⟩ := ball_cs h0
  refine instance9 hI (ball_relMom9 h0) (ball_pos h0) (by positivity) (by positivity) h2 h3 ?_ hn sw
  field_simp
  ring

/-! `exp(-|x|)` -/

/-- enr/_mcnamee_stenger.py: the rules of degree 3, 5, 7a, 7b. -/
theorem C26_mcnamee_stenger_357 (n : ℕ) (hn : 1 ≤ n) (I : List ℕ → ℝ)
    (hI : Integrates n (Spec.enr n) I) :
    (∃ S, ms3 n I = some S ∧ S.degree = 3 ∧ S.ExactOnEnr n) ∧
    (2 ≤ n → ∃ S, ms5 n I = some S ∧ S.degree = 5 ∧ S.ExactOnEnr n) ∧
    (3 ≤ n → ∀ sw, ∃ S, ms7 n I sw = some S ∧ S.degree = 7 ∧ S.ExactOnEnr n) := by
  have h : (0 : ℝ) < n := by exact_mod_cast hn
  obtain ⟨a, b, c⟩ := instance7 hI (enr_relMom hn) (enr_pos hn) (by positivity) (by nlinarith)
    (by
      have : 0 < ((n : ℝ) + 1) ^ 2 * (n + 3) := by positivity
      nlinarith)
  exact ⟨a hn, b, c⟩

/-- enr/_mcnamee_stenger.py:38-47: `mcnamee_stenger_9a` and `9b` claim degree 9 but do not even
integrate `x_a^2 x_b^2` (degree 4), in any dimension.  (The warning of the code says that they are
badly conditioned.) -/
theorem C26_mcnamee_stenger_9_fails (n : ℕ) (hn : 4 ≤ n) (I : List ℕ → ℝ)
    (hI : Integrates n (Spec.enr n) I) (sw : Bool) :
    ∃ S, ms9 n I sw = some S ∧ S.degree = 9 ∧
      ∀ a b : Fin n, a ≠ b → Spec.enr n (fun _ => 1) *
        dot n S.weights S.points (fun x => x a ^ 2 * x b ^ 2) ≠
          Spec.enr n (fun x => x a ^ 2 * x b ^ 2) := by
  have h0 : 0 < n := by omega
  have h : (0 : ℝ) < n := by exact_mod_cast h0
  obtain ⟨c, hc, hI⟩ := hI
  have hI' : IsIntegrator n (fun f => c * Spec.enr n f) I := hI
  have hV' : 0 < (fun f => c * Spec.enr n f) (fun _ : Fin n → ℝ => (1 : ℝ)) :=
    mul_pos hc (enr_pos h0)
  obtain ⟨S, h1, h2, -, h4⟩ := ms9_rel hn hI' (RelMom9.scale (enr_relMom9 h0)) hV' (by positivity)
    (by positivity)
    (by
      have : 0 < ((n : ℝ) + 1) ^ 2 * (n + 3) := by positivity
      nlinarith)
    (by
      have : 0 < ((n : ℝ) + 1) ^ 2 * (n + 3) ^ 2 * (n + 5) := by positivity
      nlinarith) sw
  refine ⟨S, h1, h2, fun a b hab hS => ?_⟩
  have e := h4 a b hab
  have hmono : mono (e2 a b 2 2) = fun x : Fin n → ℝ => x a ^ 2 * x b ^ 2 := by
    funext x; rw [mono_e2 hab]
  obtain ⟨M, -, hm, hs⟩ := enr_relMom9 h0
  rw [← hmono, hm, hs.twotwo a b hab] at hS
  have hd := mul_left_cancel₀ (enr_pos h0).ne' hS
  rw [hd, sub_self, mul_zero] at e
  have : 0 < ((n : ℝ) + 1) ^ 3 * (n + 3) ^ 2 * (n + 5) := by positivity
  nlinarith

/-! `exp(-|x|^2)` -/

/-- enr2/_mcnamee_stenger.py: the rules of degree 3, 5, 7a, 7b. -/
theorem C27_mcnamee_stenger_357 (n : ℕ) (I : List ℕ → ℝ) (hI : Integrates n (Spec.enr2 n) I) :
    (1 ≤ n → ∃ S, ms3 n I = some S ∧ S.degree = 3 ∧ S.ExactOnEnr2 n) ∧
    (2 ≤ n → ∃ S, ms5 n I = some S ∧ S.degree = 5 ∧ S.ExactOnEnr2 n) ∧
    (3 ≤ n → ∀ sw, ∃ S, ms7 n I sw = some S ∧ S.degree = 7 ∧ S.ExactOnEnr2 n) :=
  instance7 hI (enr2_relMom n) (enr2_pos n) (by norm_num) (by norm_num) (by norm_num)

/-- enr2/_mcnamee_stenger.py: the rules 9a and 9b. -/
theorem C27_mcnamee_stenger_9 (n : ℕ) (hn : 4 ≤ n) (I : List ℕ → ℝ)
    (hI : Integrates n (Spec.enr2 n) I) (sw : Bool) :
    ∃ S, ms9 n I sw = some S ∧ S.degree = 9 ∧ S.ExactOnEnr2 n :=
  instance9 hI (enr2_relMom9 n) (enr2_pos n) (by norm_num) (by norm_num) (by norm_num) (by norm_num)
    (by norm_num) hn sw

/-! Non-trivial cases. -/

/-- The hypothesis on `integrator` is satisfiable on every domain. -/
example (n : ℕ) : Integrates n (Spec.enr n) fun k =>
    7 * Spec.enr n (fun x => ∏ i : Fin n, x i ^ k.getD i 0) := ⟨7, by norm_num, fun _ _ => rfl⟩

example : cubeIntegrator 3 [2, 4] = 8 / 15 := by norm_num [cubeIntegrator]

/-- The rule of degree 3 in dimension 4 has a negative weight `-3` at the origin. -/
example : ∃ S, ms3 4 (cubeIntegrator 4) = some S ∧ S.weights.head? = some (-3) := by
  obtain ⟨L, hL⟩ := fsd_some (n := 4) (k := 1) (by norm_num) (√(1 / 3 : ℝ))
  refine ⟨_, by
    simp only [ms3, cubeIntegrator]
    norm_num
    rw [sqrtO_some (by norm_num)]
    simp only [Option.bind_some]
    rw [hL]
    rfl, ?_⟩
  simp [schemeOf, untangle, z]

end McNameeStenger
end Quadpy
