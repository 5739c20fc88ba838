import Verif.Model.McNameeStenger
import Verif.Lemmas.Rel
import Verif.Lemmas.Degree9

/-!
# The McNamee-Stenger rules are exact for every fully symmetric functional

`ms3`, `ms5`, `ms7`, `ms9` build a rule from the moments of a functional.
-/

namespace Quadpy
open Finset Real

namespace McNameeStenger

/-- `I k` is the integral of the monomial with exponents `k` (followed by zeros): the contract of the
`integrator` argument of the four constructions. -/
def IsIntegrator (n : ℕ) (J : Spec.Functional n) (I : List ℕ → ℝ) : Prop :=
  ∀ k : List ℕ, k.length ≤ n → I k = J (mono fun i => k.getD i 0)

theorem getD1 {n : ℕ} (hn : 1 ≤ n) (k : ℕ) :
    (fun i : Fin n => [k].getD i 0) = e1 ⟨0, hn⟩ k := by
  funext ⟨i, hi⟩
  rcases i with _ | i <;> simp [e1, Pi.single_apply]

theorem getD2 {n : ℕ} (hn : 2 ≤ n) (k l : ℕ) :
    (fun i : Fin n => [k, l].getD i 0) = e2 ⟨0, by omega⟩ ⟨1, by omega⟩ k l := by
  funext ⟨i, hi⟩
  rcases i with _ | _ | i <;> simp [e2, Pi.single_apply]

theorem getD3 {n : ℕ} (hn : 3 ≤ n) (k l m : ℕ) :
    (fun i : Fin n => [k, l, m].getD i 0) =
      e3 ⟨0, by omega⟩ ⟨1, by omega⟩ ⟨2, by omega⟩ k l m := by
  funext ⟨i, hi⟩
  rcases i with _ | _ | _ | i <;> simp [e3, Pi.single_apply]

theorem getD4 {n : ℕ} (hn : 4 ≤ n) (k l m o : ℕ) :
    (fun i : Fin n => [k, l, m, o].getD i 0) =
      e4 ⟨0, by omega⟩ ⟨1, by omega⟩ ⟨2, by omega⟩ ⟨3, by omega⟩ k l m o := by
  funext ⟨i, hi⟩
  rcases i with _ | _ | _ | _ | i <;> simp [e4, Pi.single_apply]

theorem e2_swap {n : ℕ} (a b : Fin n) (k l : ℕ) : e2 a b k l = e2 b a l k := by
  unfold e2; exact add_comm _ _

theorem e3_rot {n : ℕ} (a b c : Fin n) (k l m : ℕ) : e3 a b c k l m = e3 c a b m k l := by
  unfold e3; abel

/-- Dividing the weights by the volume. -/
theorem schemeOf_div (n d : ℕ) (c : ℝ) (data : List (ℝ × List (List ℝ))) :
    (⟨n, (untangle data).2.map (· / c), (untangle data).1, d⟩ : Scheme) =
      schemeOf n (data.map fun g => (g.1 / c, g.2)) d := by
  simp [schemeOf, untangle, List.map_flatten, Function.comp_def]

/-- Cramer's rule for two unknowns. -/
theorem cramer {a b c d det v0 v1 p r : ℝ} (hd : det = a * d - b * c) (h0 : det ≠ 0)
    (hp : p = d / det * v0 + -b / det * v1) (hr : r = -c / det * v0 + a / det * v1) :
    a * p + b * r = v0 ∧ c * p + d * r = v1 := by
  subst hp hr
  constructor
  · field_simp; rw [hd]; ring
  · field_simp; rw [hd]; ring

/-- The two numbers `u²`, `v²` of the rules of degree 7 and 9 exist, are positive and different, and
satisfy the recurrence of the moments `m0, m1, m2, m3`. -/
theorem roots {m0 m1 m2 m3 : ℝ} (h0 : 0 < m0) (h1 : 0 < m1) (h2 : 0 < m2)
    (H2 : m1 ^ 2 < m0 * m2) (H3 : m2 ^ 2 < m1 * m3) :
    let a := m1 ^ 2 - m0 * m2
    let b := m1 * m2 - m0 * m3
    let c := m2 ^ 2 - m1 * m3
    let D := b ^ 2 - 4 * a * c
    let x := (b + √D) / (2 * a)
    let y := (b - √D) / (2 * a)
    0 ≤ D ∧ 0 < x ∧ 0 < y ∧ x ≠ y ∧ a ≠ 0 ∧ a * x ^ 2 - b * x + c = 0 ∧
      a * y ^ 2 - b * y + c = 0 := by
  intro a b c D x y
  have ha : a < 0 := sub_neg.2 H2
  have hc : c < 0 := sub_neg.2 H3
  have hb : m1 * b = m0 * c + m2 * a := by simp only [a, b, c]; ring
  have hb0 : b < 0 := by
    have : m1 * b < 0 := by rw [hb]; nlinarith [mul_neg_of_pos_of_neg h0 hc, mul_neg_of_pos_of_neg h2 ha]
    nlinarith
  have hac : 0 < a * c := mul_pos_of_neg_of_neg ha hc
  have hD : 0 < D := by
    have e1 : (m1 * b) ^ 2 - 4 * (m0 * m2) * (a * c) = (m0 * c - m2 * a) ^ 2 := by rw [hb]; ring
    have e2 : 0 < (m0 * m2 - m1 ^ 2) * (a * c) := mul_pos (sub_pos.2 H2) hac
    have e3 : 0 < m1 ^ 2 * D := by
      have : m1 ^ 2 * D = (m0 * c - m2 * a) ^ 2 + 4 * ((m0 * m2 - m1 ^ 2) * (a * c)) := by
        rw [← e1]; simp only [D]; ring
      rw [this]; positivity
    exact pos_of_mul_pos_right e3 (by positivity)
  have hq : 0 < √D := Real.sqrt_pos.2 hD
  have hq2 : √D ^ 2 = D := Real.sq_sqrt hD.le
  have hqb : √D < -b := by
    apply lt_of_pow_lt_pow_left₀ 2 (by linarith)
    rw [hq2]; simp only [D]; nlinarith
  have h2a : 2 * a < 0 := by linarith
  have hx : 2 * a * x = b + √D := by simp only [x]; rw [mul_div_cancel₀ _ h2a.ne]
  have hy : 2 * a * y = b - √D := by simp only [y]; rw [mul_div_cancel₀ _ h2a.ne]
  have hD' : √D ^ 2 = b ^ 2 - 4 * a * c := hq2
  refine ⟨hD.le, div_pos_of_neg_of_neg (by linarith) h2a, div_pos_of_neg_of_neg (by linarith) h2a,
    ?_, ha.ne, ?_, ?_⟩
  · intro h
    rw [h, hy] at hx; linarith
  · apply mul_left_cancel₀ (show 4 * a ≠ 0 by linarith)
    linear_combination (2 * a * x + √D - b) * hx + hD'
  · apply mul_left_cancel₀ (show 4 * a ≠ 0 by linarith)
    linear_combination (2 * a * y - √D - b) * hy + hD'

/-- What the proofs below need to know about `u²`, `v²`. -/
structure Pair (m0 m1 m2 m3 x y : ℝ) : Prop where
  xpos : 0 < x
  ypos : 0 < y
  ne : x ≠ y
  hx : (m1 ^ 2 - m0 * m2) * x ^ 2 - (m1 * m2 - m0 * m3) * x + (m2 ^ 2 - m1 * m3) = 0
  hy : (m1 ^ 2 - m0 * m2) * y ^ 2 - (m1 * m2 - m0 * m3) * y + (m2 ^ 2 - m1 * m3) = 0

theorem roots_pair {m0 m1 m2 m3 : ℝ} (h0 : 0 < m0) (h1 : 0 < m1) (h2 : 0 < m2)
    (H2 : m1 ^ 2 < m0 * m2) (H3 : m2 ^ 2 < m1 * m3) (sw : Bool) :
    ∃ q, sqrtO ((m1 * m2 - m0 * m3) ^ 2 - 4 * (m1 ^ 2 - m0 * m2) * (m2 ^ 2 - m1 * m3)) = some q ∧
      Pair m0 m1 m2 m3
        (if sw then (m1 * m2 - m0 * m3 - q) / (2 * (m1 ^ 2 - m0 * m2)) else
          (m1 * m2 - m0 * m3 + q) / (2 * (m1 ^ 2 - m0 * m2)))
        (if sw then (m1 * m2 - m0 * m3 + q) / (2 * (m1 ^ 2 - m0 * m2)) else
          (m1 * m2 - m0 * m3 - q) / (2 * (m1 ^ 2 - m0 * m2))) := by
  obtain ⟨hD, hx, hy, hne, ha, ex, ey⟩ := roots h0 h1 h2 H2 H3
  refine ⟨_, sqrtO_some hD, ?_⟩
  cases sw
  · exact ⟨hx, hy, hne, ex, ey⟩
  · exact ⟨hy, hx, hne.symm, ey, ex⟩

/-- The functional is linear on polynomials and its moments up to degree 8, relative to `J 1`, are
symmetric. -/
def RelMom9 {n : ℕ} (J : Spec.Functional n) (m2 m4 m22 m6 m42 m222 m8 m62 m44 m422 m2222 : ℝ) :
    Prop :=
  ∃ M, LinOnMono J ∧ (∀ α, J (mono α) = J (fun _ => 1) * M α) ∧
    SymMom9 M m2 m4 m22 m6 m42 m222 m8 m62 m44 m422 m2222

theorem schemeOf_exact9 {n : ℕ} {J : Spec.Functional n}
    {m2 m4 m22 m6 m42 m222 m8 m62 m44 m422 m2222 : ℝ}
    (hJ : RelMom9 J m2 m4 m22 m6 m42 m222 m8 m62 m44 m422 m2222)
    {data : List (ℝ × List (List ℝ))} (gs : List Grp9)
    (hdata : data = gs.map fun g => (g.w, g.L)) (hok : ∀ g ∈ gs, g.Ok n)
    (hc : GroupConds9 n gs m2 m4 m22 m6 m42 m222 m8 m62 m44 m422 m2222) :
    (schemeOf n data 9).ExactRel n J := by
  obtain ⟨M, hl, hm, hs⟩ := hJ
  have hdata' : data = (gs.map Grp9.toGrp).map fun g => (g.w, g.L) := by
    rw [hdata, List.map_map]; rfl
  have hok' : ∀ g ∈ gs.map Grp9.toGrp, g.Ok n := fun g hg => by
    obtain ⟨g', hg', rfl⟩ := List.mem_map.1 hg
    exact (hok g' hg').toOk
  refine ⟨⟨rfl, untangle_shape n _ data hdata' hok'⟩, ?_⟩
  apply exactUpTo_of_mono ((dot_linOnMono _ _).const_mul _) hl
  intro α hα
  beta_reduce
  have := fs_moments9 gs hok hs hc α hα
  simp only [schemeOf]
  rw [untangle_groups n _ data hdata', hm, ← this, List.map_map]
  rfl

section values
variable {n : ℕ} {J : Spec.Functional n} {I : List ℕ → ℝ} {M : (Fin n → ℕ) → ℝ}
  {m2 m4 m22 m6 m42 m222 m8 m62 m44 m422 m2222 : ℝ}

theorem int0 (hI : IsIntegrator n J I) : I [] = J (fun _ => 1) := by
  rw [hI _ (by simp), one_eq_mono]; rfl

theorem int2 (hI : IsIntegrator n J I) (hM : ∀ α, J (mono α) = J (fun _ => 1) * M α)
    (hs : SymMom M m2 m4 m22 m6 m42 m222) (hn : 1 ≤ n) :
    I [2] = J (fun _ => 1) * m2 ∧ I [4] = J (fun _ => 1) * m4 ∧ I [6] = J (fun _ => 1) * m6 := by
  refine ⟨?_, ?_, ?_⟩
  · rw [hI _ (by simpa using hn), getD1 hn, hM, hs.two]
  · rw [hI _ (by simpa using hn), getD1 hn, hM, hs.four]
  · rw [hI _ (by simpa using hn), getD1 hn, hM, hs.six]

theorem int22 (hI : IsIntegrator n J I) (hM : ∀ α, J (mono α) = J (fun _ => 1) * M α)
    (hs : SymMom M m2 m4 m22 m6 m42 m222) (hn : 2 ≤ n) :
    I [2, 2] = J (fun _ => 1) * m22 ∧ I [2, 4] = J (fun _ => 1) * m42 := by
  refine ⟨?_, ?_⟩
  · rw [hI _ (by simpa using hn), getD2 hn, hM, hs.twotwo _ _ (by simp)]
  · rw [hI _ (by simpa using hn), getD2 hn, hM, e2_swap, hs.fourtwo _ _ (by simp)]

theorem int222 (hI : IsIntegrator n J I) (hM : ∀ α, J (mono α) = J (fun _ => 1) * M α)
    (hs : SymMom M m2 m4 m22 m6 m42 m222) (hn : 3 ≤ n) :
    I [2, 2, 2] = J (fun _ => 1) * m222 := by
  rw [hI _ (by simpa using hn), getD3 hn, hM, hs.ttt _ _ _ (by simp) (by simp) (by simp)]

theorem int9 (hI : IsIntegrator n J I) (hM : ∀ α, J (mono α) = J (fun _ => 1) * M α)
    (hs : SymMom9 M m2 m4 m22 m6 m42 m222 m8 m62 m44 m422 m2222) (hn : 4 ≤ n) :
    I [8] = J (fun _ => 1) * m8 ∧ I [2, 6] = J (fun _ => 1) * m62 ∧
      I [4, 4] = J (fun _ => 1) * m44 ∧ I [2, 2, 4] = J (fun _ => 1) * m422 ∧
      I [2, 2, 2, 2] = J (fun _ => 1) * m2222 := by
  refine ⟨?_, ?_, ?_, ?_, ?_⟩
  · rw [hI _ (by simp; omega), getD1 (by omega), hM, hs.eight]
  · rw [hI _ (by simp; omega), getD2 (by omega), hM, e2_swap, hs.sixtwo _ _ (by simp)]
  · rw [hI _ (by simp; omega), getD2 (by omega), hM, hs.fourfour _ _ (by simp)]
  · rw [hI _ (by simp; omega), getD3 (by omega), hM, e3_rot,
      hs.ftt _ _ _ (by simp) (by simp) (by simp)]
  · rw [hI _ (by simp; omega), getD4 hn, hM,
      hs.tttt _ _ _ _ ⟨by simp, by simp, by simp, by simp, by simp, by simp⟩]

end values

/-- Unfolds a sum over groups into a sum of products. -/
macro "ms_simp" : tactic => `(tactic| (
  simp only [gsum, gsum9, List.map_cons, List.map_nil, List.sum_cons, List.sum_nil]
  simp only [gZ9, gFsd9, gZ_len, gFsd_L]
  simp only [gZ, gFsd, List.map_cons, List.map_nil, List.sum_cons, List.sum_nil]))

theorem scale_lt {V a b c : ℝ} (hV : 0 < V) (h : a ^ 2 < b * c) : (V * a) ^ 2 < V * b * (V * c) := by
  have := mul_lt_mul_of_pos_left h (pow_pos hV 2)
  calc (V * a) ^ 2 = V ^ 2 * a ^ 2 := by ring
    _ < V ^ 2 * (b * c) := this
    _ = V * b * (V * c) := by ring

theorem scale_lt' {V a c : ℝ} (hV : 0 < V) (h : a ^ 2 < c) : (V * a) ^ 2 < V * (V * c) := by
  simpa using scale_lt (b := 1) hV (by simpa using h)

theorem choose2 (n : ℕ) : (n.choose 2 : ℝ) = n * (n - 1) / 2 := Nat.cast_choose_two ℝ n

theorem choose3 (n : ℕ) : (n.choose 3 : ℝ) = n * (n - 1) * (n - 2) / 6 := by
  rcases Nat.lt_or_ge n 2 with h | h
  · interval_cases n <;> norm_num [Nat.choose]
  · obtain ⟨m, rfl⟩ : ∃ m, n = m + 2 := ⟨n - 2, by omega⟩
    have : ((m + 2).choose 3 : ℝ) * 3 = (m + 2).choose 2 * m := by
      exact_mod_cast Nat.choose_succ_right_eq (m + 2) 2
    rw [choose2] at this
    push_cast at *
    linarith

theorem choose4 (n : ℕ) : (n.choose 4 : ℝ) = n * (n - 1) * (n - 2) * (n - 3) / 24 := by
  rcases Nat.lt_or_ge n 3 with h | h
  · interval_cases n <;> norm_num [Nat.choose]
  · obtain ⟨m, rfl⟩ : ∃ m, n = m + 3 := ⟨n - 3, by omega⟩
    have : ((m + 3).choose 4 : ℝ) * 4 = (m + 3).choose 3 * m := by
      exact_mod_cast Nat.choose_succ_right_eq (m + 3) 3
    rw [choose3] at this
    push_cast at *
    linarith

theorem ms3_rel {n : ℕ} (hn : 1 ≤ n) {J : Spec.Functional n} {I : List ℕ → ℝ}
    (hI : IsIntegrator n J I) {m2 m4 m22 m6 m42 m222 : ℝ} (hJ : RelMom J m2 m4 m22 m6 m42 m222)
    (hV : 0 < J (fun _ => 1)) (h2 : 0 < m2) :
    ∃ S, ms3 n I = some S ∧ S.degree = 3 ∧ S.ExactRel n J := by
  obtain ⟨M, hl, hm, hs⟩ := id hJ
  obtain ⟨i2, -, -⟩ := int2 hI hm hs hn
  unfold ms3
  simp only [int0 hI, i2]
  generalize hVe : J (fun _ => 1) = V at *
  have hV0 : V ≠ 0 := hV.ne'
  rw [mul_div_cancel_left₀ _ hV0, sqrtO_some h2.le]
  obtain ⟨L, hL⟩ := fsd_some hn (√m2)
  have l := fsd1_len hL
  have hr : √m2 ^ 2 = m2 := Real.sq_sqrt h2.le
  refine ⟨_, by simp only [Option.bind_eq_bind, Option.bind_some, hL, Option.pure_def]; rfl, rfl, ?_⟩
  refine rel_schemeOf hJ (by norm_num) [gZ n _, gFsd _ _ L] rfl
    (ok_cons (gZ_ok _ _) (ok_cons (gFsd_ok _ hL) (ok_nil n))) ?_
  refine ⟨?_, fun _ _ => ?_, fun h => absurd h (by norm_num), fun h => absurd h (by norm_num),
    fun h => absurd h (by norm_num), fun h => absurd h (by norm_num), fun h => absurd h (by norm_num)⟩
  all_goals ms_simp; rw [l]; try simp only [hr]
  · push_cast; field_simp; ring
  · push_cast; field_simp; ring

theorem ms5_rel {n : ℕ} (hn : 2 ≤ n) {J : Spec.Functional n} {I : List ℕ → ℝ}
    (hI : IsIntegrator n J I) {m2 m4 m22 m6 m42 m222 : ℝ} (hJ : RelMom J m2 m4 m22 m6 m42 m222)
    (hV : 0 < J (fun _ => 1)) (h2 : 0 < m2) (h4 : 0 < m4) :
    ∃ S, ms5 n I = some S ∧ S.degree = 5 ∧ S.ExactRel n J := by
  obtain ⟨M, hl, hm, hs⟩ := id hJ
  obtain ⟨i2, i4, -⟩ := int2 hI hm hs (by omega)
  obtain ⟨i22, -⟩ := int22 hI hm hs hn
  unfold ms5
  simp only [int0 hI, i2, i4, i22]
  generalize hVe : J (fun _ => 1) = V at *
  have hV0 : V ≠ 0 := hV.ne'
  rw [mul_div_mul_left _ _ hV0, mul_div_mul_left _ _ hV0, sqrtO_some (by positivity)]
  have hx : 0 < m4 / m2 := by positivity
  obtain ⟨x, hxe⟩ : ∃ x, x = m4 / m2 := ⟨_, rfl⟩
  rw [← hxe] at hx ⊢
  obtain ⟨L1, h1⟩ := fsd_some (k := 1) (n := n) (by omega) (√x)
  obtain ⟨L2, h2'⟩ := fsd_some hn (√x)
  have l1 := fsd1_len h1
  have l2 := fsd2_len h2'
  have r2 : √x ^ 2 = x := Real.sq_sqrt hx.le
  have r4 : √x ^ 4 = x ^ 2 := by rw [show (4 : ℕ) = 2 * 2 by rfl, pow_mul, r2]
  refine ⟨_, by simp only [guard, hn, if_true, Option.bind_eq_bind, Option.bind_some, h1, h2',
    Option.pure_def]; rfl, rfl, ?_⟩
  rw [schemeOf_div]
  have hn' : (2 : ℝ) ≤ n := by exact_mod_cast hn
  refine rel_schemeOf hJ (by norm_num) [gZ n _, gFsd _ _ L1, gFsd _ _ L2] rfl
    (ok_cons (gZ_ok _ _) (ok_cons (gFsd_ok _ h1) (ok_cons (gFsd_ok _ h2') (ok_nil n)))) ?_
  refine ⟨?_, fun _ _ => ?_, fun _ _ => ?_, fun _ _ => ?_,
    fun h => absurd h (by norm_num), fun h => absurd h (by norm_num), fun h => absurd h (by norm_num)⟩
  all_goals ms_simp; rw [l1, l2]; try simp only [r2, r4]
  all_goals subst hxe; push_cast; field_simp; ring

theorem det_ne {x y : ℝ} (hx : 0 < x) (hy : 0 < y) (hne : x ≠ y) (k : ℕ) :
    x ^ k * y ^ (k + 1) - y ^ k * x ^ (k + 1) ≠ 0 := by
  have : x ^ k * y ^ (k + 1) - y ^ k * x ^ (k + 1) = x ^ k * y ^ k * (y - x) := by ring
  rw [this]
  exact mul_ne_zero (by positivity) (sub_ne_zero.2 hne.symm)

/-- The linear equations that the numbers of `w7` solve. -/
theorem w7_spec (n : ℕ) (I : List ℕ → ℝ) {x y : ℝ} (hx : 0 < x) (hy : 0 < y) (hne : x ≠ y) {A : W7}
    (hA : A = w7 n I x y) :
    A.A111 * (2 * x) ^ 3 = I [2, 2, 2] ∧
    x ^ 2 * (4 * A.A11) + y ^ 2 * (4 * A.A22) = I [2, 2] - 2 ^ 3 * (n - 2) * x ^ 2 * A.A111 ∧
    x ^ 3 * (4 * A.A11) + y ^ 3 * (4 * A.A22) = I [2, 4] - 2 ^ 3 * (n - 2) * x ^ 3 * A.A111 ∧
    x * (2 * (A.A1 + 2 * (n - 1) * A.A11)) + y * (2 * (A.A2 + 2 * (n - 1) * A.A22)) =
      I [2] - 2 ^ 3 * ((n - 1).choose 2) * x * A.A111 ∧
    x ^ 2 * (2 * (A.A1 + 2 * (n - 1) * A.A11)) + y ^ 2 * (2 * (A.A2 + 2 * (n - 1) * A.A22)) =
      I [4] - 2 ^ 3 * ((n - 1).choose 2) * x ^ 2 * A.A111 ∧
    A.A0 = I [] - 2 * n * (A.A1 + A.A2) - 2 ^ 2 * (n.choose 2) * (A.A11 + A.A22) -
      2 ^ 3 * (n.choose 3) * A.A111 := by
  have e111 : A.A111 = I [2, 2, 2] / (2 * x) ^ 3 := by rw [hA]; rfl
  have e11 : A.A11 = 1 / 2 ^ 2 * (y ^ 3 / (x ^ 2 * y ^ 3 - y ^ 2 * x ^ 3) *
      (I [2, 2] - 2 ^ 3 * (n - 2) * x ^ 2 * A.A111) + -y ^ 2 / (x ^ 2 * y ^ 3 - y ^ 2 * x ^ 3) *
      (I [2, 4] - 2 ^ 3 * (n - 2) * x ^ 3 * A.A111)) := by rw [hA]; rfl
  have e22 : A.A22 = 1 / 2 ^ 2 * (-x ^ 3 / (x ^ 2 * y ^ 3 - y ^ 2 * x ^ 3) *
      (I [2, 2] - 2 ^ 3 * (n - 2) * x ^ 2 * A.A111) + x ^ 2 / (x ^ 2 * y ^ 3 - y ^ 2 * x ^ 3) *
      (I [2, 4] - 2 ^ 3 * (n - 2) * x ^ 3 * A.A111)) := by rw [hA]; rfl
  have e1 : A.A1 = -2 * (n - 1) * A.A11 + 1 / 2 * (y ^ 2 / (x * y ^ 2 - y * x ^ 2) *
      (I [2] - 2 ^ 3 * ((n - 1).choose 2) * x * A.A111) + -y / (x * y ^ 2 - y * x ^ 2) *
      (I [4] - 2 ^ 3 * ((n - 1).choose 2) * x ^ 2 * A.A111)) := by rw [hA]; rfl
  have e2 : A.A2 = -2 * (n - 1) * A.A22 + 1 / 2 * (-x ^ 2 / (x * y ^ 2 - y * x ^ 2) *
      (I [2] - 2 ^ 3 * ((n - 1).choose 2) * x * A.A111) + x / (x * y ^ 2 - y * x ^ 2) *
      (I [4] - 2 ^ 3 * ((n - 1).choose 2) * x ^ 2 * A.A111)) := by rw [hA]; rfl
  have e0 : A.A0 = I [] - 2 * n * (A.A1 + A.A2) - 2 ^ 2 * (n.choose 2) * (A.A11 + A.A22) -
      2 ^ 3 * (n.choose 3) * A.A111 := by rw [hA]; rfl
  clear hA
  have d1 := det_ne hx hy hne 2
  have d2 := det_ne hx hy hne 1
  simp only [pow_one, Nat.reduceAdd] at d1 d2
  obtain ⟨k1, k2⟩ := cramer (p := 4 * A.A11) (r := 4 * A.A22)
    (v0 := I [2, 2] - 2 ^ 3 * (n - 2) * x ^ 2 * A.A111)
    (v1 := I [2, 4] - 2 ^ 3 * (n - 2) * x ^ 3 * A.A111) rfl d1 (by linear_combination 4 * e11)
    (by linear_combination 4 * e22)
  obtain ⟨k3, k4⟩ := cramer (p := 2 * (A.A1 + 2 * (n - 1) * A.A11))
    (r := 2 * (A.A2 + 2 * (n - 1) * A.A22))
    (v0 := I [2] - 2 ^ 3 * ((n - 1).choose 2) * x * A.A111)
    (v1 := I [4] - 2 ^ 3 * ((n - 1).choose 2) * x ^ 2 * A.A111) rfl d2 (by linear_combination 2 * e1)
    (by linear_combination 2 * e2)
  refine ⟨?_, k1, k2, k3, k4, e0⟩
  rw [e111]; field_simp

theorem ms7_rel {n : ℕ} (hn : 3 ≤ n) {J : Spec.Functional n} {I : List ℕ → ℝ}
    (hI : IsIntegrator n J I) {m2 m4 m22 m6 m42 m222 : ℝ} (hJ : RelMom J m2 m4 m22 m6 m42 m222)
    (hV : 0 < J (fun _ => 1)) (h2 : 0 < m2) (H2 : m2 ^ 2 < m4) (H3 : m4 ^ 2 < m2 * m6) (sw : Bool) :
    ∃ S, ms7 n I sw = some S ∧ S.degree = 7 ∧ S.ExactRel n J := by
  obtain ⟨M, hl, hm, hs⟩ := id hJ
  obtain ⟨i2, i4, i6⟩ := int2 hI hm hs (by omega)
  obtain ⟨i22, i24⟩ := int22 hI hm hs (by omega)
  have i222 := int222 hI hm hs hn
  have i0 := int0 hI
  have c2 := choose2 n
  have c3 := choose3 n
  have c2' : ((n - 1).choose 2 : ℝ) = (n - 1) * (n - 2) / 2 := by
    rw [choose2, Nat.cast_sub (by omega)]; push_cast; ring
  have hn' : (3 : ℝ) ≤ n := by exact_mod_cast hn
  simp only [ms7]
  generalize hVe : J (fun _ => 1) = V at *
  have hV0 : V ≠ 0 := hV.ne'
  have hm4 : 0 < m4 := lt_of_le_of_lt (by positivity) H2
  obtain ⟨q, hq, hpair⟩ := roots_pair (m0 := I []) (m1 := I [2]) (m2 := I [4]) (m3 := I [6])
    (by rw [i0]; exact hV) (by rw [i2]; positivity) (by rw [i4]; positivity)
    (by rw [i0, i2, i4]; exact scale_lt' hV H2) (by rw [i2, i4, i6]; exact scale_lt hV H3) sw
  simp only [hq, guard, hn, if_true, Option.bind_eq_bind, Option.bind_some, Option.pure_def]
  obtain ⟨x, hx⟩ : ∃ x, x = if sw then (I [2] * I [4] - I [] * I [6] - q) / (2 * (I [2] ^ 2 - I [] * I [4]))
    else (I [2] * I [4] - I [] * I [6] + q) / (2 * (I [2] ^ 2 - I [] * I [4])) := ⟨_, rfl⟩
  obtain ⟨y, hy⟩ : ∃ y, y = if sw then (I [2] * I [4] - I [] * I [6] + q) / (2 * (I [2] ^ 2 - I [] * I [4]))
    else (I [2] * I [4] - I [] * I [6] - q) / (2 * (I [2] ^ 2 - I [] * I [4])) := ⟨_, rfl⟩
  rw [← hx, ← hy] at hpair
  simp only [← hx, ← hy]
  obtain ⟨hx0, hy0, hne, hxq, hyq⟩ := hpair
  clear hx hy hq
  simp only [ms7Of]
  rw [sqrtO_some hx0.le, sqrtO_some hy0.le]
  obtain ⟨L1, h1⟩ := fsd_some (k := 1) (n := n) (by omega) (√x)
  obtain ⟨L2, h2'⟩ := fsd_some (k := 1) (n := n) (by omega) (√y)
  obtain ⟨L11, h11⟩ := fsd_some (k := 2) (n := n) (by omega) (√x)
  obtain ⟨L22, h22⟩ := fsd_some (k := 2) (n := n) (by omega) (√y)
  obtain ⟨L111, h111⟩ := fsd_some (k := 3) (n := n) (by omega) (√x)
  have l1 := fsd1_len h1
  have l2 := fsd1_len h2'
  have l3 := fsd2_len h11
  have l4 := fsd2_len h22
  have l5 := fsd3_len h111
  have r2 : √x ^ 2 = x := Real.sq_sqrt hx0.le
  have r4 : √x ^ 4 = x ^ 2 := by rw [show (4 : ℕ) = 2 * 2 by rfl, pow_mul, r2]
  have r6 : √x ^ 6 = x ^ 3 := by rw [show (6 : ℕ) = 2 * 3 by rfl, pow_mul, r2]
  have s2 : √y ^ 2 = y := Real.sq_sqrt hy0.le
  have s4 : √y ^ 4 = y ^ 2 := by rw [show (4 : ℕ) = 2 * 2 by rfl, pow_mul, s2]
  have s6 : √y ^ 6 = y ^ 3 := by rw [show (6 : ℕ) = 2 * 3 by rfl, pow_mul, s2]
  refine ⟨_, by simp only [Option.bind_eq_bind, Option.pure_def, Option.bind_some, h1, h2', h11, h22, h111]; rfl, rfl, ?_⟩
  rw [schemeOf_div]
  obtain ⟨A, hA⟩ : ∃ A, A = w7 n I x y := ⟨_, rfl⟩
  obtain ⟨k111, k1, k2, k3, k4, k0⟩ := w7_spec n I hx0 hy0 hne hA
  rw [← hA, i0]
  have ha : I [2] ^ 2 - I [] * I [4] ≠ 0 := by
    rw [i0, i2, i4]
    exact (sub_neg.2 (scale_lt' hV H2)).ne
  have k5 : x ^ 3 * (2 * (A.A1 + 2 * (n - 1) * A.A11) + 2 ^ 3 * ((n - 1).choose 2) * A.A111) +
      y ^ 3 * (2 * (A.A2 + 2 * (n - 1) * A.A22)) = I [6] := by
    apply mul_left_cancel₀ ha
    linear_combination
      (2 * (A.A1 + 2 * (n - 1) * A.A11) + 2 ^ 3 * ((n - 1).choose 2) * A.A111) * x * hxq +
      (2 * (A.A2 + 2 * (n - 1) * A.A22)) * y * hyq +
      (I [2] * I [4] - I [] * I [6]) * k4 - (I [4] ^ 2 - I [2] * I [6]) * k3
  rw [i222] at k111; rw [i22] at k1; rw [i24] at k2; rw [i2, c2'] at k3; rw [i4, c2'] at k4
  rw [i6, c2'] at k5; rw [i0, c2, c3] at k0
  clear hA hxq hyq ha i0 i2 i4 i6 i22 i24 i222 hI hm
  have hVi : V⁻¹ * V = 1 := inv_mul_cancel₀ hV0
  refine rel_schemeOf hJ (by norm_num)
    [gZ n _, gFsd _ _ L1, gFsd _ _ L2, gFsd _ _ L11, gFsd _ _ L22, gFsd _ _ L111] rfl
    (ok_cons (gZ_ok _ _) (ok_cons (gFsd_ok _ h1) (ok_cons (gFsd_ok _ h2') (ok_cons (gFsd_ok _ h11)
      (ok_cons (gFsd_ok _ h22) (ok_cons (gFsd_ok _ h111) (ok_nil n))))))) ?_
  refine ⟨?_, fun _ _ => ?_, fun _ _ => ?_, fun _ _ => ?_, fun _ _ => ?_, fun _ _ => ?_,
    fun _ _ => ?_⟩
  all_goals ms_simp; rw [l1, l2, l3, l4, l5]; try simp only [r2, r4, r6, s2, s4, s6]
  all_goals push_cast
  · linear_combination V⁻¹ * k0 + hVi
  · linear_combination V⁻¹ * n * k3 + n * m2 * hVi
  · linear_combination V⁻¹ * n * k4 + n * m4 * hVi
  · linear_combination V⁻¹ * n * (n - 1) * k1 + n * (n - 1) * m22 * hVi
  · linear_combination V⁻¹ * n * k5 + n * m6 * hVi
  · linear_combination V⁻¹ * n * (n - 1) * k2 + n * (n - 1) * m42 * hVi
  · linear_combination V⁻¹ * n * (n - 1) * (n - 2) * k111 + n * (n - 1) * (n - 2) * m222 * hVi

/-- The linear equations that the numbers of `w9` solve. -/
theorem w9_spec (n : ℕ) (I : List ℕ → ℝ) {x y : ℝ} (hx : 0 < x) (hy : 0 < y) (hne : x ≠ y) {A : W9}
    (hA : A = w9 n I x y) :
    A.A1111 * (2 * x) ^ 4 = I [2, 2, 2, 2] ∧
    x ^ 3 * (8 * A.A111) + y ^ 3 * (8 * A.A222) =
      I [2, 2, 2] - 2 ^ 4 * (n - 3) * x ^ 3 * A.A1111 ∧
    x ^ 4 * (8 * A.A111) + y ^ 4 * (8 * A.A222) =
      I [2, 2, 4] - 2 ^ 4 * (n - 3) * x ^ 4 * A.A1111 ∧
    A.A12 * (2 ^ 2 * x * y * (x - y) ^ 2) = I [2, 6] - I [4, 4] ∧
    x ^ 3 * (4 * (A.A11 + 2 * (n - 2) * A.A111)) + y ^ 3 * (4 * (A.A22 + 2 * (n - 2) * A.A222)) =
      I [2, 4] - 2 ^ 2 * (x ^ 2 * y + x * y ^ 2) * A.A12 -
        2 ^ 4 * ((n - 2).choose 2) * x ^ 3 * A.A1111 ∧
    x ^ 4 * (4 * (A.A11 + 2 * (n - 2) * A.A111)) + y ^ 4 * (4 * (A.A22 + 2 * (n - 2) * A.A222)) =
      I [2, 6] - 2 ^ 2 * (x ^ 3 * y + x * y ^ 3) * A.A12 -
        2 ^ 4 * ((n - 2).choose 2) * x ^ 4 * A.A1111 ∧
    x * (2 * (A.A1 + 2 * (n - 1) * (A.A11 + A.A12) + 2 ^ 2 * ((n - 1).choose 2) * A.A111)) +
      y * (2 * (A.A2 + 2 * (n - 1) * (A.A22 + A.A12) + 2 ^ 2 * ((n - 1).choose 2) * A.A222)) =
      I [2] - 2 ^ 4 * ((n - 1).choose 3) * x * A.A1111 ∧
    x ^ 2 * (2 * (A.A1 + 2 * (n - 1) * (A.A11 + A.A12) + 2 ^ 2 * ((n - 1).choose 2) * A.A111)) +
      y ^ 2 * (2 * (A.A2 + 2 * (n - 1) * (A.A22 + A.A12) + 2 ^ 2 * ((n - 1).choose 2) * A.A222)) =
      I [4] - 2 ^ 4 * ((n - 1).choose 3) * x ^ 2 * A.A1111 ∧
    A.A0 = I [] - 2 * n * (A.A1 + A.A2) - 2 ^ 2 * (n.choose 2) * (A.A11 + 2 * A.A12 + A.A22) -
      2 ^ 3 * (n.choose 3) * (A.A111 + A.A222) - 2 ^ 4 * (n.choose 4) * A.A1111 := by
  have e1111 : A.A1111 = I [2, 2, 2, 2] / (2 * x) ^ 4 := by rw [hA]; rfl
  have e12 : A.A12 = (I [2, 6] - I [4, 4]) / (2 ^ 2 * x * y * (x - y) ^ 2) := by rw [hA]; rfl
  have e111 : A.A111 = 1 / 2 ^ 3 * (y ^ 4 / (x ^ 3 * y ^ 4 - y ^ 3 * x ^ 4) *
      (I [2, 2, 2] - 2 ^ 4 * (n - 3) * x ^ 3 * A.A1111) +
      -y ^ 3 / (x ^ 3 * y ^ 4 - y ^ 3 * x ^ 4) *
      (I [2, 2, 4] - 2 ^ 4 * (n - 3) * x ^ 4 * A.A1111)) := by rw [hA]; rfl
  have e222 : A.A222 = 1 / 2 ^ 3 * (-x ^ 4 / (x ^ 3 * y ^ 4 - y ^ 3 * x ^ 4) *
      (I [2, 2, 2] - 2 ^ 4 * (n - 3) * x ^ 3 * A.A1111) +
      x ^ 3 / (x ^ 3 * y ^ 4 - y ^ 3 * x ^ 4) *
      (I [2, 2, 4] - 2 ^ 4 * (n - 3) * x ^ 4 * A.A1111)) := by rw [hA]; rfl
  have e11 : A.A11 = -2 * (n - 2) * A.A111 + 1 / 4 * (y ^ 4 / (x ^ 3 * y ^ 4 - y ^ 3 * x ^ 4) *
      (I [2, 4] - 2 ^ 2 * (x ^ 2 * y + x * y ^ 2) * A.A12 -
        2 ^ 4 * ((n - 2).choose 2) * x ^ 3 * A.A1111) + -y ^ 3 / (x ^ 3 * y ^ 4 - y ^ 3 * x ^ 4) *
      (I [2, 6] - 2 ^ 2 * (x ^ 3 * y + x * y ^ 3) * A.A12 -
        2 ^ 4 * ((n - 2).choose 2) * x ^ 4 * A.A1111)) := by rw [hA]; rfl
  have e22 : A.A22 = -2 * (n - 2) * A.A222 + 1 / 4 * (-x ^ 4 / (x ^ 3 * y ^ 4 - y ^ 3 * x ^ 4) *
      (I [2, 4] - 2 ^ 2 * (x ^ 2 * y + x * y ^ 2) * A.A12 -
        2 ^ 4 * ((n - 2).choose 2) * x ^ 3 * A.A1111) + x ^ 3 / (x ^ 3 * y ^ 4 - y ^ 3 * x ^ 4) *
      (I [2, 6] - 2 ^ 2 * (x ^ 3 * y + x * y ^ 3) * A.A12 -
        2 ^ 4 * ((n - 2).choose 2) * x ^ 4 * A.A1111)) := by rw [hA]; rfl
  have e1 : A.A1 = -2 * (n - 1) * (A.A11 + A.A12) - 2 ^ 2 * ((n - 1).choose 2) * A.A111 +
      1 / 2 * (y ^ 2 / (x * y ^ 2 - y * x ^ 2) *
      (I [2] - 2 ^ 4 * ((n - 1).choose 3) * x * A.A1111) + -y / (x * y ^ 2 - y * x ^ 2) *
      (I [4] - 2 ^ 4 * ((n - 1).choose 3) * x ^ 2 * A.A1111)) := by rw [hA]; rfl
  have e2 : A.A2 = -2 * (n - 1) * (A.A22 + A.A12) - 2 ^ 2 * ((n - 1).choose 2) * A.A222 +
      1 / 2 * (-x ^ 2 / (x * y ^ 2 - y * x ^ 2) *
      (I [2] - 2 ^ 4 * ((n - 1).choose 3) * x * A.A1111) + x / (x * y ^ 2 - y * x ^ 2) *
      (I [4] - 2 ^ 4 * ((n - 1).choose 3) * x ^ 2 * A.A1111)) := by rw [hA]; rfl
  have e0 : A.A0 = I [] - 2 * n * (A.A1 + A.A2) -
      2 ^ 2 * (n.choose 2) * (A.A11 + 2 * A.A12 + A.A22) -
      2 ^ 3 * (n.choose 3) * (A.A111 + A.A222) - 2 ^ 4 * (n.choose 4) * A.A1111 := by rw [hA]; rfl
  clear hA
  have d1 := det_ne hx hy hne 3
  have d2 := det_ne hx hy hne 1
  simp only [pow_one, Nat.reduceAdd] at d1 d2
  have hxy : x - y ≠ 0 := sub_ne_zero.2 hne
  obtain ⟨k1, k2⟩ := cramer (p := 8 * A.A111) (r := 8 * A.A222)
    (v0 := I [2, 2, 2] - 2 ^ 4 * (n - 3) * x ^ 3 * A.A1111)
    (v1 := I [2, 2, 4] - 2 ^ 4 * (n - 3) * x ^ 4 * A.A1111) rfl d1
    (by linear_combination 8 * e111) (by linear_combination 8 * e222)
  obtain ⟨k3, k4⟩ := cramer (p := 4 * (A.A11 + 2 * (n - 2) * A.A111))
    (r := 4 * (A.A22 + 2 * (n - 2) * A.A222))
    (v0 := I [2, 4] - 2 ^ 2 * (x ^ 2 * y + x * y ^ 2) * A.A12 -
        2 ^ 4 * ((n - 2).choose 2) * x ^ 3 * A.A1111)
    (v1 := I [2, 6] - 2 ^ 2 * (x ^ 3 * y + x * y ^ 3) * A.A12 -
        2 ^ 4 * ((n - 2).choose 2) * x ^ 4 * A.A1111) rfl d1 (by linear_combination 4 * e11)
    (by linear_combination 4 * e22)
  obtain ⟨k5, k6⟩ := cramer
    (p := 2 * (A.A1 + 2 * (n - 1) * (A.A11 + A.A12) + 2 ^ 2 * ((n - 1).choose 2) * A.A111))
    (r := 2 * (A.A2 + 2 * (n - 1) * (A.A22 + A.A12) + 2 ^ 2 * ((n - 1).choose 2) * A.A222))
    (v0 := I [2] - 2 ^ 4 * ((n - 1).choose 3) * x * A.A1111)
    (v1 := I [4] - 2 ^ 4 * ((n - 1).choose 3) * x ^ 2 * A.A1111) rfl d2
    (by linear_combination 2 * e1) (by linear_combination 2 * e2)
  refine ⟨?_, k1, k2, ?_, k3, k4, k5, k6, e0⟩
  · rw [e1111]; field_simp
  · rw [e12]; field_simp

set_option maxHeartbeats 1600000 in
theorem ms9_rel {n : ℕ} (hn : 4 ≤ n) {J : Spec.Functional n} {I : List ℕ → ℝ}
    (hI : IsIntegrator n J I) {m2 m4 m22 m6 m42 m222 m8 m62 m44 m422 m2222 : ℝ}
    (hJ : RelMom9 J m2 m4 m22 m6 m42 m222 m8 m62 m44 m422 m2222)
    (hV : 0 < J (fun _ => 1)) (h2 : 0 < m2) (h4 : 0 < m4) (H3 : m4 ^ 2 < m2 * m6)
    (H4 : m6 ^ 2 < m4 * m8) (sw : Bool) :
    ∃ S, ms9 n I sw = some S ∧ S.degree = 9 ∧
      ((m4 ^ 2 - m2 * m6) * m62 - (m4 * m6 - m2 * m8) * m42 + (m6 ^ 2 - m4 * m8) * m22 = 0 →
        S.ExactRel n J) ∧
      ∀ a b : Fin n, a ≠ b → (m6 ^ 2 - m4 * m8) *
        (dot n S.weights S.points (mono (e2 a b 2 2)) - m22) =
        -((m4 ^ 2 - m2 * m6) * m62 - (m4 * m6 - m2 * m8) * m42 + (m6 ^ 2 - m4 * m8) * m22) := by
  obtain ⟨M, hl, hm, hs⟩ := id hJ
  obtain ⟨i2, i4, i6⟩ := int2 hI hm hs.toSymMom (by omega)
  obtain ⟨i22, i24⟩ := int22 hI hm hs.toSymMom (by omega)
  have i222 := int222 hI hm hs.toSymMom (by omega)
  obtain ⟨i8, i26, i44, i224, i2222⟩ := int9 hI hm hs hn
  have i0 := int0 hI
  have c2 := choose2 n
  have c3 := choose3 n
  have c4 := choose4 n
  have c2' : ((n - 1).choose 2 : ℝ) = (n - 1) * (n - 2) / 2 := by
    rw [choose2, Nat.cast_sub (by omega)]; push_cast; ring
  have c2'' : ((n - 2).choose 2 : ℝ) = (n - 2) * (n - 3) / 2 := by
    rw [choose2, Nat.cast_sub (by omega)]; push_cast; ring
  have c3' : ((n - 1).choose 3 : ℝ) = (n - 1) * (n - 2) * (n - 3) / 6 := by
    rw [choose3, Nat.cast_sub (by omega)]; push_cast; ring
  have hn' : (4 : ℝ) ≤ n := by exact_mod_cast hn
  simp only [ms9]
  generalize hVe : J (fun _ => 1) = V at *
  have hV0 : V ≠ 0 := hV.ne'
  have hm6 : 0 < m6 := pos_of_mul_pos_right (lt_of_le_of_lt (sq_nonneg m4) H3) h2.le
  obtain ⟨q, hq, hpair⟩ := roots_pair (m0 := I [2]) (m1 := I [4]) (m2 := I [6]) (m3 := I [8])
    (by rw [i2]; positivity) (by rw [i4]; positivity) (by rw [i6]; positivity)
    (by rw [i2, i4, i6]; exact scale_lt hV H3) (by rw [i4, i6, i8]; exact scale_lt hV H4) sw
  simp only [hq, guard, hn, if_true, Option.bind_eq_bind, Option.bind_some, Option.pure_def]
  obtain ⟨x, hx⟩ : ∃ x, x = if sw then (I [4] * I [6] - I [2] * I [8] - q) / (2 * (I [4] ^ 2 - I [2] * I [6]))
    else (I [4] * I [6] - I [2] * I [8] + q) / (2 * (I [4] ^ 2 - I [2] * I [6])) := ⟨_, rfl⟩
  obtain ⟨y, hy⟩ : ∃ y, y = if sw then (I [4] * I [6] - I [2] * I [8] + q) / (2 * (I [4] ^ 2 - I [2] * I [6]))
    else (I [4] * I [6] - I [2] * I [8] - q) / (2 * (I [4] ^ 2 - I [2] * I [6])) := ⟨_, rfl⟩
  rw [← hx, ← hy] at hpair
  simp only [← hx, ← hy]
  obtain ⟨hx0, hy0, hne, hxq, hyq⟩ := hpair
  clear hx hy hq
  simp only [ms9Of]
  rw [sqrtO_some hx0.le, sqrtO_some hy0.le]
  obtain ⟨L1, h1⟩ := fsd_some (k := 1) (n := n) (by omega) (√x)
  obtain ⟨L2, h2'⟩ := fsd_some (k := 1) (n := n) (by omega) (√y)
  obtain ⟨L11, h11⟩ := fsd_some (k := 2) (n := n) (by omega) (√x)
  obtain ⟨L12, h12⟩ := fsd_some2 (k := 1) (l := 1) (n := n) (by omega) (√x) (√y)
  obtain ⟨L22, h22'⟩ := fsd_some (k := 2) (n := n) (by omega) (√y)
  obtain ⟨L111, h111⟩ := fsd_some (k := 3) (n := n) (by omega) (√x)
  obtain ⟨L222, h222⟩ := fsd_some (k := 3) (n := n) (by omega) (√y)
  obtain ⟨L1111, h1111⟩ := fsd_some (k := 4) (n := n) (by omega) (√x)
  have l1 := fsd1_len h1
  have l2 := fsd1_len h2'
  have l3 := fsd2_len h11
  have l4 := fsd11_len h12
  have l5 := fsd2_len h22'
  have l6 := fsd3_len h111
  have l7 := fsd3_len h222
  have l8 := fsd4_len h1111
  have r2 : √x ^ 2 = x := Real.sq_sqrt hx0.le
  have r4 : √x ^ 4 = x ^ 2 := by rw [show (4 : ℕ) = 2 * 2 by rfl, pow_mul, r2]
  have r6 : √x ^ 6 = x ^ 3 := by rw [show (6 : ℕ) = 2 * 3 by rfl, pow_mul, r2]
  have r8 : √x ^ 8 = x ^ 4 := by rw [show (8 : ℕ) = 2 * 4 by rfl, pow_mul, r2]
  have s2 : √y ^ 2 = y := Real.sq_sqrt hy0.le
  have s4 : √y ^ 4 = y ^ 2 := by rw [show (4 : ℕ) = 2 * 2 by rfl, pow_mul, s2]
  have s6 : √y ^ 6 = y ^ 3 := by rw [show (6 : ℕ) = 2 * 3 by rfl, pow_mul, s2]
  have s8 : √y ^ 8 = y ^ 4 := by rw [show (8 : ℕ) = 2 * 4 by rfl, pow_mul, s2]
  refine ⟨_, by simp only [Option.bind_eq_bind, Option.pure_def, Option.bind_some, h1, h2', h11, h12, h22', h111, h222, h1111]; rfl, rfl, ?_⟩
  rw [schemeOf_div]
  obtain ⟨A, hA⟩ : ∃ A, A = w9 n I x y := ⟨_, rfl⟩
  obtain ⟨k1111, k1, k2, k12, k3, k4, k5, k6, k0⟩ := w9_spec n I hx0 hy0 hne hA
  rw [← hA, i0]
  rw [i2222] at k1111; rw [i222] at k1; rw [i224] at k2; rw [i26, i44] at k12
  rw [i24, c2''] at k3; rw [i26, c2''] at k4
  rw [i2, c3', c2'] at k5; rw [i4, c3', c2'] at k6
  rw [i0, c2, c3, c4] at k0
  rw [i2, i4, i6, i8] at hxq hyq
  clear hA i0 i2 i4 i6 i8 i22 i24 i26 i44 i222 i224 i2222 hI hm c2 c3 c4 c2' c2'' c3'
  obtain ⟨P, hP⟩ : ∃ P, P = 2 * (A.A1 + 2 * (n - 1) * (A.A11 + A.A12) +
    2 ^ 2 * ((n - 1) * (n - 2) / 2) * A.A111) + 2 ^ 4 * ((n - 1) * (n - 2) * (n - 3) / 6) * A.A1111 :=
    ⟨_, rfl⟩
  obtain ⟨R, hR⟩ : ∃ R, R = 2 * (A.A2 + 2 * (n - 1) * (A.A22 + A.A12) +
    2 ^ 2 * ((n - 1) * (n - 2) / 2) * A.A222) := ⟨_, rfl⟩
  obtain ⟨p, hp⟩ : ∃ p, p = 4 * (A.A11 + 2 * (n - 2) * A.A111) +
    2 ^ 4 * ((n - 2) * (n - 3) / 2) * A.A1111 := ⟨_, rfl⟩
  obtain ⟨r, hr⟩ : ∃ r, r = 4 * (A.A22 + 2 * (n - 2) * A.A222) := ⟨_, rfl⟩
  have k3' : p * x ^ 3 + r * y ^ 3 + 4 * (x ^ 2 * y + x * y ^ 2) * A.A12 = V * m42 := by
    rw [hp, hr]; linear_combination k3
  have k4' : p * x ^ 4 + r * y ^ 4 + 4 * (x ^ 3 * y + x * y ^ 3) * A.A12 = V * m62 := by
    rw [hp, hr]; linear_combination k4
  have k5' : P * x + R * y = V * m2 := by rw [hP, hR]; linear_combination k5
  have k6' : P * x ^ 2 + R * y ^ 2 = V * m4 := by rw [hP, hR]; linear_combination k6
  clear k3 k4 k5 k6
  -- the quadratic that `x` and `y` solve
  have hx2 : (m4 ^ 2 - m2 * m6) * x ^ 2 - (m4 * m6 - m2 * m8) * x + (m6 ^ 2 - m4 * m8) = 0 := by
    apply mul_left_cancel₀ (pow_ne_zero 2 hV0); linear_combination hxq
  have hy2 : (m4 ^ 2 - m2 * m6) * y ^ 2 - (m4 * m6 - m2 * m8) * y + (m6 ^ 2 - m4 * m8) = 0 := by
    apply mul_left_cancel₀ (pow_ne_zero 2 hV0); linear_combination hyq
  have ha : m4 ^ 2 - m2 * m6 ≠ 0 := (sub_neg.2 H3).ne
  have hc : m6 ^ 2 - m4 * m8 ≠ 0 := (sub_neg.2 H4).ne
  clear hxq hyq
  have k7 : P * x ^ 3 + R * y ^ 3 = V * m6 := by
    apply mul_left_cancel₀ ha
    linear_combination P * x * hx2 + R * y * hy2 + (m4 * m6 - m2 * m8) * k6' -
      (m6 ^ 2 - m4 * m8) * k5'
  have k8 : P * x ^ 4 + R * y ^ 4 = V * m8 := by
    apply mul_left_cancel₀ ha
    linear_combination P * x ^ 2 * hx2 + R * y ^ 2 * hy2 + (m4 * m6 - m2 * m8) * k7 -
      (m6 ^ 2 - m4 * m8) * k6'
  obtain ⟨E, hE⟩ : ∃ E, E = (m4 ^ 2 - m2 * m6) * m62 - (m4 * m6 - m2 * m8) * m42 +
    (m6 ^ 2 - m4 * m8) * m22 := ⟨_, rfl⟩
  have k9' : (m6 ^ 2 - m4 * m8) * (p * x ^ 2 + r * y ^ 2 + 8 * x * y * A.A12 - V * m22) = -V * E := by
    rw [hE]
    linear_combination p * x ^ 2 * hx2 + r * y ^ 2 * hy2 + (m4 * m6 - m2 * m8) * k3' -
      (m4 ^ 2 - m2 * m6) * k4' + 4 * x * y * A.A12 * (hx2 + hy2)
  have hVi : V⁻¹ * V = 1 := inv_mul_cancel₀ hV0
  subst hP hR hp hr
  obtain ⟨gs, hgs⟩ : ∃ gs : List Grp9, gs =
    [gZ9 n (A.A0 / V), gFsd9 (A.A1 / V) [(√x, 1)] L1, gFsd9 (A.A2 / V) [(√y, 1)] L2,
      gFsd9 (A.A11 / V) [(√x, 2)] L11, gFsd9 (A.A12 / V) [(√x, 1), (√y, 1)] L12,
      gFsd9 (A.A22 / V) [(√y, 2)] L22, gFsd9 (A.A111 / V) [(√x, 3)] L111,
      gFsd9 (A.A222 / V) [(√y, 3)] L222, gFsd9 (A.A1111 / V) [(√x, 4)] L1111] := ⟨_, rfl⟩
  have hok : ∀ g ∈ gs, g.Ok n := by
    rw [hgs]
    simp only [List.forall_mem_cons, List.not_mem_nil, IsEmpty.forall_iff, implies_true, and_true]
    exact ⟨gZ9_ok _ _, gFsd9_ok _ h1, gFsd9_ok _ h2', gFsd9_ok _ h11, gFsd9_ok _ h12,
      gFsd9_ok _ h22', gFsd9_ok _ h111, gFsd9_ok _ h222, gFsd9_ok _ h1111⟩
  have hdata : List.map (fun g => (g.1 / V, g.2)) [(A.A0, z n), (A.A1, L1), (A.A2, L2), (A.A11, L11),
      (A.A12, L12), (A.A22, L22), (A.A111, L111), (A.A222, L222), (A.A1111, L1111)] =
      gs.map fun g => (g.w, g.L) := by rw [hgs]; rfl
  have g22 : gsum9 gs (fun g => g.p2 * g.p2 - g.p4) = n * (n - 1) * V⁻¹ *
      ((4 * (A.A11 + 2 * (n - 2) * A.A111) + 2 ^ 4 * ((n - 2) * (n - 3) / 2) * A.A1111) * x ^ 2 +
        4 * (A.A22 + 2 * (n - 2) * A.A222) * y ^ 2 + 8 * x * y * A.A12) := by
    rw [hgs]
    ms_simp
    rw [l1, l2, l3, l4, l5, l6, l7, l8]
    simp only [r2, r4, s2, s4]
    push_cast
    ring
  refine ⟨fun h22 => schemeOf_exact9 hJ gs hdata hok ?_, ?_⟩
  swap
  · intro a b hab
    have hdata' : List.map (fun g => (g.1 / V, g.2)) [(A.A0, z n), (A.A1, L1), (A.A2, L2),
        (A.A11, L11), (A.A12, L12), (A.A22, L22), (A.A111, L111), (A.A222, L222),
        (A.A1111, L1111)] = (gs.map Grp9.toGrp).map fun g => (g.w, g.L) := by
      rw [hdata, List.map_map]; rfl
    simp only [schemeOf]
    rw [untangle_groups n _ _ hdata', ← hE]
    have e := gsum9_eq gs (e2 a b 2 2) (fun g => g.p2 * g.p2 - g.p4) ((n : ℝ) * (n - 1)) fun g hg =>
      (hok g hg).fs.mom2 (hok g hg).h2 (hok g hg).h2 (hok g hg).h4 hab
    rw [g22] at e
    have hnn : (n : ℝ) * (n - 1) ≠ 0 := mul_ne_zero (by linarith) (by linarith)
    have e' := mul_left_cancel₀ hnn (e.trans (mul_assoc _ _ _))
    rw [List.map_map]
    change (m6 ^ 2 - m4 * m8) * ((gs.map fun g => g.w * osum n g.L (mono (e2 a b 2 2))).sum - m22) =
      -E
    rw [e']
    linear_combination V⁻¹ * k9' + ((m6 ^ 2 - m4 * m8) * m22 - E) * hVi
  rw [← hE] at h22
  have k9 := k9'
  rw [h22, mul_zero] at k9
  have k9 := (mul_eq_zero.1 k9).resolve_left hc
  rw [hgs] at g22 ⊢
  clear h1 h2' h11 h12 h22' h111 h222 h1111 hJ hs hl hx2 hy2 ha hc h22 hgs hok hdata
  refine ⟨⟨?_, fun _ _ => ?_, fun _ _ => ?_, fun _ _ => ?_, fun _ _ => ?_, fun _ _ => ?_,
    fun _ _ => ?_⟩, ?_, ?_, ?_, ?_, ?_⟩
  all_goals
    ms_simp; rw [l1, l2, l3, l4, l5, l6, l7, l8]
    try simp only [r2, r4, r6, r8, s2, s4, s6, s8]
  all_goals push_cast
  · linear_combination V⁻¹ * k0 + hVi
  · linear_combination V⁻¹ * n * k5' + n * m2 * hVi
  · linear_combination V⁻¹ * n * k6' + n * m4 * hVi
  · linear_combination V⁻¹ * n * (n - 1) * k9 + n * (n - 1) * m22 * hVi
  · linear_combination V⁻¹ * n * k7 + n * m6 * hVi
  · linear_combination V⁻¹ * n * (n - 1) * k3' + n * (n - 1) * m42 * hVi
  · linear_combination V⁻¹ * n * (n - 1) * (n - 2) * k1 + n * (n - 1) * (n - 2) * m222 * hVi
  · linear_combination V⁻¹ * n * k8 + n * m8 * hVi
  · linear_combination V⁻¹ * n * (n - 1) * k4' + n * (n - 1) * m62 * hVi
  · linear_combination V⁻¹ * n * (n - 1) * (k4' - k12) + n * (n - 1) * m44 * hVi
  · linear_combination V⁻¹ * n * (n - 1) * (n - 2) * k2 + n * (n - 1) * (n - 2) * m422 * hVi
  · linear_combination V⁻¹ * n * (n - 1) * (n - 2) * (n - 3) * k1111 +
      n * (n - 1) * (n - 2) * (n - 3) * m2222 * hVi

end McNameeStenger
end Quadpy
