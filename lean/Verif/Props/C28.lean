/-
C28: Dobrodeev's equal-weight construction gives a rule of degree 5 for every fully symmetric
functional, whenever its radicands are nonnegative; on the sphere the radicand `F` is zero.
-/
import Verif.Lemmas.Rel
import Verif.Lemmas.Radii
import Verif.Props.C15
import Verif.Model.Dobrodeev

namespace Quadpy
open Finset

/-! Helper lemmas. -/

theorem dobM_pos {n j k : ℕ} (h : j + k ≤ n) : 0 < dobM n j k := by
  have h1 : j.factorial * k.factorial * (n - j - k).factorial ≤ n.factorial := by
    refine Nat.le_of_dvd (Nat.factorial_pos n) ?_
    have a := Nat.factorial_mul_factorial_dvd_factorial_add j k
    have b := Nat.factorial_mul_factorial_dvd_factorial_add (j + k) (n - (j + k))
    rw [show j + k + (n - (j + k)) = n by omega, show n - (j + k) = n - j - k by omega] at b
    exact (Nat.mul_dvd_mul_right a _).trans b
  exact Nat.mul_pos (Nat.div_pos h1 (by positivity)) (by positivity)

theorem dobM_len {n j k : ℕ} (h : j + k ≤ n) {b c : ℝ} {L : List (List ℝ)}
    (hL : fsd n [(b, j), (c, k)] = some L) : L.length = dobM n j k := by
  have := C01_fsd_length hL
  simp only [List.map_cons, List.map_nil, List.prod_cons, List.prod_nil, List.sum_cons,
    List.sum_nil, mul_one, add_zero] at this
  have hd : j.factorial * k.factorial * (n - j - k).factorial ∣ n.factorial := by
    have a := Nat.factorial_mul_factorial_dvd_factorial_add j k
    have b := Nat.factorial_mul_factorial_dvd_factorial_add (j + k) (n - (j + k))
    rw [show j + k + (n - (j + k)) = n by omega, show n - (j + k) = n - j - k by omega] at b
    exact (Nat.mul_dvd_mul_right a _).trans b
  rw [← Nat.sub_sub] at this
  have hp : 0 < j.factorial * k.factorial * (n - j - k).factorial := by positivity
  refine Nat.eq_of_mul_eq_mul_left hp ?_
  rw [this, dobM, ← mul_assoc, Nat.mul_div_cancel' hd]

theorem dobL_len {n i : ℕ} (h : i ≤ n) {a : ℝ} {L : List (List ℝ)}
    (hL : fsd n [(a, i)] = some L) : L.length = dobL n i := by
  have := C01_fsd_length hL
  simp only [List.map_cons, List.map_nil, List.prod_cons, List.prod_nil, List.sum_cons,
    List.sum_nil, mul_one, add_zero] at this
  have hp : 0 < i.factorial * (n - i).factorial := by positivity
  refine Nat.eq_of_mul_eq_mul_left hp ?_
  rw [this, dobL, ← Nat.choose_mul_factorial_mul_factorial h]; ring

theorem dobL_pos {n i : ℕ} (h : i ≤ n) : 0 < dobL n i :=
  Nat.mul_pos (Nat.choose_pos h) (by positivity)

theorem sqrt_ratio {x y F : ℝ} (hx : 0 < x) (hy : 0 < y) : x * √(y / x * F) = y * √(x / y * F) := by
  have h1 : y / x * F = (y / x) ^ 2 * (x / y * F) := by field_simp
  rw [h1, Real.sqrt_mul (by positivity), Real.sqrt_sq (by positivity)]
  field_simp

theorem radicand_ratio {x y F : ℝ} (hx : 0 < x) (hy : 0 < y) (h : 0 ≤ x / y * F) : 0 ≤ y / x * F := by
  have h1 : y / x * F = (y / x) ^ 2 * (x / y * F) := by field_simp
  rw [h1]; positivity

/-- The equations solved by Dobrodeev's radii. -/
theorem dob_conds {n : ℕ} {J : Spec.Functional n} {m2 m4 m22 m6 m42 m222 : ℝ}
    (hJ : RelMom J m2 m4 m22 m6 m42 m222) {i j k : ℕ} (hi : 1 ≤ i) (hin : i ≤ n) (hj : 1 ≤ j)
    (hk : 1 ≤ k) (hjk : j + k ≤ n) {G a b c A B P R t Q F : ℝ} {L1 L2 : List (List ℝ)}
    (h1 : fsd n [(a, i)] = some L1) (h2 : fsd n [(b, j), (c, k)] = some L2)
    (hG : G = 1 / ((dobL n i : ℝ) + dobM n j k))
    (ha : a ^ 2 = n / i * (m2 + t * A)) (hb : b ^ 2 = n / ((j : ℝ) + k) * (m2 - t * B + t * P))
    (hc : c ^ 2 = n / ((j : ℝ) + k) * (m2 - t * B - t * R)) (ht : t ^ 2 = 1)
    (hAB : (dobL n i : ℝ) * A = dobM n j k * B) (hB : (dobM n j k : ℝ) * B ^ 2 = dobL n i * F)
    (hPR : (j : ℝ) * P = k * R) (hP : (j : ℝ) * P ^ 2 = k * Q)
    (hF : F = m22 - m2 ^ 2 + (m4 - m22) / n)
    (hQ : (dobM n j k : ℝ) * Q = dobL n i * (-((j : ℝ) + k - i) / i * m2 ^ 2 +
      ((j : ℝ) + k - 1) / n * m4 - ((n : ℝ) - 1) / n * m22) +
      dobM n j k * (1 / i * (((j : ℝ) + k - i) * m2 ^ 2 +
        ((j : ℝ) + k) / n * (((i : ℝ) - 1) * m4 - ((n : ℝ) - 1) * m22))) -
      dobM n j k * (2 * t * m2 * ((j : ℝ) + k - i) / i * B)) :
    (schemeOf n [(G, L1), (G, L2)] 5).ExactRel n J := by
  have l1 : (L1.length : ℝ) = dobL n i := by rw [dobL_len hin h1]
  have l2 : (L2.length : ℝ) = dobM n j k := by rw [dobM_len hjk h2]
  have pL : (0 : ℝ) < dobL n i := by exact_mod_cast dobL_pos hin
  have pM : (0 : ℝ) < dobM n j k := by exact_mod_cast dobM_pos hjk
  have ri : (0 : ℝ) < i := by exact_mod_cast hi
  have rj : (0 : ℝ) < j := by exact_mod_cast hj
  have rk : (0 : ℝ) < k := by exact_mod_cast hk
  have rn : (0 : ℝ) < n := by exact_mod_cast (by omega : 0 < n)
  have a4 : a ^ 4 = (n / i * (m2 + t * A)) ^ 2 := by rw [← ha]; ring
  have b4 : b ^ 4 = (n / ((j : ℝ) + k) * (m2 - t * B + t * P)) ^ 2 := by rw [← hb]; ring
  have c4 : c ^ 4 = (n / ((j : ℝ) + k) * (m2 - t * B - t * R)) ^ 2 := by rw [← hc]; ring
  have hA : (dobL n i : ℝ) * A ^ 2 = dobM n j k * F := by
    have : (dobL n i : ℝ) * (dobL n i * A ^ 2 - dobM n j k * F) = 0 := by
      linear_combination (dobL n i * A + dobM n j k * B) * hAB + dobM n j k * hB
    rcases mul_eq_zero.mp this with h | h
    · exact absurd h pL.ne'
    · linarith
  have hR : (k : ℝ) * R ^ 2 = j * Q := by
    have : (k : ℝ) * (k * R ^ 2 - j * Q) = 0 := by
      linear_combination (-(j * P + k * R)) * hPR + j * hP
    rcases mul_eq_zero.mp this with h | h
    · exact absurd h rk.ne'
    · linarith
  generalize (dobL n i : ℝ) = L at *
  generalize (dobM n j k : ℝ) = M at *
  have hLM : L + M ≠ 0 := by positivity
  have hs : (j : ℝ) + k ≠ 0 := by positivity
  -- second moment
  have E2 : L * (i * a ^ 2) + M * (j * b ^ 2 + k * c ^ 2) = (L + M) * (n * m2) := by
    rw [ha, hb, hc]
    have e1 : (i : ℝ) * (n / i * (m2 + t * A)) = n * (m2 + t * A) := by field_simp
    have e2 : (j : ℝ) * (n / (j + k) * (m2 - t * B + t * P)) + k * (n / (j + k) * (m2 - t * B - t * R)) =
        n * (m2 - t * B) := by
      have : (j : ℝ) * (n / (j + k) * (m2 - t * B + t * P)) + k * (n / (j + k) * (m2 - t * B - t * R)) =
        n / (j + k) * ((j + k) * (m2 - t * B) + t * (j * P - k * R)) := by ring
      rw [this, hPR]; field_simp; ring
    rw [e1, e2]
    linear_combination (n * t) * hAB
  have E4 : L * (i * a ^ 4) + M * (j * b ^ 4 + k * c ^ 4) = (L + M) * (n * m4) := by
    rw [a4, b4, c4]
    have e1 : (i : ℝ) * (n / i * (m2 + t * A)) ^ 2 = n ^ 2 / i * (m2 + t * A) ^ 2 := by field_simp
    have e2 : (j : ℝ) * (n / (j + k) * (m2 - t * B + t * P)) ^ 2 +
        k * (n / (j + k) * (m2 - t * B - t * R)) ^ 2 =
        n ^ 2 / (j + k) * ((m2 - t * B) ^ 2 + Q) := by
      have : (j : ℝ) * (n / (j + k) * (m2 - t * B + t * P)) ^ 2 +
        k * (n / (j + k) * (m2 - t * B - t * R)) ^ 2 =
        (n / (j + k)) ^ 2 * ((j + k) * (m2 - t * B) ^ 2 + 2 * t * (m2 - t * B) * (j * P - k * R) +
          t ^ 2 * (j * P ^ 2 + k * R ^ 2)) := by ring
      rw [this, hPR, hP, hR, ht]; field_simp; ring
    rw [e1, e2]
    have hF' : (n : ℝ) * F = n * (m22 - m2 ^ 2) + (m4 - m22) := by rw [hF]; field_simp
    have hQ' : (i : ℝ) * n * (M * Q) = L * (-((j : ℝ) + k - i) * n * m2 ^ 2 +
        i * ((j : ℝ) + k - 1) * m4 - i * ((n : ℝ) - 1) * m22) +
        M * (((j : ℝ) + k - i) * n * m2 ^ 2 + ((j : ℝ) + k) * (((i : ℝ) - 1) * m4 - ((n : ℝ) - 1) * m22)) -
        M * (2 * t * m2 * ((j : ℝ) + k - i) * n * B) := by
      rw [hQ]; field_simp
    have key : n * (((j : ℝ) + k) * L * (m2 + t * A) ^ 2 + i * M * ((m2 - t * B) ^ 2 + Q)) =
        i * (j + k) * ((L + M) * m4) := by
      linear_combination hQ' + (n * (j + k) * 2 * m2 * t) * hAB +
        (n * ((j + k) * L * A ^ 2 + i * M * B ^ 2)) * ht + n * (j + k) * hA
        + n * i * hB + ((j + k) * M + i * L) * hF'
    have : L * ((n : ℝ) ^ 2 / i * (m2 + t * A) ^ 2) + M * (n ^ 2 / (j + k) * ((m2 - t * B) ^ 2 + Q)) =
        n / (i * (j + k)) * (n * (((j : ℝ) + k) * L * (m2 + t * A) ^ 2 + i * M * ((m2 - t * B) ^ 2 + Q))) := by
      field_simp
    rw [this, key]; field_simp
  have E22 : L * (i * a ^ 2) ^ 2 + M * (j * b ^ 2 + k * c ^ 2) ^ 2 =
      (L + M) * (n * m4 + n * (n - 1) * m22) := by
    rw [ha, hb, hc]
    have e1 : (i : ℝ) * (n / i * (m2 + t * A)) = n * (m2 + t * A) := by field_simp
    have e2 : (j : ℝ) * (n / (j + k) * (m2 - t * B + t * P)) + k * (n / (j + k) * (m2 - t * B - t * R)) =
        n * (m2 - t * B) := by
      have : (j : ℝ) * (n / (j + k) * (m2 - t * B + t * P)) + k * (n / (j + k) * (m2 - t * B - t * R)) =
        n / (j + k) * ((j + k) * (m2 - t * B) + t * (j * P - k * R)) := by ring
      rw [this, hPR]; field_simp; ring
    rw [e1, e2]
    have hF' : (n : ℝ) * F = n * (m22 - m2 ^ 2) + (m4 - m22) := by rw [hF]; field_simp
    linear_combination (n ^ 2 * 2 * m2 * t) * hAB + (n ^ 2 * (L * A ^ 2 + M * B ^ 2)) * ht + n ^ 2 * hA
      + n ^ 2 * hB + (n * (L + M)) * hF'
  refine rel_schemeOf hJ (by norm_num) [gFsd _ _ L1, gFsd _ _ L2] rfl
    (ok_cons (gFsd_ok _ h1) (ok_cons (gFsd_ok _ h2) (ok_nil n))) ?_
  refine ⟨?_, fun _ _ => ?_, fun _ _ => ?_, fun _ _ => ?_, by omega, by omega, by omega⟩
  all_goals rel_simp; rw [l1, l2, hG]
  · field_simp
  · field_simp; linear_combination E2
  · field_simp; linear_combination E4
  · field_simp; linear_combination E22 - E4

theorem sqrtO_iff {x y : ℝ} : sqrtO x = some y ↔ 0 ≤ x ∧ y = √x := by
  unfold sqrtO; split_ifs with h <;> simp [h, eq_comm]

/-! The construction. -/

/-- C28: whenever the construction returns, its two orbits form a rule of degree 5 for every fully
symmetric functional with the moments it was given. -/
theorem C28_compute_dobrodeev {n : ℕ} {J : Spec.Functional n} {m2 m4 m22 m6 m42 m222 I0 : ℝ}
    (hJ : RelMom J m2 m4 m22 m6 m42 m222) (h0 : I0 ≠ 0) (ty : Bool) {i j k : ℕ} (hi : 1 ≤ i)
    (hin : i ≤ n) (hj : 1 ≤ j) (hk : 1 ≤ k) {g : ℝ × ℝ × ℝ × ℝ}
    (hg : computeDobrodeev n I0 (I0 * m2) (I0 * m22) (I0 * m4) ty i j k = some g) :
    ∃ S, dobScheme n i j k g = some S ∧ S.degree = 5 ∧ S.ExactRel n J ∧
      ∀ w ∈ S.weights, w = 1 / ((dobL n i : ℝ) + dobM n j k) := by
  by_cases hjk : j + k ≤ n
  swap
  · simp [computeDobrodeev, hjk] at hg
  have pL : (0 : ℝ) < dobL n i := by exact_mod_cast dobL_pos hin
  have pM : (0 : ℝ) < dobM n j k := by exact_mod_cast dobM_pos hjk
  have rj : (0 : ℝ) < j := by exact_mod_cast hj
  have rk : (0 : ℝ) < k := by exact_mod_cast hk
  simp only [computeDobrodeev, hjk, guard_true, Option.bind_eq_bind, Option.bind_eq_some_iff,
    Option.pure_def, Option.some.injEq, sqrtO_iff] at hg
  obtain ⟨_, _, rLM, ⟨pB, hB⟩, rML, ⟨pA, hA⟩, rkj, ⟨pP, hP⟩, rjk, ⟨pR, hR⟩, a, ⟨pa, ha⟩, b, ⟨pb, hb⟩,
    c, ⟨pc, hc⟩, rfl⟩ := hg
  obtain ⟨L1, h1⟩ := fsd_some hin a
  obtain ⟨L2, h2⟩ := fsd_some2 hjk b c
  refine ⟨_, by simp only [dobScheme, h1, h2, Option.bind_eq_bind, Option.bind_some]; rfl, rfl, ?_, ?_⟩
  · have e2 : I0 * m2 / I0 = m2 := by field_simp
    have hs2 : ∀ {x y : ℝ}, 0 ≤ x → y = √x → y ^ 2 = x := fun h e => by rw [e, Real.sq_sqrt h]
    have ri : (0 : ℝ) < i := by exact_mod_cast hi
    have rn : (0 : ℝ) < n := by exact_mod_cast (by omega : 0 < n)
    rw [e2] at ha hb hc pa pb pc
    refine dob_conds hJ hi hin hj hk hjk h1 h2 rfl (hs2 pa ha) (hs2 pb hb) (hs2 pc hc) ?_ ?_ ?_ ?_
      (Q := dobL n i / dobM n j k * dobR n I0 (I0 * m2) (I0 * m22) (I0 * m4) i j k +
        dobH n I0 (I0 * m2) (I0 * m22) (I0 * m4) i j k -
        (if ty = true then 1 else -1) * 2 * (I0 * m2) / I0 * ((j : ℝ) + k - i) / i * rLM)
      (F := dobF n I0 (I0 * m2) (I0 * m22) (I0 * m4)) ?_ ?_ ?_
    · cases ty <;> norm_num
    · rw [hA, hB]; exact sqrt_ratio pL pM
    · rw [hs2 pB hB]; field_simp
    · rw [hP, hR]; exact sqrt_ratio rj rk
    · rw [hs2 pP hP]; field_simp
    · rw [dobF]; field_simp
    · rw [dobR, dobH]; field_simp
  · intro w hw
    simp only [schemeOf, untangle, List.map_cons, List.map_nil, List.flatten_cons, List.flatten_nil,
      List.append_nil, List.mem_append, List.mem_replicate] at hw
    tauto

/-! The moments. -/

theorem expo2_zero {n : ℕ} : (expo2 0 0 : Fin n → ℕ) = 0 := by
  funext a; simp [expo2]

theorem expo2_one {n : ℕ} (hn : 0 < n) (k : ℕ) : (expo2 k 0 : Fin n → ℕ) = e1 ⟨0, hn⟩ k := by
  funext a; simp [expo2, e1, Pi.single_apply, Fin.ext_iff]

theorem expo2_two {n : ℕ} (hn : 1 < n) :
    (expo2 2 2 : Fin n → ℕ) = e2 ⟨0, by omega⟩ ⟨1, hn⟩ 2 2 := by
  funext a; simp [expo2, e2, Pi.single_apply, Fin.ext_iff]; split_ifs <;> simp_all

/-- The moments of a fully symmetric functional, as the constructors ask for them. -/
theorem relMom_moments {n : ℕ} {J : Spec.Functional n} {m2 m4 m22 m6 m42 m222 : ℝ}
    (hJ : RelMom J m2 m4 m22 m6 m42 m222) (hn : 1 < n) :
    (J fun x => ∏ a, x a ^ (expo2 0 0 : Fin n → ℕ) a) = J (fun _ => 1) ∧
    (J fun x => ∏ a, x a ^ (expo2 2 0 : Fin n → ℕ) a) = J (fun _ => 1) * m2 ∧
    (J fun x => ∏ a, x a ^ (expo2 2 2 : Fin n → ℕ) a) = J (fun _ => 1) * m22 ∧
    (J fun x => ∏ a, x a ^ (expo2 4 0 : Fin n → ℕ) a) = J (fun _ => 1) * m4 := by
  obtain ⟨M, -, hm, hs⟩ := hJ
  refine ⟨by simp [expo2], ?_, ?_, ?_⟩
  · exact (hm _).trans (by rw [expo2_one (by omega), hs.two])
  · exact (hm _).trans (by rw [expo2_two hn, hs.twotwo _ _ (by simp)])
  · exact (hm _).trans (by rw [expo2_one (by omega), hs.four])

theorem unitMonomial_cons2 (m a b : ℕ) :
    Cn.unitMonomial (m + 2) (a :: b :: List.replicate m 0) =
      (1 - (-1) ^ (a + 1)) / (a + 1) * ((1 - (-1) ^ (b + 1)) / (b + 1)) * 2 ^ m := by
  rw [Cn.unitMonomial, Cn.monomialOverNcube, List.replicate_succ, List.replicate_succ,
    List.zipWith_cons_cons, List.zipWith_cons_cons, List.zipWith_replicate', List.prod_cons,
    List.prod_cons, List.prod_replicate]
  norm_num
  ring

/-! When the radicands are nonnegative. -/

theorem dobF_scale {n : ℕ} {I0 m2 m22 m4 : ℝ} (h0 : I0 ≠ 0) :
    dobF n I0 (I0 * m2) (I0 * m22) (I0 * m4) = dobF n 1 m2 m22 m4 := by
  simp only [dobF]; field_simp

theorem dobR_scale {n i j k : ℕ} {I0 m2 m22 m4 : ℝ} (h0 : I0 ≠ 0) :
    dobR n I0 (I0 * m2) (I0 * m22) (I0 * m4) i j k = dobR n 1 m2 m22 m4 i j k := by
  have e1 : ∀ x y : ℝ, x * (I0 * y) / I0 = x * y := fun x y => by field_simp
  have e2 : ∀ x y : ℝ, x * (I0 * y) ^ 2 / I0 ^ 2 = x * y ^ 2 := fun x y => by field_simp
  simp only [dobR, e1, e2, div_one, one_pow]

theorem dobH_scale {n i j k : ℕ} {I0 m2 m22 m4 : ℝ} (h0 : I0 ≠ 0) :
    dobH n I0 (I0 * m2) (I0 * m22) (I0 * m4) i j k = dobH n 1 m2 m22 m4 i j k := by
  have e1 : ∀ x y : ℝ, x * (I0 * y) / I0 = x * y := fun x y => by field_simp
  have e2 : ∀ x y : ℝ, x * (I0 * y) ^ 2 / I0 ^ 2 = x * y ^ 2 := fun x y => by field_simp
  simp only [dobH, e1, e2, div_one, one_pow]

theorem affine_nonneg {x y s s0 s1 : ℝ} (h0 : s0 ≤ s) (h1 : s ≤ s1) (a : 0 ≤ x - y * s0)
    (b : 0 ≤ x - y * s1) : 0 ≤ x - y * s := by
  rcases le_total 0 y with hy | hy <;> nlinarith

theorem affine_le {x y s s0 s1 z : ℝ} (h0 : s0 ≤ s) (h1 : s ≤ s1) (a : x - y * s0 ≤ z)
    (b : x - y * s1 ≤ z) : x - y * s ≤ z := by
  rcases le_total 0 y with hy | hy <;> nlinarith

theorem defined_I {n i j k : ℕ} {I0 m2 m22 m4 : ℝ} (h0 : I0 ≠ 0) (hin : i ≤ n)
    (hj : 1 ≤ j) (hk : 1 ≤ k) (hjk : j + k ≤ n) {L M : ℕ} {F R H s0 s1 r1 : ℝ} (hL : dobL n i = L)
    (hM : dobM n j k = M) (hF : dobF n 1 m2 m22 m4 = F) (hR : dobR n 1 m2 m22 m4 i j k = R)
    (hH : dobH n 1 m2 m22 m4 i j k = H) (p1 : 0 ≤ s1) (hr : 0 ≤ r1) (F0 : 0 ≤ F)
    (b0 : s0 ^ 2 ≤ L / M * F) (b1 : L / M * F ≤ s1 ^ 2)
    (q0 : 0 ≤ (L / M * R + H) - 2 * m2 * ((j : ℝ) + k - i) / i * s0)
    (q1 : 0 ≤ (L / M * R + H) - 2 * m2 * ((j : ℝ) + k - i) / i * s1)
    (u0 : (L / M * R + H) - 2 * m2 * ((j : ℝ) + k - i) / i * s0 ≤ k / j * r1 ^ 2)
    (u1 : (L / M * R + H) - 2 * m2 * ((j : ℝ) + k - i) / i * s1 ≤ k / j * r1 ^ 2)
    (hc : 0 ≤ m2 - s1 - r1) :
    ∃ g, computeDobrodeev n I0 (I0 * m2) (I0 * m22) (I0 * m4) true i j k = some g := by
  have rj : (0 : ℝ) < j := by exact_mod_cast hj
  have rk : (0 : ℝ) < k := by exact_mod_cast hk
  have pL : (0 : ℝ) < L := by exact_mod_cast hL ▸ dobL_pos hin
  have pM : (0 : ℝ) < M := by exact_mod_cast hM ▸ dobM_pos hjk
  have e2 : I0 * m2 / I0 = m2 := by field_simp
  have e3 : 1 * 2 * (I0 * m2) / I0 = 2 * m2 := by field_simp
  simp only [computeDobrodeev, hjk, guard_true, Option.bind_eq_bind, Option.bind_eq_some_iff,
    Option.pure_def, Option.some.injEq, sqrtO_iff, dobF_scale h0, dobR_scale h0, dobH_scale h0, hF,
    hR, hH, hL, hM, e2, e3, if_true]
  have s0' : s0 ≤ √(L / M * F) := Real.le_sqrt_of_sq_le b0
  have s1' : √(L / M * F) ≤ s1 := Real.sqrt_le_iff.mpr ⟨p1, b1⟩
  have Q0 := affine_nonneg s0' s1' q0 q1
  have Q1 := affine_le s0' s1' u0 u1
  have R1 : √(j / k * (L / M * R + H - 2 * m2 * ((j : ℝ) + k - i) / i * √(L / M * F))) ≤ r1 := by
    refine Real.sqrt_le_iff.mpr ⟨hr, ?_⟩
    calc _ ≤ (j : ℝ) / k * (k / j * r1 ^ 2) := mul_le_mul_of_nonneg_left Q1 (by positivity)
      _ = r1 ^ 2 := by field_simp
  refine ⟨_, (), trivial, _, ⟨by positivity, rfl⟩, _, ⟨by positivity, rfl⟩, _, ⟨by positivity, rfl⟩, _,
    ⟨by positivity, rfl⟩, _, ⟨?_, rfl⟩, _, ⟨?_, rfl⟩, _, ⟨?_, rfl⟩, rfl⟩
  · have : 0 ≤ m2 := by linarith
    positivity
  · refine mul_nonneg (by positivity) ?_
    have := Real.sqrt_nonneg (k / j * (L / M * R + H - 2 * m2 * ((j : ℝ) + k - i) / i * √(L / M * F)))
    linarith
  · refine mul_nonneg (by positivity) ?_
    linarith

theorem defined_II {n i j k : ℕ} {I0 m2 m22 m4 : ℝ} (h0 : I0 ≠ 0) (hin : i ≤ n)
    (hj : 1 ≤ j) (hk : 1 ≤ k) (hjk : j + k ≤ n) {L M : ℕ} {F R H s0 s1 r1 : ℝ} (hL : dobL n i = L)
    (hM : dobM n j k = M) (hF : dobF n 1 m2 m22 m4 = F) (hR : dobR n 1 m2 m22 m4 i j k = R)
    (hH : dobH n 1 m2 m22 m4 i j k = H) (p1 : 0 ≤ s1) (hr : 0 ≤ r1) (F0 : 0 ≤ F) (hm : 0 ≤ m2)
    (b0 : s0 ^ 2 ≤ L / M * F) (b1 : L / M * F ≤ s1 ^ 2)
    (q0 : 0 ≤ (L / M * R + H) - -(2 * m2) * ((j : ℝ) + k - i) / i * s0)
    (q1 : 0 ≤ (L / M * R + H) - -(2 * m2) * ((j : ℝ) + k - i) / i * s1)
    (u0 : (L / M * R + H) - -(2 * m2) * ((j : ℝ) + k - i) / i * s0 ≤ j / k * r1 ^ 2)
    (u1 : (L / M * R + H) - -(2 * m2) * ((j : ℝ) + k - i) / i * s1 ≤ j / k * r1 ^ 2)
    (ha : 0 ≤ m2 - M / L * s1) (hc : 0 ≤ m2 + s0 - r1) :
    ∃ g, computeDobrodeev n I0 (I0 * m2) (I0 * m22) (I0 * m4) false i j k = some g := by
  have rj : (0 : ℝ) < j := by exact_mod_cast hj
  have rk : (0 : ℝ) < k := by exact_mod_cast hk
  have pL : (0 : ℝ) < L := by exact_mod_cast hL ▸ dobL_pos hin
  have pM : (0 : ℝ) < M := by exact_mod_cast hM ▸ dobM_pos hjk
  have e2 : I0 * m2 / I0 = m2 := by field_simp
  have e3 : -1 * 2 * (I0 * m2) / I0 = -(2 * m2) := by field_simp
  simp only [computeDobrodeev, hjk, guard_true, Option.bind_eq_bind, Option.bind_eq_some_iff,
    Option.pure_def, Option.some.injEq, sqrtO_iff, dobF_scale h0, dobR_scale h0, dobH_scale h0, hF,
    hR, hH, hL, hM, e2, e3, Bool.false_eq_true, if_false]
  have s0' : s0 ≤ √(L / M * F) := Real.le_sqrt_of_sq_le b0
  have s1' : √(L / M * F) ≤ s1 := Real.sqrt_le_iff.mpr ⟨p1, b1⟩
  have Q0 := affine_nonneg s0' s1' q0 q1
  have Q1 := affine_le s0' s1' u0 u1
  have R1 : √(k / j * (L / M * R + H - -(2 * m2) * ((j : ℝ) + k - i) / i * √(L / M * F))) ≤ r1 := by
    refine Real.sqrt_le_iff.mpr ⟨hr, ?_⟩
    calc _ ≤ (k : ℝ) / j * (j / k * r1 ^ 2) := mul_le_mul_of_nonneg_left Q1 (by positivity)
      _ = r1 ^ 2 := by field_simp
  refine ⟨_, (), trivial, _, ⟨by positivity, rfl⟩, _, ⟨by positivity, rfl⟩, _, ⟨by positivity, rfl⟩, _,
    ⟨by positivity, rfl⟩, _, ⟨?_, rfl⟩, _, ⟨?_, rfl⟩, _, ⟨?_, rfl⟩, rfl⟩
  · refine mul_nonneg (by positivity) ?_
    have h := sqrt_ratio (F := F) pL pM
    have : √(M / L * F) = M / L * √(L / M * F) := by
      rw [eq_comm, ← mul_right_inj' pL.ne', h]; field_simp
    rw [this]
    have := mul_le_mul_of_nonneg_left s1' (by positivity : (0 : ℝ) ≤ M / L)
    linarith
  · refine mul_nonneg (by positivity) ?_
    linarith
  · refine mul_nonneg (by positivity) ?_
    have := Real.sqrt_nonneg (j / k * (L / M * R + H - -(2 * m2) * ((j : ℝ) + k - i) / i * √(L / M * F)))
    have := Real.sqrt_nonneg (L / M * F)
    linarith

/-! The constructors: the table entry of every dimension has nonnegative radicands. -/

private theorem cn_dob_2 {I0 : ℝ} (h0 : I0 ≠ 0) :
    ∃ g, computeDobrodeev 2 I0 (I0 * (1/3)) (I0 * (1/9)) (I0 * (1/5)) false 1 1 1 = some g := by
  apply defined_II h0 (L := 4) (M := 8) (F := (2/45)) (R := (-1/15)) (H := (0))
    (s0 := (1490711/10000000)) (s1 := (186339/1250000)) (r1 := (2569971/10000000)) <;>
    norm_num [dobF, dobR, dobH, dobL, dobM, Nat.choose, Nat.factorial]

private theorem cn_dob_3 {I0 : ℝ} (h0 : I0 ≠ 0) :
    ∃ g, computeDobrodeev 3 I0 (I0 * (1/3)) (I0 * (1/9)) (I0 * (1/5)) true 3 1 1 = some g := by
  apply defined_I h0 (L := 8) (M := 24) (F := (4/135)) (R := (4/135)) (H := (1/405))
    (s0 := (993807/10000000)) (s1 := (62113/625000)) (r1 := (1855541/10000000)) <;>
    norm_num [dobF, dobR, dobH, dobL, dobM, Nat.choose, Nat.factorial]

private theorem cn_dob_4 {I0 : ℝ} (h0 : I0 ≠ 0) :
    ∃ g, computeDobrodeev 4 I0 (I0 * (1/3)) (I0 * (1/9)) (I0 * (1/5)) true 4 1 1 = some g := by
  apply defined_I h0 (L := 16) (M := 48) (F := (1/45)) (R := (1/45)) (H := (-1/45))
    (s0 := (430331/5000000)) (s1 := (860663/10000000)) (r1 := (588939/5000000)) <;>
    norm_num [dobF, dobR, dobH, dobL, dobM, Nat.choose, Nat.factorial]

private theorem cn_dob_5 {I0 : ℝ} (h0 : I0 ≠ 0) :
    ∃ g, computeDobrodeev 5 I0 (I0 * (1/3)) (I0 * (1/9)) (I0 * (1/5)) true 5 1 1 = some g := by
  apply defined_I h0 (L := 32) (M := 80) (F := (4/225)) (R := (4/225)) (H := (-43/1125))
    (s0 := (421637/5000000)) (s1 := (33731/400000)) (r1 := (511849/10000000)) <;>
    norm_num [dobF, dobR, dobH, dobL, dobM, Nat.choose, Nat.factorial]

private theorem cn_dob_6 {I0 : ℝ} (h0 : I0 ≠ 0) :
    ∃ g, computeDobrodeev 6 I0 (I0 * (1/3)) (I0 * (1/9)) (I0 * (1/5)) true 5 1 1 = some g := by
  apply defined_I h0 (L := 192) (M := 120) (F := (2/135)) (R := (1/135)) (H := (-34/675))
    (s0 := (3849/25000)) (s1 := (1539601/10000000)) (r1 := (759367/5000000)) <;>
    norm_num [dobF, dobR, dobH, dobL, dobM, Nat.choose, Nat.factorial]

private theorem cn_dob_7 {I0 : ℝ} (h0 : I0 ≠ 0) :
    ∃ g, computeDobrodeev 7 I0 (I0 * (1/3)) (I0 * (1/9)) (I0 * (1/5)) true 6 1 2 = some g := by
  apply defined_I h0 (L := 448) (M := 840) (F := (4/315)) (R := (11/630)) (H := (-2/63))
    (s0 := (822951/10000000)) (s1 := (102869/1250000)) (r1 := (249947/5000000)) <;>
    norm_num [dobF, dobR, dobH, dobL, dobM, Nat.choose, Nat.factorial]

private theorem cn_dob_8 {I0 : ℝ} (h0 : I0 ≠ 0) :
    ∃ g, computeDobrodeev 8 I0 (I0 * (1/3)) (I0 * (1/9)) (I0 * (1/5)) true 7 1 2 = some g := by
  apply defined_I h0 (L := 1024) (M := 1344) (F := (1/90)) (R := (41/2520)) (H := (-103/2520))
    (s0 := (920087/10000000)) (s1 := (115011/1250000)) (r1 := (22933/400000)) <;>
    norm_num [dobF, dobR, dobH, dobL, dobM, Nat.choose, Nat.factorial]

private theorem cn_dob_9 {I0 : ℝ} (h0 : I0 ≠ 0) :
    ∃ g, computeDobrodeev 9 I0 (I0 * (1/3)) (I0 * (1/9)) (I0 * (1/5)) true 6 1 2 = some g := by
  apply defined_I h0 (L := 5376) (M := 2016) (F := (4/405)) (R := (1/810)) (H := (-4/81))
    (s0 := (1622881/10000000)) (s1 := (811441/5000000)) (r1 := (25307/400000)) <;>
    norm_num [dobF, dobR, dobH, dobL, dobM, Nat.choose, Nat.factorial]

private theorem cn_dob_10 {I0 : ℝ} (h0 : I0 ≠ 0) :
    ∃ g, computeDobrodeev 10 I0 (I0 * (1/3)) (I0 * (1/9)) (I0 * (1/5)) true 6 1 9 = some g := by
  apply defined_I h0 (L := 13440) (M := 10240) (F := (2/225)) (R := (4/675)) (H := (2/27))
    (s0 := (1080123/10000000)) (s1 := (270031/2500000)) (r1 := (613247/10000000)) <;>
    norm_num [dobF, dobR, dobH, dobL, dobM, Nat.choose, Nat.factorial]

private theorem cn_dob_11 {I0 : ℝ} (h0 : I0 ≠ 0) :
    ∃ g, computeDobrodeev 11 I0 (I0 * (1/3)) (I0 * (1/9)) (I0 * (1/5)) true 6 1 10 = some g := by
  apply defined_I h0 (L := 29568) (M := 22528) (F := (4/495)) (R := (-7/594)) (H := (2/27))
    (s0 := (1029857/10000000)) (s1 := (514929/5000000)) (r1 := (11801/1000000)) <;>
    norm_num [dobF, dobR, dobH, dobL, dobM, Nat.choose, Nat.factorial]

private theorem cn_dob_12 {I0 : ℝ} (h0 : I0 ≠ 0) :
    ∃ g, computeDobrodeev 12 I0 (I0 * (1/3)) (I0 * (1/9)) (I0 * (1/5)) true 7 1 11 = some g := by
  apply defined_I h0 (L := 101376) (M := 49152) (F := (1/135)) (R := (2/945)) (H := (8/105))
    (s0 := (1236033/10000000)) (s1 := (618017/5000000)) (r1 := (222061/5000000)) <;>
    norm_num [dobF, dobR, dobH, dobL, dobM, Nat.choose, Nat.factorial]

private theorem cn_dob_13 {I0 : ℝ} (h0 : I0 ≠ 0) :
    ∃ g, computeDobrodeev 13 I0 (I0 * (1/3)) (I0 * (1/9)) (I0 * (1/5)) true 8 2 2 = some g := by
  apply defined_I h0 (L := 329472) (M := 68640) (F := (4/585)) (R := (-1/1170)) (H := (-31/585))
    (s0 := (1811643/10000000)) (s1 := (452911/2500000)) (r1 := (71743/1250000)) <;>
    norm_num [dobF, dobR, dobH, dobL, dobM, Nat.choose, Nat.factorial]

private theorem cn_dob_14 {I0 : ℝ} (h0 : I0 ≠ 0) :
    ∃ g, computeDobrodeev 14 I0 (I0 * (1/3)) (I0 * (1/9)) (I0 * (1/5)) true 8 1 13 = some g := by
  apply defined_I h0 (L := 768768) (M := 229376) (F := (2/315)) (R := (-1/1260)) (H := (7/90))
    (s0 := (729379/5000000)) (s1 := (1458759/10000000)) (r1 := (64747/5000000)) <;>
    norm_num [dobF, dobR, dobH, dobL, dobM, Nat.choose, Nat.factorial]

private theorem cn_dob_15 {I0 : ℝ} (h0 : I0 ≠ 0) :
    ∃ g, computeDobrodeev 15 I0 (I0 * (1/3)) (I0 * (1/9)) (I0 * (1/5)) true 9 1 14 = some g := by
  apply defined_I h0 (L := 2562560) (M := 491520) (F := (4/675)) (R := (2/225)) (H := (32/405))
    (s0 := (1757699/10000000)) (s1 := (17577/100000)) (r1 := (72607/1250000)) <;>
    norm_num [dobF, dobR, dobH, dobL, dobM, Nat.choose, Nat.factorial]

private theorem cn_dob_16 {I0 : ℝ} (h0 : I0 ≠ 0) :
    ∃ g, computeDobrodeev 16 I0 (I0 * (1/3)) (I0 * (1/9)) (I0 * (1/5)) true 10 2 3 = some g := by
  apply defined_I h0 (L := 8200192) (M := 1397760) (F := (1/180)) (R := (1/720)) (H := (-37/720))
    (s0 := (1805341/10000000)) (s1 := (902671/5000000)) (r1 := (531309/5000000)) <;>
    norm_num [dobF, dobR, dobH, dobL, dobM, Nat.choose, Nat.factorial]

private theorem cn_dob_17 {I0 : ℝ} (h0 : I0 ≠ 0) :
    ∃ g, computeDobrodeev 17 I0 (I0 * (1/3)) (I0 * (1/9)) (I0 * (1/5)) true 10 2 3 = some g := by
  apply defined_I h0 (L := 19914752) (M := 1980160) (F := (4/765)) (R := (-1/510)) (H := (-14/255))
    (s0 := (2293171/10000000)) (s1 := (573293/2500000)) (r1 := (10877/312500)) <;>
    norm_num [dobF, dobR, dobH, dobL, dobM, Nat.choose, Nat.factorial]

private theorem cn_dob_18 {I0 : ℝ} (h0 : I0 ≠ 0) :
    ∃ g, computeDobrodeev 18 I0 (I0 * (1/3)) (I0 * (1/9)) (I0 * (1/5)) true 15 3 3 = some g := by
  apply defined_I h0 (L := 26738688) (M := 23761920) (F := (2/405)) (R := (7/405)) (H := (-94/2025))
    (s0 := (372723/5000000)) (s1 := (745447/10000000)) (r1 := (533603/10000000)) <;>
    norm_num [dobF, dobR, dobH, dobL, dobM, Nat.choose, Nat.factorial]

private theorem cn_dob_19 {I0 : ℝ} (h0 : I0 ≠ 0) :
    ∃ g, computeDobrodeev 19 I0 (I0 * (1/3)) (I0 * (1/9)) (I0 * (1/5)) false 9 1 18 = some g := by
  apply defined_II h0 (L := 47297536) (M := 9961472) (F := (4/855)) (R := (-302/7695)) (H := (32/405))
    (s0 := (298081/2000000)) (s1 := (745203/5000000)) (r1 := (1175313/5000000)) <;>
    norm_num [dobF, dobR, dobH, dobL, dobM, Nat.choose, Nat.factorial]

private theorem cn_dob_20 {I0 : ℝ} (h0 : I0 ≠ 0) :
    ∃ g, computeDobrodeev 20 I0 (I0 * (1/3)) (I0 * (1/9)) (I0 * (1/5)) true 9 1 18 = some g := by
  apply defined_I h0 (L := 85995520) (M := 199229440) (F := (1/225)) (R := (-397/8100)) (H := (563/8100))
    (s0 := (87599/2000000)) (s1 := (109499/2500000)) (r1 := (297269/10000000)) <;>
    norm_num [dobF, dobR, dobH, dobL, dobM, Nat.choose, Nat.factorial]

private theorem sn_dob_2 {I0 : ℝ} (h0 : I0 ≠ 0) :
    ∃ g, computeDobrodeev 2 I0 (I0 * (1/4)) (I0 * (1/24)) (I0 * (1/8)) false 1 1 1 = some g := by
  apply defined_II h0 (L := 4) (M := 8) (F := (1/48)) (R := (-1/48)) (H := (1/48))
    (s0 := (51031/500000)) (s1 := (1020621/10000000)) (r1 := (495773/2000000)) <;>
    norm_num [dobF, dobR, dobH, dobL, dobM, Nat.choose, Nat.factorial]

private theorem sn_dob_3 {I0 : ℝ} (h0 : I0 ≠ 0) :
    ∃ g, computeDobrodeev 3 I0 (I0 * (1/5)) (I0 * (1/35)) (I0 * (3/35)) false 1 1 1 = some g := by
  apply defined_II h0 (L := 6) (M := 24) (F := (4/525)) (R := (-16/525)) (H := (1/525))
    (s0 := (87287/2000000)) (s1 := (109109/2500000)) (r1 := (1083659/10000000)) <;>
    norm_num [dobF, dobR, dobH, dobL, dobM, Nat.choose, Nat.factorial]

private theorem sn_dob_4 {I0 : ℝ} (h0 : I0 ≠ 0) :
    ∃ g, computeDobrodeev 4 I0 (I0 * (1/6)) (I0 * (1/48)) (I0 * (1/16)) false 4 1 1 = some g := by
  apply defined_II h0 (L := 16) (M := 48) (F := (1/288)) (R := (1/72)) (H := (1/576))
    (s0 := (170103/5000000)) (s1 := (340207/10000000)) (r1 := (263751/10000000)) <;>
    norm_num [dobF, dobR, dobH, dobL, dobM, Nat.choose, Nat.factorial]

private theorem sn_dob_5 {I0 : ℝ} (h0 : I0 ≠ 0) :
    ∃ g, computeDobrodeev 5 I0 (I0 * (1/7)) (I0 * (1/63)) (I0 * (1/21)) true 3 1 1 = some g := by
  apply defined_I h0 (L := 80) (M := 80) (F := (4/2205)) (R := (8/2205)) (H := (-17/6615))
    (s0 := (425917/10000000)) (s1 := (212959/5000000)) (r1 := (357581/5000000)) <;>
    norm_num [dobF, dobR, dobH, dobL, dobM, Nat.choose, Nat.factorial]

private theorem sn_dob_6 {I0 : ℝ} (h0 : I0 ≠ 0) :
    ∃ g, computeDobrodeev 6 I0 (I0 * (1/8)) (I0 * (1/80)) (I0 * (3/80)) true 3 1 1 = some g := by
  apply defined_I h0 (L := 160) (M := 120) (F := (1/960)) (R := (1/960)) (H := (-11/2880))
    (s0 := (372677/10000000)) (s1 := (186339/5000000)) (r1 := (129913/5000000)) <;>
    norm_num [dobF, dobR, dobH, dobL, dobM, Nat.choose, Nat.factorial]

private theorem sn_dob_7 {I0 : ℝ} (h0 : I0 ≠ 0) :
    ∃ g, computeDobrodeev 7 I0 (I0 * (1/9)) (I0 * (1/99)) (I0 * (1/33)) true 7 1 1 = some g := by
  apply defined_I h0 (L := 128) (M := 168) (F := (4/6237)) (R := (4/891)) (H := (-169/43659))
    (s0 := (4421/200000)) (s1 := (221051/10000000)) (r1 := (276509/5000000)) <;>
    norm_num [dobF, dobR, dobH, dobL, dobM, Nat.choose, Nat.factorial]

private theorem sn_dob_8 {I0 : ℝ} (h0 : I0 ≠ 0) :
    ∃ g, computeDobrodeev 8 I0 (I0 * (1/10)) (I0 * (1/120)) (I0 * (1/40)) true 8 1 1 = some g := by
  apply defined_I h0 (L := 256) (M := 224) (F := (1/2400)) (R := (1/300)) (H := (-37/9600))
    (s0 := (218217/10000000)) (s1 := (109109/5000000)) (r1 := (568211/10000000)) <;>
    norm_num [dobF, dobR, dobH, dobL, dobM, Nat.choose, Nat.factorial]

private theorem sn_dob_9 {I0 : ℝ} (h0 : I0 ≠ 0) :
    ∃ g, computeDobrodeev 9 I0 (I0 * (1/11)) (I0 * (1/143)) (I0 * (3/143)) true 9 1 1 = some g := by
  apply defined_I h0 (L := 512) (M := 288) (F := (4/14157)) (R := (4/1573)) (H := (-467/127413))
    (s0 := (224121/10000000)) (s1 := (112061/5000000)) (r1 := (634421/10000000)) <;>
    norm_num [dobF, dobR, dobH, dobL, dobM, Nat.choose, Nat.factorial]

private theorem sn_dob_10 {I0 : ℝ} (h0 : I0 ≠ 0) :
    ∃ g, computeDobrodeev 10 I0 (I0 * (1/12)) (I0 * (1/168)) (I0 * (1/56)) true 9 1 2 = some g := by
  apply defined_I h0 (L := 5120) (M := 2880) (F := (1/5040)) (R := (43/15120)) (H := (-5/3024))
    (s0 := (46953/2500000)) (s1 := (187813/10000000)) (r1 := (523891/10000000)) <;>
    norm_num [dobF, dobR, dobH, dobL, dobM, Nat.choose, Nat.factorial]

private theorem sn_dob_11 {I0 : ℝ} (h0 : I0 ≠ 0) :
    ∃ g, computeDobrodeev 11 I0 (I0 * (1/13)) (I0 * (1/195)) (I0 * (1/65)) true 5 1 2 = some g := by
  apply defined_I h0 (L := 14784) (M := 3960) (F := (4/27885)) (R := (14/27885)) (H := (-84/46475))
    (s0 := (46283/2000000)) (s1 := (28927/1250000)) (r1 := (273043/10000000)) <;>
    norm_num [dobF, dobR, dobH, dobL, dobM, Nat.choose, Nat.factorial]

private theorem sn_dob_12 {I0 : ℝ} (h0 : I0 ≠ 0) :
    ∃ g, computeDobrodeev 12 I0 (I0 * (1/14)) (I0 * (1/224)) (I0 * (3/224)) true 12 1 2 = some g := by
  apply defined_I h0 (L := 4096) (M := 5280) (F := (1/9408)) (R := (37/18816)) (H := (-67/37632))
    (s0 := (18161/2000000)) (s1 := (45403/5000000)) (r1 := (189471/10000000)) <;>
    norm_num [dobF, dobR, dobH, dobL, dobM, Nat.choose, Nat.factorial]

private theorem sn_dob_13 {I0 : ℝ} (h0 : I0 ≠ 0) :
    ∃ g, computeDobrodeev 13 I0 (I0 * (1/15)) (I0 * (1/255)) (I0 * (1/85)) true 13 1 2 = some g := by
  apply defined_I h0 (L := 8192) (M := 6864) (F := (4/49725)) (R := (16/9945)) (H := (-226/129285))
    (s0 := (48991/5000000)) (s1 := (97983/10000000)) (r1 := (24259/1000000)) <;>
    norm_num [dobF, dobR, dobH, dobL, dobM, Nat.choose, Nat.factorial]

private theorem sn_dob_14 {I0 : ℝ} (h0 : I0 ≠ 0) :
    ∃ g, computeDobrodeev 14 I0 (I0 * (1/16)) (I0 * (1/288)) (I0 * (1/96)) true 14 1 2 = some g := by
  apply defined_I h0 (L := 16384) (M := 8736) (F := (1/16128)) (R := (43/32256)) (H := (-127/75264))
    (s0 := (21567/2000000)) (s1 := (26959/2500000)) (r1 := (30593/1000000)) <;>
    norm_num [dobF, dobR, dobH, dobL, dobM, Nat.choose, Nat.factorial]

private theorem sn_dob_15 {I0 : ℝ} (h0 : I0 ≠ 0) :
    ∃ g, computeDobrodeev 15 I0 (I0 * (1/17)) (I0 * (1/323)) (I0 * (3/323)) true 15 1 2 = some g := by
  apply defined_I h0 (L := 32768) (M := 10920) (F := (4/82365)) (R := (92/82365)) (H := (-664/411825))
    (s0 := (60359/5000000)) (s1 := (120719/10000000)) (r1 := (23699/625000)) <;>
    norm_num [dobF, dobR, dobH, dobL, dobM, Nat.choose, Nat.factorial]

private theorem sn_dob_16 {I0 : ℝ} (h0 : I0 ≠ 0) :
    ∃ g, computeDobrodeev 16 I0 (I0 * (1/18)) (I0 * (1/360)) (I0 * (1/120)) false 15 1 4 = some g := by
  apply defined_II h0 (L := 524288) (M := 698880) (F := (1/25920)) (R := (239/155520)) (H := (-77/155520))
    (s0 := (26899/5000000)) (s1 := (53799/10000000)) (r1 := (12881/400000)) <;>
    norm_num [dobF, dobR, dobH, dobL, dobM, Nat.choose, Nat.factorial]

private theorem sn_dob_17 {I0 : ℝ} (h0 : I0 ≠ 0) :
    ∃ g, computeDobrodeev 17 I0 (I0 * (1/19)) (I0 * (1/399)) (I0 * (1/133)) true 17 1 3 = some g := by
  apply defined_I h0 (L := 131072) (M := 152320) (F := (4/128877)) (R := (20/18411)) (H := (-2209/2190909))
    (s0 := (51679/10000000)) (s1 := (323/62500)) (r1 := (26713/2500000)) <;>
    norm_num [dobF, dobR, dobH, dobL, dobM, Nat.choose, Nat.factorial]

private theorem sn_dob_18 {I0 : ℝ} (h0 : I0 ≠ 0) :
    ∃ g, computeDobrodeev 18 I0 (I0 * (1/20)) (I0 * (1/440)) (I0 * (3/440)) true 18 1 3 = some g := by
  apply defined_I h0 (L := 262144) (M := 195840) (F := (1/39600)) (R := (37/39600)) (H := (-353/356400))
    (s0 := (58139/10000000)) (s1 := (2907/500000)) (r1 := (77051/5000000)) <;>
    norm_num [dobF, dobR, dobH, dobL, dobM, Nat.choose, Nat.factorial]

private theorem sn_dob_19 {I0 : ℝ} (h0 : I0 ≠ 0) :
    ∃ g, computeDobrodeev 19 I0 (I0 * (1/21)) (I0 * (1/483)) (I0 * (1/161)) true 19 1 3 = some g := by
  apply defined_I h0 (L := 524288) (M := 248064) (F := (4/192717)) (R := (52/64239)) (H := (-1177/1220541))
    (s0 := (8279/1250000)) (s1 := (66233/10000000)) (r1 := (50919/2500000)) <;>
    norm_num [dobF, dobR, dobH, dobL, dobM, Nat.choose, Nat.factorial]

private theorem sn_dob_20 {I0 : ℝ} (h0 : I0 ≠ 0) :
    ∃ g, computeDobrodeev 20 I0 (I0 * (1/22)) (I0 * (1/528)) (I0 * (1/176)) true 20 1 3 = some g := by
  apply defined_I h0 (L := 1048576) (M := 310080) (F := (1/58080)) (R := (41/58080)) (H := (-271/290400))
    (s0 := (4769/625000)) (s1 := (15261/2000000)) (r1 := (10351/400000)) <;>
    norm_num [dobF, dobR, dobH, dobL, dobM, Nat.choose, Nat.factorial]

theorem cn_config (n : ℕ) (h2 : 2 ≤ n) (h20 : n ≤ 20) : ∃ ty i j k,
    Cn.dobConfig n = some (ty, i, j, k) ∧ 1 ≤ i ∧ i ≤ n ∧ 1 ≤ j ∧ 1 ≤ k ∧
      ∀ {I0 : ℝ}, I0 ≠ 0 →
        ∃ g, computeDobrodeev n I0 (I0 * (1 / 3)) (I0 * (1 / 9)) (I0 * (1 / 5)) ty i j k = some g := by
  interval_cases n
  · exact ⟨_, _, _, _, rfl, by norm_num, by norm_num, by norm_num, by norm_num, fun h => by simpa using cn_dob_2 h⟩
  · exact ⟨_, _, _, _, rfl, by norm_num, by norm_num, by norm_num, by norm_num, fun h => by simpa using cn_dob_3 h⟩
  · exact ⟨_, _, _, _, rfl, by norm_num, by norm_num, by norm_num, by norm_num, fun h => by simpa using cn_dob_4 h⟩
  · exact ⟨_, _, _, _, rfl, by norm_num, by norm_num, by norm_num, by norm_num, fun h => by simpa using cn_dob_5 h⟩
  · exact ⟨_, _, _, _, rfl, by norm_num, by norm_num, by norm_num, by norm_num, fun h => by simpa using cn_dob_6 h⟩
  · exact ⟨_, _, _, _, rfl, by norm_num, by norm_num, by norm_num, by norm_num, fun h => by simpa using cn_dob_7 h⟩
  · exact ⟨_, _, _, _, rfl, by norm_num, by norm_num, by norm_num, by norm_num, fun h => by simpa using cn_dob_8 h⟩
  · exact ⟨_, _, _, _, rfl, by norm_num, by norm_num, by norm_num, by norm_num, fun h => by simpa using cn_dob_9 h⟩
  · exact ⟨_, _, _, _, rfl, by norm_num, by norm_num, by norm_num, by norm_num, fun h => by simpa using cn_dob_10 h⟩
  · exact ⟨_, _, _, _, rfl, by norm_num, by norm_num, by norm_num, by norm_num, fun h => by simpa using cn_dob_11 h⟩
  · exact ⟨_, _, _, _, rfl, by norm_num, by norm_num, by norm_num, by norm_num, fun h => by simpa using cn_dob_12 h⟩
  · exact ⟨_, _, _, _, rfl, by norm_num, by norm_num, by norm_num, by norm_num, fun h => by simpa using cn_dob_13 h⟩
  · exact ⟨_, _, _, _, rfl, by norm_num, by norm_num, by norm_num, by norm_num, fun h => by simpa using cn_dob_14 h⟩
  · exact ⟨_, _, _, _, rfl, by norm_num, by norm_num, by norm_num, by norm_num, fun h => by simpa using cn_dob_15 h⟩
  · exact ⟨_, _, _, _, rfl, by norm_num, by norm_num, by norm_num, by norm_num, fun h => by simpa using cn_dob_16 h⟩
  · exact ⟨_, _, _, _, rfl, by norm_num, by norm_num, by norm_num, by norm_num, fun h => by simpa using cn_dob_17 h⟩
  · exact ⟨_, _, _, _, rfl, by norm_num, by norm_num, by norm_num, by norm_num, fun h => by simpa using cn_dob_18 h⟩
  · exact ⟨_, _, _, _, rfl, by norm_num, by norm_num, by norm_num, by norm_num, fun h => by simpa using cn_dob_19 h⟩
  · exact ⟨_, _, _, _, rfl, by norm_num, by norm_num, by norm_num, by norm_num, fun h => by simpa using cn_dob_20 h⟩

theorem C28_cn (n : ℕ) (h2 : 2 ≤ n) (h20 : n ≤ 20) :
    ∃ S, Cn.dobrodeev1978 n = some S ∧ S.degree = 5 ∧ S.ExactOnCube n ∧
      ∃ w, 0 < w ∧ ∀ v ∈ S.weights, v = w := by
  obtain ⟨ty, i, j, k, hc, hi, hin, hj, hk, hg⟩ := cn_config n h2 h20
  obtain ⟨m, rfl⟩ : ∃ m, n = m + 2 := ⟨n - 2, by omega⟩
  obtain ⟨g, hg⟩ := hg (I0 := 2 ^ (m + 2)) (by positivity)
  obtain ⟨S, hS, hd, he, hw⟩ := C28_compute_dobrodeev (cube_relMom (m + 2)) (by positivity) ty hi hin
    hj hk hg
  have i0 : Cn.unitMonomial (m + 2) (List.replicate (m + 2) 0) = 2 ^ (m + 2) := by
    rw [List.replicate_succ, List.replicate_succ, unitMonomial_cons2]; norm_num; ring
  have i2 : Cn.unitMonomial (m + 2) (2 :: List.replicate (m + 2 - 1) 0) = 2 ^ (m + 2) * (1 / 3) := by
    rw [show m + 2 - 1 = m + 1 by omega, List.replicate_succ, unitMonomial_cons2]; norm_num; ring
  have i22 : Cn.unitMonomial (m + 2) (2 :: 2 :: List.replicate (m + 2 - 2) 0) = 2 ^ (m + 2) * (1 / 9) := by
    rw [show m + 2 - 2 = m by omega, unitMonomial_cons2]; norm_num; ring
  have i4 : Cn.unitMonomial (m + 2) (4 :: List.replicate (m + 2 - 1) 0) = 2 ^ (m + 2) * (1 / 5) := by
    rw [show m + 2 - 1 = m + 1 by omega, List.replicate_succ, unitMonomial_cons2]; norm_num; ring
  have h1 : Spec.cube (m + 2) (fun _ => 1) = 2 ^ (m + 2) := by
    rw [one_eq_mono, cube_mono, cubeMom_zero, mul_one]
  refine ⟨S, ?_, hd, by rw [Scheme.ExactOnCube, ← h1]; exact he, _, ?_, hw⟩
  · simp only [Cn.dobrodeev1978, hc, Option.bind_eq_bind, Option.bind_some, i0, i2, i22, i4, hg, hS]
  · have := dobL_pos hin
    positivity

theorem sn_config (n : ℕ) (h2 : 2 ≤ n) (h20 : n ≤ 20) : ∃ ty i j k,
    Sn.dobConfig n = some (ty, i, j, k) ∧ 1 ≤ i ∧ i ≤ n ∧ 1 ≤ j ∧ 1 ≤ k ∧
      ∀ {I0 : ℝ}, I0 ≠ 0 → ∃ g, computeDobrodeev n I0 (I0 * (1 / ((n : ℝ) + 2)))
        (I0 * (1 / (((n : ℝ) + 2) * (n + 4)))) (I0 * (3 / (((n : ℝ) + 2) * (n + 4)))) ty i j k = some g := by
  interval_cases n
  · exact ⟨_, _, _, _, rfl, by norm_num, by norm_num, by norm_num, by norm_num, fun h => by
      have := sn_dob_2 h; norm_num at this ⊢; exact this⟩
  · exact ⟨_, _, _, _, rfl, by norm_num, by norm_num, by norm_num, by norm_num, fun h => by
      have := sn_dob_3 h; norm_num at this ⊢; exact this⟩
  · exact ⟨_, _, _, _, rfl, by norm_num, by norm_num, by norm_num, by norm_num, fun h => by
      have := sn_dob_4 h; norm_num at this ⊢; exact this⟩
  · exact ⟨_, _, _, _, rfl, by norm_num, by norm_num, by norm_num, by norm_num, fun h => by
      have := sn_dob_5 h; norm_num at this ⊢; exact this⟩
  · exact ⟨_, _, _, _, rfl, by norm_num, by norm_num, by norm_num, by norm_num, fun h => by
      have := sn_dob_6 h; norm_num at this ⊢; exact this⟩
  · exact ⟨_, _, _, _, rfl, by norm_num, by norm_num, by norm_num, by norm_num, fun h => by
      have := sn_dob_7 h; norm_num at this ⊢; exact this⟩
  · exact ⟨_, _, _, _, rfl, by norm_num, by norm_num, by norm_num, by norm_num, fun h => by
      have := sn_dob_8 h; norm_num at this ⊢; exact this⟩
  · exact ⟨_, _, _, _, rfl, by norm_num, by norm_num, by norm_num, by norm_num, fun h => by
      have := sn_dob_9 h; norm_num at this ⊢; exact this⟩
  · exact ⟨_, _, _, _, rfl, by norm_num, by norm_num, by norm_num, by norm_num, fun h => by
      have := sn_dob_10 h; norm_num at this ⊢; exact this⟩
  · exact ⟨_, _, _, _, rfl, by norm_num, by norm_num, by norm_num, by norm_num, fun h => by
      have := sn_dob_11 h; norm_num at this ⊢; exact this⟩
  · exact ⟨_, _, _, _, rfl, by norm_num, by norm_num, by norm_num, by norm_num, fun h => by
      have := sn_dob_12 h; norm_num at this ⊢; exact this⟩
  · exact ⟨_, _, _, _, rfl, by norm_num, by norm_num, by norm_num, by norm_num, fun h => by
      have := sn_dob_13 h; norm_num at this ⊢; exact this⟩
  · exact ⟨_, _, _, _, rfl, by norm_num, by norm_num, by norm_num, by norm_num, fun h => by
      have := sn_dob_14 h; norm_num at this ⊢; exact this⟩
  · exact ⟨_, _, _, _, rfl, by norm_num, by norm_num, by norm_num, by norm_num, fun h => by
      have := sn_dob_15 h; norm_num at this ⊢; exact this⟩
  · exact ⟨_, _, _, _, rfl, by norm_num, by norm_num, by norm_num, by norm_num, fun h => by
      have := sn_dob_16 h; norm_num at this ⊢; exact this⟩
  · exact ⟨_, _, _, _, rfl, by norm_num, by norm_num, by norm_num, by norm_num, fun h => by
      have := sn_dob_17 h; norm_num at this ⊢; exact this⟩
  · exact ⟨_, _, _, _, rfl, by norm_num, by norm_num, by norm_num, by norm_num, fun h => by
      have := sn_dob_18 h; norm_num at this ⊢; exact this⟩
  · exact ⟨_, _, _, _, rfl, by norm_num, by norm_num, by norm_num, by norm_num, fun h => by
      have := sn_dob_19 h; norm_num at this ⊢; exact this⟩
  · exact ⟨_, _, _, _, rfl, by norm_num, by norm_num, by norm_num, by norm_num, fun h => by
      have := sn_dob_20 h; norm_num at this ⊢; exact this⟩

theorem C28_sn (n : ℕ) (h2 : 2 ≤ n) (h20 : n ≤ 20) :
    ∃ S, Sn.dobrodeev1978 n = some S ∧ S.degree = 5 ∧ S.ExactOnBall n ∧
      ∃ w, 0 < w ∧ ∀ v ∈ S.weights, v = w := by
  obtain ⟨ty, i, j, k, hc, hi, hin, hj, hk, hg⟩ := sn_config n h2 h20
  have hn : 0 < n := by omega
  have h0 : Spec.ball n (fun _ => 1) ≠ 0 := by
    rw [ball_one hn]
    have := sphereArea_pos hn
    positivity
  obtain ⟨g, hg⟩ := hg h0
  obtain ⟨S, hS, hd, he, hw⟩ := C28_compute_dobrodeev (ball_relMom hn) h0 ty hi hin hj hk hg
  obtain ⟨i0, i2, i22, i4⟩ := relMom_moments (ball_relMom hn) (by omega)
  refine ⟨S, ?_, hd, he, _, ?_, hw⟩
  · simp only [Sn.dobrodeev1978, hc, Option.bind_eq_bind, Option.bind_some, i0, i2, i22, i4, hg, hS]
  · have := dobL_pos hin
    positivity

/-! The sphere. -/

theorem sphere_one_ne {n : ℕ} (hn : 0 < n) : Spec.sphere n (fun _ => 1) ≠ 0 := by
  rw [one_eq_mono, sphere_mono' hn]
  have := (radial_symMom hn (fun _ => 1) rfl).zero
  simp only [radMom, one_mul] at this
  rw [this, mul_one]
  exact (sphereArea_pos hn).ne'

/-- The TODO of un/_dobrodeev_1978.py:96. -/
theorem C28_sphere_F_zero (n : ℕ) (hn : 2 ≤ n) :
    dobF n (Spec.sphere n fun x => ∏ a, x a ^ (expo2 0 0 : Fin n → ℕ) a)
      (Spec.sphere n fun x => ∏ a, x a ^ (expo2 2 0 : Fin n → ℕ) a)
      (Spec.sphere n fun x => ∏ a, x a ^ (expo2 2 2 : Fin n → ℕ) a)
      (Spec.sphere n fun x => ∏ a, x a ^ (expo2 4 0 : Fin n → ℕ) a) = 0 := by
  have hn0 : 0 < n := by omega
  obtain ⟨i0, i2, i22, i4⟩ := relMom_moments (sphere_relMom hn0) (by omega)
  have h0 : Spec.sphere n (fun _ => 1) ≠ 0 := by
    exact sphere_one_ne hn0
  have : (n : ℝ) ≠ 0 := by positivity
  rw [i0, i2, i22, i4, dobF_scale h0, dobF]
  field_simp
  ring

theorem un_L {n i : ℕ} (h : i ≤ n) :
    n.factorial / (i.factorial * (n - i).factorial) * 2 ^ i = dobL n i := by
  rw [dobL, Nat.choose_eq_factorial_div_factorial h]

/-- C28: the sphere variant, whenever its radicands are nonnegative. -/
theorem C28_un_compute {n : ℕ} {I0 : ℝ} (h0 : I0 ≠ 0) (ty : Bool) {i j k : ℕ} (hi : 1 ≤ i)
    (hj : 1 ≤ j) (hk : 1 ≤ k) {g : ℝ × ℝ × ℝ × ℝ}
    (hg : Un.computeDobrodeev n I0 (I0 * (1 / n)) (I0 * (1 / (n * (n + 2))))
      (I0 * (3 / (n * (n + 2)))) ty i j k = some g) :
    ∃ S, dobScheme n i j k g = some S ∧ S.degree = 5 ∧ S.ExactOnSphere n ∧
      ∀ w ∈ S.weights, w = 1 / ((dobL n i : ℝ) + dobM n j k) := by
  by_cases hg' : i ≤ n ∧ j + k ≤ n
  swap
  · simp [Un.computeDobrodeev, hg'] at hg
  obtain ⟨hin, hjk⟩ := hg'
  have pL : (0 : ℝ) < dobL n i := by exact_mod_cast dobL_pos hin
  have pM : (0 : ℝ) < dobM n j k := by exact_mod_cast dobM_pos hjk
  have rj : (0 : ℝ) < j := by exact_mod_cast hj
  have rk : (0 : ℝ) < k := by exact_mod_cast hk
  have ri : (0 : ℝ) < i := by exact_mod_cast hi
  have rn : (0 : ℝ) < n := by exact_mod_cast (by omega : 0 < n)
  simp only [Un.computeDobrodeev, hin, hjk, and_self, guard_true, Option.bind_eq_bind,
    Option.bind_eq_some_iff, Option.pure_def, Option.some.injEq, sqrtO_iff, un_L hin] at hg
  obtain ⟨_, _, rkj, ⟨pP, hP⟩, rjk, ⟨pR, hR⟩, a, ⟨pa, ha⟩, b, ⟨pb, hb⟩, c, ⟨pc, hc⟩, rfl⟩ := hg
  obtain ⟨L1, h1⟩ := fsd_some hin a
  obtain ⟨L2, h2⟩ := fsd_some2 hjk b c
  refine ⟨_, by simp only [dobScheme, h1, h2, Option.bind_eq_bind, Option.bind_some]; rfl, rfl, ?_, ?_⟩
  · have e2 : I0 * (1 / n) / I0 = 1 / n := by field_simp
    have e3 : (n : ℝ) / i * (I0 * (1 / n)) / I0 = n / i * (1 / n) := by field_simp
    have hs2 : ∀ {x y : ℝ}, 0 ≤ x → y = √x → y ^ 2 = x := fun h e => by rw [e, Real.sq_sqrt h]
    rw [e2] at hb hc pb pc
    rw [e3] at ha pa
    refine dob_conds (sphere_relMom (by omega)) hi hin hj hk hjk h1 h2 rfl
      (A := 0) (B := 0) (F := 0) (P := rkj) (R := rjk) (t := if ty = true then 1 else -1)
      (by rw [hs2 pa ha]; ring) (by rw [hs2 pb hb]; ring) (by rw [hs2 pc hc]; ring) ?_ ?_ ?_ ?_
      (Q := dobL n i / dobM n j k * dobR n I0 (I0 * (1 / n)) (I0 * (1 / (n * (n + 2))))
        (I0 * (3 / (n * (n + 2)))) i j k +
        dobH n I0 (I0 * (1 / n)) (I0 * (1 / (n * (n + 2)))) (I0 * (3 / (n * (n + 2)))) i j k)
      ?_ ?_ ?_
    · cases ty <;> norm_num
    · simp
    · simp
    · rw [hP, hR]; exact sqrt_ratio rj rk
    · rw [hs2 pP hP]; field_simp
    · field_simp; ring
    · rw [dobR_scale h0, dobH_scale h0, dobR, dobH]; field_simp; ring
  · intro w hw
    simp only [schemeOf, untangle, List.map_cons, List.map_nil, List.flatten_cons, List.flatten_nil,
      List.append_nil, List.mem_append, List.mem_replicate] at hw
    tauto

/-- `_generate_jk` with `j = k`, the only case the constructor uses: degree 5 for every dimension. -/
theorem C28_un_generate_jk {n : ℕ} (ty : Bool) {j : ℕ} (hj : 1 ≤ j) (hjn : j + j ≤ n) {G b c : ℝ}
    (hg : Un.generateJk n ty j j = some (G, b, c)) {L : List (List ℝ)}
    (hL : fsd n [(b, j), (c, j)] = some L) : (schemeOf n [(G, L)] 5).ExactOnSphere n := by
  have rj : (0 : ℝ) < j := by exact_mod_cast hj
  have rn : (0 : ℝ) < n := by exact_mod_cast (by omega : 0 < n)
  have pM : (0 : ℝ) < dobM n j j := by exact_mod_cast dobM_pos hjn
  have l : (L.length : ℝ) = dobM n j j := by rw [dobM_len hjn hL]
  simp only [Un.generateJk, Option.bind_eq_bind, Option.bind_eq_some_iff, Option.pure_def,
    Option.some.injEq, sqrtO_iff, Prod.mk.injEq] at hg
  obtain ⟨r, ⟨pr, hr⟩, b', ⟨pb, hb⟩, c', ⟨pc, hc⟩, rfl, rfl, rfl⟩ := hg
  have hs2 : ∀ {x y : ℝ}, 0 ≤ x → y = √x → y ^ 2 = x := fun h e => by rw [e, Real.sq_sqrt h]
  have r2 := hs2 pr hr
  have b2 := hs2 pb hb
  have c2 := hs2 pc hc
  have ht : (if ty = true then (1 : ℝ) else -1) ^ 2 = 1 := by cases ty <;> norm_num
  generalize (if ty = true then (1 : ℝ) else -1) = t at *
  have b4 : b' ^ 4 = (b' ^ 2) ^ 2 := by ring
  have c4 : c' ^ 4 = (c' ^ 2) ^ 2 := by ring
  have r2' : ((n : ℝ) + 2) * r ^ 2 = 3 * (j + j) - (n + 2) := by rw [r2]; field_simp
  have tr : ((n : ℝ) + 2) * (t * r) ^ 2 = 3 * (j + j) - (n + 2) := by rw [mul_pow, ht, one_mul, r2']
  have E2 : (j : ℝ) * b' ^ 2 + j * c' ^ 2 = 1 := by rw [b2, c2]; field_simp; ring
  have E4 : (j : ℝ) * b' ^ 4 + j * c' ^ 4 = 3 / (n + 2) := by
    rw [b4, c4, b2, c2]; field_simp; linear_combination 2 * tr
  refine rel_schemeOf (sphere_relMom (by omega)) (by norm_num) [gFsd _ _ L] rfl
    (ok_cons (gFsd_ok _ hL) (ok_nil n)) ?_
  refine ⟨?_, fun _ _ => ?_, fun _ _ => ?_, fun _ _ => ?_, by omega, by omega, by omega⟩
  all_goals rel_simp; rw [l]
  · field_simp
  · rw [E2]; field_simp
  · rw [E4]; field_simp
  · rw [E2, E4]; field_simp; ring

/-- `_generate_i`: degree 5 for every dimension `n = 3 i - 2`. -/
theorem C28_un_generate_i {n i : ℕ} (h : n + 2 = 3 * i) (hn : 1 ≤ n) {L : List (List ℝ)}
    (hL : fsd n [(√(3 / ((n : ℝ) + 2)), i)] = some L) :
    (schemeOf n [(1 / ((n.factorial / i.factorial / (n - i).factorial * 2 ^ i : ℕ) : ℝ), L)] 5).ExactOnSphere n := by
  have hin : i ≤ n := by omega
  have rn : (0 : ℝ) < n := by exact_mod_cast hn
  have l : (L.length : ℝ) = dobL n i := by rw [dobL_len hin hL]
  have pL : (0 : ℝ) < dobL n i := by exact_mod_cast dobL_pos hin
  have hi : (i : ℝ) = (n + 2) / 3 := by
    have := congrArg (Nat.cast : ℕ → ℝ) h; push_cast at this; linarith
  have hp : (0 : ℝ) ≤ 3 / ((n : ℝ) + 2) := by positivity
  rw [Nat.div_div_eq_div_mul, un_L hin]
  refine rel_schemeOf (sphere_relMom (by omega)) (by norm_num) [gFsd _ _ L] rfl
    (ok_cons (gFsd_ok _ hL) (ok_nil n)) ?_
  refine ⟨?_, fun _ _ => ?_, fun _ _ => ?_, fun _ _ => ?_, by omega, by omega, by omega⟩
  all_goals rel_simp; rw [l]
  · field_simp
  · rw [Real.sq_sqrt hp, hi]; field_simp
  · rw [sqrt_pow4 hp, hi]; field_simp
  · rw [sqrt_pow4 hp, Real.sq_sqrt hp, hi]; field_simp; ring

theorem defined_un {n i j k : ℕ} {I0 m2 m22 m4 : ℝ} (h0 : I0 ≠ 0) (hin : i ≤ n)
    (hj : 1 ≤ j) (hk : 1 ≤ k) (hjk : j + k ≤ n) {L M : ℕ} {R H r1 : ℝ} (hL : dobL n i = L)
    (hM : dobM n j k = M) (hR : dobR n 1 m2 m22 m4 i j k = R)
    (hH : dobH n 1 m2 m22 m4 i j k = H) (hr : 0 ≤ r1)
    (q0 : 0 ≤ L / M * R + H) (u0 : L / M * R + H ≤ k / j * r1 ^ 2) (hc : 0 ≤ m2 - r1) :
    ∃ g, Un.computeDobrodeev n I0 (I0 * m2) (I0 * m22) (I0 * m4) true i j k = some g := by
  have rj : (0 : ℝ) < j := by exact_mod_cast hj
  have rk : (0 : ℝ) < k := by exact_mod_cast hk
  have e2 : I0 * m2 / I0 = m2 := by field_simp
  have e3 : (n : ℝ) / i * (I0 * m2) / I0 = n / i * m2 := by field_simp
  simp only [Un.computeDobrodeev, hin, hjk, and_self, guard_true, Option.bind_eq_bind,
    Option.bind_eq_some_iff, Option.pure_def, Option.some.injEq, sqrtO_iff, un_L hin,
    dobR_scale h0, dobH_scale h0, hR, hH, hL, hM, e2, e3, if_true]
  have R1 : √(j / k * (L / M * R + H)) ≤ r1 := by
    refine Real.sqrt_le_iff.mpr ⟨hr, ?_⟩
    calc _ ≤ (j : ℝ) / k * (k / j * r1 ^ 2) := mul_le_mul_of_nonneg_left u0 (by positivity)
      _ = r1 ^ 2 := by field_simp
  have hm : 0 ≤ m2 := by linarith
  refine ⟨_, (), trivial, _, ⟨by positivity, rfl⟩, _, ⟨by positivity, rfl⟩, _,
    ⟨by positivity, rfl⟩, _, ⟨by positivity, rfl⟩, _, ⟨?_, rfl⟩, rfl⟩
  exact mul_nonneg (by positivity) (by linarith)

private theorem un_dob_5 {I0 : ℝ} (h0 : I0 ≠ 0) :
    ∃ g, Un.computeDobrodeev 5 I0 (I0 * (1 / ((5 : ℕ) : ℝ))) (I0 * (1 / (((5 : ℕ) : ℝ) * (((5 : ℕ) : ℝ) + 2))))
      (I0 * (3 / (((5 : ℕ) : ℝ) * (((5 : ℕ) : ℝ) + 2)))) true 5 1 1 = some g := by
  apply defined_un h0 (L := 32) (M := 80) (R := (16/875)) (H := (-1/175)) (r1 := (401/10000)) <;>
    norm_num [dobR, dobH, dobL, dobM, Nat.choose, Nat.factorial]

private theorem un_dob_6 {I0 : ℝ} (h0 : I0 ≠ 0) :
    ∃ g, Un.computeDobrodeev 6 I0 (I0 * (1 / ((6 : ℕ) : ℝ))) (I0 * (1 / (((6 : ℕ) : ℝ) * (((6 : ℕ) : ℝ) + 2))))
      (I0 * (3 / (((6 : ℕ) : ℝ) * (((6 : ℕ) : ℝ) + 2)))) true 5 1 1 = some g := by
  apply defined_un h0 (L := 192) (M := 120) (R := (7/720)) (H := (-1/144)) (r1 := (58/625)) <;>
    norm_num [dobR, dobH, dobL, dobM, Nat.choose, Nat.factorial]

private theorem un_dob_8 {I0 : ℝ} (h0 : I0 ≠ 0) :
    ∃ g, Un.computeDobrodeev 8 I0 (I0 * (1 / ((8 : ℕ) : ℝ))) (I0 * (1 / (((8 : ℕ) : ℝ) * (((8 : ℕ) : ℝ) + 2))))
      (I0 * (3 / (((8 : ℕ) : ℝ) * (((8 : ℕ) : ℝ) + 2)))) true 8 1 1 = some g := by
  apply defined_un h0 (L := 256) (M := 224) (R := (7/1280)) (H := (-1/160)) (r1 := (0)) <;>
    norm_num [dobR, dobH, dobL, dobM, Nat.choose, Nat.factorial]

private theorem un_dob_9 {I0 : ℝ} (h0 : I0 ≠ 0) :
    ∃ g, Un.computeDobrodeev 9 I0 (I0 * (1 / ((9 : ℕ) : ℝ))) (I0 * (1 / (((9 : ℕ) : ℝ) * (((9 : ℕ) : ℝ) + 2))))
      (I0 * (3 / (((9 : ℕ) : ℝ) * (((9 : ℕ) : ℝ) + 2)))) true 9 1 1 = some g := by
  apply defined_un h0 (L := 512) (M := 288) (R := (32/8019)) (H := (-5/891)) (r1 := (193/5000)) <;>
    norm_num [dobR, dobH, dobL, dobM, Nat.choose, Nat.factorial]

private theorem un_dob_10 {I0 : ℝ} (h0 : I0 ≠ 0) :
    ∃ g, Un.computeDobrodeev 10 I0 (I0 * (1 / ((10 : ℕ) : ℝ))) (I0 * (1 / (((10 : ℕ) : ℝ) * (((10 : ℕ) : ℝ) + 2))))
      (I0 * (3 / (((10 : ℕ) : ℝ) * (((10 : ℕ) : ℝ) + 2)))) true 10 1 1 = some g := by
  apply defined_un h0 (L := 1024) (M := 360) (R := (3/1000)) (H := (-1/200)) (r1 := (119/2000)) <;>
    norm_num [dobR, dobH, dobL, dobM, Nat.choose, Nat.factorial]

private theorem un_dob_11 {I0 : ℝ} (h0 : I0 ≠ 0) :
    ∃ g, Un.computeDobrodeev 11 I0 (I0 * (1 / ((11 : ℕ) : ℝ))) (I0 * (1 / (((11 : ℕ) : ℝ) * (((11 : ℕ) : ℝ) + 2))))
      (I0 * (3 / (((11 : ℕ) : ℝ) * (((11 : ℕ) : ℝ) + 2)))) true 11 1 1 = some g := by
  apply defined_un h0 (L := 2048) (M := 440) (R := (40/17303)) (H := (-7/1573)) (r1 := (159/2000)) <;>
    norm_num [dobR, dobH, dobL, dobM, Nat.choose, Nat.factorial]

private theorem un_dob_12 {I0 : ℝ} (h0 : I0 ≠ 0) :
    ∃ g, Un.computeDobrodeev 12 I0 (I0 * (1 / ((12 : ℕ) : ℝ))) (I0 * (1 / (((12 : ℕ) : ℝ) * (((12 : ℕ) : ℝ) + 2))))
      (I0 * (3 / (((12 : ℕ) : ℝ) * (((12 : ℕ) : ℝ) + 2)))) true 5 1 1 = some g := by
  apply defined_un h0 (L := 25344) (M := 528) (R := (1/5040)) (H := (-1/252)) (r1 := (373/5000)) <;>
    norm_num [dobR, dobH, dobL, dobM, Nat.choose, Nat.factorial]

private theorem un_dob_13 {I0 : ℝ} (h0 : I0 ≠ 0) :
    ∃ g, Un.computeDobrodeev 13 I0 (I0 * (1 / ((13 : ℕ) : ℝ))) (I0 * (1 / (((13 : ℕ) : ℝ) * (((13 : ℕ) : ℝ) + 2))))
      (I0 * (3 / (((13 : ℕ) : ℝ) * (((13 : ℕ) : ℝ) + 2)))) true 13 1 2 = some g := by
  apply defined_un h0 (L := 8192) (M := 6864) (R := (24/10985)) (H := (-2/845)) (r1 := (11/1000)) <;>
    norm_num [dobR, dobH, dobL, dobM, Nat.choose, Nat.factorial]

private theorem un_dob_14 {I0 : ℝ} (h0 : I0 ≠ 0) :
    ∃ g, Un.computeDobrodeev 14 I0 (I0 * (1 / ((14 : ℕ) : ℝ))) (I0 * (1 / (((14 : ℕ) : ℝ) * (((14 : ℕ) : ℝ) + 2))))
      (I0 * (3 / (((14 : ℕ) : ℝ) * (((14 : ℕ) : ℝ) + 2)))) true 14 1 2 = some g := by
  apply defined_un h0 (L := 16384) (M := 8736) (R := (39/21952)) (H := (-1/448)) (r1 := (47/2000)) <;>
    norm_num [dobR, dobH, dobL, dobM, Nat.choose, Nat.factorial]

private theorem un_dob_15 {I0 : ℝ} (h0 : I0 ≠ 0) :
    ∃ g, Un.computeDobrodeev 15 I0 (I0 * (1 / ((15 : ℕ) : ℝ))) (I0 * (1 / (((15 : ℕ) : ℝ) * (((15 : ℕ) : ℝ) + 2))))
      (I0 * (3 / (((15 : ℕ) : ℝ) * (((15 : ℕ) : ℝ) + 2)))) true 15 1 2 = some g := by
  apply defined_un h0 (L := 32768) (M := 10920) (R := (28/19125)) (H := (-8/3825)) (r1 := (17/500)) <;>
    norm_num [dobR, dobH, dobL, dobM, Nat.choose, Nat.factorial]

private theorem un_dob_16 {I0 : ℝ} (h0 : I0 ≠ 0) :
    ∃ g, Un.computeDobrodeev 16 I0 (I0 * (1 / ((16 : ℕ) : ℝ))) (I0 * (1 / (((16 : ℕ) : ℝ) * (((16 : ℕ) : ℝ) + 2))))
      (I0 * (3 / (((16 : ℕ) : ℝ) * (((16 : ℕ) : ℝ) + 2)))) true 16 1 2 = some g := by
  apply defined_un h0 (L := 65536) (M := 13440) (R := (5/4096)) (H := (-1/512)) (r1 := (28/625)) <;>
    norm_num [dobR, dobH, dobL, dobM, Nat.choose, Nat.factorial]

private theorem un_dob_17 {I0 : ℝ} (h0 : I0 ≠ 0) :
    ∃ g, Un.computeDobrodeev 17 I0 (I0 * (1 / ((17 : ℕ) : ℝ))) (I0 * (1 / (((17 : ℕ) : ℝ) * (((17 : ℕ) : ℝ) + 2))))
      (I0 * (3 / (((17 : ℕ) : ℝ) * (((17 : ℕ) : ℝ) + 2)))) true 17 1 2 = some g := by
  apply defined_un h0 (L := 131072) (M := 16320) (R := (96/93347)) (H := (-10/5491)) (r1 := (71/1250)) <;>
    norm_num [dobR, dobH, dobL, dobM, Nat.choose, Nat.factorial]

private theorem un_dob_18 {I0 : ℝ} (h0 : I0 ≠ 0) :
    ∃ g, Un.computeDobrodeev 18 I0 (I0 * (1 / ((18 : ℕ) : ℝ))) (I0 * (1 / (((18 : ℕ) : ℝ) * (((18 : ℕ) : ℝ) + 2))))
      (I0 * (3 / (((18 : ℕ) : ℝ) * (((18 : ℕ) : ℝ) + 2)))) true 18 1 3 = some g := by
  apply defined_un h0 (L := 262144) (M := 195840) (R := (17/14580)) (H := (-1/810)) (r1 := (21/2000)) <;>
    norm_num [dobR, dobH, dobL, dobM, Nat.choose, Nat.factorial]

private theorem un_dob_19 {I0 : ℝ} (h0 : I0 ≠ 0) :
    ∃ g, Un.computeDobrodeev 19 I0 (I0 * (1 / ((19 : ℕ) : ℝ))) (I0 * (1 / (((19 : ℕ) : ℝ) * (((19 : ℕ) : ℝ) + 2))))
      (I0 * (3 / (((19 : ℕ) : ℝ) * (((19 : ℕ) : ℝ) + 2)))) true 19 1 3 = some g := by
  apply defined_un h0 (L := 524288) (M := 248064) (R := (48/48013)) (H := (-3/2527)) (r1 := (11/625)) <;>
    norm_num [dobR, dobH, dobL, dobM, Nat.choose, Nat.factorial]

private theorem un_dob_20 {I0 : ℝ} (h0 : I0 ≠ 0) :
    ∃ g, Un.computeDobrodeev 20 I0 (I0 * (1 / ((20 : ℕ) : ℝ))) (I0 * (1 / (((20 : ℕ) : ℝ) * (((20 : ℕ) : ℝ) + 2))))
      (I0 * (3 / (((20 : ℕ) : ℝ) * (((20 : ℕ) : ℝ) + 2)))) true 20 1 3 = some g := by
  apply defined_un h0 (L := 1048576) (M := 310080) (R := (19/22000)) (H := (-1/880)) (r1 := (61/2500)) <;>
    norm_num [dobR, dobH, dobL, dobM, Nat.choose, Nat.factorial]

theorem un_compute_case {n i j k : ℕ} (hc : Un.dobConfig n = some (some true, some i, some (j, k)))
    (h2 : 2 ≤ n) (hi : 1 ≤ i) (hj : 1 ≤ j) (hk : 1 ≤ k)
    (hg : ∀ {I0 : ℝ}, I0 ≠ 0 → ∃ g, Un.computeDobrodeev n I0 (I0 * (1 / (n : ℝ)))
      (I0 * (1 / ((n : ℝ) * (n + 2)))) (I0 * (3 / ((n : ℝ) * (n + 2)))) true i j k = some g) :
    ∃ S, Un.dobrodeev1978 n = some S ∧ S.degree = 5 ∧ S.ExactOnSphere n := by
  have hn : 0 < n := by omega
  obtain ⟨g, hg⟩ := hg (sphere_one_ne hn)
  obtain ⟨S, hS, hd, he, -⟩ := C28_un_compute (sphere_one_ne hn) true hi hj hk hg
  obtain ⟨i0, i2, i22, i4⟩ := relMom_moments (sphere_relMom hn) (by omega)
  refine ⟨S, ?_, hd, he⟩
  simp only [Un.dobrodeev1978, hc, Option.bind_eq_bind, Option.bind_some, i0, i2, i22, i4, hg, hS]

theorem un_i_case {n i : ℕ} (hc : Un.dobConfig n = some (none, some i, none)) (h : n + 2 = 3 * i)
    (hn : 1 ≤ n) : ∃ S, Un.dobrodeev1978 n = some S ∧ S.degree = 5 ∧ S.ExactOnSphere n := by
  obtain ⟨L, hL⟩ := fsd_some (show i ≤ n by omega) (√(3 / ((n : ℝ) + 2)))
  refine ⟨_, ?_, rfl, C28_un_generate_i h hn hL⟩
  simp only [Un.dobrodeev1978, hc, Option.bind_eq_bind, Option.bind_some, hL, Option.pure_def]

theorem un_jk_case {n : ℕ} (hc : Un.dobConfig n = some (some true, none, some (1, 1))) (h2 : 2 ≤ n)
    (h4 : n ≤ 4) (hr : 3 * 2 / ((n : ℝ) + 2) ≤ 2) :
    ∃ S, Un.dobrodeev1978 n = some S ∧ S.degree = 5 ∧ S.ExactOnSphere n := by
  have rn : (2 : ℝ) ≤ n := by exact_mod_cast h2
  have rn' : (n : ℝ) ≤ 4 := by exact_mod_cast h4
  have p0 : (0 : ℝ) ≤ 3 * (1 + 1) / ((n : ℝ) + 2) - 1 := by
    rw [sub_nonneg, le_div_iff₀ (by linarith)]; linarith
  have hr1 : √(3 * (1 + 1) / ((n : ℝ) + 2) - 1) ≤ 1 := by
    refine Real.sqrt_le_iff.mpr ⟨zero_le_one, ?_⟩
    norm_num at hr ⊢; linarith
  have hr0 := Real.sqrt_nonneg (3 * (1 + 1) / ((n : ℝ) + 2) - 1)
  obtain ⟨g, hg⟩ : ∃ g, Un.generateJk n true 1 1 = some g := by
    simp only [Un.generateJk, Nat.cast_one, if_true, Option.bind_eq_bind, Option.bind_eq_some_iff,
      Option.pure_def, Option.some.injEq, sqrtO_iff]
    refine ⟨_, _, ⟨p0, rfl⟩, _, ⟨by positivity, rfl⟩, _, ⟨mul_nonneg (by norm_num) (by linarith), rfl⟩, rfl⟩
  obtain ⟨G, b, c⟩ := g
  obtain ⟨L, hL⟩ := fsd_some2 (show 1 + 1 ≤ n from h2) b c
  refine ⟨_, ?_, rfl, C28_un_generate_jk true le_rfl h2 hg hL⟩
  simp only [Un.dobrodeev1978, hc, Option.bind_eq_bind, Option.bind_some, hg, hL, Option.pure_def]

theorem C28_un (n : ℕ) (h2 : 2 ≤ n) (h20 : n ≤ 20) :
    ∃ S, Un.dobrodeev1978 n = some S ∧ S.degree = 5 ∧ S.ExactOnSphere n := by
  interval_cases n
  · exact un_jk_case rfl (by norm_num) (by norm_num) (by norm_num)
  · exact un_jk_case rfl (by norm_num) (by norm_num) (by norm_num)
  · exact un_i_case rfl (by norm_num) (by norm_num)
  · exact un_compute_case rfl (by norm_num) (by norm_num) (by norm_num) (by norm_num) un_dob_5
  · exact un_compute_case rfl (by norm_num) (by norm_num) (by norm_num) (by norm_num) un_dob_6
  · exact un_i_case rfl (by norm_num) (by norm_num)
  · exact un_compute_case rfl (by norm_num) (by norm_num) (by norm_num) (by norm_num) un_dob_8
  · exact un_compute_case rfl (by norm_num) (by norm_num) (by norm_num) (by norm_num) un_dob_9
  · exact un_compute_case rfl (by norm_num) (by norm_num) (by norm_num) (by norm_num) un_dob_10
  · exact un_compute_case rfl (by norm_num) (by norm_num) (by norm_num) (by norm_num) un_dob_11
  · exact un_compute_case rfl (by norm_num) (by norm_num) (by norm_num) (by norm_num) un_dob_12
  · exact un_compute_case rfl (by norm_num) (by norm_num) (by norm_num) (by norm_num) un_dob_13
  · exact un_compute_case rfl (by norm_num) (by norm_num) (by norm_num) (by norm_num) un_dob_14
  · exact un_compute_case rfl (by norm_num) (by norm_num) (by norm_num) (by norm_num) un_dob_15
  · exact un_compute_case rfl (by norm_num) (by norm_num) (by norm_num) (by norm_num) un_dob_16
  · exact un_compute_case rfl (by norm_num) (by norm_num) (by norm_num) (by norm_num) un_dob_17
  · exact un_compute_case rfl (by norm_num) (by norm_num) (by norm_num) (by norm_num) un_dob_18
  · exact un_compute_case rfl (by norm_num) (by norm_num) (by norm_num) (by norm_num) un_dob_19
  · exact un_compute_case rfl (by norm_num) (by norm_num) (by norm_num) (by norm_num) un_dob_20

/-- Outside the table the constructors raise (`assert 2 <= n <= 20`). -/
theorem C28_outside (n : ℕ) (h : n < 2 ∨ 20 < n) :
    Cn.dobrodeev1978 n = none ∧ Sn.dobrodeev1978 n = none ∧ Un.dobrodeev1978 n = none := by
  have c : Cn.dobConfig n = none := by unfold Cn.dobConfig; split <;> first | omega | rfl
  have s : Sn.dobConfig n = none := by unfold Sn.dobConfig; split <;> first | omega | rfl
  have u : Un.dobConfig n = none := by unfold Un.dobConfig; split <;> first | omega | rfl
  simp [Cn.dobrodeev1978, Sn.dobrodeev1978, Un.dobrodeev1978, c, s, u]

/-- In dimension 4 the rule has the 24 vertices of a regular polytope. -/
example : ∃ S, Un.dobrodeev1978 4 = some S ∧ S.ExactOnSphere 4 := by
  obtain ⟨S, h, -, he⟩ := C28_un 4 (by norm_num) (by norm_num); exact ⟨S, h, he⟩

example : dobL 3 3 = 8 ∧ dobM 3 1 1 = 24 := by constructor <;> rfl

end Quadpy
