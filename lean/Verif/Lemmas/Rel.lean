import Verif.Lemmas.RadialExact
import Verif.Lemmas.CubeExact

/-! Degree conditions relative to the moments of a fully symmetric functional, and the functionals of
the n-cube, n-ball, n-sphere, `exp(-|x|)` and `exp(-|x|^2)`. -/

namespace Quadpy
open Finset

/-- The functional is linear on polynomials and its moments, relative to `J 1`, are symmetric. -/
def RelMom {n : ℕ} (J : Spec.Functional n) (m2 m4 m22 m6 m42 m222 : ℝ) : Prop :=
  ∃ M, LinOnMono J ∧ (∀ α, J (mono α) = J (fun _ => 1) * M α) ∧ SymMom M m2 m4 m22 m6 m42 m222

theorem rel_schemeOf {n d : ℕ} {J : Spec.Functional n} {m2 m4 m22 m6 m42 m222 : ℝ}
    (hJ : RelMom J m2 m4 m22 m6 m42 m222) (hd : d ≤ 7) {data : List (ℝ × List (List ℝ))}
    (gs : List Grp) (hdata : data = gs.map fun g => (g.w, g.L)) (hok : ∀ g ∈ gs, g.Ok n)
    (hc : GroupConds n d gs m2 m4 m22 m6 m42 m222) :
    (schemeOf n data d).ExactRel n J := by
  obtain ⟨M, hl, hm, hs⟩ := hJ
  exact schemeOf_exact hd hl hm hs gs hdata hok hc

theorem cube_relMom (n : ℕ) :
    RelMom (Spec.cube n) (1 / 3) (1 / 5) (1 / 9) (1 / 7) (1 / 15) (1 / 27) := by
  refine ⟨cubeMom, cube_linOnMono n, fun α => ?_, cube_symMom n⟩
  rw [one_eq_mono, cube_mono, cube_mono, cubeMom_zero, mul_one]

theorem radial_relMom {n : ℕ} (hn : 0 < n) {J : Spec.Functional n} {ρ : ℕ → ℝ} (h0 : ρ 0 = 1)
    (hl : LinOnMono J) (hm : ∀ α, J (mono α) = J (fun _ => 1) * radMom ρ α) :
    RelMom J (ρ 2 / n) (3 * ρ 4 / (n * (n + 2))) (ρ 4 / (n * (n + 2)))
      (15 * ρ 6 / (n * (n + 2) * (n + 4))) (3 * ρ 6 / (n * (n + 2) * (n + 4)))
      (ρ 6 / (n * (n + 2) * (n + 4))) :=
  ⟨_, hl, hm, radial_symMom hn ρ h0⟩

theorem ballPow_relMom {n : ℕ} (hn : 0 < n) {a : ℝ} (ha : -(n : ℝ) < a) :
    RelMom (Spec.ballPow n a) ((n + a) / (n + a + 2) / n)
      (3 * ((n + a) / (n + a + 4)) / (n * (n + 2))) ((n + a) / (n + a + 4) / (n * (n + 2)))
      (15 * ((n + a) / (n + a + 6)) / (n * (n + 2) * (n + 4)))
      (3 * ((n + a) / (n + a + 6)) / (n * (n + 2) * (n + 4)))
      ((n + a) / (n + a + 6) / (n * (n + 2) * (n + 4))) := by
  have h1 : (n : ℝ) + a ≠ 0 := by linarith
  have := radial_relMom hn (ρ := ballRho n a) (by simp [ballRho, h1]) (ballPow_linOnMono hn ha)
    (ballPow_mono hn ha)
  simpa [ballRho] using this

theorem ball_relMom {n : ℕ} (hn : 0 < n) :
    RelMom (Spec.ball n) (1 / (n + 2)) (3 / ((n + 2) * (n + 4))) (1 / ((n + 2) * (n + 4)))
      (15 / ((n + 2) * (n + 4) * (n + 6))) (3 / ((n + 2) * (n + 4) * (n + 6)))
      (1 / ((n + 2) * (n + 4) * (n + 6))) := by
  have h := ballPow_relMom hn (a := 0) (by simp [hn])
  rw [← ball_eq_ballPow] at h
  have hn0 : (n : ℝ) ≠ 0 := by positivity
  convert h using 1 <;> simp only [add_zero] <;> field_simp

theorem sphere_relMom {n : ℕ} (hn : 0 < n) :
    RelMom (Spec.sphere n) (1 / n) (3 / (n * (n + 2))) (1 / (n * (n + 2)))
      (15 / (n * (n + 2) * (n + 4))) (3 / (n * (n + 2) * (n + 4)))
      (1 / (n * (n + 2) * (n + 4))) := by
  simpa using radial_relMom hn (ρ := fun _ => 1) rfl sphere_linOnMono (sphere_mono_rel hn)

theorem enrRho_eq {n : ℕ} (hn : 0 < n) (k : ℕ) :
    enrRho n (k + 1) = (n + k) * enrRho n k := by
  obtain ⟨m, rfl⟩ : ∃ m, n = m + 1 := ⟨n - 1, by omega⟩
  simp only [enrRho, Nat.add_sub_cancel]
  rw [← add_assoc, Nat.factorial_succ]
  push_cast
  ring

theorem enrRho_zero (n : ℕ) : enrRho n 0 = 1 := by
  have : ((n - 1).factorial : ℝ) ≠ 0 := by positivity
  simp [enrRho, this]

theorem enr_relMom {n : ℕ} (hn : 0 < n) :
    RelMom (Spec.enr n) (n + 1) (3 * (n + 1) * (n + 3)) ((n + 1) * (n + 3))
      (15 * (n + 1) * (n + 3) * (n + 5)) (3 * (n + 1) * (n + 3) * (n + 5))
      ((n + 1) * (n + 3) * (n + 5)) := by
  have h := radial_relMom hn (ρ := enrRho n) (enrRho_zero n) (enr_linOnMono hn) (enr_mono hn)
  have hn0 : (n : ℝ) ≠ 0 := by positivity
  have e2 : enrRho n 2 = n * (n + 1) := by
    rw [enrRho_eq hn 1, enrRho_eq hn 0, enrRho_zero]; push_cast; ring
  have e4 : enrRho n 4 = n * (n + 1) * (n + 2) * (n + 3) := by
    rw [enrRho_eq hn 3, enrRho_eq hn 2, e2]; push_cast; ring
  have e6 : enrRho n 6 = n * (n + 1) * (n + 2) * (n + 3) * (n + 4) * (n + 5) := by
    rw [enrRho_eq hn 5, enrRho_eq hn 4, e4]; push_cast; ring
  convert h using 1 <;> simp only [e2, e4, e6] <;> field_simp

theorem enr2_relMom (n : ℕ) :
    RelMom (Spec.enr2 n) (1 / 2) (3 / 4) (1 / 4) (15 / 8) (3 / 8) (1 / 8) :=
  ⟨_, enr2_linOnMono n, fun α => by rw [enr2_one, enr2_mono], enr2_symMom n⟩

/-! Groups. -/

theorem fsd_some {n k : ℕ} (h : k ≤ n) (a : ℝ) : ∃ L, fsd n [(a, k)] = some L := by
  refine ⟨_, if_pos ?_⟩; simpa using h

theorem fsd_some2 {n k l : ℕ} (h : k + l ≤ n) (a b : ℝ) : ∃ L, fsd n [(a, k), (b, l)] = some L := by
  refine ⟨_, if_pos ?_⟩; simpa using h

theorem fsd1n_len {n : ℕ} {a b : ℝ} {L : List (List ℝ)} (hn : 1 ≤ n)
    (h : fsd n [(a, 1), (b, n - 1)] = some L) : (L.length : ℝ) = n * 2 ^ n := by
  have h1 := fsd_count h
  obtain ⟨m, rfl⟩ : ∃ m, n = m + 1 := ⟨n - 1, by omega⟩
  have hf : (m.factorial : ℝ) ≠ 0 := by exact_mod_cast (Nat.factorial_pos m).ne'
  simp only [List.map_cons, List.map_nil, List.prod_cons, List.prod_nil, List.sum_cons,
    List.sum_nil, Nat.add_sub_cancel, add_zero, Nat.factorial_one, one_mul, mul_one] at h1
  have e : m + 1 - (1 + m) = 0 := by omega
  have e' : 1 + m = m + 1 := by omega
  rw [e, e'] at h1
  push_cast [Nat.factorial_succ, Nat.factorial_zero] at h1
  apply mul_left_cancel₀ hf
  push_cast
  linear_combination h1

/-- `combine(((+r, -r), 1), ((+s, -s), n - 1))`. -/
noncomputable def gComb (n : ℕ) (w r s : ℝ) : Grp :=
  ⟨w, combine [([r, -r], 1), ([s, -s], n - 1)], r ^ 2 + (n - 1 : ℕ) * s ^ 2,
    r ^ 4 + (n - 1 : ℕ) * s ^ 4, r ^ 6 + (n - 1 : ℕ) * s ^ 6⟩

theorem comb_FS {n : ℕ} (hn : 1 ≤ n) (r s : ℝ) :
    FS n (combine [([r, -r], 1), ([s, -s], n - 1)]) := by
  apply combine_FS
  · simp; omega
  · intro e he k hk
    simp only [List.mem_cons, List.not_mem_nil, or_false] at he
    rcases he with rfl | rfl <;> simp [hk.neg_pow]

theorem comb_pow {n : ℕ} (hn : 1 ≤ n) (r s : ℝ) {k : ℕ} (hk : Even k) :
    ConstPow n (combine [([r, -r], 1), ([s, -s], n - 1)]) k (r ^ k + (n - 1 : ℕ) * s ^ k) := by
  intro x hx
  have hlen := (comb_FS hn r s).len x hx
  have h1 := sum_map_of_mem_combine _ (fun v => v ^ k) (fun e => (e.1.headD 0) ^ k) (by
    intro e he v hv
    simp only [List.mem_cons, List.not_mem_nil, or_false] at he
    rcases he with rfl | rfl <;>
    · simp only [List.mem_cons, List.not_mem_nil, or_false] at hv
      rcases hv with rfl | rfl
      · rfl
      · simp [hk.neg_pow]) x hx
  have h2 : ∑ i, toVec n x i ^ k = (x.map fun v => v ^ k).sum := by
    rw [← List.sum_ofFn]
    congr 1
    apply List.ext_getElem
    · simp [hlen]
    · intro i h3 h4
      have hi : i < x.length := by simpa using h4
      simp [toVec, hi]
  rw [h2, h1]
  simp

theorem gComb_ok {n : ℕ} (hn : 1 ≤ n) (w r s : ℝ) : (gComb n w r s).Ok n :=
  ⟨comb_FS hn r s, comb_pow hn r s even2, comb_pow hn r s even4, comb_pow hn r s even6⟩

theorem gComb_len {n : ℕ} (hn : 1 ≤ n) (w r s : ℝ) :
    ((gComb n w r s).L.length : ℝ) = n * 2 ^ n := by
  have h1 := length_combine [([r, -r], 1), ([s, -s], n - 1)]
  obtain ⟨m, rfl⟩ : ∃ m, n = m + 1 := ⟨n - 1, by omega⟩
  have hf := Nat.factorial_pos m
  simp only [gComb, Nat.add_sub_cancel] at h1 ⊢
  simp only [List.map_cons, List.map_nil, List.prod_cons, List.prod_nil, List.sum_cons,
    List.sum_nil, add_zero, Nat.factorial_one, one_mul, mul_one, List.length_cons,
    List.length_nil] at h1
  rw [show 1 + m = m + 1 by omega, Nat.factorial_succ] at h1
  have h2 : m.factorial * (combine [([r, -r], 1), ([s, -s], m)]).length =
      m.factorial * ((m + 1) * 2 ^ (m + 1)) := by
    rw [h1]; norm_num; ring
  rw [Nat.eq_of_mul_eq_mul_left hf h2]
  push_cast; ring

/-- Unfold the moment conditions of a list of groups. -/
macro "rel_simp" : tactic => `(tactic| (
  simp only [gsum, List.map_cons, List.map_nil, List.sum_cons, List.sum_nil, gZ_len, gA0_len, gA_len,
    gFs11_len, gFsd_L]
  simp only [gZ, gA0, gA, gFs11, gFsd, List.map_cons, List.map_nil, List.sum_cons, List.sum_nil,
    Nat.cast_one, one_mul, add_zero, Nat.cast_ofNat]))

theorem cast_pred {n : ℕ} (hn : 1 ≤ n) : ((n - 1 : ℕ) : ℝ) = n - 1 := by
  rw [Nat.cast_sub hn, Nat.cast_one]

theorem sqrtO_some {x : ℝ} (h : 0 ≤ x) : sqrtO x = some (Real.sqrt x) := if_pos h

end Quadpy
