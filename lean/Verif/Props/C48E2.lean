import Verif.Model.FixedE
import Verif.Lemmas.Polygon

/-!
# C48: closed-form rules on the plane with weights exp(-|x|) and exp(-|x|^2)

Each theorem says that the rule integrates all polynomials up to the degree it reports exactly against
the weight function, its weights relative to the total mass, and states that degree.
-/

namespace Quadpy
open Finset

theorem e2r_even : EvenMom (Spec.enr 2) fun p =>
    ((1 + 2 * (p 0 + p 1)).factorial : ℝ) * (oddFac (p 0) * oddFac (p 1) / stepFac 2 (p 0 + p 1)) := by
  simpa only [Fin.prod_univ_two, Fin.sum_univ_two, Nat.cast_ofNat, Nat.cast_add, Nat.add_one_sub_one,
    Nat.factorial_one, Nat.cast_one, div_one] using enr_even (n := 2) (by norm_num)

theorem e2r2_even : EvenMom (Spec.enr2 2) fun p =>
    oddFac (p 0) * oddFac (p 1) / 2 ^ (p 0 + p 1) := by
  simpa only [Fin.prod_univ_two, Fin.sum_univ_two] using enr2_even 2

/-- The Gaussian weight is radial. -/
theorem e2r2_radial (α : Fin 2 → ℕ) : Spec.enr2 2 (mono α) = Spec.enr2 2 (fun _ => 1) *
    radMom (fun k => stepFac 2 (k / 2) / 2 ^ (k / 2)) α := by
  rw [radMom]
  by_cases hodd : ∃ i, Odd (α i)
  · rw [(enr2_even 2).odd α hodd, sphMom_odd α hodd, mul_zero, mul_zero]
  · push Not at hodd
    choose p hp using fun i => (Nat.not_odd_iff_even.1 (hodd i)).two_dvd
    obtain rfl : α = fun i => 2 * p i := funext hp
    rw [(enr2_even 2).even, sphMom_even (n := 2) (by norm_num), ← mul_sum,
      Nat.mul_div_cancel_left _ (by norm_num)]
    have := (stepFac_pos (n := 2) (by norm_num) (∑ i, p i)).ne'
    push_cast at this ⊢
    field_simp

/-- One rule made of sign-symmetric orbits. -/
local macro "e2_rule " h:ident "[" es:Lean.Parser.Tactic.simpLemma,* "]" ids:(ppSpace colGt ident)* : tactic => `(tactic| (
  refine ⟨plane_exact $h
    (by simp [planeKeys, SymEntry.Regular, SymKey.Accepts, SymKey.arities]) ?_, rfl⟩
  plane_fixed [$es,*] $ids*))

section e2r
open FixedE2r

/-- C48, Stroud 4-1. -/
theorem C48_e2r_stroud_4_1 : stroud_4_1.ExactOnEnr 2 ∧ stroud_4_1.degree = 4 := by
  have hs : √(5 : ℝ) ^ 2 = 5 := Real.sq_sqrt (by norm_num)
  refine ⟨polygon_exact (enr_linOnMono (by norm_num)) (enr_mono (by norm_num)) 5 (by norm_num)
    (by simp [SymEntry.Regular, SymKey.Accepts, SymKey.arities]) fun s h => ?_, rfl⟩
  simp only [ringSum, List.map_cons, List.map_nil, List.zipWith_cons_cons, List.zipWith_nil_left,
      List.sum_cons, List.sum_nil, ringTerm, enrRho, mul_pow, hs]
  have : s ≤ 2 := by omega
  interval_cases s <;> norm_num [Nat.factorial]

/-- C48, Stroud and Secrest V (stroud_5_1). -/
theorem C48_e2r_stroud_secrest_5 : stroud_secrest_5.ExactOnEnr 2 ∧ stroud_secrest_5.degree = 5 := by
  have hs : √(5 : ℝ) ^ 2 = 5 := Real.sq_sqrt (by norm_num)
  have h2 : √(15 : ℝ) ^ 2 = 15 := Real.sq_sqrt (by norm_num)
  e2_rule e2r_even [mul_pow, hs, h2]

/-- C48, Stroud and Secrest VI (stroud_7_1). -/
theorem C48_e2r_stroud_secrest_6 : stroud_secrest_6.ExactOnEnr 2 ∧ stroud_secrest_6.degree = 7 := by
  have hs : √(74255 : ℝ) ^ 2 = 74255 := Real.sq_sqrt (by norm_num)
  have h0 := Real.sqrt_nonneg (74255 : ℝ)
  have h1 : √(74255 : ℝ) ≤ 300 := by nlinarith
  have e0 : √(42 : ℝ) ^ 2 = 42 := Real.sq_sqrt (by norm_num)
  have e1 := sqrt_sq_of (x := (6615 - 21 * √74255) / 454) (by linarith)
  have e2 := sqrt_sq_of (x := (6615 + 21 * √74255) / 454) (by linarith)
  unfold stroud_secrest_6
  dsimp only
  generalize √(74255 : ℝ) = t at *
  clear h0 h1
  e2_rule e2r_even [e0, e1, e2] e0 e1 e2

end e2r

section e2r2
open FixedE2r2

/-- C48, Stroud 4-1. -/
theorem C48_e2r2_stroud_4_1 : stroud_4_1.ExactOnEnr2 2 ∧ stroud_4_1.degree = 4 := by
  have hs : √(2 : ℝ) ^ 2 = 2 := Real.sq_sqrt (by norm_num)
  refine ⟨polygon_exact (enr2_linOnMono 2) e2r2_radial 5 (by norm_num)
    (by simp [SymEntry.Regular, SymKey.Accepts, SymKey.arities]) fun s h => ?_, rfl⟩
  simp only [ringSum, List.map_cons, List.map_nil, List.zipWith_cons_cons, List.zipWith_nil_left,
      List.sum_cons, List.sum_nil, ringTerm, hs]
  have : s ≤ 2 := by omega
  interval_cases s <;> norm_num [stepFac]

/-- C48, Stroud 5-2. -/
theorem C48_e2r2_stroud_5_2 : stroud_5_2.ExactOnEnr2 2 ∧ stroud_5_2.degree = 5 := by
  have e1 := sqrt_sq_of (x := 3 / 2) (by norm_num)
  e2_rule e2r2_even [e1]

/-- C48, Stroud 7-2: with the key of the code it has degree 1. -/
theorem C48_e2r2_stroud_7_2 : stroud_7_2.ExactOnEnr2 2 ∧ stroud_7_2.degree = 1 := by
  have hs : √(6 : ℝ) ^ 2 = 6 := Real.sq_sqrt (by norm_num)
  have h0 := Real.sqrt_nonneg (6 : ℝ)
  have h1 : √(6 : ℝ) ≤ 5 / 2 := by nlinarith
  have e1 := sqrt_sq_of (x := (3 + √6) / 2) (by linarith)
  have e2 := sqrt_sq_of (x := (3 - √6) / 2) (by linarith)
  unfold stroud_7_2 stroud_7_2With
  dsimp only
  generalize √(6 : ℝ) = t at *
  clear h0 h1
  e2_rule e2r2_even [e1, e2] e1 e2

/-- C48, Stroud 7-2: with the key "d4_aa" it is the product Gauss rule of degree 7. -/
theorem C48_e2r2_stroud_7_2_intended : (stroud_7_2With .d4_aa 7).ExactOnEnr2 2 := by
  have hs : √(6 : ℝ) ^ 2 = 6 := Real.sq_sqrt (by norm_num)
  have h0 := Real.sqrt_nonneg (6 : ℝ)
  have h1 : √(6 : ℝ) ≤ 5 / 2 := by nlinarith
  have e1 := sqrt_sq_of (x := (3 + √6) / 2) (by linarith)
  have e2 := sqrt_sq_of (x := (3 - √6) / 2) (by linarith)
  unfold stroud_7_2With
  dsimp only
  generalize √(6 : ℝ) = t at *
  clear h0 h1
  refine plane_exact e2r2_even
    (by simp [planeKeys, SymEntry.Regular, SymKey.Accepts, SymKey.arities]) ?_
  plane_fixed [e1, e2] e1 e2

/-- C48, Stroud and Secrest V (stroud_5_1). -/
theorem C48_e2r2_stroud_secrest_5 :
    stroud_secrest_5.ExactOnEnr2 2 ∧ stroud_secrest_5.degree = 5 := by
  have hs : √(2 : ℝ) ^ 2 = 2 := Real.sq_sqrt (by norm_num)
  have h2 : √(6 : ℝ) ^ 2 = 6 := Real.sq_sqrt (by norm_num)
  e2_rule e2r2_even [div_pow, hs, h2]

/-- C48, Stroud and Secrest VI (stroud_7_1). -/
theorem C48_e2r2_stroud_secrest_6 :
    stroud_secrest_6.ExactOnEnr2 2 ∧ stroud_secrest_6.degree = 7 := by
  have hs : √(5 : ℝ) ^ 2 = 5 := Real.sq_sqrt (by norm_num)
  have h0 := Real.sqrt_nonneg (5 : ℝ)
  have h1 : √(5 : ℝ) ≤ 5 / 2 := by nlinarith
  have e0 : √(3 : ℝ) ^ 2 = 3 := Real.sq_sqrt (by norm_num)
  have e1 := sqrt_sq_of (x := (9 - 3 * √5) / 8) (by linarith)
  have e2 := sqrt_sq_of (x := (9 + 3 * √5) / 8) (by linarith)
  unfold stroud_secrest_6
  dsimp only
  generalize √(5 : ℝ) = t at *
  clear h0 h1
  e2_rule e2r2_even [e0, e1, e2] e0 e1 e2

end e2r2

end Quadpy
