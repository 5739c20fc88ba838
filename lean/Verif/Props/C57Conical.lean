import Verif.Lemmas.PlainRules
import Verif.Props.C31
import Verif.Props.C19

/-!
# C57: conical product rules on the triangle and the tetrahedron

The rules combine `gauss_legendre(4)` with Gauss-Jacobi rules given by decimal numbers.
-/

namespace Quadpy
open ProductRules Dec Adaptive

theorem unit_beta {P W : List ℝ} {d : ℕ} (h : Spec.ExactC1 P W d) {a b : ℕ} (hk : a + b ≤ d) :
    ((toUnit P W).map fun p => p.2 * (p.1 ^ a * (1 - p.1) ^ b)).sum =
      (a.factorial * b.factorial / (a + b + 1).factorial : ℝ) := by
  have h1 := exactC1_beta h (a := b) (b := a) (by omega)
  rw [← zipWith_sum_eq] at h1
  have h2 : ((toUnit P W).map fun p => p.2 * (p.1 ^ a * (1 - p.1) ^ b)).sum =
      1 / 2 * (List.zipWith (fun w x => w * (((1 - x) / 2) ^ b * ((1 + x) / 2) ^ a)) W P).sum := by
    rw [← zipWith_sum_mul_left, List.zipWith_comm, toUnit, List.zip_map, List.map_map, List.zip]
    rw [List.map_zipWith]
    congr 2
    funext x w
    simp only [Function.comp, Prod.map]
    rw [show 1 - (x + 1) / 2 = (1 - x) / 2 by ring, add_comm x 1]
    ring
  rw [h2, h1, show b + a + 1 = a + b + 1 by ring]
  ring

theorem conical1_near (a m : ℕ) (h : a + m ≤ 7) :
    |(conical1.map fun q => q.2 * (q.1 ^ a * (1 - q.1) ^ m)).sum -
      (a.factorial * (m + 1).factorial / (a + m + 2).factorial : ℝ)| ≤ 4.2e-16 := by
  have ha : a ≤ 7 := by omega
  have hm : m ≤ 7 := by omega
  simp only [conical1, List.map_cons, List.map_nil, List.sum_cons, List.sum_nil]
  interval_cases a <;> interval_cases m <;> first
    | (exfalso; omega)
    | (rw [abs_le]; constructor <;> norm_num [Nat.factorial])

theorem conical2_near (m : ℕ) (h : m ≤ 7) :
    |(conical2.map fun q => q.2 * (1 - q.1) ^ m).sum - 1 / ((m : ℝ) + 3)| ≤ 1.4e-16 := by
  simp only [conical2, List.map_cons, List.map_nil, List.sum_cons, List.sum_nil]
  interval_cases m <;> (rw [abs_le]; constructor <;> norm_num)

theorem beta_le_one (a b : ℕ) : (a.factorial * b.factorial / (a + b + 1).factorial : ℝ) ≤ 1 := by
  rw [div_le_one (by positivity)]
  exact_mod_cast Nat.le_of_dvd (Nat.factorial_pos _)
    ((Nat.factorial_mul_factorial_dvd_factorial_add a b).trans (Nat.factorial_dvd_factorial (by omega)))

/-- C57, Stroud T2 7-1. -/
theorem C57_t2_stroud_7_1 {P W : List ℝ} (h : Spec.ExactC1 P W 7) :
    (stroud_t2_7_1 P W).ApproxOnSimplex 2 1e-15 ∧ (stroud_t2_7_1 P W).degree = 7 := by
  have hl : ∀ p ∈ ((toUnit P W).flatMap fun p => conical1.map fun q =>
      (2 * p.2 * q.2, [q.1, p.1 * (1 - q.1), (1 - p.1) * (1 - q.1)])), p.2.length = 3 ∧ p.2.sum = 1 := by
    intro p hp
    simp only [List.mem_flatMap, List.mem_map] at hp
    obtain ⟨_, -, _, -, rfl⟩ := hp
    refine ⟨rfl, ?_⟩
    simp
    ring
  refine ⟨approx_plain_simplex hl fun α hα => ?_, rfl⟩
  rw [simplex_mono, fsum, sum_flatMap_mul (toUnit P W) conical1 _ _
    (fun p => p.2 * (p.1 ^ α 0 * (1 - p.1) ^ α 1)) (fun q => 2 * (q.2 * (q.1 ^ 0 * (1 - q.1) ^ (α 0 + α 1))))]
  swap
  · intro p _ q _
    simp [mono, Fin.prod_univ_two, toVec, mul_pow]
    ring
  rw [Fin.sum_univ_two] at hα
  have h3 := conical1_near 0 (α 0 + α 1) (by omega)
  rw [unit_beta h (by exact hα), List.sum_map_mul_left, Fin.prod_univ_two, Fin.sum_univ_two]
  have h4 := beta_le_one (α 0) (α 1)
  have h5 : (0 : ℝ) ≤ (α 0).factorial * (α 1).factorial / (α 0 + α 1 + 1).factorial := by positivity
  have e : ((α 0).factorial * (α 1).factorial / (2 + (α 0 + α 1)).factorial : ℝ) =
      (α 0).factorial * (α 1).factorial / (α 0 + α 1 + 1).factorial *
        ((0).factorial * (α 0 + α 1 + 1).factorial / (0 + (α 0 + α 1) + 2).factorial) := by
    rw [zero_add, add_comm 2]
    have := Nat.factorial_ne_zero (α 0 + α 1 + 1)
    field_simp
    simp
  rw [e]
  generalize ((α 0).factorial * (α 1).factorial / (α 0 + α 1 + 1).factorial : ℝ) = x at *
  generalize ((0).factorial * (α 0 + α 1 + 1).factorial / (0 + (α 0 + α 1) + 2).factorial : ℝ) = y at *
  generalize (conical1.map fun q => q.2 * (q.1 ^ 0 * (1 - q.1) ^ (α 0 + α 1))).sum = z at *
  rw [show 1 / ((Nat.factorial 2 : ℕ) : ℝ) * (x * (2 * z)) - x * y = x * (z - y) by norm_num [Nat.factorial]; ring,
    abs_mul, abs_of_nonneg h5]
  refine (mul_le_mul h4 h3 (abs_nonneg _) (by norm_num)).trans ?_
  norm_num [Nat.factorial]

/-- C57, Stroud T3 7-1. -/
theorem C57_t3_stroud_7_1 {P W : List ℝ} (h : Spec.ExactC1 P W 7) :
    (stroud_t3_7_1 P W).ApproxOnSimplex 3 2e-15 ∧ (stroud_t3_7_1 P W).degree = 7 := by
  have hl : ∀ p ∈ ((toUnit P W).flatMap fun p => conical1.flatMap fun q => conical2.map fun k =>
      (6 * p.2 * q.2 * k.2, [k.1, q.1 * (1 - k.1), p.1 * (1 - q.1) * (1 - k.1),
        (1 - p.1) * (1 - q.1) * (1 - k.1)])), p.2.length = 4 ∧ p.2.sum = 1 := by
    intro p hp
    simp only [List.mem_flatMap, List.mem_map] at hp
    obtain ⟨_, -, _, -, _, -, rfl⟩ := hp
    refine ⟨rfl, ?_⟩
    simp
    ring
  refine ⟨approx_plain_simplex hl fun α hα => ?_, rfl⟩
  rw [simplex_mono, fsum, sum_flatMap_mul3 (toUnit P W) conical1 conical2 _ _
    (fun p => p.2 * (p.1 ^ α 1 * (1 - p.1) ^ α 2)) (fun q => q.2 * (q.1 ^ α 0 * (1 - q.1) ^ (α 1 + α 2)))
    (fun k => 6 * (k.2 * (1 - k.1) ^ (α 0 + α 1 + α 2)))]
  swap
  · intro p _ q _ k _
    simp [mono, Fin.prod_univ_three, toVec, mul_pow]
    ring
  rw [Fin.sum_univ_three] at hα
  have h3 := conical1_near (α 0) (α 1 + α 2) (by omega)
  have h3' := conical2_near (α 0 + α 1 + α 2) hα
  rw [unit_beta h (by omega), List.sum_map_mul_left, Fin.prod_univ_three, Fin.sum_univ_three]
  have h4 := beta_le_one (α 1) (α 2)
  have h5 : (0 : ℝ) ≤ (α 1).factorial * (α 2).factorial / (α 1 + α 2 + 1).factorial := by positivity
  have h6 := beta_le_one (α 0) (α 1 + α 2 + 1)
  have h7 : (0 : ℝ) ≤ (α 0).factorial * (α 1 + α 2 + 1).factorial / (α 0 + (α 1 + α 2) + 2).factorial := by
    positivity
  have h8 : 1 / (((α 0 + α 1 + α 2 : ℕ) : ℝ) + 3) ≤ 1 / 3 := by
    apply one_div_le_one_div_of_le (by norm_num)
    have := Nat.cast_nonneg (α := ℝ) (α 0 + α 1 + α 2)
    linarith
  have h9 : 0 ≤ 1 / (((α 0 + α 1 + α 2 : ℕ) : ℝ) + 3) := by positivity
  have e : ((α 0).factorial * (α 1).factorial * (α 2).factorial / (3 + (α 0 + α 1 + α 2)).factorial : ℝ) =
      (α 1).factorial * (α 2).factorial / (α 1 + α 2 + 1).factorial *
        ((α 0).factorial * (α 1 + α 2 + 1).factorial / (α 0 + (α 1 + α 2) + 2).factorial) *
        (1 / (((α 0 + α 1 + α 2 : ℕ) : ℝ) + 3)) := by
    rw [add_comm 3, Nat.factorial_succ (α 0 + α 1 + α 2 + 2), ← add_assoc (α 0)]
    have := Nat.factorial_ne_zero (α 1 + α 2 + 1)
    have := Nat.factorial_ne_zero (α 0 + α 1 + α 2 + 2)
    push_cast
    field_simp
    ring
  rw [e]
  rw [show α 0 + (α 1 + α 2 + 1) + 1 = α 0 + (α 1 + α 2) + 2 by ring] at h6
  generalize ((α 1).factorial * (α 2).factorial / (α 1 + α 2 + 1).factorial : ℝ) = x at *
  generalize ((α 0).factorial * (α 1 + α 2 + 1).factorial / (α 0 + (α 1 + α 2) + 2).factorial : ℝ) = y at *
  generalize (1 / (((α 0 + α 1 + α 2 : ℕ) : ℝ) + 3)) = z at *
  generalize (conical1.map fun q => q.2 * (q.1 ^ α 0 * (1 - q.1) ^ (α 1 + α 2))).sum = y' at *
  generalize (conical2.map fun q => q.2 * (1 - q.1) ^ (α 0 + α 1 + α 2)).sum = z' at *
  rw [show 1 / ((Nat.factorial 3 : ℕ) : ℝ) * (x * y' * (6 * z')) - x * y * z =
    x * ((y' - y) * z + (y' - y) * (z' - z) + y * (z' - z)) by norm_num [Nat.factorial]; ring,
    abs_mul, abs_of_nonneg h5]
  have k1 : |(y' - y) * z + (y' - y) * (z' - z) + y * (z' - z)| ≤ 3e-16 := by
    refine (abs_add_le _ _).trans ((add_le_add_left (abs_add_le _ _) _).trans ?_)
    rw [abs_mul, abs_mul, abs_mul, abs_of_nonneg h9, abs_of_nonneg h7]
    have k1 := mul_le_mul h3 h8 h9 (by norm_num)
    have k2 := mul_le_mul h3 h3' (abs_nonneg _) (by norm_num)
    have k3 := mul_le_mul h6 h3' (abs_nonneg _) (by norm_num)
    norm_num at k1 k2 k3 ⊢
    linarith
  refine (mul_le_mul h4 k1 (abs_nonneg _) (by norm_num)).trans ?_
  norm_num [Nat.factorial]

/-- C57: both rules with a Gauss rule, as in the code. -/
theorem C57_stroud_7_1_gauss : (∃ P W, OneDim.GaussLegendre 4 P W) ∧ ∀ P W, OneDim.GaussLegendre 4 P W →
    (stroud_t2_7_1 P W).ApproxOnSimplex 2 1e-15 ∧ (stroud_t3_7_1 P W).ApproxOnSimplex 3 2e-15 :=
  ⟨(C19_gauss_legendre 4).1, fun P W h => by
    have h7 := ((C19_gauss_legendre 4).2 P W h).1
    exact ⟨(C57_t2_stroud_7_1 h7).1, (C57_t3_stroud_7_1 h7).1⟩⟩

end Quadpy
