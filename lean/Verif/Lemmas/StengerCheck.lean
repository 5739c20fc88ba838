import Verif.Lemmas.CombineDecimal
import Verif.Model.Stenger
import Mathlib.Analysis.Real.Pi.Bounds

/-! The rules of Stenger as rules made of groups with integer data. -/

namespace Quadpy
open Finset

namespace Dec

/-- The groups of `stenger7`. -/
def G7 (n : ℕ) (u v : ℤ) (B : List ℤ) : List ZGrp :=
  [(B.getD 0 0, [([0], n)]), (B.getD 1 0, fsdE n [(u, 1)]), (B.getD 2 0, fsdE n [(v, 1)]),
    (B.getD 3 0, fsdE n [(u, 2)]), (B.getD 4 0, fsdE n [(v, 2)]), (B.getD 5 0, fsdE n [(u, 3)])]

/-- The groups of `stenger9`. -/
def G9 (n : ℕ) (u v : ℤ) (B : List ℤ) : List ZGrp :=
  [(B.getD 0 0, [([0], n)]), (B.getD 1 0, fsdE n [(u, 1)]), (B.getD 2 0, fsdE n [(v, 1)]),
    (B.getD 3 0, fsdE n [(u, 2)]), (B.getD 4 0, fsdE n [(v, 2)]),
    (B.getD 5 0, fsdE n [(u, 1), (v, 1)]), (B.getD 6 0, fsdE n [(u, 3)]),
    (B.getD 7 0, fsdE n [(v, 3)])] ++
  bif Nat.blt 3 n then [(B.getD 8 0, fsdE n [(u, 4)])] else []

/-- The groups of `stenger11`. -/
def G11 (n : ℕ) (u v w : ℤ) (B : List ℤ) : List ZGrp :=
  [(B.getD 0 0, [([0], n)]), (B.getD 1 0, fsdE n [(u, 1)]), (B.getD 2 0, fsdE n [(v, 1)]),
    (B.getD 3 0, fsdE n [(w, 1)]), (B.getD 4 0, fsdE n [(u, 2)]), (B.getD 5 0, fsdE n [(v, 2)]),
    (B.getD 6 0, fsdE n [(w, 2)]), (B.getD 7 0, fsdE n [(u, 1), (v, 1)]),
    (B.getD 8 0, fsdE n [(u, 1), (w, 1)]), (B.getD 9 0, fsdE n [(u, 3)]),
    (B.getD 10 0, fsdE n [(v, 3)]), (B.getD 11 0, fsdE n [(w, 3)]),
    (B.getD 12 0, fsdE n [(u, 2), (v, 1)])] ++
  (bif Nat.blt 3 n then [(B.getD 13 0, fsdE n [(u, 4)]), (B.getD 14 0, fsdE n [(v, 4)])] else []) ++
  bif Nat.blt 4 n then [(B.getD 15 0, fsdE n [(u, 5)])] else []

theorem getD_rz (Dw : ℕ) (B : List ℤ) (k : ℕ) : (B.map (rz Dw)).getD k 0 = rz Dw (B.getD k 0) := by
  rw [List.getD_eq_getElem?_getD, List.getD_eq_getElem?_getD, List.getElem?_map]
  cases B[k]? <;> simp [rz_zero]

theorem fsd1_rz (D n : ℕ) (u : ℤ) (k : ℕ) (h : k ≤ n) :
    fsd n [(rz D u, k)] = some (combine (zElems D (fsdE n [(u, k)]))) :=
  fsd_rz D n [(u, k)] (by simpa using h)

theorem fsd2_rz (D n : ℕ) (u v : ℤ) (k l : ℕ) (h : k + l ≤ n) :
    fsd n [(rz D u, k), (rz D v, l)] = some (combine (zElems D (fsdE n [(u, k), (v, l)]))) :=
  fsd_rz D n [(u, k), (v, l)] (by simpa using h)

theorem stenger7_eq (D Dw n : ℕ) (hn : 3 ≤ n) (V : ℝ) (u v : ℤ) (B : List ℤ) :
    stenger7 n V (rz D u) (rz D v) (B.map (rz Dw)) =
      some (schemeOfDiv n (gData Dw D (G7 n u v B)) V 7) := by
  simp only [stenger7, getD_rz, fsd1_rz D n u 1 (by omega), fsd1_rz D n v 1 (by omega),
    fsd1_rz D n u 2 (by omega), fsd1_rz D n v 2 (by omega), fsd1_rz D n u 3 hn, z_rz D n]
  rfl

theorem stenger9_eq (D Dw n : ℕ) (hn : 3 ≤ n) (V : ℝ) (u v : ℤ) (B : List ℤ) :
    stenger9 n V (rz D u) (rz D v) (B.map (rz Dw)) =
      some (schemeOfDiv n (gData Dw D (G9 n u v B)) V 9) := by
  simp only [stenger9, getD_rz, fsd1_rz D n u 1 (by omega), fsd1_rz D n v 1 (by omega),
    fsd1_rz D n u 2 (by omega), fsd1_rz D n v 2 (by omega), fsd2_rz D n u v 1 1 (by omega),
    fsd1_rz D n u 3 hn, fsd1_rz D n v 3 hn, z_rz D n]
  by_cases h : 3 < n
  · have e : Nat.blt 3 n = true := by simpa [Nat.blt_eq] using h
    simp only [h, if_true, fsd1_rz D n u 4 h, G9, e]
    rfl
  · have e : Nat.blt 3 n = false := by
      rw [Bool.eq_false_iff]; simpa [Nat.blt_eq] using h
    simp only [h, if_false, G9, e]
    rfl

theorem stenger11_eq (D Dw n : ℕ) (hn : 3 ≤ n) (V : ℝ) (u v w : ℤ) (B : List ℤ) :
    stenger11 n V (rz D u) (rz D v) (rz D w) (B.map (rz Dw)) =
      some (schemeOfDiv n (gData Dw D (G11 n u v w B)) V 11) := by
  simp only [stenger11, getD_rz, fsd1_rz D n u 1 (by omega), fsd1_rz D n v 1 (by omega),
    fsd1_rz D n w 1 (by omega), fsd1_rz D n u 2 (by omega), fsd1_rz D n v 2 (by omega),
    fsd1_rz D n w 2 (by omega), fsd2_rz D n u v 1 1 (by omega), fsd2_rz D n u w 1 1 (by omega),
    fsd1_rz D n u 3 hn, fsd1_rz D n v 3 hn, fsd1_rz D n w 3 hn, fsd2_rz D n u v 2 1 (by omega),
    z_rz D n]
  by_cases h : 3 < n
  · have e : Nat.blt 3 n = true := by simpa [Nat.blt_eq] using h
    simp only [h, if_true, fsd1_rz D n u 4 h, fsd1_rz D n v 4 h, G11, e]
    by_cases h' : 4 < n
    · have e' : Nat.blt 4 n = true := by simpa [Nat.blt_eq] using h'
      simp only [h', if_true, fsd1_rz D n u 5 h', e']
      rfl
    · have e' : Nat.blt 4 n = false := by
        rw [Bool.eq_false_iff]; simpa [Nat.blt_eq] using h'
      simp only [h', if_false, e']
      rfl
  · have e : Nat.blt 3 n = false := by
      rw [Bool.eq_false_iff]; simpa [Nat.blt_eq] using h
    have e' : Nat.blt 4 n = false := by
      rw [Bool.eq_false_iff, ne_eq, Nat.blt_eq]; omega
    have h' : ¬ 4 < n := by omega
    simp only [h, h', if_false, G11, e, e']
    rfl

/-! The numbers by which the weights are divided. -/

theorem sqrt_pi_lo : (1.77245385090551602729 : ℝ) ≤ √Real.pi := by
  apply Real.le_sqrt_of_sq_le
  have := Real.pi_gt_d20
  norm_num at this ⊢
  linarith

theorem sqrt_pi_hi : √Real.pi ≤ (1.77245385090551602740 : ℝ) := by
  rw [Real.sqrt_le_left (by norm_num)]
  have := Real.pi_lt_d20
  norm_num at this ⊢
  linarith

theorem sqrt_pi_pow (n : ℕ) : (1.77245385090551602729 : ℝ) ^ n ≤ √Real.pi ^ n ∧
    √Real.pi ^ n ≤ (1.77245385090551602740 : ℝ) ^ n :=
  ⟨pow_le_pow_left₀ (by norm_num) sqrt_pi_lo n, pow_le_pow_left₀ (Real.sqrt_nonneg _) sqrt_pi_hi n⟩

theorem pi_pow (n : ℕ) : (3.14159265358979323846 : ℝ) ^ n ≤ Real.pi ^ n ∧
    Real.pi ^ n ≤ (3.14159265358979323847 : ℝ) ^ n :=
  ⟨pow_le_pow_left₀ (by norm_num) Real.pi_gt_d20.le n,
    pow_le_pow_left₀ Real.pi_pos.le Real.pi_lt_d20.le n⟩

/-- A rule whose weights were divided by `V`. -/
theorem approx_div {n : ℕ} {J : Spec.Functional n} {mom : List ℕ → ℕ × ℕ} (hJ : RatMom J mom)
    (hperm : ∀ l l' : List ℕ, l.Perm l' → mom l = mom l')
    (hodd : ∀ l : List ℕ, allEven l = false → (mom l).1 = 0) {V : ℝ} (Dw lo hi D T : ℕ) {deg : ℕ} {G : List ZGrp} {S : Scheme}
    (hS : some (schemeOfDiv n (gData Dw D G) V deg) = some S)
    (h0 : (Nat.blt 0 Dw && Nat.blt 0 lo && Nat.blt 0 D && Nat.blt 0 T &&
      G.all fun g => Nat.beq (g.2.map Prod.snd).sum n) = true)
    (hc : checkG n deg mom lo hi D T G = true)
    (h1 : (lo : ℝ) / Dw ≤ V) (h2 : V ≤ (hi : ℝ) / Dw) :
    S.degree = deg ∧ S.ApproxRel n J (1 / T) := by
  simp only [Bool.and_eq_true, Nat.blt_eq] at h0
  obtain ⟨⟨⟨⟨a, b⟩, c⟩, d⟩, e⟩ := h0
  cases hS
  exact ⟨rfl, approx_groups hJ hperm hodd a b c d e hc h1 h2 rfl⟩

end Dec
end Quadpy
