import Verif.Lemmas.StengerCheck
import Verif.Model.Stroud1967_5

/-! The rules of enr2/_stroud_1967_5.py and sn/_stroud_1967_5.py with integers. -/

namespace Quadpy

namespace Dec

/-- The numbers of a table as multiples of `1 / D` and `1 / Dw`. -/
noncomputable def t67 (D Dw : ℕ) (eta lmbda xi mu gamma A B C : ℤ) : Stroud67 :=
  ⟨rz D eta, rz D lmbda, rz D xi, rz D mu, rz D gamma, rz Dw A, rz Dw B, rz Dw C⟩

theorem schemeOfDiv_one (n : ℕ) (data : List (ℝ × List (List ℝ))) (deg : ℕ) :
    schemeOfDiv n data 1 deg = schemeOf n data deg := by
  simp [schemeOfDiv, schemeOf]

/-- The groups of the rules for `e^(-r²)`. -/
def GE (n : ℕ) (eta lmbda xi mu gamma A B C : ℤ) : List ZGrp :=
  [(B, rdE n [(lmbda, 1), (xi, n - 1)]), (B, rdE n [(-lmbda, 1), (-xi, n - 1)])] ++
  (bif Nat.beq n 2 then [(C, [([mu], 2)]), (C, [([-mu], 2)])] else
    [(C, rdE n [(mu, 2), (gamma, n - 2)]), (C, rdE n [(-mu, 2), (-gamma, n - 2)])]) ++
  bif Nat.beq n 7 then [(2 * A, [([eta], n)])] else [(A, [([eta], n)]), (A, [([-eta], n)])]

/-- The groups of the rules for the ball. -/
def GS (n : ℕ) (eta lmbda xi mu gamma A B C : ℤ) : List ZGrp :=
  [(B, [([lmbda], 1), ([xi], n - 1)]), (B, [([-lmbda], 1), ([-xi], n - 1)]),
    (C, [([mu], 2), ([gamma], n - 2)]), (C, [([-mu], 2), ([-gamma], n - 2)])] ++
  bif Nat.beq n 7 then [(A, [([eta], n)])] else [(A, [([eta], n)]), (A, [([-eta], n)])]

theorem beq_of_ne {n k : ℕ} (h : ¬ n = k) : Nat.beq n k = false := by
  rw [Bool.eq_false_iff]
  exact fun h' => h (Nat.eq_of_beq_eq_true h')

theorem rd2_rz (D n : ℕ) (u v : ℤ) (k : ℕ) (hk : 0 < k) (h : k < n) :
    rd n [(rz D u, k), (rz D v, n - k)] = some (combine (zElems D (rdE n [(u, k), (v, n - k)]))) :=
  rd_rz D n [(u, k), (v, n - k)] (by simp; omega) (by simp; omega)

theorem enr2_stroud67_eq (D Dw n : ℕ) (hn : 2 ≤ n) (eta lmbda xi mu gamma A B C : ℤ) :
    Enr2.stroud1967_5 n (t67 D Dw eta lmbda xi mu gamma A B C) =
      some (schemeOfDiv n (gData Dw D (GE n eta lmbda xi mu gamma A B C)) 1 5) := by
  rw [schemeOfDiv_one]
  simp only [Enr2.stroud1967_5, t67, ← rz_neg, rd2_rz D n _ _ 1 one_pos (by omega), replicate_rz,
    ← rz_two]
  by_cases h2 : n = 2
  · subst h2
    have e : ∀ x : ℤ, [[rz D x, rz D x]] = combine (zElems D [([x], 2)]) := fun x => by
      rw [← replicate_rz]; rfl
    simp only [if_true, e]
    rfl
  · simp only [h2, if_false, rd2_rz D n _ _ 2 two_pos (by omega), GE, beq_of_ne h2, cond_false]
    by_cases h7 : n = 7
    · subst h7; rfl
    · simp only [h7, if_false, beq_of_ne h7]
      rfl

theorem sn_stroud67_eq (D Dw n : ℕ) (eta lmbda xi mu gamma A B C : ℤ) :
    Sn.stroud1967_5 n (t67 D Dw eta lmbda xi mu gamma A B C) =
      schemeOfDiv n (gData Dw D (GS n eta lmbda xi mu gamma A B C)) 1 5 := by
  rw [schemeOfDiv_one]
  simp only [Sn.stroud1967_5, t67, ← rz_neg, replicate_rz]
  by_cases h7 : n = 7
  · subst h7; rfl
  · simp only [h7, if_false, GS, beq_of_ne h7]
    rfl

end Dec
end Quadpy
