import Verif.Model.LowDim
import Verif.Lemmas.LowDim

/-!
C34: `hammer_wymore(lmbda)` has degree 7 for every parameter for which it is defined.
-/

namespace Quadpy
open Finset LowDim

/-- Prony: nodes from the recurrence, weights from the first two moments. -/
theorem prony {p0 p1 p2 p3 c0 c1 b u3 u4 a3 a4 : ℝ} (hb : b ≠ 0) (hb2 : b ^ 2 = c1 ^ 2 - 4 * c0)
    (hu3 : u3 = (-c1 - b) / 2) (hu4 : u4 = (-c1 + b) / 2)
    (h2 : p2 = -c1 * p1 - c0 * p0) (h3 : p3 = -c1 * p2 - c0 * p1)
    (ha3 : a3 = (p0 * u4 - p1) / 8 / (u4 - u3)) (ha4 : a4 = (p0 * u3 - p1) / 8 / (u3 - u4)) :
    8 * (a3 + a4) = p0 ∧ 8 * (a3 * u3 + a4 * u4) = p1 ∧ 8 * (a3 * u3 ^ 2 + a4 * u4 ^ 2) = p2 ∧
    8 * (a3 * u3 ^ 3 + a4 * u4 ^ 3) = p3 := by
  have e1 : u4 - u3 = b := by rw [hu3, hu4]; ring
  have e2 : u3 - u4 = -b := by rw [hu3, hu4]; ring
  rw [e1] at ha3
  rw [e2] at ha4
  have q3 : u3 ^ 2 = -c1 * u3 - c0 := by rw [hu3]; linear_combination hb2 / 4
  have q4 : u4 ^ 2 = -c1 * u4 - c0 := by rw [hu4]; linear_combination hb2 / 4
  have m0 : 8 * (a3 + a4) = p0 := by
    rw [ha3, ha4]; field_simp; linear_combination p0 * e1
  have m1 : 8 * (a3 * u3 + a4 * u4) = p1 := by
    rw [ha3, ha4]; field_simp; linear_combination p1 * e1
  have m2 : 8 * (a3 * u3 ^ 2 + a4 * u4 ^ 2) = p2 := by
    rw [h2]; linear_combination 8 * a3 * q3 + 8 * a4 * q4 - c1 * m1 - c0 * m0
  refine ⟨m0, m1, m2, ?_⟩
  rw [h3]; linear_combination 8 * a3 * u3 * q3 + 8 * a4 * u4 * q4 - c1 * m2 - c0 * m1

/-- C34: every scheme returned by `hammer_wymore` has degree 7, whatever the parameter. -/
theorem C34_hammer_wymore (lmbda : ℝ) (S : Scheme) (hS : hammer_wymore lmbda = some S) :
    S.degree = 7 ∧ S.ExactOnCube 3 := by
  unfold hammer_wymore at hS
  simp only at hS
  split_ifs at hS with h1
  push Not at h1
  obtain ⟨hl, hu1, hdet⟩ := h1
  rw [Option.bind_eq_bind, Option.bind_eq_some_iff] at hS
  obtain ⟨b, hb, hS⟩ := hS
  obtain ⟨hb0, hbe⟩ := sqrtO_eq_some hb
  have hb2 : b ^ 2 = (hwOf lmbda 0).c1 ^ 2 - 4 * (hwOf lmbda 0).c0 := by rw [hbe, Real.sq_sqrt hb0]
  clear hb hb0 hbe
  split_ifs at hS with hbne
  simp only [Option.bind_eq_bind, Option.bind_eq_some_iff] at hS
  obtain ⟨x1, hx1, x2, hx2, x3, hx3, x4, hx4, hS⟩ := hS
  obtain rfl := Option.some.inj hS
  have sq : ∀ {x y : ℝ}, sqrtO x = some y → y ^ 2 = x := fun h => by
    obtain ⟨h0, rfl⟩ := sqrtO_eq_some h
    exact Real.sq_sqrt h0
  replace hx1 := sq hx1
  replace hx2 := sq hx2
  replace hx3 := sq hx3
  replace hx4 := sq hx4
  obtain ⟨u1, e_u1⟩ : ∃ u, u = (hwOf lmbda b).u1 := ⟨_, rfl⟩
  obtain ⟨u2, e_u2⟩ : ∃ u, u = (hwOf lmbda b).u2 := ⟨_, rfl⟩
  obtain ⟨u3, e_u3⟩ : ∃ u, u = (hwOf lmbda b).u3 := ⟨_, rfl⟩
  obtain ⟨u4, e_u4⟩ : ∃ u, u = (hwOf lmbda b).u4 := ⟨_, rfl⟩
  obtain ⟨a1, e_a1⟩ : ∃ u, u = (hwOf lmbda b).a1 := ⟨_, rfl⟩
  obtain ⟨a2, e_a2⟩ : ∃ u, u = (hwOf lmbda b).a2 := ⟨_, rfl⟩
  obtain ⟨a3, e_a3⟩ : ∃ u, u = (hwOf lmbda b).a3 := ⟨_, rfl⟩
  obtain ⟨a4, e_a4⟩ : ∃ u, u = (hwOf lmbda b).a4 := ⟨_, rfl⟩
  obtain ⟨p0, e_p0⟩ : ∃ u, u = (hwOf lmbda b).p0 := ⟨_, rfl⟩
  obtain ⟨p1, e_p1⟩ : ∃ u, u = (hwOf lmbda b).p1 := ⟨_, rfl⟩
  obtain ⟨p2, e_p2⟩ : ∃ u, u = (hwOf lmbda b).p2 := ⟨_, rfl⟩
  obtain ⟨c0, e_c0⟩ : ∃ u, u = (hwOf lmbda b).c0 := ⟨_, rfl⟩
  obtain ⟨c1, e_c1⟩ : ∃ u, u = (hwOf lmbda b).c1 := ⟨_, rfl⟩
  have hu1' : u1 ≠ 0 := by rw [e_u1]; exact hu1
  have hdet' : p0 * p2 - p1 ^ 2 ≠ 0 := by rw [e_p0, e_p1, e_p2]; exact hdet
  have hdet'' : p1 ^ 2 - p2 * p0 ≠ 0 := by
    intro h; apply hdet'; linear_combination -h
  have hb2' : b ^ 2 = c1 ^ 2 - 4 * c0 := by rw [e_c0, e_c1]; exact hb2
  have f_u1 : u1 = (8 / 7 - 2 * (8 / 15) + 8 / 27 + lmbda * (8 / 15 - 8 / 27)) / (8 / 5 - 8 / 9) := e_u1
  have f_u2 : u2 = u1 / lmbda := by rw [e_u1, e_u2]; rfl
  have f_a1 : a1 = (8 / 7 - 2 * (8 / 15) + 8 / 27) / 2 / u1 ^ 3 := by rw [e_u1, e_a1]; rfl
  have f_a2 : a2 = (8 / 15 - 8 / 27) / 4 / u2 ^ 3 := by rw [e_u2, e_a2]; rfl
  have f_p0 : p0 = 8 - 6 * a1 - 12 * a2 := by rw [e_p0, e_a1, e_a2]; rfl
  have f_p1 : p1 = 8 / 3 - 2 * a1 * u1 - 8 * a2 * u2 := by rw [e_p1, e_a1, e_a2, e_u1, e_u2]; rfl
  have f_p2 : p2 = 8 / 9 - 4 * a2 * u2 ^ 2 := by rw [e_p2, e_a2, e_u2]; rfl
  have f_c0 : c0 = (8 / 27 * p1 - p2 ^ 2) / (p0 * p2 - p1 ^ 2) := by rw [e_c0, e_p0, e_p1, e_p2]; rfl
  have f_c1 : c1 = (8 / 27 * p0 - p1 * p2) / (p1 ^ 2 - p2 * p0) := by rw [e_c1, e_p0, e_p1, e_p2]; rfl
  have f_u3 : u3 = (-c1 - b) / 2 := by rw [e_u3, e_c1]; rfl
  have f_u4 : u4 = (-c1 + b) / 2 := by rw [e_u4, e_c1]; rfl
  have f_a3 : a3 = (p0 * u4 - p1) / 8 / (u4 - u3) := by rw [e_a3, e_p0, e_p1, e_u3, e_u4]; rfl
  have f_a4 : a4 = (p0 * u3 - p1) / 8 / (u3 - u4) := by rw [e_a4, e_p0, e_p1, e_u3, e_u4]; rfl
  have g0 : c0 * (p0 * p2 - p1 ^ 2) = 8 / 27 * p1 - p2 ^ 2 := by rw [f_c0, div_mul_cancel₀ _ hdet']
  have g1 : c1 * (p1 ^ 2 - p2 * p0) = 8 / 27 * p0 - p1 * p2 := by rw [f_c1, div_mul_cancel₀ _ hdet'']
  have h2 : p2 = -c1 * p1 - c0 * p0 := by
    apply mul_right_cancel₀ hdet'
    linear_combination p0 * g0 - p1 * g1
  have h3 : 8 / 27 = -c1 * p2 - c0 * p1 := by
    apply mul_right_cancel₀ hdet'
    linear_combination p1 * g0 - p2 * g1
  obtain ⟨m0, m1, m2, m3⟩ := prony hbne hb2' f_u3 f_u4 h2 h3 f_a3 f_a4
  rw [← e_a1, ← e_a2, ← e_a3, ← e_a4]
  rw [← e_u1] at hx1
  rw [← e_u2] at hx2
  rw [← e_u3] at hx3
  rw [← e_u4] at hx4
  have hu2 : u2 ≠ 0 := by rw [f_u2]; exact div_ne_zero hu1' hl
  have n1 : a1 * u1 ^ 3 = (8 / 7 - 2 * (8 / 15) + 8 / 27) / 2 := by
    rw [f_a1, div_mul_cancel₀ _ (pow_ne_zero 3 hu1')]
  have n2 : a2 * u2 ^ 3 = (8 / 15 - 8 / 27) / 4 := by
    rw [f_a2, div_mul_cancel₀ _ (pow_ne_zero 3 hu2)]
  have n3 : u2 * lmbda = u1 := by rw [f_u2, div_mul_cancel₀ _ hl]
  have n4 : 2 * a1 * u1 ^ 2 + 4 * a2 * u2 ^ 2 = 8 / 5 - 8 / 9 := by
    apply mul_right_cancel₀ hu1'
    have : u1 * (8 / 5 - 8 / 9) = 8 / 7 - 2 * (8 / 15) + 8 / 27 + lmbda * (8 / 15 - 8 / 27) := by
      rw [f_u1]; norm_num
    linear_combination 2 * n1 + 4 * lmbda * n2 - this - 4 * a2 * u2 ^ 2 * n3
  refine ⟨rfl, ?_⟩
  have key : (schemeOfSym 3 [⟨.symm_r00, [a1 / 8], [[x1]]⟩, ⟨.symm_rr0, [a2 / 8], [[x2]]⟩,
      ⟨.symm_rrr, [a3 / 8, a4 / 8], [[x3], [x4]]⟩] 7).ExactRel 3 (Spec.cube 3) := by
    refine space_exact cube3_even ?_ fun p q r hpq => ?_
    · simp [spaceKeys]
    · simp only [evenSum3, List.map_cons, List.map_nil, List.zipWith_cons_cons, List.zipWith_nil_left,
        List.sum_cons, List.sum_nil, keyMom3, hx1, hx2, hx3, hx4,
        Matrix.cons_val_zero, Matrix.cons_val_one, Matrix.cons_val]
      have hp : p ≤ 3 := by omega
      have hq : q ≤ 3 := by omega
      have hr : r ≤ 3 := by omega
      interval_cases p <;> interval_cases q <;> interval_cases r <;> first
        | (exfalso; omega)
        | (norm_num; linear_combination m0 / 8 + f_p0 / 8)
        | (norm_num; linear_combination m1 / 8 + f_p1 / 8)
        | (norm_num; linear_combination m2 / 8 + f_p2 / 8)
        | (norm_num; linear_combination m2 / 8 + f_p2 / 8 + n4 / 8)
        | (norm_num; linear_combination m3 / 8)
        | (norm_num; linear_combination m3 / 8 + n2 / 2)
        | (norm_num; linear_combination m3 / 8 + n2 + n1 / 4)
  exact ExactOnCube_of_rel key

/-- C34: the rule is defined as soon as the divisors are nonzero, `u1`, `u2` are not negative and the
quadratic equation for `u3`, `u4` has two distinct roots which are not negative. -/
theorem C34_defined (lmbda : ℝ) (hl : lmbda ≠ 0) (hu1 : 0 < (hwOf lmbda 0).u1)
    (hu2 : 0 ≤ (hwOf lmbda 0).u2)
    (hdet : (hwOf lmbda 0).p0 * (hwOf lmbda 0).p2 - (hwOf lmbda 0).p1 ^ 2 ≠ 0)
    (hb : 0 < (hwOf lmbda 0).c1 ^ 2 - 4 * (hwOf lmbda 0).c0) (hc1 : (hwOf lmbda 0).c1 ≤ 0)
    (hc0 : 0 ≤ (hwOf lmbda 0).c0) : ∃ S, hammer_wymore lmbda = some S := by
  unfold hammer_wymore
  simp only
  rw [if_neg (by push Not; exact ⟨hl, hu1.ne', hdet⟩), sqrtO_some hb.le, Option.bind_eq_bind,
    Option.bind_some, if_neg (Real.sqrt_pos.2 hb).ne']
  have h1 : Real.sqrt ((hwOf lmbda 0).c1 ^ 2 - 4 * (hwOf lmbda 0).c0) ≤ -(hwOf lmbda 0).c1 := by
    apply Real.sqrt_le_iff.2
    constructor <;> nlinarith
  have h2 := Real.sqrt_nonneg ((hwOf lmbda 0).c1 ^ 2 - 4 * (hwOf lmbda 0).c0)
  generalize Real.sqrt ((hwOf lmbda 0).c1 ^ 2 - 4 * (hwOf lmbda 0).c0) = b at *
  have e1 : (hwOf lmbda b).u1 = (hwOf lmbda 0).u1 := rfl
  have e2 : (hwOf lmbda b).u2 = (hwOf lmbda 0).u2 := rfl
  have e3 : (hwOf lmbda b).u3 = (-(hwOf lmbda 0).c1 - b) / 2 := rfl
  have e4 : (hwOf lmbda b).u4 = (-(hwOf lmbda 0).c1 + b) / 2 := rfl
  rw [sqrtO_some (by rw [e1]; exact hu1.le), sqrtO_some (by rw [e2]; exact hu2),
    sqrtO_some (by rw [e3]; linarith), sqrtO_some (by rw [e4]; linarith)]
  exact ⟨_, rfl⟩

/-- The default parameter `27 / 20`. -/
theorem C34_default : ∃ S, hammer_wymore (27 / 20) = some S ∧ S.degree = 7 ∧ S.ExactOnCube 3 := by
  obtain ⟨S, hS⟩ := C34_defined (27 / 20) (by norm_num) (by norm_num [hwOf]) (by norm_num [hwOf])
    (by norm_num [hwOf]) (by norm_num [hwOf]) (by norm_num [hwOf]) (by norm_num [hwOf])
  exact ⟨S, hS, C34_hammer_wymore _ S hS⟩

/-- A concrete consequence: at `lmbda = 1` the rule gives `∫ x^2 y^2 z^2 = 8 / 27`. -/
example : ∃ S, hammer_wymore 1 = some S ∧
    2 ^ 3 * dot 3 S.weights S.points (fun x => x 0 ^ 2 * x 1 ^ 2 * x 2 ^ 2) = 8 / 27 := by
  obtain ⟨S, hS⟩ := C34_defined 1 (by norm_num) (by norm_num [hwOf]) (by norm_num [hwOf])
    (by norm_num [hwOf]) (by norm_num [hwOf]) (by norm_num [hwOf]) (by norm_num [hwOf])
  obtain ⟨h7, -, h⟩ := C34_hammer_wymore _ S hS
  refine ⟨S, hS, ?_⟩
  have := h (MvPolynomial.X 0 ^ 2 * MvPolynomial.X 1 ^ 2 * MvPolynomial.X 2 ^ 2) (by
    rw [h7]
    refine (MvPolynomial.totalDegree_mul _ _).trans (le_trans (add_le_add
      ((MvPolynomial.totalDegree_mul _ _).trans (add_le_add (MvPolynomial.totalDegree_pow _ _)
      (MvPolynomial.totalDegree_pow _ _))) (MvPolynomial.totalDegree_pow _ _)) ?_)
    simp [MvPolynomial.totalDegree_X])
  simp only [map_mul, map_pow, MvPolynomial.eval_X] at this
  rw [this]
  have e : (fun x : Fin 3 → ℝ => x 0 ^ 2 * x 1 ^ 2 * x 2 ^ 2) = mono fun _ => 2 * 1 := by
    funext x; simp [mono, Fin.prod_univ_three]
  rw [e, cube3_even.even fun _ => 1, one_eq_mono, cube_mono, cubeMom_zero]
  norm_num

end Quadpy
