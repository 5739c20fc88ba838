import Verif.Lemmas.RadialProduct
import Verif.Lemmas.Rings
import Verif.Props.C57

/-!
# C57: Mysovskih's rule of degree 15 on the disk
-/

namespace Quadpy
open ProductRules Dec Mixed

/-- The points of `mysovskih_3` in closed form. -/
noncomputable def mysData : List SymEntry :=
  [⟨.d4_ab, [(4998 + 343 * √21) / 253125, (4998 - 343 * √21) / 253125], [[√((42 - 2 * √21 +
    21 * √2 - √42) / 112), √((42 - 2 * √21 - 21 * √2 + √42) / 112)], [√((42 + 2 * √21 + 21 * √2 + √42) /
    112), √((42 + 2 * √21 - 21 * √2 - √42) / 112)]]⟩, ⟨.d4_aa, [1055603 / 43200000 + 26076047 /
    60523200000 * √1401, 16807 / 800000, 1055603 / 43200000 - 26076047 / 60523200000 * √1401], [[√((69 -
    √1401) / 224)], [√(5 / 14)], [√((69 + √1401) / 224)]]⟩, ⟨.d4_a0, [0.0398811120280412,
    0.0348550570365141, 0.0210840370156484, 0.00531979391979623], [[0.252863797091230],
    [0.577728928444823], [0.873836956644882], [0.989746802511491]]⟩]

theorem d4_zero (a : ℝ) (f : (Fin 2 → ℝ) → ℝ) :
    osum 2 (orbit 2 (.d 4 0) [a]) f = osum 2 (orbit 2 .d4_a0 [a]) f := by
  have h1 : (2 * ((0 : ℕ) : ℝ) + (0 : ℕ)) * Real.pi / (4 : ℕ) = 0 := by push_cast; ring
  have h2 : (2 * ((1 : ℕ) : ℝ) + (0 : ℕ)) * Real.pi / (4 : ℕ) = Real.pi / 2 := by push_cast; ring
  have h3 : (2 * ((2 : ℕ) : ℝ) + (0 : ℕ)) * Real.pi / (4 : ℕ) = Real.pi := by push_cast; ring
  have h4 : (2 * ((3 : ℕ) : ℝ) + (0 : ℕ)) * Real.pi / (4 : ℕ) = Real.pi / 2 + Real.pi := by push_cast; ring
  simp only [orbit, osum, List.range_succ, List.range_zero, List.nil_append, List.cons_append, List.map_cons,
    List.map_nil, List.sum_cons, List.sum_nil, h1, h2, h3, h4, Real.cos_add_pi, Real.sin_add_pi, Real.cos_pi_div_two,
    Real.sin_pi_div_two, Real.cos_pi, Real.sin_pi, zero_mul,
    Real.cos_zero, Real.sin_zero, one_mul, neg_mul, neg_zero]
  ring

theorem d4_one (a : ℝ) (f : (Fin 2 → ℝ) → ℝ) :
    osum 2 (orbit 2 (.d 4 1) [a]) f = osum 2 (orbit 2 .d4_aa [√2 / 2 * a]) f := by
  have h1 : (2 * ((0 : ℕ) : ℝ) + (1 : ℕ)) * Real.pi / (4 : ℕ) = Real.pi / 4 := by push_cast; ring
  have h2 : (2 * ((1 : ℕ) : ℝ) + (1 : ℕ)) * Real.pi / (4 : ℕ) = Real.pi - Real.pi / 4 := by push_cast; ring
  have h3 : (2 * ((2 : ℕ) : ℝ) + (1 : ℕ)) * Real.pi / (4 : ℕ) = Real.pi / 4 + Real.pi := by push_cast; ring
  have h4 : (2 * ((3 : ℕ) : ℝ) + (1 : ℕ)) * Real.pi / (4 : ℕ) = (Real.pi - Real.pi / 4) + Real.pi := by
    push_cast; ring
  simp only [orbit, osum, List.range_succ, List.range_zero, List.nil_append, List.cons_append, List.map_cons,
    List.map_nil, List.sum_cons, List.sum_nil, h1, h2, h3, h4, Real.cos_add_pi, Real.sin_add_pi,
    Real.cos_pi_sub, Real.sin_pi_sub, Real.cos_pi_div_four, Real.sin_pi_div_four, neg_mul, neg_neg]
  ring

theorem d8_one (a : ℝ) (f : (Fin 2 → ℝ) → ℝ) : osum 2 (orbit 2 (.d 8 1) [a]) f =
    osum 2 (orbit 2 .d4_ab [Real.cos (Real.pi / 8) * a, Real.sin (Real.pi / 8) * a]) f := by
  have h0 : (2 * ((0 : ℕ) : ℝ) + (1 : ℕ)) * Real.pi / (8 : ℕ) = Real.pi / 8 := by push_cast; ring
  have h1 : (2 * ((1 : ℕ) : ℝ) + (1 : ℕ)) * Real.pi / (8 : ℕ) = Real.pi / 2 - Real.pi / 8 := by push_cast; ring
  have h2 : (2 * ((2 : ℕ) : ℝ) + (1 : ℕ)) * Real.pi / (8 : ℕ) = Real.pi / 8 + Real.pi / 2 := by push_cast; ring
  have h3 : (2 * ((3 : ℕ) : ℝ) + (1 : ℕ)) * Real.pi / (8 : ℕ) = Real.pi - Real.pi / 8 := by push_cast; ring
  have h4 : (2 * ((4 : ℕ) : ℝ) + (1 : ℕ)) * Real.pi / (8 : ℕ) = Real.pi / 8 + Real.pi := by push_cast; ring
  have h5 : (2 * ((5 : ℕ) : ℝ) + (1 : ℕ)) * Real.pi / (8 : ℕ) = Real.pi / 2 - Real.pi / 8 + Real.pi := by
    push_cast; ring
  have h6 : (2 * ((6 : ℕ) : ℝ) + (1 : ℕ)) * Real.pi / (8 : ℕ) = Real.pi / 8 + Real.pi / 2 + Real.pi := by
    push_cast; ring
  have h7 : (2 * ((7 : ℕ) : ℝ) + (1 : ℕ)) * Real.pi / (8 : ℕ) = Real.pi - Real.pi / 8 + Real.pi := by
    push_cast; ring
  simp only [orbit, osum, List.range_succ, List.range_zero, List.nil_append, List.cons_append, List.map_cons,
    List.map_nil, List.sum_cons, List.sum_nil, h0, h1, h2, h3, h4, h5, h6, h7, Real.cos_add_pi, Real.sin_add_pi,
    Real.cos_pi_sub, Real.sin_pi_sub, Real.cos_add_pi_div_two, Real.sin_add_pi_div_two,
    Real.cos_pi_div_two_sub, Real.sin_pi_div_two_sub, neg_mul, neg_neg]
  ring

/-- The rule with its points in closed form. -/
theorem mysovskih_3_closed : (schemeOfSym 2 mysData 15).ApproxRel 2 (Spec.ball 2) 1.1e-15 := by
  obtain ⟨l0, u0⟩ : -1e-36 ≤ √21 - 4.582575694955840006588047193728008489 ∧
      √21 - 4.582575694955840006588047193728008489 ≤ 1e-36 := by
    near_sqrt
  obtain ⟨l1, u1⟩ : -1e-36 ≤ √1401 - 37.429934544425802401903055440119254151 ∧
      √1401 - 37.429934544425802401903055440119254151 ≤ 1e-36 := by
    near_sqrt
  obtain ⟨l2, u2⟩ : -1e-36 ≤ √2 - 1.414213562373095048801688724209698079 ∧
      √2 - 1.414213562373095048801688724209698079 ≤ 1e-36 := by
    near_sqrt
  obtain ⟨l3, u3⟩ : -1e-36 ≤ √42 - 6.480740698407860230965967436087996658 ∧
      √42 - 6.480740698407860230965967436087996658 ≤ 1e-36 := by
    near_sqrt
  obtain ⟨l4, u4⟩ : -1e-32 ≤ √((42 - 2 * √21 + 21 * √2 - √42) / 112) - 0.70743874496006628625212275709345 ∧
      √((42 - 2 * √21 + 21 * √2 - √42) / 112) - 0.70743874496006628625212275709345 ≤ 1e-32 := by
    near_sqrt
  obtain ⟨l5, u5⟩ : -1e-32 ≤ √((42 - 2 * √21 - 21 * √2 + √42) / 112) - 0.29303072271066049725968475133290 ∧
      √((42 - 2 * √21 - 21 * √2 + √42) / 112) - 0.29303072271066049725968475133290 ≤ 1e-32 := by
    near_sqrt
  obtain ⟨l6, u6⟩ : -1e-32 ≤ √((42 + 2 * √21 + 21 * √2 + √42) / 112) - 0.88309711131858931643108640167018 ∧
      √((42 + 2 * √21 + 21 * √2 + √42) / 112) - 0.88309711131858931643108640167018 ≤ 1e-32 := by
    near_sqrt
  obtain ⟨l7, u7⟩ : -1e-32 ≤ √((42 + 2 * √21 - 21 * √2 - √42) / 112) - 0.36579080040066255741810484679798 ∧
      √((42 + 2 * √21 - 21 * √2 - √42) / 112) - 0.36579080040066255741810484679798 ≤ 1e-32 := by
    near_sqrt
  obtain ⟨l8, u8⟩ : -1e-32 ≤ √((69 - √1401) / 224) - 0.37541682462615445587185582346559 ∧
      √((69 - √1401) / 224) - 0.37541682462615445587185582346559 ≤ 1e-32 := by
    near_sqrt
  obtain ⟨l9, u9⟩ : -1e-32 ≤ √(5 / 14) - 0.59761430466719681998440858984656 ∧
      √(5 / 14) - 0.59761430466719681998440858984656 ≤ 1e-32 := by
    near_sqrt
  obtain ⟨l10, u10⟩ : -1e-32 ≤ √((69 + √1401) / 224) - 0.68929938079113618243562400878826 ∧
      √((69 + √1401) / 224) - 0.68929938079113618243562400878826 ≤ 1e-32 := by
    near_sqrt
  refine near_of_check (ratMom_ball (by norm_num)) (Dw := 12000000000000000000000000000000) (D := 12000000000000000000000000000000) (T := 10 ^ 15)
    (B := 11876961630137892000000000000000) (N := 44) (W := 11999999999999996640000000000004)
    (ew := 1e-29) (e := 1e-30) (M := 1)
    (Z := [⟨.d4_ab, [311458297522718962833052453331, 162426146921725481611391991114],
      [[8489264939520795435025473085121, 3516368672527925967116217015995],
      [10597165335823071797173036820042, 4389489604807950689017258161576]]⟩, ⟨.d4_aa,
      [486740529658848999017514664743, 252105000000000000000000000000, 99705581452262112093596446368],
      [[4505001895513853470462269881587], [7171371656006361839812903078159],
      [8271592569493634189227488105459]]⟩, ⟨.d4_a0, [478573344336494400000000000000,
      418260684438169200000000000000, 253008444187780800000000000000, 63837527037554760000000000000],
      [[3034365565094760000000000000000], [6932747141337876000000000000000],
      [10486043479738584000000000000000], [11876961630137892000000000000000]]⟩])
    ?_ (by norm_num) (by norm_num) (by norm_num) (by norm_num) (by norm_num) (by decide +kernel)
  unfold mysData
  near_data

theorem approxRel_congr {n deg : ℕ} {J : Spec.Functional n} {d d' : List SymEntry} {eps : ℝ}
    (h : (schemeOfSym n d deg).ApproxRel n J eps) (hd : ∀ e ∈ d, e.Regular) (hd' : ∀ e ∈ d', e.Regular)
    (hs : (schemeOfSym n d' deg).WellShaped n) (he : ∀ f, symSum n n d' f = symSum n n d f) :
    (schemeOfSym n d' deg).ApproxRel n J eps := by
  refine ⟨hs, fun p hp => ?_⟩
  have h1 := h.2 p hp
  have e1 : dot n (schemeOfSym n d deg).weights (schemeOfSym n d deg).points
    (fun x => MvPolynomial.eval x p) = _ := expand_dot n n d hd _
  have e2 : dot n (schemeOfSym n d' deg).weights (schemeOfSym n d' deg).points
    (fun x => MvPolynomial.eval x p) = _ := expand_dot n n d' hd' _
  beta_reduce at h1 ⊢
  rw [e1] at h1
  rw [e2, he]
  exact h1

/-- C57, Mysovskih 3 on the disk. -/
theorem C57_s2_mysovskih_3 : mysovskih_3.ApproxRel 2 (Spec.ball 2) 1.1e-15 ∧ mysovskih_3.degree = 15 := by
  have hreg : ∀ e ∈ mysovskih_3_data, e.Regular := by
    simp only [mysovskih_3_data, List.mem_cons, List.not_mem_nil, or_false, forall_eq_or_imp, forall_eq]
    refine ⟨⟨rfl, ?_⟩, ⟨rfl, ?_⟩, ⟨rfl, ?_⟩⟩ <;> simp [SymKey.Accepts, SymKey.arities]
  refine ⟨approxRel_congr mysovskih_3_closed ?_ hreg (schemeOfSym_wellShaped 2 2 _ 15 hreg ?_ rfl) ?_, rfl⟩
  · simp only [mysData, List.mem_cons, List.not_mem_nil, or_false, forall_eq_or_imp, forall_eq]
    refine ⟨⟨rfl, ?_⟩, ⟨rfl, ?_⟩, ⟨rfl, ?_⟩⟩ <;> simp [SymKey.Accepts, SymKey.arities]
  · simp only [mysovskih_3_data, List.mem_cons, List.not_mem_nil, or_false, forall_eq_or_imp, forall_eq]
    refine ⟨⟨?_, ?_⟩, ⟨?_, ?_, ?_⟩, ?_, ?_, ?_, ?_⟩ <;> simp [orbit]
  · intro f
    have h21 : √21 ^ 2 = (21 : ℝ) := Real.sq_sqrt (by norm_num)
    have p21 := Real.sqrt_nonneg (21 : ℝ)
    have h42 : √21 * √2 = √(42 : ℝ) := by rw [← Real.sqrt_mul (by norm_num)]; norm_num
    have h2 : √2 ^ 2 = (2 : ℝ) := Real.sq_sqrt (by norm_num)
    have p2 := Real.sqrt_nonneg (2 : ℝ)
    have b2 : √(2 : ℝ) ≤ 2 := by nlinarith
    have c8 : Real.cos (Real.pi / 8) = √((2 + √2) / 4) := by
      rw [Real.cos_pi_div_eight, Real.sqrt_div (by positivity), show (4 : ℝ) = 2 ^ 2 by norm_num,
        Real.sqrt_sq (by norm_num)]
    have s8 : Real.sin (Real.pi / 8) = √((2 - √2) / 4) := by
      rw [Real.sin_pi_div_eight, Real.sqrt_div (by linarith), show (4 : ℝ) = 2 ^ 2 by norm_num,
        Real.sqrt_sq (by norm_num)]
    have hq : √2 / 2 = √(1 / 2 : ℝ) := by
      rw [← Real.sqrt_sq (show (0 : ℝ) ≤ √2 / 2 by positivity), div_pow, h2]
      norm_num
    have h14 : √(1401 : ℝ) ≠ 0 := by positivity
    have s14 : √1401 ^ 2 = (1401 : ℝ) := Real.sq_sqrt (by norm_num)
    have w1 : (1055603 * √1401 + 26076047) / 43200000 / √(1401 : ℝ) =
        1055603 / 43200000 + 26076047 / 60523200000 * √1401 := by
      field_simp
      linear_combination (-1126485230400000 : ℝ) * s14
    have w3 : (1055603 * √1401 - 26076047) / 43200000 / √(1401 : ℝ) =
        1055603 / 43200000 - 26076047 / 60523200000 * √1401 := by
      field_simp
      linear_combination (1126485230400000 : ℝ) * s14
    simp only [symSum, mysovskih_3_data, mysData, List.map_cons, List.map_nil, List.zipWith_cons_cons,
      List.zipWith_nil_left, List.zipWith_nil_right, d4_zero, d4_one, d8_one, c8, s8, hq, w1, w3]
    have m1 : √((2 + √2) / 4) * √((21 - √21) / 28) = √((42 - 2 * √21 + 21 * √2 - √42) / 112) := by
      rw [← Real.sqrt_mul (by positivity), ← h42]; congr 1; ring
    have m2 : √((2 - √2) / 4) * √((21 - √21) / 28) = √((42 - 2 * √21 - 21 * √2 + √42) / 112) := by
      rw [← Real.sqrt_mul (by linarith), ← h42]; congr 1; ring
    have m3 : √((2 + √2) / 4) * √((21 + √21) / 28) = √((42 + 2 * √21 + 21 * √2 + √42) / 112) := by
      rw [← Real.sqrt_mul (by positivity), ← h42]; congr 1; ring
    have m4 : √((2 - √2) / 4) * √((21 + √21) / 28) = √((42 + 2 * √21 - 21 * √2 - √42) / 112) := by
      rw [← Real.sqrt_mul (by linarith), ← h42]; congr 1; ring
    have m5 : √(1 / 2) * √((69 - √1401) / 112) = √((69 - √1401) / 224) := by
      rw [← Real.sqrt_mul (by norm_num)]; congr 1; ring
    have m6 : √(1 / 2) * √((69 + √1401) / 112) = √((69 + √1401) / 224) := by
      rw [← Real.sqrt_mul (by norm_num)]; congr 1; ring
    have m7 : √(1 / 2) * √(5 / 7 : ℝ) = √(5 / 14) := by
      rw [← Real.sqrt_mul (by norm_num)]; norm_num
    simp only [m1, m2, m3, m4, m5, m6, m7]

/-- The rule for `x^8 y^6`. -/
example : |Spec.ball 2 (fun _ => 1) * dot 2 mysovskih_3.weights mysovskih_3.points (mono ![8, 6]) -
    Spec.ball 2 (mono ![8, 6])| ≤ Spec.ball 2 (fun _ => 1) * 1.1e-15 :=
  approxUpTo_mono C57_s2_mysovskih_3.1.2 _ (by rw [C57_s2_mysovskih_3.2]; decide)

end Quadpy
