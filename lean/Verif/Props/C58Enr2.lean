import Verif.Lemmas.StengerCheck

/-! C58 for enr2/_stenger.py: bounds for the error of the tabulated rules of Stenger. -/

namespace Quadpy
open Dec

theorem enr2_stenger7a_of {n : ℕ} {u v : ℝ} {B : List ℝ}
    (e : Enr2.stenger7aTab n = some (u, v, B)) :
    Enr2.stenger7a n = stenger7 n (√Real.pi ^ n) u v B := by
  rw [Enr2.stenger7a, e]; rfl

theorem enr2_stenger7a_3 :
    ∃ S, Enr2.stenger7a 3 = some S ∧ S.degree = 7 ∧ S.ApproxRel 3 (Spec.enr2 3) (1 / (10 ^ 12 : ℕ)) := by
  have e : Enr2.stenger7aTab 3 = some (rz (10 ^ 14) (52464762327529), rz (10 ^ 14)
      (165068012388578), ([-166705761599566000000000, 100296981655678000000000,
      1616992466877540000000, -60471915122153500000000, 234381399489666000000,
      41719450188064700000000] : List ℤ).map (rz (10 ^ 22))) := by norm_num [Enr2.stenger7aTab, rz]
  have h := stenger7_eq (10 ^ 14) (10 ^ 22) 3 (by norm_num) (√Real.pi ^ 3) 52464762327529 165068012388578
    [-166705761599566000000000, 100296981655678000000000, 1616992466877540000000,
      -60471915122153500000000, 234381399489666000000, 41719450188064700000000]
  refine ⟨_, (enr2_stenger7a_of e).trans h, ?_⟩
  exact approx_div (ratMom_enr2 _) momEnr2_perm momEnr2_odd (10 ^ 22) 55683279968317078452078
    55683279968317078462446 (10 ^ 14) (10 ^ 12) rfl (by decide +kernel) (by decide +kernel)
    (le_trans (by norm_num) (sqrt_pi_pow 3).1) (le_trans (sqrt_pi_pow 3).2 (by norm_num))

theorem enr2_stenger7a_4 :
    ∃ S, Enr2.stenger7a 4 = some S ∧ S.degree = 7 ∧ S.ApproxRel 4 (Spec.enr2 4) (1 / (10 ^ 12 : ℕ)) := by
  have e : Enr2.stenger7aTab 4 = some (rz (10 ^ 14) (52464762327529), rz (10 ^ 14)
      (165068012388578), ([-1675393296515620000000000, 687922329603575000000000,
      2035184096590140000000, -255075279116885000000000, 415430214106084000000,
      73945800143496100000000] : List ℤ).map (rz (10 ^ 22))) := by norm_num [Enr2.stenger7aTab, rz]
  have h := stenger7_eq (10 ^ 14) (10 ^ 22) 4 (by norm_num) (√Real.pi ^ 4) 52464762327529 165068012388578
    [-1675393296515620000000000, 687922329603575000000000, 2035184096590140000000,
      -255075279116885000000000, 415430214106084000000, 73945800143496100000000]
  refine ⟨_, (enr2_stenger7a_of e).trans h, ?_⟩
  exact approx_div (ratMom_enr2 _) momEnr2_perm momEnr2_odd (10 ^ 22) 98696044010893586186525
    98696044010893586211027 (10 ^ 14) (10 ^ 12) rfl (by decide +kernel) (by decide +kernel)
    (le_trans (by norm_num) (sqrt_pi_pow 4).1) (le_trans (sqrt_pi_pow 4).2 (by norm_num))

theorem enr2_stenger7a_6 :
    ∃ S, Enr2.stenger7a 6 = some S ∧ S.degree = 7 ∧ S.ApproxRel 6 (Spec.enr2 6) (1 / (10 ^ 12 : ℕ)) := by
  have e : Enr2.stenger7aTab 6 = some (rz (10 ^ 14) (52464762327529), rz (10 ^ 14)
      (165068012388578), ([-30967957863080200000000000, 8154233218802370000000000,
      1173269371690730000000, -1730572952964480000000000, 1305112508714910000000,
      232307582494626000000000] : List ℤ).map (rz (10 ^ 22))) := by norm_num [Enr2.stenger7aTab, rz]
  have h := stenger7_eq (10 ^ 14) (10 ^ 22) 6 (by norm_num) (√Real.pi ^ 6) 52464762327529 165068012388578
    [-30967957863080200000000000, 8154233218802370000000000, 1173269371690730000000,
      -1730572952964480000000000, 1305112508714910000000, 232307582494626000000000]
  refine ⟨_, (enr2_stenger7a_of e).trans h, ?_⟩
  exact approx_div (ratMom_enr2 _) momEnr2_perm momEnr2_odd (10 ^ 22) 310062766802998201746190
    310062766802998201861648 (10 ^ 14) (10 ^ 12) rfl (by decide +kernel) (by decide +kernel)
    (le_trans (by norm_num) (sqrt_pi_pow 6).1) (le_trans (sqrt_pi_pow 6).2 (by norm_num))

/-- enr2/_stenger.py:22-86: the rule exists for these dimensions only. -/
theorem C58_enr2_stenger7a_returns (n : ℕ) : (Enr2.stenger7a n).isSome ↔ n = 3 ∨ n = 4 ∨ n = 6 := by
  constructor
  · intro h
    by_contra hn
    push Not at hn
    rw [Enr2.stenger7a, Enr2.stenger7aTab] at h
    · cases h
    all_goals simp [hn]
  · rintro (rfl | rfl | rfl)
    · obtain ⟨S, h, -⟩ := enr2_stenger7a_3; rw [h]; rfl
    · obtain ⟨S, h, -⟩ := enr2_stenger7a_4; rw [h]; rfl
    · obtain ⟨S, h, -⟩ := enr2_stenger7a_6; rw [h]; rfl

/-- enr2/_stenger.py:22-86: the degree holds up to a small error. -/
theorem C58_enr2_stenger7a {n : ℕ} {S : Scheme} (h : Enr2.stenger7a n = some S) :
    S.degree = 7 ∧ S.ApproxRel n (Spec.enr2 n) (1 / (10 ^ 12 : ℕ)) := by
  rcases (C58_enr2_stenger7a_returns n).1 (by rw [h]; rfl) with rfl | rfl | rfl
  · obtain ⟨S', h', hS⟩ := enr2_stenger7a_3; cases h.symm.trans h'; exact hS
  · obtain ⟨S', h', hS⟩ := enr2_stenger7a_4; cases h.symm.trans h'; exact hS
  · obtain ⟨S', h', hS⟩ := enr2_stenger7a_6; cases h.symm.trans h'; exact hS

example : ∃ S, Enr2.stenger7a 6 = some S ∧ S.degree = 7 := by
  obtain ⟨S, h⟩ := Option.isSome_iff_exists.1 ((C58_enr2_stenger7a_returns 6).2 (by simp))
  exact ⟨S, h, (C58_enr2_stenger7a h).1⟩

theorem enr2_stenger7b_of {n : ℕ} {u v : ℝ} {B : List ℝ}
    (e : Enr2.stenger7bTab n = some (u, v, B)) :
    Enr2.stenger7b n = stenger7 n (√Real.pi ^ n) u v B := by
  rw [Enr2.stenger7b, e]; rfl

theorem enr2_stenger7b_3 :
    ∃ S, Enr2.stenger7b 3 = some S ∧ S.degree = 7 ∧ S.ApproxRel 3 (Spec.enr2 3) (1 / (10 ^ 13 : ℕ)) := by
  have e : Enr2.stenger7bTab 3 = some (rz (10 ^ 14) (165068012388578), rz (10 ^ 14)
      (52464762327529), ([166705761599566000000000, 1789031619570740000000,
      -66580819096581000000000, 148361823143070000000, 22966985253975800000000,
      43009788173298400000] : List ℤ).map (rz (10 ^ 22))) := by norm_num [Enr2.stenger7bTab, rz]
  have h := stenger7_eq (10 ^ 14) (10 ^ 22) 3 (by norm_num) (√Real.pi ^ 3) 165068012388578 52464762327529
    [166705761599566000000000, 1789031619570740000000, -66580819096581000000000,
      148361823143070000000, 22966985253975800000000, 43009788173298400000]
  refine ⟨_, (enr2_stenger7b_of e).trans h, ?_⟩
  exact approx_div (ratMom_enr2 _) momEnr2_perm momEnr2_odd (10 ^ 22) 55683279968317078452078
    55683279968317078462446 (10 ^ 14) (10 ^ 13) rfl (by decide +kernel) (by decide +kernel)
    (le_trans (by norm_num) (sqrt_pi_pow 3).1) (le_trans (sqrt_pi_pow 3).2 (by norm_num))

theorem enr2_stenger7b_4 :
    ∃ S, Enr2.stenger7b 4 = some S ∧ S.degree = 7 ∧ S.ApproxRel 4 (Spec.enr2 4) (1 / (10 ^ 13 : ℕ)) := by
  have e : Enr2.stenger7bTab 4 = some (rz (10 ^ 14) (165068012388578), rz (10 ^ 14)
      (52464762327529), ([688432856406677000000000, 2949978472682860000000,
      -199427272118378000000000, 110498755408511000000, 40707921457099700000000,
      76232864674393100000] : List ℤ).map (rz (10 ^ 22))) := by norm_num [Enr2.stenger7bTab, rz]
  have h := stenger7_eq (10 ^ 14) (10 ^ 22) 4 (by norm_num) (√Real.pi ^ 4) 165068012388578 52464762327529
    [688432856406677000000000, 2949978472682860000000, -199427272118378000000000,
      110498755408511000000, 40707921457099700000000, 76232864674393100000]
  refine ⟨_, (enr2_stenger7b_of e).trans h, ?_⟩
  exact approx_div (ratMom_enr2 _) momEnr2_perm momEnr2_odd (10 ^ 22) 98696044010893586186525
    98696044010893586211027 (10 ^ 14) (10 ^ 13) rfl (by decide +kernel) (by decide +kernel)
    (le_trans (by norm_num) (sqrt_pi_pow 4).1) (le_trans (sqrt_pi_pow 4).2 (by norm_num))

theorem enr2_stenger7b_5 :
    ∃ S, Enr2.stenger7b 5 = some S ∧ S.degree = 7 ∧ S.ApproxRel 5 (Spec.enr2 5) (1 / (10 ^ 13 : ℕ)) := by
  have e : Enr2.stenger7bTab 5 = some (rz (10 ^ 14) (165068012388578), rz (10 ^ 14)
      (52464762327529), ([2205023449401210000000000, 5377469753137690000000,
      -497781460739792000000000, -74384524571292600000, 72152912148995600000000,
      135119234557687000000] : List ℤ).map (rz (10 ^ 22))) := by norm_num [Enr2.stenger7bTab, rz]
  have h := stenger7_eq (10 ^ 14) (10 ^ 22) 5 (by norm_num) (√Real.pi ^ 5) 165068012388578 52464762327529
    [2205023449401210000000000, 5377469753137690000000, -497781460739792000000000,
      -74384524571292600000, 72152912148995600000000, 135119234557687000000]
  refine ⟨_, (enr2_stenger7b_of e).trans h, ?_⟩
  exact approx_div (ratMom_enr2 _) momEnr2_perm momEnr2_odd (10 ^ 22) 174934183276248628458597
    174934183276248628512881 (10 ^ 14) (10 ^ 13) rfl (by decide +kernel) (by decide +kernel)
    (le_trans (by norm_num) (sqrt_pi_pow 5).1) (le_trans (sqrt_pi_pow 5).2 (by norm_num))

theorem enr2_stenger7b_6 :
    ∃ S, Enr2.stenger7b 6 = some S ∧ S.degree = 7 ∧ S.ApproxRel 6 (Spec.enr2 6) (1 / (10 ^ 13 : ℕ)) := by
  have e : Enr2.stenger7bTab 6 = some (rz (10 ^ 14) (165068012388578), rz (10 ^ 14)
      (52464762327529), ([6162936518840270000000000, 10752973676617900000000,
      -1138070080982690000000000, -610828352270520000000, 127887706992535000000000,
      239492607623178000000] : List ℤ).map (rz (10 ^ 22))) := by norm_num [Enr2.stenger7bTab, rz]
  have h := stenger7_eq (10 ^ 14) (10 ^ 22) 6 (by norm_num) (√Real.pi ^ 6) 165068012388578 52464762327529
    [6162936518840270000000000, 10752973676617900000000, -1138070080982690000000000,
      -610828352270520000000, 127887706992535000000000, 239492607623178000000]
  refine ⟨_, (enr2_stenger7b_of e).trans h, ?_⟩
  exact approx_div (ratMom_enr2 _) momEnr2_perm momEnr2_odd (10 ^ 22) 310062766802998201746190
    310062766802998201861648 (10 ^ 14) (10 ^ 13) rfl (by decide +kernel) (by decide +kernel)
    (le_trans (by norm_num) (sqrt_pi_pow 6).1) (le_trans (sqrt_pi_pow 6).2 (by norm_num))

/-- enr2/_stenger.py:89-152: the rule exists for these dimensions only. -/
theorem C58_enr2_stenger7b_returns (n : ℕ) : (Enr2.stenger7b n).isSome ↔ n = 3 ∨ n = 4 ∨ n = 5 ∨ n = 6 := by
  constructor
  · intro h
    by_contra hn
    push Not at hn
    rw [Enr2.stenger7b, Enr2.stenger7bTab] at h
    · cases h
    all_goals simp [hn]
  · rintro (rfl | rfl | rfl | rfl)
    · obtain ⟨S, h, -⟩ := enr2_stenger7b_3; rw [h]; rfl
    · obtain ⟨S, h, -⟩ := enr2_stenger7b_4; rw [h]; rfl
    · obtain ⟨S, h, -⟩ := enr2_stenger7b_5; rw [h]; rfl
    · obtain ⟨S, h, -⟩ := enr2_stenger7b_6; rw [h]; rfl

/-- enr2/_stenger.py:89-152: the degree holds up to a small error. -/
theorem C58_enr2_stenger7b {n : ℕ} {S : Scheme} (h : Enr2.stenger7b n = some S) :
    S.degree = 7 ∧ S.ApproxRel n (Spec.enr2 n) (1 / (10 ^ 13 : ℕ)) := by
  rcases (C58_enr2_stenger7b_returns n).1 (by rw [h]; rfl) with rfl | rfl | rfl | rfl
  · obtain ⟨S', h', hS⟩ := enr2_stenger7b_3; cases h.symm.trans h'; exact hS
  · obtain ⟨S', h', hS⟩ := enr2_stenger7b_4; cases h.symm.trans h'; exact hS
  · obtain ⟨S', h', hS⟩ := enr2_stenger7b_5; cases h.symm.trans h'; exact hS
  · obtain ⟨S', h', hS⟩ := enr2_stenger7b_6; cases h.symm.trans h'; exact hS

example : ∃ S, Enr2.stenger7b 6 = some S ∧ S.degree = 7 := by
  obtain ⟨S, h⟩ := Option.isSome_iff_exists.1 ((C58_enr2_stenger7b_returns 6).2 (by simp))
  exact ⟨S, h, (C58_enr2_stenger7b h).1⟩

theorem enr2_stenger9a_of {n : ℕ} {u v : ℝ} {B : List ℝ}
    (e : Enr2.stenger9aTab n = some (u, v, B)) :
    Enr2.stenger9a n = stenger9 n (√Real.pi ^ n) u v B := by
  rw [Enr2.stenger9a, e]; rfl

theorem enr2_stenger9a_3 :
    ∃ S, Enr2.stenger9a 3 = some S ∧ S.degree = 9 ∧ S.ApproxRel 3 (Spec.enr2 3) (1 / (10 ^ 12 : ℕ)) := by
  have e : Enr2.stenger9aTab 3 = some (rz (10 ^ 15) (2020182870456090), rz (10 ^ 15)
      (958572464613819), ([6764487344299240000000, 51198910629155100000, 4485957234937440000000,
      2352234545956060000, 915390713080005000000, 139208199920793000000, 2352234545956060000,
      915390713080008000000] : List ℤ).map (rz (10 ^ 22))) := by norm_num [Enr2.stenger9aTab, rz]
  have h := stenger9_eq (10 ^ 15) (10 ^ 22) 3 (by norm_num) (√Real.pi ^ 3) 2020182870456090 958572464613819
    [6764487344299240000000, 51198910629155100000, 4485957234937440000000, 2352234545956060000,
      915390713080005000000, 139208199920793000000, 2352234545956060000, 915390713080008000000]
  refine ⟨_, (enr2_stenger9a_of e).trans h, ?_⟩
  exact approx_div (ratMom_enr2 _) momEnr2_perm momEnr2_odd (10 ^ 22) 55683279968317078452078
    55683279968317078462446 (10 ^ 15) (10 ^ 12) rfl (by decide +kernel) (by decide +kernel)
    (le_trans (by norm_num) (sqrt_pi_pow 3).1) (le_trans (sqrt_pi_pow 3).2 (by norm_num))

theorem enr2_stenger9a_4 :
    ∃ S, Enr2.stenger9a 4 = some S ∧ S.degree = 9 ∧ S.ApproxRel 4 (Spec.enr2 4) (1 / (10 ^ 12 : ℕ)) := by
  have e : Enr2.stenger9aTab 4 = some (rz (10 ^ 15) (2020182870456090), rz (10 ^ 15)
      (958572464613819), ([-8604529450070480000000, -405511998533795000000, 10702647544971500000000,
      1389742393070920000, -1622487794481810000000, 246740110027234000000, 1389742393070940000,
      1622487794481810000000, 1389742393070940000] : List ℤ).map (rz (10 ^ 22))) := by norm_num
      [Enr2.stenger9aTab, rz]
  have h := stenger9_eq (10 ^ 15) (10 ^ 22) 4 (by norm_num) (√Real.pi ^ 4) 2020182870456090 958572464613819
    [-8604529450070480000000, -405511998533795000000, 10702647544971500000000, 1389742393070920000,
      -1622487794481810000000, 246740110027234000000, 1389742393070940000, 1622487794481810000000,
      1389742393070940000]
  refine ⟨_, (enr2_stenger9a_of e).trans h, ?_⟩
  exact approx_div (ratMom_enr2 _) momEnr2_perm momEnr2_odd (10 ^ 22) 98696044010893586186525
    98696044010893586211027 (10 ^ 15) (10 ^ 12) rfl (by decide +kernel) (by decide +kernel)
    (le_trans (by norm_num) (sqrt_pi_pow 4).1) (le_trans (sqrt_pi_pow 4).2 (by norm_num))

theorem enr2_stenger9a_5 :
    ∃ S, Enr2.stenger9a 5 = some S ∧ S.degree = 9 ∧ S.ApproxRel 5 (Spec.enr2 5) (1 / (10 ^ 12 : ℕ)) := by
  have e : Enr2.stenger9aTab 5 = some (rz (10 ^ 15) (2020182870456090), rz (10 ^ 15)
      (958572464613819), ([-82734700620082600000000, -1608201745309050000000,
      35349986375846700000000, 7389762769095640000, -8627354218129430000000, 437335458190621000000,
      -2463254256365230000, 2875784739376480000000, 2463254256365230000] : List ℤ).map (rz (10 ^
      22))) := by norm_num [Enr2.stenger9aTab, rz]
  have h := stenger9_eq (10 ^ 15) (10 ^ 22) 5 (by norm_num) (√Real.pi ^ 5) 2020182870456090 958572464613819
    [-82734700620082600000000, -1608201745309050000000, 35349986375846700000000,
      7389762769095640000, -8627354218129430000000, 437335458190621000000, -2463254256365230000,
      2875784739376480000000, 2463254256365230000]
  refine ⟨_, (enr2_stenger9a_of e).trans h, ?_⟩
  exact approx_div (ratMom_enr2 _) momEnr2_perm momEnr2_odd (10 ^ 22) 174934183276248628458597
    174934183276248628512881 (10 ^ 15) (10 ^ 12) rfl (by decide +kernel) (by decide +kernel)
    (le_trans (by norm_num) (sqrt_pi_pow 5).1) (le_trans (sqrt_pi_pow 5).2 (by norm_num))

theorem enr2_stenger9a_6 :
    ∃ S, Enr2.stenger9a 6 = some S ∧ S.degree = 9 ∧ S.ApproxRel 6 (Spec.enr2 6) (1 / (10 ^ 12 : ℕ)) := by
  have e : Enr2.stenger9aTab 6 = some (rz (10 ^ 15) (2020182870456090), rz (10 ^ 15)
      (958572464613819), ([-361840434143098000000000, -4479365291385170000000,
      112077863004144000000000, 39294040432085500000, -25485978678415800000000,
      775156917007496000000, -13098013477361900000, 5097195735683150000000, 4366004492453950000] :
      List ℤ).map (rz (10 ^ 22))) := by norm_num [Enr2.stenger9aTab, rz]
  have h := stenger9_eq (10 ^ 15) (10 ^ 22) 6 (by norm_num) (√Real.pi ^ 6) 2020182870456090 958572464613819
    [-361840434143098000000000, -4479365291385170000000, 112077863004144000000000,
      39294040432085500000, -25485978678415800000000, 775156917007496000000, -13098013477361900000,
      5097195735683150000000, 4366004492453950000]
  refine ⟨_, (enr2_stenger9a_of e).trans h, ?_⟩
  exact approx_div (ratMom_enr2 _) momEnr2_perm momEnr2_odd (10 ^ 22) 310062766802998201746190
    310062766802998201861648 (10 ^ 15) (10 ^ 12) rfl (by decide +kernel) (by decide +kernel)
    (le_trans (by norm_num) (sqrt_pi_pow 6).1) (le_trans (sqrt_pi_pow 6).2 (by norm_num))

/-- enr2/_stenger.py:155-234: the rule exists for these dimensions only. -/
theorem C58_enr2_stenger9a_returns (n : ℕ) : (Enr2.stenger9a n).isSome ↔ n = 3 ∨ n = 4 ∨ n = 5 ∨ n = 6 := by
  constructor
  · intro h
    by_contra hn
    push Not at hn
    rw [Enr2.stenger9a, Enr2.stenger9aTab] at h
    · cases h
    all_goals simp [hn]
  · rintro (rfl | rfl | rfl | rfl)
    · obtain ⟨S, h, -⟩ := enr2_stenger9a_3; rw [h]; rfl
    · obtain ⟨S, h, -⟩ := enr2_stenger9a_4; rw [h]; rfl
    · obtain ⟨S, h, -⟩ := enr2_stenger9a_5; rw [h]; rfl
    · obtain ⟨S, h, -⟩ := enr2_stenger9a_6; rw [h]; rfl

/-- enr2/_stenger.py:155-234: the degree holds up to a small error. -/
theorem C58_enr2_stenger9a {n : ℕ} {S : Scheme} (h : Enr2.stenger9a n = some S) :
    S.degree = 9 ∧ S.ApproxRel n (Spec.enr2 n) (1 / (10 ^ 12 : ℕ)) := by
  rcases (C58_enr2_stenger9a_returns n).1 (by rw [h]; rfl) with rfl | rfl | rfl | rfl
  · obtain ⟨S', h', hS⟩ := enr2_stenger9a_3; cases h.symm.trans h'; exact hS
  · obtain ⟨S', h', hS⟩ := enr2_stenger9a_4; cases h.symm.trans h'; exact hS
  · obtain ⟨S', h', hS⟩ := enr2_stenger9a_5; cases h.symm.trans h'; exact hS
  · obtain ⟨S', h', hS⟩ := enr2_stenger9a_6; cases h.symm.trans h'; exact hS

example : ∃ S, Enr2.stenger9a 6 = some S ∧ S.degree = 9 := by
  obtain ⟨S, h⟩ := Option.isSome_iff_exists.1 ((C58_enr2_stenger9a_returns 6).2 (by simp))
  exact ⟨S, h, (C58_enr2_stenger9a h).1⟩

theorem enr2_stenger9b_of {n : ℕ} {u v : ℝ} {B : List ℝ}
    (e : Enr2.stenger9bTab n = some (u, v, B)) :
    Enr2.stenger9b n = stenger9 n (√Real.pi ^ n) u v B := by
  rw [Enr2.stenger9b, e]; rfl

theorem enr2_stenger9b_4 :
    ∃ S, Enr2.stenger9b 4 = some S ∧ S.degree = 9 ∧ S.ApproxRel 4 (Spec.enr2 4) (1 / (10 ^ 12 : ℕ)) := by
  have e : Enr2.stenger9bTab 4 = some (rz (10 ^ 15) (958572464613819), rz (10 ^ 15)
      (2020182870456090), ([26502908876681000000, 6376013426353320000000, -394394059389228000000,
      540829264827264000000, -4169227179212810000, 246740110027234000000, 540829264827270000000,
      4169227179212810000, 540829264827269000000] : List ℤ).map (rz (10 ^ 22))) := by norm_num
      [Enr2.stenger9bTab, rz]
  have h := stenger9_eq (10 ^ 15) (10 ^ 22) 4 (by norm_num) (√Real.pi ^ 4) 958572464613819 2020182870456090
    [26502908876681000000, 6376013426353320000000, -394394059389228000000, 540829264827264000000,
      -4169227179212810000, 246740110027234000000, 540829264827270000000, 4169227179212810000,
      540829264827269000000]
  refine ⟨_, (enr2_stenger9b_of e).trans h, ?_⟩
  exact approx_div (ratMom_enr2 _) momEnr2_perm momEnr2_odd (10 ^ 22) 98696044010893586186525
    98696044010893586211027 (10 ^ 15) (10 ^ 12) rfl (by decide +kernel) (by decide +kernel)
    (le_trans (by norm_num) (sqrt_pi_pow 4).1) (le_trans (sqrt_pi_pow 4).2 (by norm_num))

theorem enr2_stenger9b_5 :
    ∃ S, Enr2.stenger9b 5 = some S ∧ S.degree = 9 ∧ S.ApproxRel 5 (Spec.enr2 5) (1 / (10 ^ 12 : ℕ)) := by
  have e : Enr2.stenger9bTab 5 = some (rz (10 ^ 15) (958572464613819), rz (10 ^ 15)
      (2020182870456090), ([-6244167910552720000000, 4674949155831040000000,
      -1529377609105360000000, 2875784739376460000000, -22169288307287100000, 437335458190621000000,
      -958594913125490000000, 7389762769095680000, 958594913125492000000] : List ℤ).map (rz (10 ^
      22))) := by norm_num [Enr2.stenger9bTab, rz]
  have h := stenger9_eq (10 ^ 15) (10 ^ 22) 5 (by norm_num) (√Real.pi ^ 5) 958572464613819 2020182870456090
    [-6244167910552720000000, 4674949155831040000000, -1529377609105360000000,
      2875784739376460000000, -22169288307287100000, 437335458190621000000, -958594913125490000000,
      7389762769095680000, 958594913125492000000]
  refine ⟨_, (enr2_stenger9b_of e).trans h, ?_⟩
  exact approx_div (ratMom_enr2 _) momEnr2_perm momEnr2_odd (10 ^ 22) 174934183276248628458597
    174934183276248628512881 (10 ^ 15) (10 ^ 12) rfl (by decide +kernel) (by decide +kernel)
    (le_trans (by norm_num) (sqrt_pi_pow 5).1) (le_trans (sqrt_pi_pow 5).2 (by norm_num))

theorem enr2_stenger9b_6 :
    ∃ S, Enr2.stenger9b 6 = some S ∧ S.degree = 9 ∧ S.ApproxRel 6 (Spec.enr2 6) (1 / (10 ^ 12 : ℕ)) := by
  have e : Enr2.stenger9bTab 6 = some (rz (10 ^ 15) (958572464613819), rz (10 ^ 15)
      (2020182870456090), ([44887383633365000000000, -23847356614073600000000,
      -4130084931988850000000, 15291587207049400000000, -65490067386809300000,
      775156917007496000000, -5097195735683140000000, 13098013477361800000, 1699065245227720000000]
      : List ℤ).map (rz (10 ^ 22))) := by norm_num [Enr2.stenger9bTab, rz]
  have h := stenger9_eq (10 ^ 15) (10 ^ 22) 6 (by norm_num) (√Real.pi ^ 6) 958572464613819 2020182870456090
    [44887383633365000000000, -23847356614073600000000, -4130084931988850000000,
      15291587207049400000000, -65490067386809300000, 775156917007496000000,
      -5097195735683140000000, 13098013477361800000, 1699065245227720000000]
  refine ⟨_, (enr2_stenger9b_of e).trans h, ?_⟩
  exact approx_div (ratMom_enr2 _) momEnr2_perm momEnr2_odd (10 ^ 22) 310062766802998201746190
    310062766802998201861648 (10 ^ 15) (10 ^ 12) rfl (by decide +kernel) (by decide +kernel)
    (le_trans (by norm_num) (sqrt_pi_pow 6).1) (le_trans (sqrt_pi_pow 6).2 (by norm_num))

/-- enr2/_stenger.py:237-302: the rule exists for these dimensions only. -/
theorem C58_enr2_stenger9b_returns (n : ℕ) : (Enr2.stenger9b n).isSome ↔ n = 4 ∨ n = 5 ∨ n = 6 := by
  constructor
  · intro h
    by_contra hn
    push Not at hn
    rw [Enr2.stenger9b, Enr2.stenger9bTab] at h
    · cases h
    all_goals simp [hn]
  · rintro (rfl | rfl | rfl)
    · obtain ⟨S, h, -⟩ := enr2_stenger9b_4; rw [h]; rfl
    · obtain ⟨S, h, -⟩ := enr2_stenger9b_5; rw [h]; rfl
    · obtain ⟨S, h, -⟩ := enr2_stenger9b_6; rw [h]; rfl

/-- enr2/_stenger.py:237-302: the degree holds up to a small error. -/
theorem C58_enr2_stenger9b {n : ℕ} {S : Scheme} (h : Enr2.stenger9b n = some S) :
    S.degree = 9 ∧ S.ApproxRel n (Spec.enr2 n) (1 / (10 ^ 12 : ℕ)) := by
  rcases (C58_enr2_stenger9b_returns n).1 (by rw [h]; rfl) with rfl | rfl | rfl
  · obtain ⟨S', h', hS⟩ := enr2_stenger9b_4; cases h.symm.trans h'; exact hS
  · obtain ⟨S', h', hS⟩ := enr2_stenger9b_5; cases h.symm.trans h'; exact hS
  · obtain ⟨S', h', hS⟩ := enr2_stenger9b_6; cases h.symm.trans h'; exact hS

example : ∃ S, Enr2.stenger9b 6 = some S ∧ S.degree = 9 := by
  obtain ⟨S, h⟩ := Option.isSome_iff_exists.1 ((C58_enr2_stenger9b_returns 6).2 (by simp))
  exact ⟨S, h, (C58_enr2_stenger9b h).1⟩

theorem enr2_stenger11a_of {n : ℕ} {u v w : ℝ} {B : List ℝ}
    (e : Enr2.stenger11aTab n = some (u, v, w, B)) :
    Enr2.stenger11a n = stenger11 n (√Real.pi ^ n) u v w B := by
  rw [Enr2.stenger11a, e]; rfl

theorem enr2_stenger11a_3 :
    ∃ S, Enr2.stenger11a 3 = some S ∧ S.degree = 11 ∧ S.ApproxRel 3 (Spec.enr2 3) (1 / (10 ^ 12 : ℕ)) := by
  have e : Enr2.stenger11aTab 3 = some (rz (10 ^ 15) (2350604973674490), rz (10 ^ 15)
      (436077411927617), rz (10 ^ 15) (1335849074013700), ([-88159102995785800000000,
      -751996143360650000000, 62174318947151500000000, 2414264514564940000000,
      -12070973927606500000, -42775122121013800000000, 550169924840163000000, 237084999634707000000,
      -16979199288774100000, -252266276123350000, 32677787371769100000000, 96846994920680200000,
      7897545148774220000] : List ℤ).map (rz (10 ^ 22))) := by norm_num [Enr2.stenger11aTab, rz]
  have h := stenger11_eq (10 ^ 15) (10 ^ 22) 3 (by norm_num) (√Real.pi ^ 3) 2350604973674490 436077411927617 1335849074013700
    [-88159102995785800000000, -751996143360650000000, 62174318947151500000000,
      2414264514564940000000, -12070973927606500000, -42775122121013800000000,
      550169924840163000000, 237084999634707000000, -16979199288774100000, -252266276123350000,
      32677787371769100000000, 96846994920680200000, 7897545148774220000]
  refine ⟨_, (enr2_stenger11a_of e).trans h, ?_⟩
  exact approx_div (ratMom_enr2 _) momEnr2_perm momEnr2_odd (10 ^ 22) 55683279968317078452078
    55683279968317078462446 (10 ^ 15) (10 ^ 12) rfl (by decide +kernel) (by decide +kernel)
    (le_trans (by norm_num) (sqrt_pi_pow 3).1) (le_trans (sqrt_pi_pow 3).2 (by norm_num))

theorem enr2_stenger11a_4 :
    ∃ S, Enr2.stenger11a 4 = some S ∧ S.degree = 11 ∧ S.ApproxRel 4 (Spec.enr2 4) (1 / (10 ^ 12 : ℕ)) := by
  have e : Enr2.stenger11aTab 4 = some (rz (10 ^ 15) (2350604973674490), rz (10 ^ 15)
      (436077411927617), rz (10 ^ 15) (1335849074013700), ([2415027361473390000000000,
      -1960959385314780000000, -1286757379992800000000000, 3075687842786960000000,
      -48090842231946000000, 698087019367085000000000, 631837143743771000000, 392226151971179000000,
      -30094847164679900000, -650235306755170000, -386951974646715000000000, 171656829095787000000,
      13998034311645000000, 101552487093372000, 222435922356439000000000] : List ℤ).map (rz (10 ^
      22))) := by norm_num [Enr2.stenger11aTab, rz]
  have h := stenger11_eq (10 ^ 15) (10 ^ 22) 4 (by norm_num) (√Real.pi ^ 4) 2350604973674490 436077411927617 1335849074013700
    [2415027361473390000000000, -1960959385314780000000, -1286757379992800000000000,
      3075687842786960000000, -48090842231946000000, 698087019367085000000000,
      631837143743771000000, 392226151971179000000, -30094847164679900000, -650235306755170000,
      -386951974646715000000000, 171656829095787000000, 13998034311645000000, 101552487093372000,
      222435922356439000000000]
  refine ⟨_, (enr2_stenger11a_of e).trans h, ?_⟩
  exact approx_div (ratMom_enr2 _) momEnr2_perm momEnr2_odd (10 ^ 22) 98696044010893586186525
    98696044010893586211027 (10 ^ 15) (10 ^ 12) rfl (by decide +kernel) (by decide +kernel)
    (le_trans (by norm_num) (sqrt_pi_pow 4).1) (le_trans (sqrt_pi_pow 4).2 (by norm_num))

/-- enr2/_stenger.py:305-398: the rule exists for these dimensions only. -/
theorem C58_enr2_stenger11a_returns (n : ℕ) : (Enr2.stenger11a n).isSome ↔ n = 3 ∨ n = 4 := by
  constructor
  · intro h
    by_contra hn
    push Not at hn
    rw [Enr2.stenger11a, Enr2.stenger11aTab] at h
    · cases h
    all_goals simp [hn]
  · rintro (rfl | rfl)
    · obtain ⟨S, h, -⟩ := enr2_stenger11a_3; rw [h]; rfl
    · obtain ⟨S, h, -⟩ := enr2_stenger11a_4; rw [h]; rfl

/-- enr2/_stenger.py:305-398: the degree holds up to a small error. -/
theorem C58_enr2_stenger11a {n : ℕ} {S : Scheme} (h : Enr2.stenger11a n = some S) :
    S.degree = 11 ∧ S.ApproxRel n (Spec.enr2 n) (1 / (10 ^ 12 : ℕ)) := by
  rcases (C58_enr2_stenger11a_returns n).1 (by rw [h]; rfl) with rfl | rfl
  · obtain ⟨S', h', hS⟩ := enr2_stenger11a_3; cases h.symm.trans h'; exact hS
  · obtain ⟨S', h', hS⟩ := enr2_stenger11a_4; cases h.symm.trans h'; exact hS

example : ∃ S, Enr2.stenger11a 4 = some S ∧ S.degree = 11 := by
  obtain ⟨S, h⟩ := Option.isSome_iff_exists.1 ((C58_enr2_stenger11a_returns 4).2 (by simp))
  exact ⟨S, h, (C58_enr2_stenger11a h).1⟩

theorem enr2_stenger11b_of {n : ℕ} {u v w : ℝ} {B : List ℝ}
    (e : Enr2.stenger11bTab n = some (u, v, w, B)) :
    Enr2.stenger11b n = stenger11 n (√Real.pi ^ n) u v w B := by
  rw [Enr2.stenger11b, e]; rfl

theorem enr2_stenger11b_3 :
    ∃ S, Enr2.stenger11b 3 = some S ∧ S.degree = 11 ∧ S.ApproxRel 3 (Spec.enr2 3) (1 / (10 ^ 12 : ℕ)) := by
  have e : Enr2.stenger11bTab 3 = some (rz (10 ^ 15) (2350604973674490), rz (10 ^ 15)
      (1335849074013700), rz (10 ^ 15) (436077411927617), ([-141214037032900000000000,
      -803730274707282000000, 2355465455959060000000, 88812319155661100000000, 1424671311555330000,
      582993124006494000000, -56109917315566100000000, -20402869152168600000, 252880089932256000000,
      -814378678627283000, 80435395337514600000, 39345184969045300000000, 1711834931697240000] :
      List ℤ).map (rz (10 ^ 22))) := by norm_num [Enr2.stenger11bTab, rz]
  have h := stenger11_eq (10 ^ 15) (10 ^ 22) 3 (by norm_num) (√Real.pi ^ 3) 2350604973674490 1335849074013700 436077411927617
    [-141214037032900000000000, -803730274707282000000, 2355465455959060000000,
      88812319155661100000000, 1424671311555330000, 582993124006494000000, -56109917315566100000000,
      -20402869152168600000, 252880089932256000000, -814378678627283000, 80435395337514600000,
      39345184969045300000000, 1711834931697240000]
  refine ⟨_, (enr2_stenger11b_of e).trans h, ?_⟩
  exact approx_div (ratMom_enr2 _) momEnr2_perm momEnr2_odd (10 ^ 22) 55683279968317078452078
    55683279968317078462446 (10 ^ 15) (10 ^ 12) rfl (by decide +kernel) (by decide +kernel)
    (le_trans (by norm_num) (sqrt_pi_pow 3).1) (le_trans (sqrt_pi_pow 3).2 (by norm_num))

theorem enr2_stenger11b_4 :
    ∃ S, Enr2.stenger11b 4 = some S ∧ S.degree = 11 ∧ S.ApproxRel 4 (Spec.enr2 4) (1 / (10 ^ 12 : ℕ)) := by
  have e : Enr2.stenger11bTab 4 = some (rz (10 ^ 15) (2350604973674490), rz (10 ^ 15)
      (1335849074013700), rz (10 ^ 15) (436077411927617), ([-1519444647365840000000000,
      -2234984386890390000000, 2435749190680100000000, 634373877008693000000000,
      -782065187814018000, 911833754536616000000, -238927288245914000000000, -42231440831885300000,
      448218289217760000000, -1380533746673910000, 60747326580065500000, 69737524612974200000000,
      3034148416801350000, -31457439177179200, 40910349817510000000] : List ℤ).map (rz (10 ^ 22)))
      := by norm_num [Enr2.stenger11bTab, rz]
  have h := stenger11_eq (10 ^ 15) (10 ^ 22) 4 (by norm_num) (√Real.pi ^ 4) 2350604973674490 1335849074013700 436077411927617
    [-1519444647365840000000000, -2234984386890390000000, 2435749190680100000000,
      634373877008693000000000, -782065187814018000, 911833754536616000000,
      -238927288245914000000000, -42231440831885300000, 448218289217760000000, -1380533746673910000,
      60747326580065500000, 69737524612974200000000, 3034148416801350000, -31457439177179200,
      40910349817510000000]
  refine ⟨_, (enr2_stenger11b_of e).trans h, ?_⟩
  exact approx_div (ratMom_enr2 _) momEnr2_perm momEnr2_odd (10 ^ 22) 98696044010893586186525
    98696044010893586211027 (10 ^ 15) (10 ^ 12) rfl (by decide +kernel) (by decide +kernel)
    (le_trans (by norm_num) (sqrt_pi_pow 4).1) (le_trans (sqrt_pi_pow 4).2 (by norm_num))

theorem enr2_stenger11b_5 :
    ∃ S, Enr2.stenger11b 5 = some S ∧ S.degree = 11 ∧ S.ApproxRel 5 (Spec.enr2 5) (1 / (10 ^ 12 : ℕ)) := by
  have e : Enr2.stenger11bTab 5 = some (rz (10 ^ 15) (2350604973674490), rz (10 ^ 15)
      (1335849074013700), rz (10 ^ 15) (436077411927617), ([-7613053475481920000000000,
      -5363608050192970000000, 1106698320787360000000, 2464210889239680000000000,
      -7736493279686070000, 1690886412059700000000, -670700680243651000000000,
      -85609056022920500000, 794446232770302000000, -2202728632635440000, -37351581222822500000,
      123606544052884000000000, 5377888045578430000, -122101861480881000, 72511707075937300000,
      33172501135832000] : List ℤ).map (rz (10 ^ 22))) := by norm_num [Enr2.stenger11bTab, rz]
  have h := stenger11_eq (10 ^ 15) (10 ^ 22) 5 (by norm_num) (√Real.pi ^ 5) 2350604973674490 1335849074013700 436077411927617
    [-7613053475481920000000000, -5363608050192970000000, 1106698320787360000000,
      2464210889239680000000000, -7736493279686070000, 1690886412059700000000,
      -670700680243651000000000, -85609056022920500000, 794446232770302000000, -2202728632635440000,
      -37351581222822500000, 123606544052884000000000, 5377888045578430000, -122101861480881000,
      72511707075937300000, 33172501135832000]
  refine ⟨_, (enr2_stenger11b_of e).trans h, ?_⟩
  exact approx_div (ratMom_enr2 _) momEnr2_perm momEnr2_odd (10 ^ 22) 174934183276248628458597
    174934183276248628512881 (10 ^ 15) (10 ^ 12) rfl (by decide +kernel) (by decide +kernel)
    (le_trans (by norm_num) (sqrt_pi_pow 5).1) (le_trans (sqrt_pi_pow 5).2 (by norm_num))

/-- enr2/_stenger.py:401-493: the rule exists for these dimensions only. -/
theorem C58_enr2_stenger11b_returns (n : ℕ) : (Enr2.stenger11b n).isSome ↔ n = 3 ∨ n = 4 ∨ n = 5 := by
  constructor
  · intro h
    by_contra hn
    push Not at hn
    rw [Enr2.stenger11b, Enr2.stenger11bTab] at h
    · cases h
    all_goals simp [hn]
  · rintro (rfl | rfl | rfl)
    · obtain ⟨S, h, -⟩ := enr2_stenger11b_3; rw [h]; rfl
    · obtain ⟨S, h, -⟩ := enr2_stenger11b_4; rw [h]; rfl
    · obtain ⟨S, h, -⟩ := enr2_stenger11b_5; rw [h]; rfl

/-- enr2/_stenger.py:401-493: the degree holds up to a small error. -/
theorem C58_enr2_stenger11b {n : ℕ} {S : Scheme} (h : Enr2.stenger11b n = some S) :
    S.degree = 11 ∧ S.ApproxRel n (Spec.enr2 n) (1 / (10 ^ 12 : ℕ)) := by
  rcases (C58_enr2_stenger11b_returns n).1 (by rw [h]; rfl) with rfl | rfl | rfl
  · obtain ⟨S', h', hS⟩ := enr2_stenger11b_3; cases h.symm.trans h'; exact hS
  · obtain ⟨S', h', hS⟩ := enr2_stenger11b_4; cases h.symm.trans h'; exact hS
  · obtain ⟨S', h', hS⟩ := enr2_stenger11b_5; cases h.symm.trans h'; exact hS

example : ∃ S, Enr2.stenger11b 5 = some S ∧ S.degree = 11 := by
  obtain ⟨S, h⟩ := Option.isSome_iff_exists.1 ((C58_enr2_stenger11b_returns 5).2 (by simp))
  exact ⟨S, h, (C58_enr2_stenger11b h).1⟩

end Quadpy
