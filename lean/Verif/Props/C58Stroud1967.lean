import Verif.Lemmas.Stroud67Check

/-! C58 for enr2/_stroud_1967_5.py and sn/_stroud_1967_5.py. -/

namespace Quadpy
open Dec Finset

theorem enr2_stroud1967_5a_2 : ∃ S, Enr2.stroud1967_5a 2 = some S ∧ S.degree = 5 ∧
    S.ApproxRel 2 (Spec.enr2 2) (1 / (10 ^ 14 : ℕ)) := by
  have e : Enr2.stroud1967_5aTab 2 = some (t67 1000000000000000 37500000000000000
      446103183094540 1366025403784440 (-366025403784439) 1981678829458710 0 12329025741698850 3125000000000000 170974258301151) := by
    norm_num [Enr2.stroud1967_5aTab, t67, rz]
  have h : Enr2.stroud1967_5a 2 = _ := (congrArg (·.bind (Enr2.stroud1967_5 2)) e).trans
    (enr2_stroud67_eq 1000000000000000 37500000000000000 2 (by norm_num)
      446103183094540 1366025403784440 (-366025403784439) 1981678829458710 0 12329025741698850 3125000000000000 170974258301151)
  refine ⟨_, h, ?_⟩
  exact approx_div (ratMom_enr2 _) momEnr2_perm momEnr2_odd 37500000000000000 37500000000000000 37500000000000000 1000000000000000 (10 ^ 14) rfl
    (by decide +kernel) (by decide +kernel) (by norm_num) (by norm_num)

theorem enr2_stroud1967_5a_3 : ∃ S, Enr2.stroud1967_5a 3 = some S ∧ S.degree = 5 ∧
    S.ApproxRel 3 (Spec.enr2 3) (1 / (10 ^ 14 : ℕ)) := by
  have e : Enr2.stroud1967_5aTab 3 = some (t67 1000000000000000 1000
      476731294622796 935429018879534 (-731237647787132) 433155309477649 2669223286977440 242 81 5) := by
    norm_num [Enr2.stroud1967_5aTab, t67, rz]
  have h : Enr2.stroud1967_5a 3 = _ := (congrArg (·.bind (Enr2.stroud1967_5 3)) e).trans
    (enr2_stroud67_eq 1000000000000000 1000 3 (by norm_num)
      476731294622796 935429018879534 (-731237647787132) 433155309477649 2669223286977440 242 81 5)
  refine ⟨_, h, ?_⟩
  exact approx_div (ratMom_enr2 _) momEnr2_perm momEnr2_odd 1000 1000 1000 1000000000000000 (10 ^ 14) rfl
    (by decide +kernel) (by decide +kernel) (by norm_num) (by norm_num)

theorem enr2_stroud1967_5a_4 : ∃ S, Enr2.stroud1967_5a 4 = some S ∧ S.degree = 5 ∧
    S.ApproxRel 4 (Spec.enr2 4) (1 / (10 ^ 14 : ℕ)) := by
  have e : Enr2.stroud1967_5aTab 4 = some (t67 1000000000000000 50000000000000000
      523945658287507 1194337825527190 (-398112608509063) (-318569372920112) 1856758374240960 7775105849101850 3887552924550915 279113742115753) := by
    norm_num [Enr2.stroud1967_5aTab, t67, rz]
  have h : Enr2.stroud1967_5a 4 = _ := (congrArg (·.bind (Enr2.stroud1967_5 4)) e).trans
    (enr2_stroud67_eq 1000000000000000 50000000000000000 4 (by norm_num)
      523945658287507 1194337825527190 (-398112608509063) (-318569372920112) 1856758374240960 7775105849101850 3887552924550915 279113742115753)
  refine ⟨_, h, ?_⟩
  exact approx_div (ratMom_enr2 _) momEnr2_perm momEnr2_odd 50000000000000000 50000000000000000 50000000000000000 1000000000000000 (10 ^ 14) rfl
    (by decide +kernel) (by decide +kernel) (by norm_num) (by norm_num)

theorem enr2_stroud1967_5a_5 : ∃ S, Enr2.stroud1967_5a 5 = some S ∧ S.degree = 5 ∧
    S.ApproxRel 5 (Spec.enr2 5) (1 / (10 ^ 14 : ℕ)) := by
  have e : Enr2.stroud1967_5aTab 5 = some (t67 1000000000000000 125000000000000000
      2149725643787980 4642529860162890 (-623201054093728) (-447108700673434) 812171426076331 60968657398719 60968657398719 6213418805560775) := by
    norm_num [Enr2.stroud1967_5aTab, t67, rz]
  have h : Enr2.stroud1967_5a 5 = _ := (congrArg (·.bind (Enr2.stroud1967_5 5)) e).trans
    (enr2_stroud67_eq 1000000000000000 125000000000000000 5 (by norm_num)
      2149725643787980 4642529860162890 (-623201054093728) (-447108700673434) 812171426076331 60968657398719 60968657398719 6213418805560775)
  refine ⟨_, h, ?_⟩
  exact approx_div (ratMom_enr2 _) momEnr2_perm momEnr2_odd 125000000000000000 125000000000000000 125000000000000000 1000000000000000 (10 ^ 14) rfl
    (by decide +kernel) (by decide +kernel) (by norm_num) (by norm_num)

theorem enr2_stroud1967_5b_3 : ∃ S, Enr2.stroud1967_5b 3 = some S ∧ S.degree = 5 ∧
    S.ApproxRel 3 (Spec.enr2 3) (1 / (10 ^ 14 : ℕ)) := by
  have e : Enr2.stroud1967_5bTab 3 = some (t67 1000000000000000 1000
      476731294622796 1286793203342690 (-379873463323979) (-1923867294477510) 312200683022281 242 81 5) := by
    norm_num [Enr2.stroud1967_5bTab, t67, rz]
  have h : Enr2.stroud1967_5b 3 = _ := (congrArg (·.bind (Enr2.stroud1967_5 3)) e).trans
    (enr2_stroud67_eq 1000000000000000 1000 3 (by norm_num)
      476731294622796 1286793203342690 (-379873463323979) (-1923867294477510) 312200683022281 242 81 5)
  refine ⟨_, h, ?_⟩
  exact approx_div (ratMom_enr2 _) momEnr2_perm momEnr2_odd 1000 1000 1000 1000000000000000 (10 ^ 14) rfl
    (by decide +kernel) (by decide +kernel) (by norm_num) (by norm_num)

theorem enr2_stroud1967_5b_5 : ∃ S, Enr2.stroud1967_5b 5 = some S ∧ S.degree = 5 ∧
    S.ApproxRel 5 (Spec.enr2 5) (1 / (10 ^ 14 : ℕ)) := by
  have e : Enr2.stroud1967_5bTab 5 = some (t67 1000000000000000 100000000000000000
      615369528365158 1328946983874450 (-178394363877324) (-745963266507289) 1355039723108170 7264150244149050 7264150244149050 641509853510569) := by
    norm_num [Enr2.stroud1967_5bTab, t67, rz]
  have h : Enr2.stroud1967_5b 5 = _ := (congrArg (·.bind (Enr2.stroud1967_5 5)) e).trans
    (enr2_stroud67_eq 1000000000000000 100000000000000000 5 (by norm_num)
      615369528365158 1328946983874450 (-178394363877324) (-745963266507289) 1355039723108170 7264150244149050 7264150244149050 641509853510569)
  refine ⟨_, h, ?_⟩
  exact approx_div (ratMom_enr2 _) momEnr2_perm momEnr2_odd 100000000000000000 100000000000000000 100000000000000000 1000000000000000 (10 ^ 14) rfl
    (by decide +kernel) (by decide +kernel) (by norm_num) (by norm_num)

theorem enr2_stroud1967_5b_6 : ∃ S, Enr2.stroud1967_5b 6 = some S ∧ S.degree = 5 ∧
    S.ApproxRel 6 (Spec.enr2 6) (1 / (10 ^ 14 : ℕ)) := by
  have e : Enr2.stroud1967_5bTab 6 = some (t67 3000000000000000 128
      3000000000000000 2828427124746189 (-1414213562373096) (-5000000000000000) 1000000000000000 1 8 1) := by
    norm_num [Enr2.stroud1967_5bTab, t67, rz]
  have h : Enr2.stroud1967_5b 6 = _ := (congrArg (·.bind (Enr2.stroud1967_5 6)) e).trans
    (enr2_stroud67_eq 3000000000000000 128 6 (by norm_num)
      3000000000000000 2828427124746189 (-1414213562373096) (-5000000000000000) 1000000000000000 1 8 1)
  refine ⟨_, h, ?_⟩
  exact approx_div (ratMom_enr2 _) momEnr2_perm momEnr2_odd 128 128 128 3000000000000000 (10 ^ 14) rfl
    (by decide +kernel) (by decide +kernel) (by norm_num) (by norm_num)

theorem enr2_stroud1967_5b_7 : ∃ S, Enr2.stroud1967_5b 7 = some S ∧ S.degree = 5 ∧
    S.ApproxRel 7 (Spec.enr2 7) (1 / (10 ^ 14 : ℕ)) := by
  have e : Enr2.stroud1967_5bTab 7 = some (t67 1000000000000000 72
      0 959724318748357 (-772326488820521) (-1412142701319420) 319908106249452 8 1 1) := by
    norm_num [Enr2.stroud1967_5bTab, t67, rz]
  have h : Enr2.stroud1967_5b 7 = _ := (congrArg (·.bind (Enr2.stroud1967_5 7)) e).trans
    (enr2_stroud67_eq 1000000000000000 72 7 (by norm_num)
      0 959724318748357 (-772326488820521) (-1412142701319420) 319908106249452 8 1 1)
  refine ⟨_, h, ?_⟩
  exact approx_div (ratMom_enr2 _) momEnr2_perm momEnr2_odd 72 72 72 1000000000000000 (10 ^ 14) rfl
    (by decide +kernel) (by decide +kernel) (by norm_num) (by norm_num)

theorem sn_stroud1967_5a_4 : ∃ S, Sn.stroud1967_5a 4 = some S ∧ S.degree = 5 ∧
    S.ApproxRel 4 (Spec.ball 4) (1 / (10 ^ 14 : ℕ)) := by
  have e : Sn.stroud1967_5aTab 4 = some (t67 5000000000000000 1000000000000000000
      5915063509461100 4446284751062855 (-1482094917020950) (-2658361104406555) 456102658145926 498588678642297 21082627672654500 69195150105123300) := by
    norm_num [Sn.stroud1967_5aTab, t67, rz]
  have h : Sn.stroud1967_5a 4 = _ := (congrArg (·.map (Sn.stroud1967_5 4)) e).trans (congrArg some
    (sn_stroud67_eq 5000000000000000 1000000000000000000 4
      5915063509461100 4446284751062855 (-1482094917020950) (-2658361104406555) 456102658145926 498588678642297 21082627672654500 69195150105123300))
  refine ⟨_, h, ?_⟩
  exact approx_div (ratMom_ball (by norm_num)) (momBall_perm _) (momBall_odd _) 1000000000000000000 1000000000000000000 1000000000000000000 5000000000000000 (10 ^ 14) rfl
    (by decide +kernel) (by decide +kernel) (by norm_num) (by norm_num)

theorem sn_stroud1967_5a_5 : ∃ S, Sn.stroud1967_5a 5 = some S ∧ S.degree = 5 ∧
    S.ApproxRel 5 (Spec.ball 5) (1 / (10 ^ 14 : ℕ)) := by
  have e : Sn.stroud1967_5aTab 5 = some (t67 1500000000000000 10000000000000000
      500000000000000 879795897113271 (-344948974278318) (-1034846922834954) 189897948556635 535714285714286 535714285714286 178571428571429) := by
    norm_num [Sn.stroud1967_5aTab, t67, rz]
  have h : Sn.stroud1967_5a 5 = _ := (congrArg (·.map (Sn.stroud1967_5 5)) e).trans (congrArg some
    (sn_stroud67_eq 1500000000000000 10000000000000000 5
      500000000000000 879795897113271 (-344948974278318) (-1034846922834954) 189897948556635 535714285714286 535714285714286 178571428571429))
  refine ⟨_, h, ?_⟩
  exact approx_div (ratMom_ball (by norm_num)) (momBall_perm _) (momBall_odd _) 10000000000000000 10000000000000000 10000000000000000 1500000000000000 (10 ^ 14) rfl
    (by decide +kernel) (by decide +kernel) (by norm_num) (by norm_num)

theorem sn_stroud1967_5a_6 : ∃ S, Sn.stroud1967_5a 6 = some S ∧ S.degree = 5 ∧
    S.ApproxRel 6 (Spec.ball 6) (1 / (10 ^ 14 : ℕ)) := by
  have e : Sn.stroud1967_5aTab 6 = some (t67 1000000000000000 10000000000000000
      395842806007865 495664045946913 (-247832022973456) (-659738010013108) 131947602002622 159099570971686 409067810742171 159099570971686) := by
    norm_num [Sn.stroud1967_5aTab, t67, rz]
  have h : Sn.stroud1967_5a 6 = _ := (congrArg (·.map (Sn.stroud1967_5 6)) e).trans (congrArg some
    (sn_stroud67_eq 1000000000000000 10000000000000000 6
      395842806007865 495664045946913 (-247832022973456) (-659738010013108) 131947602002622 159099570971686 409067810742171 159099570971686))
  refine ⟨_, h, ?_⟩
  exact approx_div (ratMom_ball (by norm_num)) (momBall_perm _) (momBall_odd _) 10000000000000000 10000000000000000 10000000000000000 1000000000000000 (10 ^ 14) rfl
    (by decide +kernel) (by decide +kernel) (by norm_num) (by norm_num)

theorem sn_stroud1967_5a_7 : ∃ S, Sn.stroud1967_5a 7 = some S ∧ S.degree = 5 ∧
    S.ApproxRel 7 (Spec.ball 7) (1 / (10 ^ 14 : ℕ)) := by
  have e : Sn.stroud1967_5aTab 7 = some (t67 1000000000000000 10000000000000000
      0 409227824522100 (-329321121353897) (-602139671035296) 136409274840700 493827160493827 169753086419753 169753086419753) := by
    norm_num [Sn.stroud1967_5aTab, t67, rz]
  have h : Sn.stroud1967_5a 7 = _ := (congrArg (·.map (Sn.stroud1967_5 7)) e).trans (congrArg some
    (sn_stroud67_eq 1000000000000000 10000000000000000 7
      0 409227824522100 (-329321121353897) (-602139671035296) 136409274840700 493827160493827 169753086419753 169753086419753))
  refine ⟨_, h, ?_⟩
  exact approx_div (ratMom_ball (by norm_num)) (momBall_perm _) (momBall_odd _) 10000000000000000 10000000000000000 10000000000000000 1000000000000000 (10 ^ 14) rfl
    (by decide +kernel) (by decide +kernel) (by norm_num) (by norm_num)

theorem sn_stroud1967_5b_4 : ∃ S, Sn.stroud1967_5b 4 = some S ∧ S.degree = 5 ∧
    S.ApproxRel 4 (Spec.ball 4) (1 / (10 ^ 14 : ℕ)) := by
  have e : Sn.stroud1967_5bTab 4 = some (t67 1000000000000000 10000000000000000
      316987298107781 660677533878188 (-220225844626063) (-715618729879241) 122780763070861 967236335435799 691951501051233 210826276726545) := by
    norm_num [Sn.stroud1967_5bTab, t67, rz]
  have h : Sn.stroud1967_5b 4 = _ := (congrArg (·.map (Sn.stroud1967_5 4)) e).trans (congrArg some
    (sn_stroud67_eq 1000000000000000 10000000000000000 4
      316987298107781 660677533878188 (-220225844626063) (-715618729879241) 122780763070861 967236335435799 691951501051233 210826276726545))
  refine ⟨_, h, ?_⟩
  exact approx_div (ratMom_ball (by norm_num)) (momBall_perm _) (momBall_odd _) 10000000000000000 10000000000000000 10000000000000000 1000000000000000 (10 ^ 14) rfl
    (by decide +kernel) (by decide +kernel) (by norm_num) (by norm_num)

theorem sn_stroud1967_5b_5 : ∃ S, Sn.stroud1967_5b 5 = some S ∧ S.degree = 5 ∧
    S.ApproxRel 5 (Spec.ball 5) (1 / (10 ^ 14 : ℕ)) := by
  have e : Sn.stroud1967_5bTab 5 = some (t67 6000000000000000 10000000000000000
      2000000000000000 4319183588453088 (-579795897113271) (-1739387691339816) 3159591794226540 535714285714286 535714285714286 178571428571429) := by
    norm_num [Sn.stroud1967_5bTab, t67, rz]
  have h : Sn.stroud1967_5b 5 = _ := (congrArg (·.map (Sn.stroud1967_5 5)) e).trans (congrArg some
    (sn_stroud67_eq 6000000000000000 10000000000000000 5
      2000000000000000 4319183588453088 (-579795897113271) (-1739387691339816) 3159591794226540 535714285714286 535714285714286 178571428571429))
  refine ⟨_, h, ?_⟩
  exact approx_div (ratMom_ball (by norm_num)) (momBall_perm _) (momBall_odd _) 10000000000000000 10000000000000000 10000000000000000 6000000000000000 (10 ^ 14) rfl
    (by decide +kernel) (by decide +kernel) (by norm_num) (by norm_num)

theorem sn_stroud1967_5b_6 : ∃ S, Sn.stroud1967_5b 6 = some S ∧ S.degree = 5 ∧
    S.ApproxRel 6 (Spec.ball 6) (1 / (10 ^ 14 : ℕ)) := by
  have e : Sn.stroud1967_5bTab 6 = some (t67 1000000000000000 10000000000000000
      395842806007865 743496068920369 0 (-395842806007865) 395842806007865 159099570971686 409067810742171 159099570971686) := by
    norm_num [Sn.stroud1967_5bTab, t67, rz]
  have h : Sn.stroud1967_5b 6 = _ := (congrArg (·.map (Sn.stroud1967_5 6)) e).trans (congrArg some
    (sn_stroud67_eq 1000000000000000 10000000000000000 6
      395842806007865 743496068920369 0 (-395842806007865) 395842806007865 159099570971686 409067810742171 159099570971686))
  refine ⟨_, h, ?_⟩
  exact approx_div (ratMom_ball (by norm_num)) (momBall_perm _) (momBall_odd _) 10000000000000000 10000000000000000 10000000000000000 1000000000000000 (10 ^ 14) rfl
    (by decide +kernel) (by decide +kernel) (by norm_num) (by norm_num)

theorem sn_stroud1967_5b_7 : ∃ S, Sn.stroud1967_5b 7 = some S ∧ S.degree = 5 ∧
    S.ApproxRel 7 (Spec.ball 7) (1 / (10 ^ 14 : ℕ)) := by
  have e : Sn.stroud1967_5bTab 7 = some (t67 500000000000000 10000000000000000
      0 428428041346947 59153568408949 (-226465125822349) 142809347115649 493827160493827 169753086419753 169753086419753) := by
    norm_num [Sn.stroud1967_5bTab, t67, rz]
  have h : Sn.stroud1967_5b 7 = _ := (congrArg (·.map (Sn.stroud1967_5 7)) e).trans (congrArg some
    (sn_stroud67_eq 500000000000000 10000000000000000 7
      0 428428041346947 59153568408949 (-226465125822349) 142809347115649 493827160493827 169753086419753 169753086419753))
  refine ⟨_, h, ?_⟩
  exact approx_div (ratMom_ball (by norm_num)) (momBall_perm _) (momBall_odd _) 10000000000000000 10000000000000000 10000000000000000 500000000000000 (10 ^ 14) rfl
    (by decide +kernel) (by decide +kernel) (by norm_num) (by norm_num)

/-! The rule for `n = 6`, where the table has `√2`. -/

theorem tSum_scale (c : ℝ) (g : ℕ → ℕ → ℝ) : ∀ α s : List ℕ,
    tSum (fun a i => c ^ a * g a i) α s = c ^ α.sum * tSum g α s
  | [], s => by simp [tSum]
  | a :: α, s => by
    rw [tSum, tSum, ← List.sum_map_mul_left]
    congr 1
    apply List.map_congr_left
    intro i _
    split_ifs
    · rw [tSum_scale c g α, List.sum_cons, pow_add]
      ring
    · simp

theorem osum_axis (c : ℝ) (α : Fin 6 → ℕ) :
    osum 6 (combine [([c], 1), ([0], 5), ([0], 0)]) (mono α) =
      c ^ (List.ofFn α).sum * (zSum [[1], [0], [0]] (List.ofFn α) [1, 5, 0] : ℝ) := by
  have h := zSum_cast (D := 1) [[1], [0], [0]] (List.ofFn α) [1, 5, 0]
  rw [osum_combine 6 _ (by simp), show ((zSum [[1], [0], [0]] (List.ofFn α) [1, 5, 0] : ℤ) : ℝ) = _ from
    (by rw [h]; simp : _ = tSum _ _ _), ← tSum_scale]
  congr 1
  funext a i
  rcases i with _ | _ | _ | i <;> simp [vals, rz, ← mul_pow]

/-- The moments of the rule, times 64. -/
def six (α : List ℕ) : ℤ :=
  (bif Nat.beq (α.sum % 2) 0 then 8 * 2 ^ (α.sum / 2) * zSum [[1], [0], [0]] α [1, 5, 0] else 0) + 
  (bif Nat.beq (α.sum % 2) 0 then zSum [[-1], [1], [0]] α [2, 4, 0] + 1 else 0)

theorem six_check : ((parts 6 5 5).all fun α =>
    six α * (momEnr2 α).2 == 64 * (momEnr2 α).1) = true := by decide +kernel

theorem six_pow (k : ℕ) : (√2 : ℝ) ^ k + (-√2) ^ k =
    if k % 2 = 0 then 2 * 2 ^ (k / 2) else 0 := by
  split_ifs with h
  · obtain ⟨m, rfl⟩ : ∃ m, k = 2 * m := ⟨k / 2, by omega⟩
    rw [Nat.mul_div_cancel_left _ two_pos, Even.neg_pow (by simp), pow_mul, Real.sq_sqrt (by norm_num)]
    ring
  · rw [Odd.neg_pow (Nat.odd_iff.2 (by omega))]
    ring

theorem six_one (k : ℕ) : (1 : ℝ) ^ k + (-1) ^ k = if k % 2 = 0 then 2 else 0 := by
  split_ifs with h
  · rw [Even.neg_pow (Nat.even_iff.2 h)]; norm_num
  · rw [Odd.neg_pow (Nat.odd_iff.2 (by omega))]; norm_num

/-- The groups of the rule. -/
noncomputable def sixData : List (ℝ × List (List ℝ)) :=
  [(1 / 16, combine [([√2], 1), ([0], 5), ([0], 0)]),
    (1 / 16, combine [([-√2], 1), ([0], 5), ([0], 0)]),
    (1 / 128, combine [([-1], 2), ([1], 4), ([0], 0)]),
    (1 / 128, combine [([1], 2), ([-1], 4), ([0], 0)]),
    (1 / 128, [List.replicate 6 1]), (1 / 128, [List.replicate 6 (-1)])]

theorem six_eq : Enr2.stroud1967_5a 6 = some (schemeOf 6 sixData 5) := by
  simp [Enr2.stroud1967_5a, Enr2.stroud1967_5aTab, Enr2.stroud1967_5, rd, sixData]

theorem osum_signs (c : ℝ) (α : Fin 6 → ℕ) :
    osum 6 (combine [([-c], 2), ([c], 4), ([0], 0)]) (mono α) =
      c ^ (List.ofFn α).sum * (zSum [[-1], [1], [0]] (List.ofFn α) [2, 4, 0] : ℝ) := by
  have h := zSum_cast (D := 1) [[-1], [1], [0]] (List.ofFn α) [2, 4, 0]
  rw [osum_combine 6 _ (by simp), show ((zSum [[-1], [1], [0]] (List.ofFn α) [2, 4, 0] : ℤ) : ℝ) = _ from
    (by rw [h]; simp : _ = tSum _ _ _), ← tSum_scale]
  congr 1
  funext a i
  rcases i with _ | _ | _ | i <;> simp [vals, rz, ← mul_pow]

theorem osum_full (c : ℝ) (α : Fin 6 → ℕ) :
    osum 6 [List.replicate 6 c] (mono α) = c ^ (List.ofFn α).sum := by
  simp [osum, mono, Fin.prod_univ_six, List.replicate, ← pow_add, List.sum_ofFn, Fin.sum_univ_six, toVec]
  ring

theorem six_moment (α : Fin 6 → ℕ) : 64 * (sixData.map fun g => g.1 * osum 6 g.2 (mono α)).sum =
    (six (List.ofFn α) : ℝ) := by
  have h1 := osum_signs 1 α
  have h2 := osum_signs (-1) α
  rw [neg_neg] at h2
  simp only [sixData, List.map_cons, List.map_nil, List.sum_cons, List.sum_nil, osum_axis, h1, h2,
    osum_full, six]
  have p := six_pow (List.ofFn α).sum
  have q := six_one (List.ofFn α).sum
  generalize (List.ofFn α).sum = k at p q ⊢
  generalize zSum [[1], [0], [0]] (List.ofFn α) [1, 5, 0] = x
  generalize zSum [[-1], [1], [0]] (List.ofFn α) [2, 4, 0] = y
  by_cases h : k % 2 = 0
  · rw [if_pos h] at p q
    rw [h]
    simp only [Nat.beq, cond_true]
    push_cast
    linear_combination 4 * (x : ℝ) * p + (y + 1) / 2 * q
  · rw [if_neg h] at p q
    rw [beq_of_ne h]
    simp only [cond_false]
    push_cast
    linear_combination 4 * (x : ℝ) * p + (y + 1) / 2 * q

/-- enr2/_stroud_1967_5.py:21-101: for `n = 6` the rule is exact. -/
theorem C58_enr2_stroud1967_5a_6_exact : ∃ S, Enr2.stroud1967_5a 6 = some S ∧ S.degree = 5 ∧
    S.ExactOnEnr2 6 := by
  refine ⟨_, six_eq, rfl, ?_, ?_⟩
  · refine schemeOf_wellShaped 6 5 sixData ?_
    intro g hg x hx
    simp only [sixData, List.mem_cons, List.not_mem_nil, or_false] at hg
    rcases hg with rfl | rfl | rfl | rfl | rfl | rfl
    iterate 4
      · rw [length_of_mem_combine _ _ hx]; rfl
    iterate 2
      · rw [List.mem_singleton.1 hx]; rfl
  · refine exactUpTo_of_mono ((dot_linOnMono _ _).const_mul _) (ratMom_enr2 6).lin fun α hα => ?_
    have hα : ∑ i, α i ≤ 5 := hα
    obtain ⟨σ, hσ⟩ := exists_antitone α hα
    have hd : dot 6 (schemeOf 6 sixData 5).weights (schemeOf 6 sixData 5).points (mono α) =
        (sixData.map fun g => g.1 * osum 6 g.2 (mono (α ∘ σ))).sum := by
      rw [dot_schemeOf]
      congr 1
      apply List.map_congr_left
      intro g hg
      congr 1
      simp only [sixData, List.mem_cons, List.not_mem_nil, or_false] at hg
      rcases hg with rfl | rfl | rfl | rfl | rfl | rfl
      iterate 4
        · exact (combine_perm 6 _ (by rfl) α σ).symm
      iterate 2
        · simp only [osum_full, List.sum_ofFn]
          exact congrArg _ (Equiv.sum_comp σ α).symm
    have hc := List.all_eq_true.1 six_check _ hσ
    have hc : six (List.ofFn (α ∘ σ)) * (momEnr2 (List.ofFn (α ∘ σ))).2 =
      64 * (momEnr2 (List.ofFn (α ∘ σ))).1 := by simpa using hc
    have hm := six_moment (α ∘ σ)
    have hq : (0 : ℝ) < (momEnr2 (List.ofFn (α ∘ σ))).2 := by
      exact_mod_cast (ratMom_enr2 6).den (α ∘ σ)
    have hp : (List.ofFn (α ∘ σ)).Perm (List.ofFn α) := σ.ofFn_comp_perm α
    rw [(ratMom_enr2 6).mom, ← momEnr2_perm _ _ hp, hd]
    congr 1
    rw [eq_div_iff hq.ne']
    have hc' : (six (List.ofFn (α ∘ σ)) : ℝ) * (momEnr2 (List.ofFn (α ∘ σ))).2 =
      64 * (momEnr2 (List.ofFn (α ∘ σ))).1 := by exact_mod_cast hc
    rw [← hm] at hc'
    linarith

theorem approxRel_of_exact {S : Scheme} {n : ℕ} {J : Spec.Functional n} (h : S.ExactRel n J)
    (hJ : 0 ≤ J fun _ => 1) {eps : ℝ} (he : 0 ≤ eps) : S.ApproxRel n J eps := by
  refine ⟨h.1, fun p hp => ?_⟩
  have e : J (fun _ => 1) * dot n S.weights S.points (fun x => MvPolynomial.eval x p) =
    J fun x => MvPolynomial.eval x p := h.2 p hp
  simp only [e, sub_self, abs_zero]
  positivity

theorem enr2_stroud1967_5a_6 : ∃ S, Enr2.stroud1967_5a 6 = some S ∧ S.degree = 5 ∧
    S.ApproxRel 6 (Spec.enr2 6) (1 / (10 ^ 14 : ℕ)) := by
  obtain ⟨S, h, hd, hS⟩ := C58_enr2_stroud1967_5a_6_exact
  exact ⟨S, h, hd, approxRel_of_exact hS (ratMom_enr2 6).pos (by positivity)⟩

/-- enr2/_stroud_1967_5.py:21-101: the rule exists for these dimensions only. -/
theorem C58_enr2_stroud1967_5a_returns (n : ℕ) : (Enr2.stroud1967_5a n).isSome ↔ n = 2 ∨ n = 3 ∨ n = 4 ∨ n = 5 ∨ n = 6 := by
  constructor
  · intro h
    by_contra hn
    push Not at hn
    rw [Enr2.stroud1967_5a, Enr2.stroud1967_5aTab] at h
    · cases h
    all_goals simp [hn]
  · rintro (rfl | rfl | rfl | rfl | rfl)
    · obtain ⟨S, h, -⟩ := enr2_stroud1967_5a_2; rw [h]; rfl
    · obtain ⟨S, h, -⟩ := enr2_stroud1967_5a_3; rw [h]; rfl
    · obtain ⟨S, h, -⟩ := enr2_stroud1967_5a_4; rw [h]; rfl
    · obtain ⟨S, h, -⟩ := enr2_stroud1967_5a_5; rw [h]; rfl
    · obtain ⟨S, h, -⟩ := enr2_stroud1967_5a_6; rw [h]; rfl

/-- enr2/_stroud_1967_5.py:21-101: the degree holds up to a small error. -/
theorem C58_enr2_stroud1967_5a {n : ℕ} {S : Scheme} (h : Enr2.stroud1967_5a n = some S) :
    S.degree = 5 ∧ S.ApproxRel n (Spec.enr2 n) (1 / (10 ^ 14 : ℕ)) := by
  rcases (C58_enr2_stroud1967_5a_returns n).1 (by rw [h]; rfl) with rfl | rfl | rfl | rfl | rfl
  · obtain ⟨S', h', hS⟩ := enr2_stroud1967_5a_2; cases h.symm.trans h'; exact hS
  · obtain ⟨S', h', hS⟩ := enr2_stroud1967_5a_3; cases h.symm.trans h'; exact hS
  · obtain ⟨S', h', hS⟩ := enr2_stroud1967_5a_4; cases h.symm.trans h'; exact hS
  · obtain ⟨S', h', hS⟩ := enr2_stroud1967_5a_5; cases h.symm.trans h'; exact hS
  · obtain ⟨S', h', hS⟩ := enr2_stroud1967_5a_6; cases h.symm.trans h'; exact hS

example : ∃ S, Enr2.stroud1967_5a 6 = some S ∧ S.degree = 5 := by
  obtain ⟨S, h⟩ := Option.isSome_iff_exists.1 ((C58_enr2_stroud1967_5a_returns 6).2 (by simp))
  exact ⟨S, h, (C58_enr2_stroud1967_5a h).1⟩

/-- enr2/_stroud_1967_5.py:104-161: the rule exists for these dimensions only. -/
theorem C58_enr2_stroud1967_5b_returns (n : ℕ) : (Enr2.stroud1967_5b n).isSome ↔ n = 3 ∨ n = 5 ∨ n = 6 ∨ n = 7 := by
  constructor
  · intro h
    by_contra hn
    push Not at hn
    rw [Enr2.stroud1967_5b, Enr2.stroud1967_5bTab] at h
    · cases h
    all_goals simp [hn]
  · rintro (rfl | rfl | rfl | rfl)
    · obtain ⟨S, h, -⟩ := enr2_stroud1967_5b_3; rw [h]; rfl
    · obtain ⟨S, h, -⟩ := enr2_stroud1967_5b_5; rw [h]; rfl
    · obtain ⟨S, h, -⟩ := enr2_stroud1967_5b_6; rw [h]; rfl
    · obtain ⟨S, h, -⟩ := enr2_stroud1967_5b_7; rw [h]; rfl

/-- enr2/_stroud_1967_5.py:104-161: the degree holds up to a small error. -/
theorem C58_enr2_stroud1967_5b {n : ℕ} {S : Scheme} (h : Enr2.stroud1967_5b n = some S) :
    S.degree = 5 ∧ S.ApproxRel n (Spec.enr2 n) (1 / (10 ^ 14 : ℕ)) := by
  rcases (C58_enr2_stroud1967_5b_returns n).1 (by rw [h]; rfl) with rfl | rfl | rfl | rfl
  · obtain ⟨S', h', hS⟩ := enr2_stroud1967_5b_3; cases h.symm.trans h'; exact hS
  · obtain ⟨S', h', hS⟩ := enr2_stroud1967_5b_5; cases h.symm.trans h'; exact hS
  · obtain ⟨S', h', hS⟩ := enr2_stroud1967_5b_6; cases h.symm.trans h'; exact hS
  · obtain ⟨S', h', hS⟩ := enr2_stroud1967_5b_7; cases h.symm.trans h'; exact hS

example : ∃ S, Enr2.stroud1967_5b 7 = some S ∧ S.degree = 5 := by
  obtain ⟨S, h⟩ := Option.isSome_iff_exists.1 ((C58_enr2_stroud1967_5b_returns 7).2 (by simp))
  exact ⟨S, h, (C58_enr2_stroud1967_5b h).1⟩

/-- sn/_stroud_1967_5.py:19-71: the rule exists for these dimensions only. -/
theorem C58_sn_stroud1967_5a_returns (n : ℕ) : (Sn.stroud1967_5a n).isSome ↔ n = 4 ∨ n = 5 ∨ n = 6 ∨ n = 7 := by
  constructor
  · intro h
    by_contra hn
    push Not at hn
    rw [Sn.stroud1967_5a, Sn.stroud1967_5aTab] at h
    · cases h
    all_goals simp [hn]
  · rintro (rfl | rfl | rfl | rfl)
    · obtain ⟨S, h, -⟩ := sn_stroud1967_5a_4; rw [h]; rfl
    · obtain ⟨S, h, -⟩ := sn_stroud1967_5a_5; rw [h]; rfl
    · obtain ⟨S, h, -⟩ := sn_stroud1967_5a_6; rw [h]; rfl
    · obtain ⟨S, h, -⟩ := sn_stroud1967_5a_7; rw [h]; rfl

/-- sn/_stroud_1967_5.py:19-71: the degree holds up to a small error. -/
theorem C58_sn_stroud1967_5a {n : ℕ} {S : Scheme} (h : Sn.stroud1967_5a n = some S) :
    S.degree = 5 ∧ S.ApproxRel n (Spec.ball n) (1 / (10 ^ 14 : ℕ)) := by
  rcases (C58_sn_stroud1967_5a_returns n).1 (by rw [h]; rfl) with rfl | rfl | rfl | rfl
  · obtain ⟨S', h', hS⟩ := sn_stroud1967_5a_4; cases h.symm.trans h'; exact hS
  · obtain ⟨S', h', hS⟩ := sn_stroud1967_5a_5; cases h.symm.trans h'; exact hS
  · obtain ⟨S', h', hS⟩ := sn_stroud1967_5a_6; cases h.symm.trans h'; exact hS
  · obtain ⟨S', h', hS⟩ := sn_stroud1967_5a_7; cases h.symm.trans h'; exact hS

example : ∃ S, Sn.stroud1967_5a 7 = some S ∧ S.degree = 5 := by
  obtain ⟨S, h⟩ := Option.isSome_iff_exists.1 ((C58_sn_stroud1967_5a_returns 7).2 (by simp))
  exact ⟨S, h, (C58_sn_stroud1967_5a h).1⟩

/-- sn/_stroud_1967_5.py:74-126: the rule exists for these dimensions only. -/
theorem C58_sn_stroud1967_5b_returns (n : ℕ) : (Sn.stroud1967_5b n).isSome ↔ n = 4 ∨ n = 5 ∨ n = 6 ∨ n = 7 := by
  constructor
  · intro h
    by_contra hn
    push Not at hn
    rw [Sn.stroud1967_5b, Sn.stroud1967_5bTab] at h
    · cases h
    all_goals simp [hn]
  · rintro (rfl | rfl | rfl | rfl)
    · obtain ⟨S, h, -⟩ := sn_stroud1967_5b_4; rw [h]; rfl
    · obtain ⟨S, h, -⟩ := sn_stroud1967_5b_5; rw [h]; rfl
    · obtain ⟨S, h, -⟩ := sn_stroud1967_5b_6; rw [h]; rfl
    · obtain ⟨S, h, -⟩ := sn_stroud1967_5b_7; rw [h]; rfl

/-- sn/_stroud_1967_5.py:74-126: the degree holds up to a small error. -/
theorem C58_sn_stroud1967_5b {n : ℕ} {S : Scheme} (h : Sn.stroud1967_5b n = some S) :
    S.degree = 5 ∧ S.ApproxRel n (Spec.ball n) (1 / (10 ^ 14 : ℕ)) := by
  rcases (C58_sn_stroud1967_5b_returns n).1 (by rw [h]; rfl) with rfl | rfl | rfl | rfl
  · obtain ⟨S', h', hS⟩ := sn_stroud1967_5b_4; cases h.symm.trans h'; exact hS
  · obtain ⟨S', h', hS⟩ := sn_stroud1967_5b_5; cases h.symm.trans h'; exact hS
  · obtain ⟨S', h', hS⟩ := sn_stroud1967_5b_6; cases h.symm.trans h'; exact hS
  · obtain ⟨S', h', hS⟩ := sn_stroud1967_5b_7; cases h.symm.trans h'; exact hS

example : ∃ S, Sn.stroud1967_5b 7 = some S ∧ S.degree = 5 := by
  obtain ⟨S, h⟩ := Option.isSome_iff_exists.1 ((C58_sn_stroud1967_5b_returns 7).2 (by simp))
  exact ⟨S, h, (C58_sn_stroud1967_5b h).1⟩

end Quadpy
