import Verif.Lemmas.StengerCheck

/-! C58 for sn/_stenger.py: bounds for the error of the tabulated rules of Stenger. -/

namespace Quadpy
open Dec

theorem sn_stenger7a_of {n : ℕ} {u v : ℝ} {B : List ℝ}
    (e : Sn.stenger7aTab n = some (u, v, B)) :
    Sn.stenger7a n = stenger7 n (nballVolume n 1) u v B := by
  rw [Sn.stenger7a, e]; rfl

theorem sn_stenger7a_3 :
    ∃ S, Sn.stenger7a 3 = some S ∧ S.degree = 7 ∧ S.ApproxRel 3 (Spec.ball 3) (1 / (10 ^ 12 : ℕ)) := by
  have e : Sn.stenger7aTab 3 = some (rz (10 ^ 15) (285231516480645), rz (10 ^ 15)
      (765055323929465), ([-54256529700046600000000, 49076982703117500000000,
      3184023375624060000000, -39133549540804400000000, 436675887074467000000,
      30867609890027500000000] : List ℤ).map (rz (10 ^ 22))) := by norm_num [Sn.stenger7aTab, rz]
  have h := stenger7_eq (10 ^ 15) (10 ^ 22) 3 (by norm_num) (nballVolume 3 1) 285231516480645 765055323929465
    [-54256529700046600000000, 49076982703117500000000, 3184023375624060000000,
      -39133549540804400000000, 436675887074467000000, 30867609890027500000000]
  refine ⟨_, (sn_stenger7a_of e).trans h, ?_⟩
  exact approx_div (ratMom_ball (by norm_num)) (momBall_perm _) (momBall_odd _) (10 ^ 22) 41887902047863909846133
    41887902047863909846267 (10 ^ 15) (10 ^ 12) rfl (by decide +kernel) (by decide +kernel)
    (by have := (pi_pow 1).1; norm_num [nballVolume] at this ⊢; linarith) (by have := (pi_pow 1).2; norm_num [nballVolume] at this ⊢; linarith)

theorem sn_stenger7a_4 :
    ∃ S, Sn.stenger7a 4 = some S ∧ S.degree = 7 ∧ S.ApproxRel 4 (Spec.ball 4) (1 / (10 ^ 12 : ℕ)) := by
  have e : Sn.stenger7aTab 4 = some (rz (10 ^ 15) (266216481931920), rz (10 ^ 15)
      (727412389740367), ([-678226800331914000000000, 299222999307746000000000,
      2403905238607800000000, -118821423811283000000000, 459003238309213000000,
      36101802491184400000000] : List ℤ).map (rz (10 ^ 22))) := by norm_num [Sn.stenger7aTab, rz]
  have h := stenger7_eq (10 ^ 15) (10 ^ 22) 4 (by norm_num) (nballVolume 4 1) 266216481931920 727412389740367
    [-678226800331914000000000, 299222999307746000000000, 2403905238607800000000,
      -118821423811283000000000, 459003238309213000000, 36101802491184400000000]
  refine ⟨_, (sn_stenger7a_of e).trans h, ?_⟩
  exact approx_div (ratMom_ball (by norm_num)) (momBall_perm _) (momBall_odd _) (10 ^ 22) 49348022005446793094089
    49348022005446793094404 (10 ^ 15) (10 ^ 12) rfl (by decide +kernel) (by decide +kernel)
    (by have := (pi_pow 2).1; norm_num [nballVolume] at this ⊢; linarith) (by have := (pi_pow 2).2; norm_num [nballVolume] at this ⊢; linarith)

theorem sn_stenger7a_5 :
    ∃ S, Sn.stenger7a 5 = some S ∧ S.degree = 7 ∧ S.ApproxRel 5 (Spec.ball 5) (1 / (10 ^ 12 : ℕ)) := by
  have e : Sn.stenger7aTab 5 = some (rz (10 ^ 15) (250562807085732), rz (10 ^ 15)
      (694746590606866), ([-2202213718838220000000000, 730167125339176000000000,
      1432813690277060000000, -203714128400494000000000, 448293291677155000000,
      38368570287944100000000] : List ℤ).map (rz (10 ^ 22))) := by norm_num [Sn.stenger7aTab, rz]
  have h := stenger7_eq (10 ^ 15) (10 ^ 22) 5 (by norm_num) (nballVolume 5 1) 250562807085732 694746590606866
    [-2202213718838220000000000, 730167125339176000000000, 1432813690277060000000,
      -203714128400494000000000, 448293291677155000000, 38368570287944100000000]
  refine ⟨_, (sn_stenger7a_of e).trans h, ?_⟩
  exact approx_div (ratMom_ball (by norm_num)) (momBall_perm _) (momBall_odd _) (10 ^ 22) 52637890139143245967028
    52637890139143245967364 (10 ^ 15) (10 ^ 12) rfl (by decide +kernel) (by decide +kernel)
    (by have := (pi_pow 2).1; norm_num [nballVolume] at this ⊢; linarith) (by have := (pi_pow 2).2; norm_num [nballVolume] at this ⊢; linarith)

theorem sn_stenger7a_6 :
    ∃ S, Sn.stenger7a 6 = some S ∧ S.degree = 7 ∧ S.ApproxRel 6 (Spec.ball 6) (1 / (10 ^ 12 : ℕ)) := by
  have e : Sn.stenger7aTab 6 = some (rz (10 ^ 15) (237383303308445), rz (10 ^ 15)
      (666069941755647), ([-4724740756950840000000000, 1271142651484860000000000,
      477511403723473000000, -275405124688594000000000, 410240990676946000000,
      37604180949770800000000] : List ℤ).map (rz (10 ^ 22))) := by norm_num [Sn.stenger7aTab, rz]
  have h := stenger7_eq (10 ^ 15) (10 ^ 22) 6 (by norm_num) (nballVolume 6 1) 237383303308445 666069941755647
    [-4724740756950840000000000, 1271142651484860000000000, 477511403723473000000,
      -275405124688594000000000, 410240990676946000000, 37604180949770800000000]
  refine ⟨_, (sn_stenger7a_of e).trans h, ?_⟩
  exact approx_div (ratMom_ball (by norm_num)) (momBall_perm _) (momBall_odd _) (10 ^ 22) 51677127800499700292330
    51677127800499700292824 (10 ^ 15) (10 ^ 12) rfl (by decide +kernel) (by decide +kernel)
    (by have := (pi_pow 3).1; norm_num [nballVolume] at this ⊢; linarith) (by have := (pi_pow 3).2; norm_num [nballVolume] at this ⊢; linarith)

/-- sn/_stenger.py:21-86: the rule exists for these dimensions only. -/
theorem C58_sn_stenger7a_returns (n : ℕ) : (Sn.stenger7a n).isSome ↔ n = 3 ∨ n = 4 ∨ n = 5 ∨ n = 6 := by
  constructor
  · intro h
    by_contra hn
    push Not at hn
    rw [Sn.stenger7a, Sn.stenger7aTab] at h
    · cases h
    all_goals simp [hn]
  · rintro (rfl | rfl | rfl | rfl)
    · obtain ⟨S, h, -⟩ := sn_stenger7a_3; rw [h]; rfl
    · obtain ⟨S, h, -⟩ := sn_stenger7a_4; rw [h]; rfl
    · obtain ⟨S, h, -⟩ := sn_stenger7a_5; rw [h]; rfl
    · obtain ⟨S, h, -⟩ := sn_stenger7a_6; rw [h]; rfl

/-- sn/_stenger.py:21-86: the degree holds up to a small error. -/
theorem C58_sn_stenger7a {n : ℕ} {S : Scheme} (h : Sn.stenger7a n = some S) :
    S.degree = 7 ∧ S.ApproxRel n (Spec.ball n) (1 / (10 ^ 12 : ℕ)) := by
  rcases (C58_sn_stenger7a_returns n).1 (by rw [h]; rfl) with rfl | rfl | rfl | rfl
  · obtain ⟨S', h', hS⟩ := sn_stenger7a_3; cases h.symm.trans h'; exact hS
  · obtain ⟨S', h', hS⟩ := sn_stenger7a_4; cases h.symm.trans h'; exact hS
  · obtain ⟨S', h', hS⟩ := sn_stenger7a_5; cases h.symm.trans h'; exact hS
  · obtain ⟨S', h', hS⟩ := sn_stenger7a_6; cases h.symm.trans h'; exact hS

example : ∃ S, Sn.stenger7a 6 = some S ∧ S.degree = 7 := by
  obtain ⟨S, h⟩ := Option.isSome_iff_exists.1 ((C58_sn_stenger7a_returns 6).2 (by simp))
  exact ⟨S, h, (C58_sn_stenger7a h).1⟩

theorem sn_stenger7b_of {n : ℕ} {u v : ℝ} {B : List ℝ}
    (e : Sn.stenger7bTab n = some (u, v, B)) :
    Sn.stenger7b n = stenger7 n (nballVolume n 1) u v B := by
  rw [Sn.stenger7b, e]; rfl

theorem sn_stenger7b_3 :
    ∃ S, Sn.stenger7b 3 = some S ∧ S.degree = 7 ∧ S.ApproxRel 3 (Spec.ball 3) (1 / (10 ^ 13 : ℕ)) := by
  have e : Sn.stenger7bTab 3 = some (rz (10 ^ 15) (765055323929465), rz (10 ^ 15)
      (285231516480645), ([192021185324132000000000, 3515605423644570000000,
      -74393456856992400000000, 270884863064213000000, 22601670239250600000000,
      82895512005126800000] : List ℤ).map (rz (10 ^ 22))) := by norm_num [Sn.stenger7bTab, rz]
  have h := stenger7_eq (10 ^ 15) (10 ^ 22) 3 (by norm_num) (nballVolume 3 1) 765055323929465 285231516480645
    [192021185324132000000000, 3515605423644570000000, -74393456856992400000000,
      270884863064213000000, 22601670239250600000000, 82895512005126800000]
  refine ⟨_, (sn_stenger7b_of e).trans h, ?_⟩
  exact approx_div (ratMom_ball (by norm_num)) (momBall_perm _) (momBall_odd _) (10 ^ 22) 41887902047863909846133
    41887902047863909846267 (10 ^ 15) (10 ^ 13) rfl (by decide +kernel) (by decide +kernel)
    (by have := (pi_pow 1).1; norm_num [nballVolume] at this ⊢; linarith) (by have := (pi_pow 1).2; norm_num [nballVolume] at this ⊢; linarith)

theorem sn_stenger7b_4 :
    ∃ S, Sn.stenger7b 4 = some S ∧ S.degree = 7 ∧ S.ApproxRel 4 (Spec.ball 4) (1 / (10 ^ 13 : ℕ)) := by
  have e : Sn.stenger7bTab 4 = some (rz (10 ^ 15) (727412389740367), rz (10 ^ 15)
      (266216481931920), ([474254976042737000000000, 3444868992325330000000,
      -133998630586466000000000, 112015320403370000000, 25585786153454300000000,
      86746979476460800000] : List ℤ).map (rz (10 ^ 22))) := by norm_num [Sn.stenger7bTab, rz]
  have h := stenger7_eq (10 ^ 15) (10 ^ 22) 4 (by norm_num) (nballVolume 4 1) 727412389740367 266216481931920
    [474254976042737000000000, 3444868992325330000000, -133998630586466000000000,
      112015320403370000000, 25585786153454300000000, 86746979476460800000]
  refine ⟨_, (sn_stenger7b_of e).trans h, ?_⟩
  exact approx_div (ratMom_ball (by norm_num)) (momBall_perm _) (momBall_odd _) (10 ^ 22) 49348022005446793094089
    49348022005446793094404 (10 ^ 15) (10 ^ 13) rfl (by decide +kernel) (by decide +kernel)
    (by have := (pi_pow 2).1; norm_num [nballVolume] at this ⊢; linarith) (by have := (pi_pow 2).2; norm_num [nballVolume] at this ⊢; linarith)

theorem sn_stenger7b_5 :
    ∃ S, Sn.stenger7b 5 = some S ∧ S.degree = 7 ∧ S.ApproxRel 5 (Spec.ball 5) (1 / (10 ^ 13 : ℕ)) := by
  have e : Sn.stenger7bTab 5 = some (rz (10 ^ 15) (694746590606866), rz (10 ^ 15)
      (250562807085732), ([860517194425776000000000, 3459226621737190000000,
      -190678561571482000000000, -58309941187875100000, 26497293327169900000000,
      84433872144171700000] : List ℤ).map (rz (10 ^ 22))) := by norm_num [Sn.stenger7bTab, rz]
  have h := stenger7_eq (10 ^ 15) (10 ^ 22) 5 (by norm_num) (nballVolume 5 1) 694746590606866 250562807085732
    [860517194425776000000000, 3459226621737190000000, -190678561571482000000000,
      -58309941187875100000, 26497293327169900000000, 84433872144171700000]
  refine ⟨_, (sn_stenger7b_of e).trans h, ?_⟩
  exact approx_div (ratMom_ball (by norm_num)) (momBall_perm _) (momBall_odd _) (10 ^ 22) 52637890139143245967028
    52637890139143245967364 (10 ^ 15) (10 ^ 13) rfl (by decide +kernel) (by decide +kernel)
    (by have := (pi_pow 2).1; norm_num [nballVolume] at this ⊢; linarith) (by have := (pi_pow 2).2; norm_num [nballVolume] at this ⊢; linarith)

theorem sn_stenger7b_6 :
    ∃ S, Sn.stenger7b 6 = some S ∧ S.degree = 7 ∧ S.ApproxRel 6 (Spec.ball 6) (1 / (10 ^ 13 : ℕ)) := by
  have e : Sn.stenger7bTab 6 = some (rz (10 ^ 15) (666069941755647), rz (10 ^ 15)
      (237383303308445), ([1279598903584190000000000, 3559834260798720000000,
      -233024586505972000000000, -206223580738102000000, 25428322909572900000000,
      77058071426881100000] : List ℤ).map (rz (10 ^ 22))) := by norm_num [Sn.stenger7bTab, rz]
  have h := stenger7_eq (10 ^ 15) (10 ^ 22) 6 (by norm_num) (nballVolume 6 1) 666069941755647 237383303308445
    [1279598903584190000000000, 3559834260798720000000, -233024586505972000000000,
      -206223580738102000000, 25428322909572900000000, 77058071426881100000]
  refine ⟨_, (sn_stenger7b_of e).trans h, ?_⟩
  exact approx_div (ratMom_ball (by norm_num)) (momBall_perm _) (momBall_odd _) (10 ^ 22) 51677127800499700292330
    51677127800499700292824 (10 ^ 15) (10 ^ 13) rfl (by decide +kernel) (by decide +kernel)
    (by have := (pi_pow 3).1; norm_num [nballVolume] at this ⊢; linarith) (by have := (pi_pow 3).2; norm_num [nballVolume] at this ⊢; linarith)

/-- sn/_stenger.py:89-153: the rule exists for these dimensions only. -/
theorem C58_sn_stenger7b_returns (n : ℕ) : (Sn.stenger7b n).isSome ↔ n = 3 ∨ n = 4 ∨ n = 5 ∨ n = 6 := by
  constructor
  · intro h
    by_contra hn
    push Not at hn
    rw [Sn.stenger7b, Sn.stenger7bTab] at h
    · cases h
    all_goals simp [hn]
  · rintro (rfl | rfl | rfl | rfl)
    · obtain ⟨S, h, -⟩ := sn_stenger7b_3; rw [h]; rfl
    · obtain ⟨S, h, -⟩ := sn_stenger7b_4; rw [h]; rfl
    · obtain ⟨S, h, -⟩ := sn_stenger7b_5; rw [h]; rfl
    · obtain ⟨S, h, -⟩ := sn_stenger7b_6; rw [h]; rfl

/-- sn/_stenger.py:89-153: the degree holds up to a small error. -/
theorem C58_sn_stenger7b {n : ℕ} {S : Scheme} (h : Sn.stenger7b n = some S) :
    S.degree = 7 ∧ S.ApproxRel n (Spec.ball n) (1 / (10 ^ 13 : ℕ)) := by
  rcases (C58_sn_stenger7b_returns n).1 (by rw [h]; rfl) with rfl | rfl | rfl | rfl
  · obtain ⟨S', h', hS⟩ := sn_stenger7b_3; cases h.symm.trans h'; exact hS
  · obtain ⟨S', h', hS⟩ := sn_stenger7b_4; cases h.symm.trans h'; exact hS
  · obtain ⟨S', h', hS⟩ := sn_stenger7b_5; cases h.symm.trans h'; exact hS
  · obtain ⟨S', h', hS⟩ := sn_stenger7b_6; cases h.symm.trans h'; exact hS

example : ∃ S, Sn.stenger7b 6 = some S ∧ S.degree = 7 := by
  obtain ⟨S, h⟩ := Option.isSome_iff_exists.1 ((C58_sn_stenger7b_returns 6).2 (by simp))
  exact ⟨S, h, (C58_sn_stenger7b h).1⟩

theorem sn_stenger9a_of {n : ℕ} {u v : ℝ} {B : List ℝ}
    (e : Sn.stenger9aTab n = some (u, v, B)) :
    Sn.stenger9a n = stenger9 n (nballVolume n 1) u v B := by
  rw [Sn.stenger9a, e]; rfl

theorem sn_stenger9a_3 :
    ∃ S, Sn.stenger9a 3 = some S ∧ S.degree = 9 ∧ S.ApproxRel 3 (Spec.ball 3) (1 / (10 ^ 14 : ℕ)) := by
  have e : Sn.stenger9aTab 3 = some (rz (10 ^ 15) (468848793470714), rz (10 ^ 15)
      (830223896278566), ([-287231328328341000000, 1996302680524700000000, 636651162483951000000,
      214860470062486000000, -32348896853968800000, 543046730120527000000, 1388548067891140000000,
      5720671702043200000] : List ℤ).map (rz (10 ^ 22))) := by norm_num [Sn.stenger9aTab, rz]
  have h := stenger9_eq (10 ^ 15) (10 ^ 22) 3 (by norm_num) (nballVolume 3 1) 468848793470714 830223896278566
    [-287231328328341000000, 1996302680524700000000, 636651162483951000000, 214860470062486000000,
      -32348896853968800000, 543046730120527000000, 1388548067891140000000, 5720671702043200000]
  refine ⟨_, (sn_stenger9a_of e).trans h, ?_⟩
  exact approx_div (ratMom_ball (by norm_num)) (momBall_perm _) (momBall_odd _) (10 ^ 22) 41887902047863909846133
    41887902047863909846267 (10 ^ 15) (10 ^ 14) rfl (by decide +kernel) (by decide +kernel)
    (by have := (pi_pow 1).1; norm_num [nballVolume] at this ⊢; linarith) (by have := (pi_pow 1).2; norm_num [nballVolume] at this ⊢; linarith)

theorem sn_stenger9a_4 :
    ∃ S, Sn.stenger9a 4 = some S ∧ S.degree = 9 ∧ S.ApproxRel 4 (Spec.ball 4) (1 / (10 ^ 14 : ℕ)) := by
  have e : Sn.stenger9aTab 4 = some (rz (10 ^ 15) (442930458136056), rz (10 ^ 15)
      (798214220988774), ([-7132649310692130000000, 3996619780959330000000, -399833383634508000000,
      -1142451621206680000000, -38003383031303900000, 528728807201216000000, 771286345600799000000,
      6063285815746640000, 361445580516503000000] : List ℤ).map (rz (10 ^ 22))) := by norm_num
      [Sn.stenger9aTab, rz]
  have h := stenger9_eq (10 ^ 15) (10 ^ 22) 4 (by norm_num) (nballVolume 4 1) 442930458136056 798214220988774
    [-7132649310692130000000, 3996619780959330000000, -399833383634508000000,
      -1142451621206680000000, -38003383031303900000, 528728807201216000000, 771286345600799000000,
      6063285815746640000, 361445580516503000000]
  refine ⟨_, (sn_stenger9a_of e).trans h, ?_⟩
  exact approx_div (ratMom_ball (by norm_num)) (momBall_perm _) (momBall_odd _) (10 ^ 22) 49348022005446793094089
    49348022005446793094404 (10 ^ 15) (10 ^ 14) rfl (by decide +kernel) (by decide +kernel)
    (by have := (pi_pow 2).1; norm_num [nballVolume] at this ⊢; linarith) (by have := (pi_pow 2).2; norm_num [nballVolume] at this ⊢; linarith)

theorem sn_stenger9a_5 :
    ∃ S, Sn.stenger9a 5 = some S ∧ S.degree = 9 ∧ S.ApproxRel 5 (Spec.ball 5) (1 / (10 ^ 14 : ℕ)) := by
  have e : Sn.stenger9aTab 5 = some (rz (10 ^ 15) (420914805023811), rz (10 ^ 15)
      (769455324331787), ([-14860737285900000000000, 5173373020000600000000,
      -1286938008199580000000, -972921046543696000000, -43464081396241300000, 485386100042993000000,
      4188116993262620000, 5910224112107330000, 370636589159518000000] : List ℤ).map (rz (10 ^ 22)))
      := by norm_num [Sn.stenger9aTab, rz]
  have h := stenger9_eq (10 ^ 15) (10 ^ 22) 5 (by norm_num) (nballVolume 5 1) 420914805023811 769455324331787
    [-14860737285900000000000, 5173373020000600000000, -1286938008199580000000,
      -972921046543696000000, -43464081396241300000, 485386100042993000000, 4188116993262620000,
      5910224112107330000, 370636589159518000000]
  refine ⟨_, (sn_stenger9a_of e).trans h, ?_⟩
  exact approx_div (ratMom_ball (by norm_num)) (momBall_perm _) (momBall_odd _) (10 ^ 22) 52637890139143245967028
    52637890139143245967364 (10 ^ 15) (10 ^ 14) rfl (by decide +kernel) (by decide +kernel)
    (by have := (pi_pow 2).1; norm_num [nballVolume] at this ⊢; linarith) (by have := (pi_pow 2).2; norm_num [nballVolume] at this ⊢; linarith)

theorem sn_stenger9a_6 :
    ∃ S, Sn.stenger9a 6 = some S ∧ S.degree = 9 ∧ S.ApproxRel 6 (Spec.ball 6) (1 / (10 ^ 14 : ℕ)) := by
  have e : Sn.stenger9aTab 6 = some (rz (10 ^ 15) (401905036089210), rz (10 ^ 15)
      (743477004521219), ([-14152288882714000000000, 2252839289342730000000,
      -1899256009369160000000, 767542859780860000000, -46783798964931900000, 422029877037414000000,
      -736785106177554000000, 5372644434908800000, 353013676287120000000] : List ℤ).map (rz (10 ^
      22))) := by norm_num [Sn.stenger9aTab, rz]
  have h := stenger9_eq (10 ^ 15) (10 ^ 22) 6 (by norm_num) (nballVolume 6 1) 401905036089210 743477004521219
    [-14152288882714000000000, 2252839289342730000000, -1899256009369160000000,
      767542859780860000000, -46783798964931900000, 422029877037414000000, -736785106177554000000,
      5372644434908800000, 353013676287120000000]
  refine ⟨_, (sn_stenger9a_of e).trans h, ?_⟩
  exact approx_div (ratMom_ball (by norm_num)) (momBall_perm _) (momBall_odd _) (10 ^ 22) 51677127800499700292330
    51677127800499700292824 (10 ^ 15) (10 ^ 14) rfl (by decide +kernel) (by decide +kernel)
    (by have := (pi_pow 3).1; norm_num [nballVolume] at this ⊢; linarith) (by have := (pi_pow 3).2; norm_num [nballVolume] at this ⊢; linarith)

/-- sn/_stenger.py:156-235: the rule exists for these dimensions only. -/
theorem C58_sn_stenger9a_returns (n : ℕ) : (Sn.stenger9a n).isSome ↔ n = 3 ∨ n = 4 ∨ n = 5 ∨ n = 6 := by
  constructor
  · intro h
    by_contra hn
    push Not at hn
    rw [Sn.stenger9a, Sn.stenger9aTab] at h
    · cases h
    all_goals simp [hn]
  · rintro (rfl | rfl | rfl | rfl)
    · obtain ⟨S, h, -⟩ := sn_stenger9a_3; rw [h]; rfl
    · obtain ⟨S, h, -⟩ := sn_stenger9a_4; rw [h]; rfl
    · obtain ⟨S, h, -⟩ := sn_stenger9a_5; rw [h]; rfl
    · obtain ⟨S, h, -⟩ := sn_stenger9a_6; rw [h]; rfl

/-- sn/_stenger.py:156-235: the degree holds up to a small error. -/
theorem C58_sn_stenger9a {n : ℕ} {S : Scheme} (h : Sn.stenger9a n = some S) :
    S.degree = 9 ∧ S.ApproxRel n (Spec.ball n) (1 / (10 ^ 14 : ℕ)) := by
  rcases (C58_sn_stenger9a_returns n).1 (by rw [h]; rfl) with rfl | rfl | rfl | rfl
  · obtain ⟨S', h', hS⟩ := sn_stenger9a_3; cases h.symm.trans h'; exact hS
  · obtain ⟨S', h', hS⟩ := sn_stenger9a_4; cases h.symm.trans h'; exact hS
  · obtain ⟨S', h', hS⟩ := sn_stenger9a_5; cases h.symm.trans h'; exact hS
  · obtain ⟨S', h', hS⟩ := sn_stenger9a_6; cases h.symm.trans h'; exact hS

example : ∃ S, Sn.stenger9a 6 = some S ∧ S.degree = 9 := by
  obtain ⟨S, h⟩ := Option.isSome_iff_exists.1 ((C58_sn_stenger9a_returns 6).2 (by simp))
  exact ⟨S, h, (C58_sn_stenger9a h).1⟩

theorem sn_stenger9b_of {n : ℕ} {u v : ℝ} {B : List ℝ}
    (e : Sn.stenger9bTab n = some (u, v, B)) :
    Sn.stenger9b n = stenger9 n (nballVolume n 1) u v B := by
  rw [Sn.stenger9b, e]; rfl

theorem sn_stenger9b_4 :
    ∃ S, Sn.stenger9b 4 = some S ∧ S.degree = 9 ∧ S.ApproxRel 4 (Spec.ball 4) (1 / (10 ^ 14 : ℕ)) := by
  have e : Sn.stenger9bTab 4 = some (rz (10 ^ 15) (798214220988774), rz (10 ^ 15)
      (442930458136056), ([-12863791979305900000000, -425826693459664000000, 6888184425091360000000,
      -25006728118726900000, -2588233943272680000000, 528728807201216000000, -435041640541910000,
      1494177506633800000000, 3249163728144280000] : List ℤ).map (rz (10 ^ 22))) := by norm_num
      [Sn.stenger9bTab, rz]
  have h := stenger9_eq (10 ^ 15) (10 ^ 22) 4 (by norm_num) (nballVolume 4 1) 798214220988774 442930458136056
    [-12863791979305900000000, -425826693459664000000, 6888184425091360000000,
      -25006728118726900000, -2588233943272680000000, 528728807201216000000, -435041640541910000,
      1494177506633800000000, 3249163728144280000]
  refine ⟨_, (sn_stenger9b_of e).trans h, ?_⟩
  exact approx_div (ratMom_ball (by norm_num)) (momBall_perm _) (momBall_odd _) (10 ^ 22) 49348022005446793094089
    49348022005446793094404 (10 ^ 15) (10 ^ 14) rfl (by decide +kernel) (by decide +kernel)
    (by have := (pi_pow 2).1; norm_num [nballVolume] at this ⊢; linarith) (by have := (pi_pow 2).2; norm_num [nballVolume] at this ⊢; linarith)

theorem sn_stenger9b_5 :
    ∃ S, Sn.stenger9b 5 = some S ∧ S.degree = 9 ∧ S.ApproxRel 5 (Spec.ball 5) (1 / (10 ^ 14 : ℕ)) := by
  have e : Sn.stenger9bTab 5 = some (rz (10 ^ 15) (769455324331787), rz (10 ^ 15)
      (420914805023811), ([-44273912178545200000000, -1382038904246060000000,
      17033743873105200000000, -7801245378812370000, -5420560116457910000000, 485386100042993000000,
      -5977387893702320000, 1486734473631330000000, 2971903001452420000] : List ℤ).map (rz (10 ^
      22))) := by norm_num [Sn.stenger9bTab, rz]
  have h := stenger9_eq (10 ^ 15) (10 ^ 22) 5 (by norm_num) (nballVolume 5 1) 769455324331787 420914805023811
    [-44273912178545200000000, -1382038904246060000000, 17033743873105200000000,
      -7801245378812370000, -5420560116457910000000, 485386100042993000000, -5977387893702320000,
      1486734473631330000000, 2971903001452420000]
  refine ⟨_, (sn_stenger9b_of e).trans h, ?_⟩
  exact approx_div (ratMom_ball (by norm_num)) (momBall_perm _) (momBall_odd _) (10 ^ 22) 52637890139143245967028
    52637890139143245967364 (10 ^ 15) (10 ^ 14) rfl (by decide +kernel) (by decide +kernel)
    (by have := (pi_pow 2).1; norm_num [nballVolume] at this ⊢; linarith) (by have := (pi_pow 2).2; norm_num [nballVolume] at this ⊢; linarith)

theorem sn_stenger9b_6 :
    ∃ S, Sn.stenger9b 6 = some S ∧ S.degree = 9 ∧ S.ApproxRel 6 (Spec.ball 6) (1 / (10 ^ 14 : ℕ)) := by
  have e : Sn.stenger9bTab 6 = some (rz (10 ^ 15) (743477004521219), rz (10 ^ 15)
      (401905036089210), ([-98257768161420700000000, -2105190352769820000000,
      30493933392312300000000, 14996504055263900000, -7704785371110000000000, 422029877037414000000,
      -10072431320140200000, 1381296951545160000000, 2574179292508160000] : List ℤ).map (rz (10 ^
      22))) := by norm_num [Sn.stenger9bTab, rz]
  have h := stenger9_eq (10 ^ 15) (10 ^ 22) 6 (by norm_num) (nballVolume 6 1) 743477004521219 401905036089210
    [-98257768161420700000000, -2105190352769820000000, 30493933392312300000000,
      14996504055263900000, -7704785371110000000000, 422029877037414000000, -10072431320140200000,
      1381296951545160000000, 2574179292508160000]
  refine ⟨_, (sn_stenger9b_of e).trans h, ?_⟩
  exact approx_div (ratMom_ball (by norm_num)) (momBall_perm _) (momBall_odd _) (10 ^ 22) 51677127800499700292330
    51677127800499700292824 (10 ^ 15) (10 ^ 14) rfl (by decide +kernel) (by decide +kernel)
    (by have := (pi_pow 3).1; norm_num [nballVolume] at this ⊢; linarith) (by have := (pi_pow 3).2; norm_num [nballVolume] at this ⊢; linarith)

/-- sn/_stenger.py:238-303: the rule exists for these dimensions only. -/
theorem C58_sn_stenger9b_returns (n : ℕ) : (Sn.stenger9b n).isSome ↔ n = 4 ∨ n = 5 ∨ n = 6 := by
  constructor
  · intro h
    by_contra hn
    push Not at hn
    rw [Sn.stenger9b, Sn.stenger9bTab] at h
    · cases h
    all_goals simp [hn]
  · rintro (rfl | rfl | rfl)
    · obtain ⟨S, h, -⟩ := sn_stenger9b_4; rw [h]; rfl
    · obtain ⟨S, h, -⟩ := sn_stenger9b_5; rw [h]; rfl
    · obtain ⟨S, h, -⟩ := sn_stenger9b_6; rw [h]; rfl

/-- sn/_stenger.py:238-303: the degree holds up to a small error. -/
theorem C58_sn_stenger9b {n : ℕ} {S : Scheme} (h : Sn.stenger9b n = some S) :
    S.degree = 9 ∧ S.ApproxRel n (Spec.ball n) (1 / (10 ^ 14 : ℕ)) := by
  rcases (C58_sn_stenger9b_returns n).1 (by rw [h]; rfl) with rfl | rfl | rfl
  · obtain ⟨S', h', hS⟩ := sn_stenger9b_4; cases h.symm.trans h'; exact hS
  · obtain ⟨S', h', hS⟩ := sn_stenger9b_5; cases h.symm.trans h'; exact hS
  · obtain ⟨S', h', hS⟩ := sn_stenger9b_6; cases h.symm.trans h'; exact hS

example : ∃ S, Sn.stenger9b 6 = some S ∧ S.degree = 9 := by
  obtain ⟨S, h⟩ := Option.isSome_iff_exists.1 ((C58_sn_stenger9b_returns 6).2 (by simp))
  exact ⟨S, h, (C58_sn_stenger9b h).1⟩

theorem sn_stenger11a_of {n : ℕ} {u v w : ℝ} {B : List ℝ}
    (e : Sn.stenger11aTab n = some (u, v, w, B)) :
    Sn.stenger11a n = stenger11 n (nballVolume n 1) u v w B := by
  rw [Sn.stenger11a, e]; rfl

theorem sn_stenger11a_3 :
    ∃ S, Sn.stenger11a 3 = some S ∧ S.degree = 11 ∧ S.ApproxRel 3 (Spec.ball 3) (1 / (10 ^ 13 : ℕ)) := by
  have e : Sn.stenger11aTab 3 = some (rz (10 ^ 15) (871740148509601), rz (10 ^ 15)
      (209299217902484), rz (10 ^ 15) (591700181433148), ([-241858949226757000000000,
      -2606150439028700000000, 135920710866830000000000, 1286447823284020000000,
      -82736245750892000000, -77325999804623000000000, 1215292678233480000000,
      1074300929909060000000, -45714716036829600000, -4545734690836320000, 45315299423634600000000,
      249979156876400000000, 53757930595867700000] : List ℤ).map (rz (10 ^ 22))) := by norm_num
      [Sn.stenger11aTab, rz]
  have h := stenger11_eq (10 ^ 15) (10 ^ 22) 3 (by norm_num) (nballVolume 3 1) 871740148509601 209299217902484 591700181433148
    [-241858949226757000000000, -2606150439028700000000, 135920710866830000000000,
      1286447823284020000000, -82736245750892000000, -77325999804623000000000,
      1215292678233480000000, 1074300929909060000000, -45714716036829600000, -4545734690836320000,
      45315299423634600000000, 249979156876400000000, 53757930595867700000]
  refine ⟨_, (sn_stenger11a_of e).trans h, ?_⟩
  exact approx_div (ratMom_ball (by norm_num)) (momBall_perm _) (momBall_odd _) (10 ^ 22) 41887902047863909846133
    41887902047863909846267 (10 ^ 15) (10 ^ 13) rfl (by decide +kernel) (by decide +kernel)
    (by have := (pi_pow 1).1; norm_num [nballVolume] at this ⊢; linarith) (by have := (pi_pow 1).2; norm_num [nballVolume] at this ⊢; linarith)

theorem sn_stenger11a_4 :
    ∃ S, Sn.stenger11a 4 = some S ∧ S.degree = 11 ∧ S.ApproxRel 4 (Spec.ball 4) (1 / (10 ^ 13 : ℕ)) := by
  have e : Sn.stenger11aTab 4 = some (rz (10 ^ 15) (844750603518454), rz (10 ^ 15)
      (198187323325469), rz (10 ^ 15) (564399481003361), ([1428411409850920000000000,
      -4099691702545060000000, -833355966329160000000000, 477233536818062000000,
      -167713384337120000000, 486046977166435000000000, 762265878588936000000,
      945800683336929000000, -50062251663387000000, -4988678194055010000, -283869034949532000000000,
      255516059013563000000, 50463307487299400000, 535903211027872000, 166581940110341000000000] :
      List ℤ).map (rz (10 ^ 22))) := by norm_num [Sn.stenger11aTab, rz]
  have h := stenger11_eq (10 ^ 15) (10 ^ 22) 4 (by norm_num) (nballVolume 4 1) 844750603518454 198187323325469 564399481003361
    [1428411409850920000000000, -4099691702545060000000, -833355966329160000000000,
      477233536818062000000, -167713384337120000000, 486046977166435000000000,
      762265878588936000000, 945800683336929000000, -50062251663387000000, -4988678194055010000,
      -283869034949532000000000, 255516059013563000000, 50463307487299400000, 535903211027872000,
      166581940110341000000000]
  refine ⟨_, (sn_stenger11a_of e).trans h, ?_⟩
  exact approx_div (ratMom_ball (by norm_num)) (momBall_perm _) (momBall_odd _) (10 ^ 22) 49348022005446793094089
    49348022005446793094404 (10 ^ 15) (10 ^ 13) rfl (by decide +kernel) (by decide +kernel)
    (by have := (pi_pow 2).1; norm_num [nballVolume] at this ⊢; linarith) (by have := (pi_pow 2).2; norm_num [nballVolume] at this ⊢; linarith)

/-- sn/_stenger.py:306-399: the rule exists for these dimensions only. -/
theorem C58_sn_stenger11a_returns (n : ℕ) : (Sn.stenger11a n).isSome ↔ n = 3 ∨ n = 4 := by
  constructor
  · intro h
    by_contra hn
    push Not at hn
    rw [Sn.stenger11a, Sn.stenger11aTab] at h
    · cases h
    all_goals simp [hn]
  · rintro (rfl | rfl)
    · obtain ⟨S, h, -⟩ := sn_stenger11a_3; rw [h]; rfl
    · obtain ⟨S, h, -⟩ := sn_stenger11a_4; rw [h]; rfl

/-- sn/_stenger.py:306-399: the degree holds up to a small error. -/
theorem C58_sn_stenger11a {n : ℕ} {S : Scheme} (h : Sn.stenger11a n = some S) :
    S.degree = 11 ∧ S.ApproxRel n (Spec.ball n) (1 / (10 ^ 13 : ℕ)) := by
  rcases (C58_sn_stenger11a_returns n).1 (by rw [h]; rfl) with rfl | rfl
  · obtain ⟨S', h', hS⟩ := sn_stenger11a_3; cases h.symm.trans h'; exact hS
  · obtain ⟨S', h', hS⟩ := sn_stenger11a_4; cases h.symm.trans h'; exact hS

example : ∃ S, Sn.stenger11a 4 = some S ∧ S.degree = 11 := by
  obtain ⟨S, h⟩ := Option.isSome_iff_exists.1 ((C58_sn_stenger11a_returns 4).2 (by simp))
  exact ⟨S, h, (C58_sn_stenger11a h).1⟩

theorem sn_stenger11b_of {n : ℕ} {u v w : ℝ} {B : List ℝ}
    (e : Sn.stenger11bTab n = some (u, v, w, B)) :
    Sn.stenger11b n = stenger11 n (nballVolume n 1) u v w B := by
  rw [Sn.stenger11b, e]; rfl

theorem sn_stenger11b_4 :
    ∃ S, Sn.stenger11b 4 = some S ∧ S.degree = 11 ∧ S.ApproxRel 4 (Spec.ball 4) (1 / (10 ^ 11 : ℕ)) := by
  have e : Sn.stenger11bTab 4 = some (rz (10 ^ 15) (844750603518454), rz (10 ^ 15)
      (564399481003361), rz (10 ^ 15) (198187323325469), ([-1762520775814240000000000,
      -4994628810472930000000, -922793735873844000000, 698573153138448000000000,
      -179342748736783000, 1389095336185630000000, -246907169366506000000000,
      -122578300082603000000, 1147653913286130000000, -13457033565461700000, 33080455904267400000,
      65951441794044300000000, 18129012104804000000, -544956432165929000, 65728238710122900000] :
      List ℤ).map (rz (10 ^ 22))) := by norm_num [Sn.stenger11bTab, rz]
  have h := stenger11_eq (10 ^ 15) (10 ^ 22) 4 (by norm_num) (nballVolume 4 1) 844750603518454 564399481003361 198187323325469
    [-1762520775814240000000000, -4994628810472930000000, -922793735873844000000,
      698573153138448000000000, -179342748736783000, 1389095336185630000000,
      -246907169366506000000000, -122578300082603000000, 1147653913286130000000,
      -13457033565461700000, 33080455904267400000, 65951441794044300000000, 18129012104804000000,
      -544956432165929000, 65728238710122900000]
  refine ⟨_, (sn_stenger11b_of e).trans h, ?_⟩
  exact approx_div (ratMom_ball (by norm_num)) (momBall_perm _) (momBall_odd _) (10 ^ 22) 49348022005446793094089
    49348022005446793094404 (10 ^ 15) (10 ^ 11) rfl (by decide +kernel) (by decide +kernel)
    (by have := (pi_pow 2).1; norm_num [nballVolume] at this ⊢; linarith) (by have := (pi_pow 2).2; norm_num [nballVolume] at this ⊢; linarith)

theorem sn_stenger11b_5 :
    ∃ S, Sn.stenger11b 5 = some S ∧ S.degree = 11 ∧ S.ApproxRel 5 (Spec.ball 5) (1 / (10 ^ 11 : ℕ)) := by
  have e : Sn.stenger11bTab 5 = some (rz (10 ^ 15) (819845995463488), rz (10 ^ 15)
      (188677422490785), rz (10 ^ 15) (540604637387361), ([10197947426300300000000000,
      -4838766227631450000000, -4350663657872290000000000, 431869862745281000000,
      -229234716520547000000, 1745867023180350000000000, 261731304360525000000,
      779664996582579000000, -49481814632886400000, -4733270762221030000, -625137212983254000000000,
      243721155686252000000, 44829118130012800000, 284624253627758000, 168650924640304000000000,
      88727419730267400] : List ℤ).map (rz (10 ^ 22))) := by norm_num [Sn.stenger11bTab, rz]
  have h := stenger11_eq (10 ^ 15) (10 ^ 22) 5 (by norm_num) (nballVolume 5 1) 819845995463488 188677422490785 540604637387361
    [10197947426300300000000000, -4838766227631450000000, -4350663657872290000000000,
      431869862745281000000, -229234716520547000000, 1745867023180350000000000,
      261731304360525000000, 779664996582579000000, -49481814632886400000, -4733270762221030000,
      -625137212983254000000000, 243721155686252000000, 44829118130012800000, 284624253627758000,
      168650924640304000000000, 88727419730267400]
  refine ⟨_, (sn_stenger11b_of e).trans h, ?_⟩
  exact approx_div (ratMom_ball (by norm_num)) (momBall_perm _) (momBall_odd _) (10 ^ 22) 52637890139143245967028
    52637890139143245967364 (10 ^ 15) (10 ^ 11) rfl (by decide +kernel) (by decide +kernel)
    (by have := (pi_pow 2).1; norm_num [nballVolume] at this ⊢; linarith) (by have := (pi_pow 2).2; norm_num [nballVolume] at this ⊢; linarith)

/-- sn/_stenger.py:402-495: the rule exists for these dimensions only. -/
theorem C58_sn_stenger11b_returns (n : ℕ) : (Sn.stenger11b n).isSome ↔ n = 4 ∨ n = 5 := by
  constructor
  · intro h
    by_contra hn
    push Not at hn
    rw [Sn.stenger11b, Sn.stenger11bTab] at h
    · cases h
    all_goals simp [hn]
  · rintro (rfl | rfl)
    · obtain ⟨S, h, -⟩ := sn_stenger11b_4; rw [h]; rfl
    · obtain ⟨S, h, -⟩ := sn_stenger11b_5; rw [h]; rfl

/-- sn/_stenger.py:402-495: the degree holds up to a small error. -/
theorem C58_sn_stenger11b {n : ℕ} {S : Scheme} (h : Sn.stenger11b n = some S) :
    S.degree = 11 ∧ S.ApproxRel n (Spec.ball n) (1 / (10 ^ 11 : ℕ)) := by
  rcases (C58_sn_stenger11b_returns n).1 (by rw [h]; rfl) with rfl | rfl
  · obtain ⟨S', h', hS⟩ := sn_stenger11b_4; cases h.symm.trans h'; exact hS
  · obtain ⟨S', h', hS⟩ := sn_stenger11b_5; cases h.symm.trans h'; exact hS

example : ∃ S, Sn.stenger11b 5 = some S ∧ S.degree = 11 := by
  obtain ⟨S, h⟩ := Option.isSome_iff_exists.1 ((C58_sn_stenger11b_returns 5).2 (by simp))
  exact ⟨S, h, (C58_sn_stenger11b h).1⟩

end Quadpy
