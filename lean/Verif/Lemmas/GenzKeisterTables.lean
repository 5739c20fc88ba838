import Verif.Lemmas.GenzKeister

/-!
# The tables of Genz and Keister, checked
-/

open MeasureTheory Finset Polynomial

namespace Quadpy
namespace GenzKeister
open Dec

/-- What one has to know about the points and weights before they are mirrored. -/
structure Good (L w : List ℝ) (d M : ℕ) : Prop where
  ex : ∃ r W0 V Q, ∃ Dw D2 lo hi : ℕ, sort L = 0 :: r ∧ (0 :: r).Pairwise (· < ·) ∧
    w = rz Dw W0 :: List.map (rz Dw) V ∧ r.length = V.length ∧
    (r.map fun x => x ^ 2) = Q.map (fun q : ℕ => (q : ℝ) / D2) ∧ 0 < Dw ∧ 0 < D2 ∧ 0 < lo ∧
    (lo : ℝ) / Dw ≤ √Real.pi ∧ √Real.pi ≤ (hi : ℝ) / Dw ∧ d ≤ 2 * M + 1 ∧
    checkQ M W0 V Q D2 lo hi (10 ^ 14) = true

theorem Good.approx {L w : List ℝ} {d M : ℕ} (h : Good L w d M) :
    Approx (mirrorNeg (sort L)) (mirror w) d (1 / (10 ^ 14 : ℕ)) := by
  obtain ⟨r, W0, V, Q, Dw, D2, lo, hi, e1, -, e2, h0, h1, h2, h3, h4, h5, h6, hM, hc⟩ := h.ex
  rw [e1, e2]
  refine approx_of_pow (by simp [mirrorNeg, mirror, h0]) (by positivity) (fun k hk => ?_) fun m hm => ?_
  · rw [vdot_mirror r _ _ (by simp [h0]), hk.neg_one_pow, zero_pow hk.pos.ne']
    ring
  · rw [vdot_mirror r _ _ (by simp [h0])]
    exact checkQ_sound h2 h3 h4 (by norm_num) h1 h5 h6 hc (by omega)

theorem zero_lit : (0.0 : ℝ) = 0 := by norm_num

theorem sqrt_pi_enc : (177245385090551602729 : ℝ) / 100000000000000000000 ≤ √Real.pi ∧
    √Real.pi ≤ (17724538509055160274 : ℝ) / 10000000000000000000 := by
  have h := sqrt_pi_pow 1
  norm_num at h
  exact ⟨h.1, h.2.trans (by norm_num)⟩

/-- Proves that a list of decimal numbers and `√(3 / 2)` is ascending. -/
macro "ordered" : tactic => `(tactic| (
  rw [← List.isChain_iff_pairwise]
  simp only [List.isChain_cons_cons, List.isChain_singleton, and_true]
  refine_lift ?_
  repeat' apply And.intro
  all_goals first
    | exact Real.lt_sqrt_of_sq_lt (by norm_num)
    | (rw [Real.sqrt_lt' (by norm_num)]; norm_num)
    | norm_num))

theorem good2 : Good points2 weights2 15 7 := by
  have hs : sort points2 = [0.0, 5.2403354748695763e-1, √(3 / 2), 2.0232301911005157e0,
    2.9592107790638380e0] := by
    have hl : points2.length = 5 := by simp [points0, points1, points2]
    have e : (([0, 2, 1, 3, 4] : List ℕ).map fun i => points2.getD i 0) = [0.0,
      5.2403354748695763e-1, √(3 / 2), 2.0232301911005157e0, 2.9592107790638380e0] := by simp
      [points0, points1, points2]
    rw [sort_eq [0, 2, 1, 3, 4] (by rw [hl]; decide) (by rw [e]; ordered), e]
  have hw : weights2 = rz (10 ^ 22) (4501470097537819700000) :: List.map (rz (10 ^ 22))
    [4786942854911412400000, 1681189289476777100000, 141731178739790980000, 1670882630688234800] :=
    by norm_num [weights2, rz]
  refine ⟨[5.2403354748695763e-1, √(3 / 2), 2.0232301911005157e0, 2.9592107790638380e0],
    4501470097537819700000, [4786942854911412400000, 1681189289476777100000, 141731178739790980000,
    1670882630688234800], [2746111588917654774123549534152169, 15000000000000000000000000000000000,
    40934604061806292788291008059464900, 87569284349276070364236792902440000], 10 ^ 22, 10 ^ 34,
    17724538509055160272900, 17724538509055160274000, (by rw [hs, zero_lit]), ?_, hw, rfl, ?_, by
    norm_num, by norm_num, by norm_num, ?_, ?_, by norm_num, by decide +kernel⟩
  · ordered
  · simp only [List.map_cons, List.map_nil, Real.sq_sqrt (show (0 : ℝ) ≤ 3 / 2 by norm_num)]
    norm_num
  · refine le_trans (le_of_eq ?_) sqrt_pi_enc.1
    norm_num
  · refine le_trans sqrt_pi_enc.2 (le_of_eq ?_)
    norm_num

theorem good3 : Good points3 weights3 29 14 := by
  have hs : sort points3 = [0.0, 5.2403354748695763e-1, 8.7004089535290285e-1, √(3 / 2),
    1.8357079751751868e0, 2.0232301911005157e0, 2.2665132620567876e0, 2.9592107790638380e0,
    3.6677742159463378e0, 4.4995993983103881e0] := by
    have hl : points3.length = 10 := by simp [points0, points1, points2, points3]
    have e : (([0, 2, 5, 1, 6, 3, 7, 4, 8, 9] : List ℕ).map fun i => points3.getD i 0) = [0.0,
      5.2403354748695763e-1, 8.7004089535290285e-1, √(3 / 2), 1.8357079751751868e0,
      2.0232301911005157e0, 2.2665132620567876e0, 2.9592107790638380e0, 3.6677742159463378e0,
      4.4995993983103881e0] := by simp [points0, points1, points2, points3]
    rw [sort_eq [0, 2, 5, 1, 6, 3, 7, 4, 8, 9] (by rw [hl]; decide) (by rw [e]; ordered), e]
  have hw : weights3 = rz (10 ^ 25) (5378816070051016800000000) :: List.map (rz (10 ^ 25))
    [3692464336892085100000000, 1083886195500301700000000, 1136072989574826900000000,
    320552430994458790000000, -112324384890692290000000, 51133174390883855000000,
    1065658977285226700000, 10802767206624762000, 15295717705322357] := by norm_num [weights3, rz]
  refine ⟨[5.2403354748695763e-1, 8.7004089535290285e-1, √(3 / 2), 1.8357079751751868e0,
    2.0232301911005157e0, 2.2665132620567876e0, 2.9592107790638380e0, 3.6677742159463378e0,
    4.4995993983103881e0], 5378816070051016800000000, [3692464336892085100000000,
    1083886195500301700000000, 1136072989574826900000000, 320552430994458790000000,
    -112324384890692290000000, 51133174390883855000000, 1065658977285226700000,
    10802767206624762000, 15295717705322357], [2746111588917654774123549534152169,
    7569711595864808480486419215381225, 15000000000000000000000000000000000,
    33698237701217842367801504148942400, 40934604061806292788291008059464900,
    51370823670793003410375272315137600, 87569284349276070364236792902440000,
    134525676991607729889352092317088400, 202463947452752066199090683726216100], 10 ^ 25, 10 ^ 34,
    17724538509055160272900000, 17724538509055160274000000, (by rw [hs, zero_lit]), ?_, hw, rfl, ?_,
    by norm_num, by norm_num, by norm_num, ?_, ?_, by norm_num, by decide +kernel⟩
  · ordered
  · simp only [List.map_cons, List.map_nil, Real.sq_sqrt (show (0 : ℝ) ≤ 3 / 2 by norm_num)]
    norm_num
  · refine le_trans (le_of_eq ?_) sqrt_pi_enc.1
    norm_num
  · refine le_trans sqrt_pi_enc.2 (le_of_eq ?_)
    norm_num

theorem good4 : Good points4 weights4 51 25 := by
  have hs : sort points4 = [0.0, 1.7606414208200893e-1, 5.2403354748695763e-1,
    8.7004089535290285e-1, √(3 / 2), 1.5794121348467671e0, 1.8357079751751868e0,
    2.0232301911005157e0, 2.2665132620567876e0, 2.5705583765842968e0, 2.9592107790638380e0,
    3.3491639537131945e0, 3.6677742159463378e0, 4.0292201405043713e0, 4.4995993983103881e0,
    5.0360899444730940e0, 5.6432578578857449e0, 6.3759392709822356e0] := by
    have hl : points4.length = 18 := by simp [points0, points1, points2, points3, points4]
    have e : (([0, 10, 2, 5, 1, 11, 6, 3, 7, 12, 4, 13, 8, 14, 9, 15, 16, 17] : List ℕ).map fun i =>
      points4.getD i 0) = [0.0, 1.7606414208200893e-1, 5.2403354748695763e-1, 8.7004089535290285e-1,
      √(3 / 2), 1.5794121348467671e0, 1.8357079751751868e0, 2.0232301911005157e0,
      2.2665132620567876e0, 2.5705583765842968e0, 2.9592107790638380e0, 3.3491639537131945e0,
      3.6677742159463378e0, 4.0292201405043713e0, 4.4995993983103881e0, 5.0360899444730940e0,
      5.6432578578857449e0, 6.3759392709822356e0] := by simp [points0, points1, points2, points3,
      points4]
    rw [sort_eq [0, 10, 2, 5, 1, 11, 6, 3, 7, 12, 4, 13, 8, 14, 9, 15, 16, 17] (by rw [hl]; decide) (by rw [e]; ordered), e]
  have hw : weights4 = rz (10 ^ 34) (9126267536373792100000000000000) :: List.map (rz (10 ^ 34))
    [3398859558558521800000000000000000, 2624487148878427700000000000000000,
    1637122155573580400000000000000000, 802455181473908930000000000000000,
    277805089085350970000000000000000, 55928828911469180000000000000000,
    40967527720344047000000000000000, 14515580425155904000000000000000,
    4878539930444377000000000000000, 633286208056178910000000000000, 48462799737020461000000000000,
    4373781804092698900000000000, 379202223923195320000000000, 8155372181691689700000000,
    54896836948499462000000, 96599466278563243000, 18684014894510604] := by norm_num [weights4, rz]
  refine ⟨[1.7606414208200893e-1, 5.2403354748695763e-1, 8.7004089535290285e-1, √(3 / 2),
    1.5794121348467671e0, 1.8357079751751868e0, 2.0232301911005157e0, 2.2665132620567876e0,
    2.5705583765842968e0, 2.9592107790638380e0, 3.3491639537131945e0, 3.6677742159463378e0,
    4.0292201405043713e0, 4.4995993983103881e0, 5.0360899444730940e0, 5.6432578578857449e0,
    6.3759392709822356e0], 9126267536373792100000000000000, [3398859558558521800000000000000000,
    2624487148878427700000000000000000, 1637122155573580400000000000000000,
    802455181473908930000000000000000, 277805089085350970000000000000000,
    55928828911469180000000000000000, 40967527720344047000000000000000,
    14515580425155904000000000000000, 4878539930444377000000000000000,
    633286208056178910000000000000, 48462799737020461000000000000, 4373781804092698900000000000,
    379202223923195320000000000, 8155372181691689700000000, 54896836948499462000000,
    96599466278563243000, 18684014894510604], [309985821270738278003015845997449,
    2746111588917654774123549534152169, 7569711595864808480486419215381225,
    15000000000000000000000000000000000, 24945426917012224215409973216424100,
    33698237701217842367801504148942400, 40934604061806292788291008059464900,
    51370823670793003410375272315137600, 66077703674276954429613963504902400,
    87569284349276070364236792902440000, 112168991888517968312643633948302500,
    134525676991607729889352092317088400, 162346149406460656002503544082636900,
    202463947452752066199090683726216100, 253622019288230110081572899328360000,
    318463592505892061822299026278760100, 406526015872534819698288107739073600], 10 ^ 34, 10 ^ 34,
    17724538509055160272900000000000000, 17724538509055160274000000000000000, (by rw [hs,
    zero_lit]), ?_, hw, rfl, ?_, by norm_num, by norm_num, by norm_num, ?_, ?_, by norm_num, by
    decide +kernel⟩
  · ordered
  · simp only [List.map_cons, List.map_nil, Real.sq_sqrt (show (0 : ℝ) ≤ 3 / 2 by norm_num)]
    norm_num
  · refine le_trans (le_of_eq ?_) sqrt_pi_enc.1
    norm_num
  · refine le_trans sqrt_pi_enc.2 (le_of_eq ?_)
    norm_num

theorem good5 : Good points5 weights5 55 27 := by
  have hs : sort points5 = [0.0, 0.214618180588171e0, 5.2403354748695763e-1, 8.7004089535290285e-1,
    √(3 / 2), 1.561553427651873e0, 1.8357079751751868e0, 2.0232301911005157e0, 2.2665132620567876e0,
    2.597288631188366e0, 2.9592107790638380e0, 3.315584617593290e0, 3.6677742159463378e0,
    4.057956316089741e0, 4.4995993983103881e0, 4.986551454150765e0, 5.521865209868350e0,
    6.124527854622158e0, 6.853200069757519e0] := by
    have hl : points5.length = 19 := by simp [points0, points1, points2, points3, points5]
    have e : (([0, 10, 2, 5, 1, 11, 6, 3, 7, 12, 4, 13, 8, 14, 9, 15, 16, 17, 18] : List ℕ).map fun
      i => points5.getD i 0) = [0.0, 0.214618180588171e0, 5.2403354748695763e-1,
      8.7004089535290285e-1, √(3 / 2), 1.561553427651873e0, 1.8357079751751868e0,
      2.0232301911005157e0, 2.2665132620567876e0, 2.597288631188366e0, 2.9592107790638380e0,
      3.315584617593290e0, 3.6677742159463378e0, 4.057956316089741e0, 4.4995993983103881e0,
      4.986551454150765e0, 5.521865209868350e0, 6.124527854622158e0, 6.853200069757519e0] := by simp
      [points0, points1, points2, points3, points5]
    rw [sort_eq [0, 10, 2, 5, 1, 11, 6, 3, 7, 12, 4, 13, 8, 14, 9, 15, 16, 17, 18] (by rw [hl]; decide) (by rw [e]; ordered), e]
  have hw : weights5 = rz (10 ^ 38) (17171968096898025700000000000000000000) :: List.map (rz (10 ^
    38)) [26171293251143088400000000000000000000, 25363691048138718500000000000000000000,
    16611584261479281000000000000000000000, 7836309905080374490000000000000000000,
    2749627133721484760000000000000000000, 768092665770660459000000000000000000,
    313373786000304381000000000000000000, 174733389581099482000000000000000000,
    41642095727577091000000000000000000, 5718855314706219030000000000000000,
    586639457073896277000000000000000, 52448242374488413600000000000000,
    2941466714970834320000000000000, 74890755923951928400000000000, 809333688669950037000000000,
    3230168667828714980000000, 3328347396329304630000, 337304188079177058] := by norm_num [weights5,
    rz]
  refine ⟨[0.214618180588171e0, 5.2403354748695763e-1, 8.7004089535290285e-1, √(3 / 2),
    1.561553427651873e0, 1.8357079751751868e0, 2.0232301911005157e0, 2.2665132620567876e0,
    2.597288631188366e0, 2.9592107790638380e0, 3.315584617593290e0, 3.6677742159463378e0,
    4.057956316089741e0, 4.4995993983103881e0, 4.986551454150765e0, 5.521865209868350e0,
    6.124527854622158e0, 6.853200069757519e0], 17171968096898025700000000000000000000,
    [26171293251143088400000000000000000000, 25363691048138718500000000000000000000,
    16611584261479281000000000000000000000, 7836309905080374490000000000000000000,
    2749627133721484760000000000000000000, 768092665770660459000000000000000000,
    313373786000304381000000000000000000, 174733389581099482000000000000000000,
    41642095727577091000000000000000000, 5718855314706219030000000000000000,
    586639457073896277000000000000000, 52448242374488413600000000000000,
    2941466714970834320000000000000, 74890755923951928400000000000, 809333688669950037000000000,
    3230168667828714980000000, 3328347396329304630000, 337304188079177058],
    [460609634389767794435051252410000, 2746111588917654774123549534152169,
    7569711595864808480486419215381225, 15000000000000000000000000000000000,
    24384491074113133636624804081290000, 33698237701217842367801504148942400,
    40934604061806292788291008059464900, 51370823670793003410375272315137600,
    67459082337003359015693737499560000, 87569284349276070364236792902440000,
    109931013564212430841918530241000000, 134525676991607729889352092317088400,
    164670094632926219715163654470810000, 202463947452752066199090683726216100,
    248656954048931089759473500852250000, 304909953959544369902243317225000000,
    375098414420426933175649445769640000, 469663511961244632877114570353610000], 10 ^ 38, 10 ^ 34,
    177245385090551602729000000000000000000, 177245385090551602740000000000000000000, (by rw [hs,
    zero_lit]), ?_, hw, rfl, ?_, by norm_num, by norm_num, by norm_num, ?_, ?_, by norm_num, by
    decide +kernel⟩
  · ordered
  · simp only [List.map_cons, List.map_nil, Real.sq_sqrt (show (0 : ℝ) ≤ 3 / 2 by norm_num)]
    norm_num
  · refine le_trans (le_of_eq ?_) sqrt_pi_enc.1
    norm_num
  · refine le_trans sqrt_pi_enc.2 (le_of_eq ?_)
    norm_num

theorem good6 : Good points6 weights6 63 31 := by
  have hs : sort points6 = [0.0, 0.195324784415805e0, 5.2403354748695763e-1, 8.7004089535290285e-1,
    √(3 / 2), 1.585873011819188e0, 1.8357079751751868e0, 2.0232301911005157e0, 2.043834754429505e0,
    2.2665132620567876e0, 2.630415236459871e0, 2.9592107790638380e0, 3.296114596212218e0,
    3.6677742159463378e0, 4.070919267883068e0, 4.4995993983103881e0, 4.953574342912980e0,
    5.437443360177798e0, 5.961461043404500e0, 6.547083258397540e0, 7.251792998192644e0] := by
    have hl : points6.length = 21 := by simp [points0, points1, points2, points3, points6]
    have e : (([0, 10, 2, 5, 1, 11, 6, 3, 12, 7, 13, 4, 14, 8, 15, 9, 16, 17, 18, 19, 20] : List
      ℕ).map fun i => points6.getD i 0) = [0.0, 0.195324784415805e0, 5.2403354748695763e-1,
      8.7004089535290285e-1, √(3 / 2), 1.585873011819188e0, 1.8357079751751868e0,
      2.0232301911005157e0, 2.043834754429505e0, 2.2665132620567876e0, 2.630415236459871e0,
      2.9592107790638380e0, 3.296114596212218e0, 3.6677742159463378e0, 4.070919267883068e0,
      4.4995993983103881e0, 4.953574342912980e0, 5.437443360177798e0, 5.961461043404500e0,
      6.547083258397540e0, 7.251792998192644e0] := by simp [points0, points1, points2, points3,
      points6]
    rw [sort_eq [0, 10, 2, 5, 1, 11, 6, 3, 12, 7, 13, 4, 14, 8, 15, 9, 16, 17, 18, 19, 20] (by rw [hl]; decide) (by rw [e]; ordered), e]
  have hw : weights6 = rz (10 ^ 40) (997525375254611951000000000000000000000) :: List.map (rz (10 ^
    40)) [2935887957359085660000000000000000000000, 2587185197182410950000000000000000000000,
    1645436668065552510000000000000000000000, 799536390803302298000000000000000000000,
    293244560924894295000000000000000000000, 12504149858400343500000000000000000000,
    317007878644325588000000000000000000000, -256169958506074580000000000000000000000,
    24937969109693313900000000000000000000, 3350131149472008790000000000000000000,
    512198007019776873000000000000000000, 67562890713474497600000000000000000,
    5589827870786449970000000000000000, 264376044449260516000000000000000,
    7103713951693509520000000000000, 103121966469463034000000000000, 724614869051195508000000000,
    2021839499651012880000000, 1525067455343006360000, 117725656974405367] := by norm_num [weights6,
    rz]
  refine ⟨[0.195324784415805e0, 5.2403354748695763e-1, 8.7004089535290285e-1, √(3 / 2),
    1.585873011819188e0, 1.8357079751751868e0, 2.0232301911005157e0, 2.043834754429505e0,
    2.2665132620567876e0, 2.630415236459871e0, 2.9592107790638380e0, 3.296114596212218e0,
    3.6677742159463378e0, 4.070919267883068e0, 4.4995993983103881e0, 4.953574342912980e0,
    5.437443360177798e0, 5.961461043404500e0, 6.547083258397540e0, 7.251792998192644e0],
    997525375254611951000000000000000000000, [2935887957359085660000000000000000000000,
    2587185197182410950000000000000000000000, 1645436668065552510000000000000000000000,
    799536390803302298000000000000000000000, 293244560924894295000000000000000000000,
    12504149858400343500000000000000000000, 317007878644325588000000000000000000000,
    -256169958506074580000000000000000000000, 24937969109693313900000000000000000000,
    3350131149472008790000000000000000000, 512198007019776873000000000000000000,
    67562890713474497600000000000000000, 5589827870786449970000000000000000,
    264376044449260516000000000000000, 7103713951693509520000000000000,
    103121966469463034000000000000, 724614869051195508000000000, 2021839499651012880000000,
    1525067455343006360000, 117725656974405367], [381517714070806997951337980250000,
    2746111588917654774123549534152169, 7569711595864808480486419215381225,
    15000000000000000000000000000000000, 25149932096164624019412049793440000,
    33698237701217842367801504148942400, 40934604061806292788291008059464900,
    41772605034139150082180145450250000, 51370823670793003410375272315137600,
    69190843162002390662005933366410000, 87569284349276070364236792902440000,
    108643714313632329107128924795240000, 134525676991607729889352092317088400,
    165723836856216143603221210926240000, 202463947452752066199090683726216100,
    245378987707657615703518524804000000, 295657902951416227090741721288040000,
    355390177720294698329506202500000000, 428642991923893495209286780516000000,
    525885016886358568246505357107360000], 10 ^ 40, 10 ^ 34,
    17724538509055160272900000000000000000000, 17724538509055160274000000000000000000000, (by rw
    [hs, zero_lit]), ?_, hw, rfl, ?_, by norm_num, by norm_num, by norm_num, ?_, ?_, by norm_num, by
    decide +kernel⟩
  · ordered
  · simp only [List.map_cons, List.map_nil, Real.sq_sqrt (show (0 : ℝ) ≤ 3 / 2 by norm_num)]
    norm_num
  · refine le_trans (le_of_eq ?_) sqrt_pi_enc.1
    norm_num
  · refine le_trans sqrt_pi_enc.2 (le_of_eq ?_)
    norm_num

theorem good7 : Good points7 weights7 67 33 := by
  have hs : sort points7 = [0.0, 0.196029453662011e0, 5.2403354748695763e-1, 8.7004089535290285e-1,
    √(3 / 2), 1.583643465293944e0, 1.8357079751751868e0, 2.0232301911005157e0, 2.089340389294661e0,
    2.2665132620567876e0, 2.633356763661946e0, 2.9592107790638380e0, 3.295265921534226e0,
    3.6677742159463378e0, 4.071335874253583e0, 4.4995993983103881e0, 4.952329763008589e0,
    5.434053000365068e0, 5.954781975039809e0, 6.535398426382995e0, 7.231746029072501e0,
    10.167574994881873e0] := by
    have hl : points7.length = 22 := by simp [points0, points1, points2, points3, points7]
    have e : (([0, 10, 2, 5, 1, 11, 6, 3, 12, 7, 13, 4, 14, 8, 15, 9, 16, 17, 18, 19, 20, 21] : List
      ℕ).map fun i => points7.getD i 0) = [0.0, 0.196029453662011e0, 5.2403354748695763e-1,
      8.7004089535290285e-1, √(3 / 2), 1.583643465293944e0, 1.8357079751751868e0,
      2.0232301911005157e0, 2.089340389294661e0, 2.2665132620567876e0, 2.633356763661946e0,
      2.9592107790638380e0, 3.295265921534226e0, 3.6677742159463378e0, 4.071335874253583e0,
      4.4995993983103881e0, 4.952329763008589e0, 5.434053000365068e0, 5.954781975039809e0,
      6.535398426382995e0, 7.231746029072501e0, 10.167574994881873e0] := by simp [points0, points1,
      points2, points3, points7]
    rw [sort_eq [0, 10, 2, 5, 1, 11, 6, 3, 12, 7, 13, 4, 14, 8, 15, 9, 16, 17, 18, 19, 20, 21] (by rw [hl]; decide) (by rw [e]; ordered), e]
  have hw : weights7 = rz (10 ^ 55) (1027307137534418290000000000000000000000000000000000000) ::
    List.map (rz (10 ^ 55)) [2922438104061171410000000000000000000000000000000000000,
    2585359547316077380000000000000000000000000000000000000,
    1646098424225806060000000000000000000000000000000000000,
    798689557875757008000000000000000000000000000000000000,
    290003357497263870000000000000000000000000000000000000,
    24808372287100279600000000000000000000000000000000000,
    119383201790913588000000000000000000000000000000000000,
    -68770427096325385400000000000000000000000000000000000,
    26747982878855293700000000000000000000000000000000000,
    3275308000661018100000000000000000000000000000000000,
    508343873102544037000000000000000000000000000000000,
    68041093480221023200000000000000000000000000000000,
    5601279648484321750000000000000000000000000000000,
    263481722999966618000000000000000000000000000000,
    7090357338933677800000000000000000000000000000, 104028132097205732000000000000000000000000000,
    747837010380540069000000000000000000000000, 2173376087108937380000000000000000000000,
    1759373091077509920000000000000000000, 155169312628604310000000000000000, 968100020641528185] :=
    by norm_num [weights7, rz]
  refine ⟨[0.196029453662011e0, 5.2403354748695763e-1, 8.7004089535290285e-1, √(3 / 2),
    1.583643465293944e0, 1.8357079751751868e0, 2.0232301911005157e0, 2.089340389294661e0,
    2.2665132620567876e0, 2.633356763661946e0, 2.9592107790638380e0, 3.295265921534226e0,
    3.6677742159463378e0, 4.071335874253583e0, 4.4995993983103881e0, 4.952329763008589e0,
    5.434053000365068e0, 5.954781975039809e0, 6.535398426382995e0, 7.231746029072501e0,
    10.167574994881873e0], 1027307137534418290000000000000000000000000000000000000,
    [2922438104061171410000000000000000000000000000000000000,
    2585359547316077380000000000000000000000000000000000000,
    1646098424225806060000000000000000000000000000000000000,
    798689557875757008000000000000000000000000000000000000,
    290003357497263870000000000000000000000000000000000000,
    24808372287100279600000000000000000000000000000000000,
    119383201790913588000000000000000000000000000000000000,
    -68770427096325385400000000000000000000000000000000000,
    26747982878855293700000000000000000000000000000000000,
    3275308000661018100000000000000000000000000000000000,
    508343873102544037000000000000000000000000000000000,
    68041093480221023200000000000000000000000000000000,
    5601279648484321750000000000000000000000000000000,
    263481722999966618000000000000000000000000000000,
    7090357338933677800000000000000000000000000000, 104028132097205732000000000000000000000000000,
    747837010380540069000000000000000000000000, 2173376087108937380000000000000000000000,
    1759373091077509920000000000000000000, 155169312628604310000000000000000, 968100020641528185],
    [384275467030265178582245641210000, 2746111588917654774123549534152169,
    7569711595864808480486419215381225, 15000000000000000000000000000000000,
    25079266251682112144383230751360000, 33698237701217842367801504148942400,
    40934604061806292788291008059464900, 43653432623379655778130831049210000,
    51370823670793003410375272315137600, 69345678447241181211197685069160000,
    87569284349276070364236792902440000, 108587774936248117051096894190760000,
    134525676991607729889352092317088400, 165757758009841870059373883378890000,
    202463947452752066199090683726216100, 245255700815807072896688877709210000,
    295289320107765977213412746446240000, 354594283702590084562871347564810000,
    427114325915693273164784251700250000, 522981506290058864787023143950010000,
    1033795812765471197621452239881290000], 10 ^ 55, 10 ^ 34,
    17724538509055160272900000000000000000000000000000000000,
    17724538509055160274000000000000000000000000000000000000, (by rw [hs, zero_lit]), ?_, hw, rfl,
    ?_, by norm_num, by norm_num, by norm_num, ?_, ?_, by norm_num, by decide +kernel⟩
  · ordered
  · simp only [List.map_cons, List.map_nil, Real.sq_sqrt (show (0 : ℝ) ≤ 3 / 2 by norm_num)]
    norm_num
  · refine le_trans (le_of_eq ?_) sqrt_pi_enc.1
    norm_num
  · refine le_trans sqrt_pi_enc.2 (le_of_eq ?_)
    norm_num

end GenzKeister
end Quadpy
