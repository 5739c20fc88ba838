import Verif.Lemmas.Near
import Verif.Model.MixedRules

/-!
# C57: rules mixing decimal numbers with roots and pi

Each theorem says that for every polynomial up to the degree the rule reports, the rule applied to it
differs from its integral by at most `eps` times the volume times the sum of the absolute values of its
coefficients. The roots and pi are the real numbers, the decimals the ones of the source.
-/

namespace Quadpy.Mixed
open Dec

theorem pi_inv_near : -(1e-20 : ℝ) ≤ Real.pi⁻¹ - 0.31830988618379067153 ∧
    Real.pi⁻¹ - 0.31830988618379067153 ≤ 1e-20 := by
  have h1 := Real.pi_gt_d20
  have h2 := Real.pi_lt_d20
  have h3 : Real.pi⁻¹ * Real.pi = 1 := inv_mul_cancel₀ Real.pi_ne_zero
  have h4 : 0 < Real.pi⁻¹ := inv_pos.2 Real.pi_pos
  constructor <;> nlinarith

theorem div_pi (x : ℝ) : x / Real.pi = x * Real.pi⁻¹ := div_eq_mul_inv _ _

macro "near_sqrt" : tactic => `(tactic|
  (rw [← abs_le]
   refine sqrt_near (by norm_num) ?_ ?_ (by norm_num)
   · first
       | (norm_num; done)
       | linarith
   · first
       | (norm_num; done)
       | linarith))

macro "near_data" : tactic => `(tactic|
  (simp only [List.forall₂_cons, List.forall₂_nil_left_iff, NearE, NearL, rz, abs_le, and_true]
   and_intros
   all_goals first
     | rfl
     | (norm_num; done)
     | (push_cast; linarith)
     | (push_cast; rw [div_pi]; linarith)))


/-- C57, franke_2a on the square. -/
theorem C57_c2_franke_2a : franke_2a.ApproxRel 2 (Spec.cube 2) 1.1e-15 := by
  obtain ⟨l0, u0⟩ : -1e-35 ≤ √30 - 5.47722557505166113456969782800802134 ∧ √30 - 5.47722557505166113456969782800802134 ≤ 1e-35 := by near_sqrt
  obtain ⟨l1, u1⟩ : -1e-34 ≤ √((15 + 2 * √30) / 35) - 0.8611363115940525752239464888928095 ∧ √((15 + 2 * √30) / 35) - 0.8611363115940525752239464888928095 ≤ 1e-34 := by
      near_sqrt
  obtain ⟨l2, u2⟩ : -1e-33 ≤ √((15 - 2 * √30) / 35) - 0.339981043584856264802665759103245 ∧ √((15 - 2 * √30) / 35) - 0.339981043584856264802665759103245 ≤ 1e-33 := by
      near_sqrt
  obtain ⟨l3, u3⟩ : -1e-32 ≤ √(3 / 5) - 0.77459666924148337703585307995648 ∧ √(3 / 5) - 0.77459666924148337703585307995648 ≤ 1e-32 := by near_sqrt
  refine near_of_check (ratMom_cube 2) (Dw := 12000000000000000000000000000000) (D := 12000000000000000000000000000000) (T := 10 ^ 15)
    (B := 12694081484553000000000000000000) (N := 14) (W := 12000000000000002671523232609338)
    (ew := 1e-29) (e := 1e-30) (M := 11 / 10)
    (Z := [⟨.sxy, [131352456261687240000000000000, 1086908591437576904378226751297,
      912212079150675000000000000000], [[12694081484553000000000000000000,
      10333635739128630902687357866714], [9295160030897800524430236959478,
      4079772523018275177631989109239], [5631042265534932000000000000000,
      10333635739128630902687357866714]]⟩, ⟨.c2_0a, [1739053746300123047005162802075],
      [[4079772523018275177631989109239]]⟩])
    ?_ (by norm_num) (by norm_num) (by norm_num) (by norm_num) (by norm_num) (by decide +kernel)
  near_data

/-- C57, franke_2b on the square. -/
theorem C57_c2_franke_2b : franke_2b.ApproxRel 2 (Spec.cube 2) 1.1e-15 := by
  obtain ⟨l0, u0⟩ : -1e-35 ≤ √30 - 5.47722557505166113456969782800802134 ∧ √30 - 5.47722557505166113456969782800802134 ≤ 1e-35 := by near_sqrt
  obtain ⟨l1, u1⟩ : -1e-34 ≤ √((15 + 2 * √30) / 35) - 0.8611363115940525752239464888928095 ∧ √((15 + 2 * √30) / 35) - 0.8611363115940525752239464888928095 ≤ 1e-34 := by
      near_sqrt
  obtain ⟨l2, u2⟩ : -1e-33 ≤ √((15 - 2 * √30) / 35) - 0.339981043584856264802665759103245 ∧ √((15 - 2 * √30) / 35) - 0.339981043584856264802665759103245 ≤ 1e-33 := by
      near_sqrt
  refine near_of_check (ratMom_cube 2) (Dw := 12000000000000000000000000000000) (D := 12000000000000000000000000000000) (T := 10 ^ 15)
    (B := 10980726280570560000000000000000) (N := 14) (W := 12000000000000000000000000000000)
    (ew := 1e-29) (e := 1e-30) (M := 1)
    (Z := [⟨.sxy, [579758075229090000000000000000, 507149763657006000000000000000,
      1449285700930632000000000000000], [[9295160030897796000000000000000,
      10333635739128630902687357866714], [10980726280570560000000000000000,
      4079772523018275177631989109239], [4754292476979840000000000000000,
      4079772523018275177631989109239]]⟩, ⟨.c2_0a, [927612920366544000000000000000],
      [[10333635739128630902687357866714]]⟩])
    ?_ (by norm_num) (by norm_num) (by norm_num) (by norm_num) (by norm_num) (by decide +kernel)
  near_data

/-- C57, franke_3a on the square. -/
theorem C57_c2_franke_3a : franke_3a.ApproxRel 2 (Spec.cube 2) 1.1e-15 := by
  obtain ⟨l0, u0⟩ : -1e-35 ≤ √70 - 8.36660026534075547978172025785187489 ∧ √70 - 8.36660026534075547978172025785187489 ≤ 1e-35 := by near_sqrt
  obtain ⟨l1, u1⟩ : -1e-34 ≤ √(5 / 9 + 2 / 63 * √70) - 0.9061798459386639927976268782993930 ∧ √(5 / 9 + 2 / 63 * √70) - 0.9061798459386639927976268782993930 ≤ 1e-34 := by
      near_sqrt
  obtain ⟨l2, u2⟩ : -1e-33 ≤ √(5 / 9 - 2 / 63 * √70) - 0.538469310105683091036314420700209 ∧ √(5 / 9 - 2 / 63 * √70) - 0.538469310105683091036314420700209 ≤ 1e-33 := by
      near_sqrt
  refine near_of_check (ratMom_cube 2) (Dw := 12000000000000000000000000000000) (D := 12000000000000000000000000000000) (T := 10 ^ 15)
    (B := 11516177054575452000000000000000) (N := 23) (W := 11999999999999997600000000000000)
    (ew := 1e-29) (e := 1e-30) (M := 1)
    (Z := [⟨.sxy, [211519542169203600000000000000, 216336453302283300000000000000,
      291447820811252100000000000000, 1105647146031147000000000000000],
      [[10151133597260508000000000000000, 10874158151263967913571522539593],
      [7546819640787036000000000000000, 10874158151263967913571522539593],
      [11516177054575452000000000000000, 6461631721268197092435773048403],
      [5232367155281616000000000000000, 6461631721268197092435773048403]]⟩, ⟨.c2_a0,
      [948148148148147000000000000000], [[9295160030897796000000000000000]]⟩, ⟨.c2_0a,
      [565849319394159000000000000000, 77582089311402300000000000000],
      [[10874158151263967913571522539593], [6461631721268197092435773048403]]⟩, ⟨.zero,
      [1517037037037037000000000000000], [[]]⟩])
    ?_ (by norm_num) (by norm_num) (by norm_num) (by norm_num) (by norm_num) (by decide +kernel)
  near_data

/-- C57, franke_3b on the square. -/
theorem C57_c2_franke_3b : franke_3b.ApproxRel 2 (Spec.cube 2) 1.1e-15 := by
  obtain ⟨l0, u0⟩ : -1e-35 ≤ √70 - 8.36660026534075547978172025785187489 ∧ √70 - 8.36660026534075547978172025785187489 ≤ 1e-35 := by near_sqrt
  obtain ⟨l1, u1⟩ : -1e-34 ≤ √(5 / 9 + 2 / 63 * √70) - 0.9061798459386639927976268782993930 ∧ √(5 / 9 + 2 / 63 * √70) - 0.9061798459386639927976268782993930 ≤ 1e-34 := by
      near_sqrt
  obtain ⟨l2, u2⟩ : -1e-33 ≤ √(5 / 9 - 2 / 63 * √70) - 0.538469310105683091036314420700209 ∧ √(5 / 9 - 2 / 63 * √70) - 0.538469310105683091036314420700209 ≤ 1e-33 := by
      near_sqrt
  refine near_of_check (ratMom_cube 2) (Dw := 12000000000000000000000000000000) (D := 12000000000000000000000000000000) (T := 10 ^ 15)
    (B := 11556220909024752000000000000000) (N := 24) (W := 11999999999999999400000000000000)
    (ew := 1e-29) (e := 1e-30) (M := 1)
    (Z := [⟨.sxy, [149787186919545000000000000000, 475335546854406000000000000000,
      550151364453741000000000000000, 264442957099626600000000000000],
      [[11349764874239100000000000000000, 10874158151263967913571522539593],
      [5584159498034436000000000000000, 10874158151263967913571522539593],
      [9651047108904024000000000000000, 6461631721268197092435773048403],
      [8176630705964124000000000000000, 6461631721268197092435773048403]]⟩, ⟨.c2_a0,
      [343369126683993000000000000000, 1363297539982674000000000000000],
      [[11556220909024752000000000000000], [5143321718677452000000000000000]]⟩, ⟨.c2_0a,
      [171315842789230500000000000000, 1242583379889465000000000000000],
      [[10874158151263967913571522539593], [6461631721268197092435773048403]]⟩])
    ?_ (by norm_num) (by norm_num) (by norm_num) (by norm_num) (by norm_num) (by decide +kernel)
  near_data

/-- C57, franke_3c on the square. -/
theorem C57_c2_franke_3c : franke_3c.ApproxRel 2 (Spec.cube 2) 1.1e-15 := by
  obtain ⟨l0, u0⟩ : -1e-35 ≤ √70 - 8.36660026534075547978172025785187489 ∧ √70 - 8.36660026534075547978172025785187489 ≤ 1e-35 := by near_sqrt
  obtain ⟨l1, u1⟩ : -1e-34 ≤ √(5 / 9 + 2 / 63 * √70) - 0.9061798459386639927976268782993930 ∧ √(5 / 9 + 2 / 63 * √70) - 0.9061798459386639927976268782993930 ≤ 1e-34 := by
      near_sqrt
  obtain ⟨l2, u2⟩ : -1e-33 ≤ √(5 / 9 - 2 / 63 * √70) - 0.538469310105683091036314420700209 ∧ √(5 / 9 - 2 / 63 * √70) - 0.538469310105683091036314420700209 ≤ 1e-33 := by
      near_sqrt
  refine near_of_check (ratMom_cube 2) (Dw := 12000000000000000000000000000000) (D := 12000000000000000000000000000000) (T := 10 ^ 15)
    (B := 11613322907720688000000000000000) (N := 21) (W := 12288902157098891100000000000000)
    (ew := 1e-29) (e := 1e-30) (M := 1)
    (Z := [⟨.sxy, [148356605739204600000000000000, 491744195643183000000000000000,
      797714450832276000000000000000], [[11391688200016104000000000000000,
      10874158151263967913571522539593], [5498130587173608000000000000000,
      10874158151263967913571522539593], [9295160030897796000000000000000,
      6461631721268197092435773048403]]⟩, ⟨.c2_a0, [339125517139230000000000000000,
      1439766688802160000000000000000], [[11613322907720688000000000000000],
      [5013056058035844000000000000000]]⟩, ⟨.c2_0a, [141359707572361200000000000000,
      1276343121331644000000000000000], [[10874158151263967913571522539593],
      [6461631721268197092435773048403]]⟩, ⟨.zero, [-144451078549446300000000000000], [[]]⟩])
    ?_ (by norm_num) (by norm_num) (by norm_num) (by norm_num) (by norm_num) (by decide +kernel)
  near_data

/-- C57, hammer_stroud_3_2 on the square. -/
theorem C57_c2_hammer_stroud_3_2 : hammer_stroud_3_2.ApproxRel 2 (Spec.cube 2) 1.1e-16 := by
  obtain ⟨l0, u0⟩ : -1e-35 ≤ √583 - 24.14539293529927211815967981055538409 ∧ √583 - 24.14539293529927211815967981055538409 ≤ 1e-35 := by near_sqrt
  obtain ⟨l1, u1⟩ : -1e-34 ≤ √(3 / 287 * (38 - √583)) - 0.3805544332083156563791063590863941 ∧ √(3 / 287 * (38 - √583)) - 0.3805544332083156563791063590863941 ≤ 1e-34 := by
      near_sqrt
  obtain ⟨l2, u2⟩ : -1e-33 ≤ √(3 / 287 * (38 + √583)) - 0.805979782918598743707856181350744 ∧ √(3 / 287 * (38 + √583)) - 0.805979782918598743707856181350744 ≤ 1e-33 := by
      near_sqrt
  obtain ⟨l3, u3⟩ : -1e-32 ≤ √(6 / 7) - 0.92582009977255146156656677658400 ∧ √(6 / 7) - 0.92582009977255146156656677658400 ≤ 1e-32 := by near_sqrt
  refine near_of_check (ratMom_cube 2) (Dw := 12000000000000000000000000000000) (D := 12000000000000000000000000000000) (T := 10 ^ 16)
    (B := 11109841197270617538798801319008) (N := 12) (W := 12000000000000000103703703703704)
    (ew := 1e-29) (e := 1e-30) (M := 1)
    (Z := [⟨.d4_a0, [725925925925925925925925925926], [[11109841197270617538798801319008]]⟩, ⟨.d4_aa,
      [1561778750002183500000000000000, 712295324071890600000000000000],
      [[4566653198499787876549276309037], [9671757395023184924494274176209]]⟩])
    ?_ (by norm_num) (by norm_num) (by norm_num) (by norm_num) (by norm_num) (by decide +kernel)
  near_data

/-- C57, hammer_stroud_6_3 on the cube. -/
theorem C57_c3_hammer_stroud_6_3 : hammer_stroud_6_3.ApproxRel 3 (Spec.cube 3) 1.1e-16 := by
  obtain ⟨l0, u0⟩ : -1e-35 ≤ √(6 / 7) - 0.92582009977255146156656677658399952 ∧ √(6 / 7) - 0.92582009977255146156656677658399952 ≤ 1e-35 := by near_sqrt
  refine near_of_check (ratMom_cube 3) (Dw := 12000000000000000000000000000000) (D := 12000000000000000000000000000000) (T := 10 ^ 16)
    (B := 11109841197270617538798801319008) (N := 34) (W := 11999999999999999555555555555556)
    (ew := 1e-29) (e := 1e-30) (M := 1)
    (Z := [⟨.symm_r00, [443621399176954732510288065844], [[11109841197270617538798801319008]]⟩,
      ⟨.symm_rr0, [141152263374485596707818930041], [[11109841197270617538798801319008]]⟩, ⟨.symm_rrr,
      [337054762148402100000000000000, 618500793407153400000000000000],
      [[8809350345025383600000000000000], [4880438237120593200000000000000]]⟩])
    ?_ (by norm_num) (by norm_num) (by norm_num) (by norm_num) (by norm_num) (by decide +kernel)
  near_data

/-- C57, hammer_stroud_19 on the disk. -/
theorem C57_s2_hammer_stroud_19 : hammer_stroud_19.ApproxRel 2 (Spec.ball 2) 1.1e-17 := by
  obtain ⟨l0, u0⟩ : -1e-35 ≤ √6 - 2.44948974278317809819728407470589139 ∧ √6 - 2.44948974278317809819728407470589139 ≤ 1e-35 := by near_sqrt
  obtain ⟨l1, u1⟩ : -1e-34 ≤ √((6 + √6) / 10) - 0.9192110607898045793726291401849612 ∧ √((6 + √6) / 10) - 0.9192110607898045793726291401849612 ≤ 1e-34 := by near_sqrt
  refine near_of_check (ratMom_ball (by norm_num)) (Dw := 12000000000000000000000000000000) (D := 12000000000000000000000000000000) (T := 10 ^ 17)
    (B := 11030532729477654952471549682220) (N := 21) (W := 11999999999999999999999999999997)
    (ew := 1e-29) (e := 1e-30) (M := 1)
    (Z := [⟨.zero, [1333333333333333333333333333333], [[]]⟩, ⟨.d4_ab, [768728739282632420758220169779,
      371151365565756025256014451972], [[6606051845446268400000000000000,
      2736316268123658000000000000000], [9518501694151269600000000000000,
      5574116772594307200000000000000]]⟩, ⟨.d4_a0, [386906456969889774638197423164],
      [[11030532729477654952471549682220]]⟩])
    ?_ (by norm_num) (by norm_num) (by norm_num) (by norm_num) (by norm_num) (by decide +kernel)
  near_data

/-- C57, hammer_stroud_21 on the disk. -/
theorem C57_s2_hammer_stroud_21 : hammer_stroud_21.ApproxRel 2 (Spec.ball 2) 1.1e-15 := by
  obtain ⟨lp, up⟩ := pi_inv_near
  refine near_of_check (ratMom_ball (by norm_num)) (Dw := 12000000000000000000000000000000) (D := 12000000000000000000000000000000) (T := 10 ^ 15)
    (B := 11353487308101262800000000000000) (N := 64) (W := 11999999999999995269421163301504)
    (ew := 1e-19) (e := 1e-30) (M := 1)
    (Z := [⟨.d4_ab, [130445566926545166783370829176, 244554433073454685386040523996,
      244554433073454685386040523996, 244554433073454685386040523996, 244554433073454685386040523996,
      130445566926545166783370829176, 130445566926545166783370829176, 130445566926545166783370829176],
      [[3101233994008864800000000000000, 616873795546575600000000000000],
      [6761116077053842800000000000000, 1344869605015446000000000000000],
      [5731797443992256400000000000000, 3829864608956065200000000000000],
      [9633620074168209600000000000000, 1916246175388995600000000000000],
      [8166988746859536000000000000000, 5457007416778846800000000000000],
      [2629099231177177200000000000000, 1756707943242642000000000000000],
      [11353487308101262800000000000000, 2258349038469322800000000000000],
      [9625021785061581600000000000000, 6431233946286027600000000000000]]⟩])
    ?_ (by norm_num) (by norm_num) (by norm_num) (by norm_num) (by norm_num) (by decide +kernel)
  near_data

/-- C57, wissmann_becker_6_1 on the disk. -/
theorem C57_s2_wissmann_becker_6_1 : wissmann_becker_6_1.ApproxRel 2 (Spec.ball 2) 1.1e-15 := by
  obtain ⟨lp, up⟩ := pi_inv_near
  refine near_of_check (ratMom_ball (by norm_num)) (Dw := 12000000000000000000000000000000) (D := 12000000000000000000000000000000) (T := 10 ^ 15)
    (B := 11746068564771396000000000000000) (N := 10) (W := 12000000000000002908858431712477)
    (ew := 1e-19) (e := 1e-30) (M := 1)
    (Z := [⟨.plain, [733792130012731591170228643887, 2455632833436762038000645644882,
      115843721256557241027050283514, 115843721256557241027050283514, 1918867775190214248533562506031,
      1918867775190214248533562506031, 1300767344658375802264611142306, 1300767344658375802264611142306,
      1069808677170107348018554780003, 1069808677170107348018554780003], [[0,
      10978491138539184000000000000000], [0, -2476266520946580000000000000000],
      [11746068564771396000000000000000, 7955429443932528000000000000000],
      [-11746068564771396000000000000000, 7955429443932528000000000000000],
      [5498838188504208000000000000000, 5578678677399336000000000000000],
      [-5498838188504208000000000000000, 5578678677399336000000000000000],
      [9624204048868116000000000000000, -2090488546074672000000000000000],
      [-9624204048868116000000000000000, -2090488546074672000000000000000],
      [4484206371653988000000000000000, -9248998237785684000000000000000],
      [-4484206371653988000000000000000, -9248998237785684000000000000000]]⟩])
    ?_ (by norm_num) (by norm_num) (by norm_num) (by norm_num) (by norm_num) (by decide +kernel)
  near_data

/-- C57, wissmann_becker_6_2 on the disk. -/
theorem C57_s2_wissmann_becker_6_2 : wissmann_becker_6_2.ApproxRel 2 (Spec.ball 2) 1.1e-15 := by
  obtain ⟨lp, up⟩ := pi_inv_near
  refine near_of_check (ratMom_ball (by norm_num)) (Dw := 12000000000000000000000000000000) (D := 12000000000000000000000000000000) (T := 10 ^ 15)
    (B := 12390552766690104000000000000000) (N := 11) (W := 12000000000000010548295700123449)
    (ew := 1e-19) (e := 1e-30) (M := 11 / 10)
    (Z := [⟨.plain, [2111111111111110986234951729984, 290644068888812776762661818924,
      1687133708888967135649487859769, 290644068888812776762661818924, 290644068888812776762661818924,
      290644068888812776762661818924, 290644068888812776762661818924, 1687133708888967135649487859769,
      1687133708888967135649487859769, 1687133708888967135649487859769, 1687133708888967135649487859769],
      [[0, 0], [0, 12390552766690104000000000000000], [0, -8716318152515328000000000000000],
      [11784115949259564000000000000000, 3828891374606760000000000000000],
      [-11784115949259564000000000000000, 3828891374606760000000000000000],
      [7282984184012136000000000000000, -10024167757951812000000000000000],
      [-7282984184012136000000000000000, -10024167757951812000000000000000],
      [5123323264337688000000000000000, 7051649513763744000000000000000],
      [-5123323264337688000000000000000, 7051649513763744000000000000000],
      [8289711177051444000000000000000, -2693490437506080000000000000000],
      [-8289711177051444000000000000000, -2693490437506080000000000000000]]⟩])
    ?_ (by norm_num) (by norm_num) (by norm_num) (by norm_num) (by norm_num) (by decide +kernel)
  near_data

/-- C57, wissmann_becker_8_1 on the disk. -/
theorem C57_s2_wissmann_becker_8_1 : wissmann_becker_8_1.ApproxRel 2 (Spec.ball 2) 1.1e-15 := by
  obtain ⟨lp, up⟩ := pi_inv_near
  refine near_of_check (ratMom_ball (by norm_num)) (Dw := 12000000000000000000000000000000) (D := 12000000000000000000000000000000) (T := 10 ^ 15)
    (B := 11439854106261684000000000000000) (N := 16) (W := 12000000000000006728577065917962)
    (ew := 1e-19) (e := 1e-30) (M := 1)
    (Z := [⟨.plain, [1277777777777778405827219190212, 335796765774272816918479693937,
      640291944590305909541653127449, 1168355734079866938089836524164, 335796765774272816918479693937,
      335796765774272816918479693937, 335796765774272816918479693937, 335796765774272816918479693937,
      640291944590305909541653127449, 640291944590305909541653127449, 640291944590305909541653127449,
      640291944590305909541653127449, 1168355734079866938089836524164, 1168355734079866938089836524164,
      1168355734079866938089836524164, 1168355734079866938089836524164], [[0, 0], [0,
      11439854106261684000000000000000], [0, -10589497186801512000000000000000], [0,
      6988010257445988000000000000000], [10879947793226052000000000000000,
      3535109332004892000000000000000], [-10879947793226052000000000000000,
      3535109332004892000000000000000], [6724177532038116000000000000000,
      -9255036385135728000000000000000], [-6724177532038116000000000000000,
      -9255036385135728000000000000000], [6224350275594564000000000000000,
      8567083186008120000000000000000], [-6224350275594564000000000000000,
      8567083186008120000000000000000], [10071210303796776000000000000000,
      -3272334592607364000000000000000], [-10071210303796776000000000000000,
      -3272334592607364000000000000000], [6645992691281388000000000000000,
      2159413926417264000000000000000], [-6645992691281388000000000000000,
      2159413926417264000000000000000], [4107449372195280000000000000000,
      -5653419055140264000000000000000], [-4107449372195280000000000000000,
      -5653419055140264000000000000000]]⟩])
    ?_ (by norm_num) (by norm_num) (by norm_num) (by norm_num) (by norm_num) (by decide +kernel)
  near_data

/-- The bound for the square of the radius on the unit disk. -/
example :
    |Spec.ball 2 (fun _ => 1) * dot 2 wissmann_becker_8_1.weights wissmann_becker_8_1.points
        (fun x => x 0 ^ 2 + x 1 ^ 2) - Spec.ball 2 fun x => x 0 ^ 2 + x 1 ^ 2| ≤
      Spec.ball 2 (fun _ => 1) * 1.1e-15 *
        ∑ a ∈ (MvPolynomial.X 0 ^ 2 + MvPolynomial.X 1 ^ 2 : MvPolynomial (Fin 2) ℝ).support,
          |(MvPolynomial.X 0 ^ 2 + MvPolynomial.X 1 ^ 2 : MvPolynomial (Fin 2) ℝ).coeff a| := by
  have h : (MvPolynomial.X 0 ^ 2 + MvPolynomial.X 1 ^ 2 : MvPolynomial (Fin 2) ℝ).totalDegree ≤ 8 :=
    (MvPolynomial.totalDegree_add _ _).trans
      (max_le ((MvPolynomial.totalDegree_pow _ _).trans (by rw [MvPolynomial.totalDegree_X]; norm_num))
        ((MvPolynomial.totalDegree_pow _ _).trans (by rw [MvPolynomial.totalDegree_X]; norm_num)))
  have := C57_s2_wissmann_becker_8_1.2 _ h
  simpa using this

end Quadpy.Mixed
