import Verif.Lemmas.DecimalCheck
import Verif.Model.Kubatko
import Verif.Props.C50

/-!
# C56: the wedge rules of Kubatko, Yeager and Maggi
-/

namespace Quadpy.W3
open MeasureTheory Finset Dec

/-- On every prism and for every polynomial `p`, the error is at most `eps` times the volume of the prism
times the sum of the absolute values of the coefficients of `p` in the coordinates of the reference
wedge. -/
def Approx (S : Scheme) (eps : ℝ) : Prop :=
  S.WellShaped 3 ∧ ∀ (wedge : Fin 2 → Fin 3 → Fin 3 → ℝ), IsPrism wedge →
    ∀ p q : MvPolynomial (Fin 3) ℝ, p.totalDegree ≤ S.degree → q.totalDegree ≤ S.degree →
      (∀ x, MvPolynomial.eval x q = MvPolynomial.eval (transform x wedge) p) →
      |integrate S (fun x => MvPolynomial.eval x p) wedge -
        ∫ x in convexHull ℝ (Set.range fun k : Fin 2 × Fin 3 => wedge k.1 k.2), MvPolynomial.eval x p| ≤
        eps * volume.real (convexHull ℝ (Set.range fun k : Fin 2 × Fin 3 => wedge k.1 k.2)) *
          ∑ a ∈ q.support, |q.coeff a|

/-- The moments of the reference wedge. -/
def momWedge (α : List ℕ) : ℕ × ℕ :=
  match α with
  | [a, b, c] => bif Nat.beq (c % 2) 0 then (2 * (a.factorial * b.factorial),
      (2 + a + b).factorial * (c + 1)) else (0, 1)
  | _ => (0, 1)

theorem integral_ref_one : ∫ _ in ref, (1 : ℝ) = 1 := by
  have := integral_ref 0 0 0
  simpa [mom, Nat.factorial] using this

theorem ratMom_wedge : RatMom (n := 3) (fun f => ∫ x in ref, f x) momWedge where
  lin := linOnMono_integral_one _ fun α =>
    ContinuousOn.integrableOn_compact isCompact_ref (by unfold mono; fun_prop)
  pos := by rw [integral_ref_one]; exact zero_le_one
  den := fun α => by
    have h : List.ofFn α = [α 0, α 1, α 2] := by simp [List.ofFn_succ]
    rw [h, momWedge]
    cases Nat.beq (α 2 % 2) 0
    · exact Nat.one_pos
    · exact Nat.mul_pos (Nat.factorial_pos _) (Nat.succ_pos _)
  mom := fun α => by
    have h : List.ofFn α = [α 0, α 1, α 2] := by simp [List.ofFn_succ]
    have hm : mono α = fun ξ => ξ 0 ^ α 0 * ξ 1 ^ α 1 * ξ 2 ^ α 2 := by
      funext ξ
      simp [mono, Fin.prod_univ_three]
    rw [h, hm, integral_ref, integral_ref_one, mom, momWedge, one_mul]
    rcases Nat.even_or_odd (α 2) with h | h
    · rw [Nat.even_iff.1 h, if_pos h]
      simp only [show Nat.beq 0 0 = true from rfl, cond_true]
      push_cast
      rw [div_mul_div_comm, mul_comm (2 : ℝ)]
    · rw [Nat.odd_iff.1 h, if_neg (Nat.not_even_iff_odd.2 h)]
      simp [show Nat.beq 1 0 = false from rfl]

theorem approx_of_ref {S : Scheme} {eps : ℝ} (hS : S.WellShaped 3)
    (h : Spec.ApproxUpTo S.degree eps (fun f : (Fin 3 → ℝ) → ℝ => dot 3 S.weights S.points f)
      fun f => ∫ x in ref, f x) : Approx S eps := by
  refine ⟨hS, fun wedge hp p q _ hq he => ?_⟩
  have h1 := h q hq
  have hdet : volume.real (convexHull ℝ (Set.range fun k : Fin 2 × Fin 3 => wedge k.1 k.2)) =
      |(mat wedge).det| := by
    have h2 := integral_affine (mat wedge) (vec wedge) isCompact_ref.measurableSet fun _ => (1 : ℝ)
    rw [image_ref hp, integral_ref_one] at h2
    simpa using h2
  have h3 := integral_affine (mat wedge) (vec wedge) isCompact_ref.measurableSet
    fun x => MvPolynomial.eval x p
  rw [image_ref hp] at h3
  rw [hdet, h3, integrate]
  simp only [getDetJ_eq hp]
  rw [Cn.dot_mul_const, ← mul_sub, abs_mul, abs_abs]
  simp only [he, transform_eq hp] at h1
  simp only [transform_eq hp]
  calc |(mat wedge).det| * _ ≤ |(mat wedge).det| * _ := mul_le_mul_of_nonneg_left h1 (abs_nonneg _)
    _ = _ := by ring

/-- A rule with integers. -/
noncomputable def zRule (deg Dw D : ℕ) (Z : List (ℤ × List ℤ)) : Scheme :=
  ⟨3, Z.map fun p => rz Dw p.1, Z.map fun p => p.2.map (rz D), deg⟩

theorem zRule_dot {deg Dw D : ℕ} {Z : List (ℤ × List ℤ)} (h : ∀ p ∈ Z, p.2.length = 3) (α : Fin 3 → ℕ) :
    dot 3 (zRule deg Dw D Z).weights (zRule deg Dw D Z).points (mono α) =
      zdot Z (List.ofFn α) / (Dw * (D : ℝ) ^ ∑ i, α i) := by
  induction Z with
  | nil => simp [zRule, dot, zdot]
  | cons p Z ih =>
    have := ih fun q hq => h q (by simp [hq])
    simp only [zRule, dot, zdot, List.map_cons, List.zipWith_cons_cons, List.sum_cons,
      List.foldr_cons] at this ⊢
    rw [this, mono_rz D α p.2 (h p (by simp)), rz]
    push_cast
    rw [add_div, div_mul_div_comm]

theorem approx_of_check {S : Scheme} {deg Dw D T : ℕ} {Z : List (ℤ × List ℤ)} {eps : ℝ}
    (hs : S = zRule deg Dw D Z) (heps : 1 / (T : ℝ) = eps)
    (h : (Nat.blt 0 Dw && Nat.blt 0 D && Nat.blt 0 T && (Z.all fun p => Nat.beq p.2.length 3) &&
      check 3 deg momWedge Dw D T [] Z) = true) : Approx S eps := by
  simp only [Bool.and_eq_true] at h
  obtain ⟨⟨⟨⟨h1, h2⟩, h4⟩, h5⟩, h6⟩ := h
  have hl : ∀ p ∈ Z, p.2.length = 3 := fun p hp =>
    Nat.eq_of_beq_eq_true (List.all_eq_true.1 h5 p hp)
  rw [hs, ← heps]
  refine approx_of_ref ⟨rfl, by simp [zRule], fun x hx => ?_⟩ ?_
  · obtain ⟨p, hp, rfl⟩ := List.mem_map.1 hx
    simpa using hl p hp
  · refine approxUpTo_of_mono (dot_linOnMono _ _) ratMom_wedge.lin fun α hα => ?_
    have h7 := check_sound (Nat.le_of_ble_eq_true h1) (Nat.le_of_ble_eq_true h2)
      (Nat.le_of_ble_eq_true h4) h6 α (ratMom_wedge.den α) hα
    have h8 := ratMom_wedge.mom α
    simp only [integral_ref_one, one_mul] at h8
    rw [zRule_dot hl, h8]
    exact h7

theorem kubatko_eq (data : List (ℝ × List (List ℝ))) (deg : ℕ) :
    Kubatko.kubatko data deg =
      schemeOf 3 (data.map fun g => (g.1 / 4, g.2.map Kubatko.toRef)) deg := by
  simp only [Kubatko.kubatko, schemeOf, untangle]
  congr 1 <;> simp [List.map_flatten, Function.comp_def]

end Quadpy.W3

namespace Quadpy.W3.Kubatko
open Dec

macro "kub" d:ident : tactic => `(tactic|
  norm_num [$d:ident, kubatko, zRule, untangle, rz, toRef, zeta_pm, abz, abz_pm, az, s3, s3_z, s21, s21_z,
    s30, s111_z, List.replicate])


theorem C56_w3_kubatko_yeager_maggi_2a : Approx kubatko_yeager_maggi_2a 1e-15 :=
  approx_of_check (T := 10 ^ 15) (Dw := 4) (D := 2000000000000000) (deg := 2)
    (Z := [(1, [1483163247594393, 258418376202804, 0]), (1, [394501139690758, 1469416096821288, 0]), (1,
      [394501139690758, 469416096821288, 1632993161855452]), (1, [394501139690758, 469416096821288,
      -1632993161855452])])
    (by kub kubatko_yeager_maggi_2a) (by norm_num) (by decide +kernel)

theorem C56_w3_kubatko_yeager_maggi_3a : Approx kubatko_yeager_maggi_3a 1e-15 :=
  approx_of_check (T := 10 ^ 15) (Dw := 4000000000000000) (D := 2000000000000000) (deg := 3)
    (Z := [(742534890852309, [1240692796349625, 228008339126588, 1229494256415054]), (375143463443327,
      [31673718548862, 431953487542125, 1353379059082842]), (495419047908462, [1467917833640195,
      450657209831653, -1199811714645270]), (523999970843238, [213855880469181, 1362655041695561,
      -1355219591389572]), (980905839025611, [515155102113325, 292068869282658, -1004965435432746]),
      (881996787927053, [440946288067875, 1260243325246813, 986021024323076])])
    (by kub kubatko_yeager_maggi_3a) (by norm_num) (by decide +kernel)

theorem C56_w3_kubatko_yeager_maggi_3d : Approx kubatko_yeager_maggi_3d 1e-15 :=
  approx_of_check (T := 10 ^ 15) (Dw := 18) (D := 1200000000000000) (deg := 3)
    (Z := [(2, [284851183725183, 45196471551465, 0]), (2, [45196471551465, 284851183725183, 0]), (2,
      [284851183725183, 869952344723352, 0]), (2, [869952344723352, 284851183725183, 0]), (2,
      [45196471551465, 869952344723352, 0]), (2, [869952344723352, 45196471551465, 0]), (3,
      [400000000000000, 400000000000000, 1200000000000000]), (3, [400000000000000, 400000000000000,
      -1200000000000000])])
    (by kub kubatko_yeager_maggi_3d) (by norm_num) (by decide +kernel)

theorem C56_w3_kubatko_yeager_maggi_4a : Approx kubatko_yeager_maggi_4a 1e-15 :=
  approx_of_check (T := 10 ^ 15) (Dw := 4000000000000000) (D := 2000000000000000) (deg := 4)
    (Z := [(111155943811228, [1812075900047562, 13757248500697, 1701432496827668]), (309060899887509,
      [207833776414455, 1687201105597868, -230429545031400]), (516646862442958, [243273820210694,
      268688159403893, -902983350883854]), (567975205132714, [447504832021660, 1015073398439985,
      -1648914000128878]), (382742555939017, [642769980478767, 1126888850505978, 1710699379991212]),
      (355960928492268, [12774607000942, 1082647545710800, 905952889335572]), (108183228294342,
      [183396271214082, 84933828518685, 1995878570490480]), (126355242780924, [1423489172633859,
      -112801167237130, -1926597548411512]), (587370828592853, [1363041084609230, 500988589917331,
      -599785539410886]), (934548304626188, [824219656850387, 345028857620314, 735894083872944])])
    (by kub kubatko_yeager_maggi_4a) (by norm_num) (by decide +kernel)

theorem C56_w3_kubatko_yeager_maggi_4b : Approx kubatko_yeager_maggi_4b 1e-14 :=
  approx_of_check (T := 10 ^ 14) (Dw := 4000000000000000) (D := 6000000000000000) (deg := 4)
    (Z := [(545658450421913, [2811934859171970, 376130281656060, 0]), (545658450421913, [376130281656060,
      2811934859171970, 0]), (545658450421913, [2811934859171970, 2811934859171970, 0]),
      (431647899262139, [2000000000000000, 2000000000000000, 5201171844054180]), (431647899262139,
      [2000000000000000, 2000000000000000, -5201171844054180]), (249954808368331, [604442434793463,
      4791115130413074, 4053838942093590]), (249954808368331, [4791115130413074, 604442434793463,
      4053838942093590]), (249954808368331, [604442434793463, 604442434793463, 4053838942093590]),
      (249954808368331, [604442434793463, 4791115130413074, -4053838942093590]), (249954808368331,
      [4791115130413074, 604442434793463, -4053838942093590]), (249954808368331, [604442434793463,
      604442434793463, -4053838942093590])])
    (by kub kubatko_yeager_maggi_4b) (by norm_num) (by decide +kernel)

theorem C56_w3_kubatko_yeager_maggi_5a : Approx kubatko_yeager_maggi_5a 1e-13 :=
  approx_of_check (T := 10 ^ 13) (Dw := 4000000000000000) (D := 2000000000000000) (deg := 5)
    (Z := [(87576186678730, [44098663132426, 44098663132423, 572]), (229447629454892, [948378694073971,
      -17063354038640, 76]), (229447629454892, [-17063354038640, 948378694073971, 76]), (833056798542985,
      [702611253539477, 702611253539479, 16]), (166443428304729, [1774849157169622, 150978359937904,
      160]), (166443428304729, [150978359937904, 1774849157169622, 160]), (376993270712316,
      [334707991342449, 334707991342449, 1513230819308858]), (376993270712316, [334707991342449,
      334707991342449, -1513230819308858]), (170410864470884, [987828851912651, 987828851912651,
      1200298758323166]), (170410864470884, [987828851912651, 987828851912651, -1200298758323166]),
      (298194157223163, [265877835319904, 1334122164680066, 1616231540993042]), (298194157223163,
      [265877835319904, 1334122164680066, -1616231540993042]), (298194157223163, [1334122164680066,
      265877835319904, 1616231540993042]), (298194157223163, [1334122164680066, 265877835319904,
      -1616231540993042])])
    (by kub kubatko_yeager_maggi_5a) (by norm_num) (by decide +kernel)

theorem C56_w3_kubatko_yeager_maggi_5b : Approx kubatko_yeager_maggi_5b 1e-15 :=
  approx_of_check (T := 10 ^ 15) (Dw := 4000000000000000) (D := 2000000000000000) (deg := 5)
    (Z := [(213895020288765, [179245584702641, 1701020947925133, -601527393005820]), (141917375616806,
      [1611831616907812, 130004423049611, 697093214841776]), (295568859378071, [48620934907025,
      912908019944127, 301312084647812]), (256991945593379, [1200535109198601, 216278264525984,
      -1688570306353438]), (122121979248381, [90377158394804, 109781841936648, 954240163098336]),
      (175194917962627, [1411514133287729, 274625873468213, 1729307019073124]), (284969106392719,
      [872465503588121, 46532716380963, 432039525751954]), (323336131783334, [444782272182801,
      469527805392993, 1746819345451638]), (159056110329063, [1706942532529193, 217751446055460,
      -781307609953410]), (748067388709644, [721907036866191, 708063469482881, -252061014409740]),
      (280551223607231, [942175155791700, 943242412456202, 1079815739570224]), (147734016552639,
      [956691563777884, 1012890722780611, -1552628959818408]), (259874920383688, [225521079265274,
      1476188541042454, 1491751934994124]), (235144061421191, [234361556428542, 1177195164202219,
      -1776710712430254]), (355576942732463, [267169350385540, 262552017255809, -1303306485904378])])
    (by kub kubatko_yeager_maggi_5b) (by norm_num) (by decide +kernel)

theorem C56_w3_kubatko_yeager_maggi_5c : Approx kubatko_yeager_maggi_5c 1e-15 :=
  approx_of_check (T := 10 ^ 15) (Dw := 4000000000000000) (D := 6000000000000000) (deg := 5)
    (Z := [(711455555931488, [2000000000000000, 2000000000000000, 0]), (224710067228267,
      [2923799787301473, 152400425397054, 0]), (224710067228267, [152400425397054, 2923799787301473, 0]),
      (224710067228267, [2923799787301473, 2923799787301473, 0]), (185661421316158, [2673588628022232,
      652822743955536, 5226017609192664]), (185661421316158, [652822743955536, 2673588628022232,
      5226017609192664]), (185661421316158, [2673588628022232, 2673588628022232, 5226017609192664]),
      (185661421316158, [2673588628022232, 652822743955536, -5226017609192664]), (185661421316158,
      [652822743955536, 2673588628022232, -5226017609192664]), (185661421316158, [2673588628022232,
      2673588628022232, -5226017609192664]), (250074285747794, [605153675896251, 4789692648207498,
      3422561884230954]), (250074285747794, [4789692648207498, 605153675896251, 3422561884230954]),
      (250074285747794, [605153675896251, 605153675896251, 3422561884230954]), (250074285747794,
      [605153675896251, 4789692648207498, -3422561884230954]), (250074285747794, [4789692648207498,
      605153675896251, -3422561884230954]), (250074285747794, [605153675896251, 605153675896251,
      -3422561884230954])])
    (by kub kubatko_yeager_maggi_5c) (by norm_num) (by decide +kernel)

theorem C56_w3_kubatko_yeager_maggi_6a : Approx kubatko_yeager_maggi_6a 1e-12 :=
  approx_of_check (T := 10 ^ 12) (Dw := 4000000000000000) (D := 6000000000000000) (deg := 6)
    (Z := [(168480079940386, [4539059849101635, 209716824185379, 0]), (168480079940386, [209716824185379,
      4539059849101635, 0]), (168480079940386, [4539059849101635, 1251223326712989, 0]),
      (168480079940386, [1251223326712989, 4539059849101635, 0]), (168480079940386, [209716824185379,
      1251223326712989, 0]), (168480079940386, [1251223326712989, 209716824185379, 0]), (79282874851,
      [-2492966437861200, 10985932875722400, 0]), (79282874851, [10985932875722400, -2492966437861200,
      0]), (79282874851, [-2492966437861200, -2492966437861200, 0]), (544286440652304, [2000000000000000,
      2000000000000000, 0]), (26293733850586, [2000000000000000, 2000000000000000, 7503129732731400]),
      (26293733850586, [2000000000000000, 2000000000000000, -7503129732731400]), (283472344926041,
      [2705149457389368, 589701085221264, 4110051400648260]), (283472344926041, [589701085221264,
      2705149457389368, 4110051400648260]), (283472344926041, [2705149457389368, 2705149457389368,
      4110051400648260]), (283472344926041, [2705149457389368, 589701085221264, -4110051400648260]),
      (283472344926041, [589701085221264, 2705149457389368, -4110051400648260]), (283472344926041,
      [2705149457389368, 2705149457389368, -4110051400648260]), (115195615637235, [562189585036248,
      4875620829927504, 4857448301957982]), (115195615637235, [4875620829927504, 562189585036248,
      4857448301957982]), (115195615637235, [562189585036248, 562189585036248, 4857448301957982]),
      (115195615637235, [562189585036248, 4875620829927504, -4857448301957982]), (115195615637235,
      [4875620829927504, 562189585036248, -4857448301957982]), (115195615637235, [562189585036248,
      562189585036248, -4857448301957982])])
    (by kub kubatko_yeager_maggi_6a) (by norm_num) (by decide +kernel)

theorem C56_w3_kubatko_yeager_maggi_6b : Approx kubatko_yeager_maggi_6b 1e-15 :=
  approx_of_check (T := 10 ^ 15) (Dw := 4000000000000000) (D := 6000000000000000) (deg := 6)
    (Z := [(-515987215963885, [2000000000000000, 2000000000000000, 0]), (113384887025471,
      [324099938799933, 5351800122400134, 0]), (113384887025471, [5351800122400134, 324099938799933, 0]),
      (113384887025471, [324099938799933, 324099938799933, 0]), (489402517688430, [1532984950555086,
      2934030098889828, 0]), (489402517688430, [2934030098889828, 1532984950555086, 0]),
      (489402517688430, [1532984950555086, 1532984950555086, 0]), (205362200002623, [2000000000000000,
      2000000000000000, 5596846219108800]), (205362200002623, [2000000000000000, 2000000000000000,
      -5596846219108800]), (48821553028563, [483950519125956, 5032098961748088, -5677785450436734]),
      (48821553028563, [5032098961748088, 483950519125956, -5677785450436734]), (48821553028563,
      [483950519125956, 483950519125956, -5677785450436734]), (48821553028563, [483950519125956,
      5032098961748088, 5677785450436734]), (48821553028563, [5032098961748088, 483950519125956,
      5677785450436734]), (48821553028563, [483950519125956, 483950519125956, 5677785450436734]),
      (166997606970463, [1859786928688764, 3818209220434401, 3580505521547832]), (166997606970463,
      [322003850876835, 1859786928688764, 3580505521547832]), (166997606970463, [3818209220434401,
      322003850876835, 3580505521547832]), (166997606970463, [3818209220434401, 1859786928688764,
      3580505521547832]), (166997606970463, [322003850876835, 3818209220434401, 3580505521547832]),
      (166997606970463, [1859786928688764, 322003850876835, 3580505521547832]), (166997606970463,
      [1859786928688764, 3818209220434401, -3580505521547832]), (166997606970463, [322003850876835,
      1859786928688764, -3580505521547832]), (166997606970463, [3818209220434401, 322003850876835,
      -3580505521547832]), (166997606970463, [3818209220434401, 1859786928688764, -3580505521547832]),
      (166997606970463, [322003850876835, 3818209220434401, -3580505521547832]), (166997606970463,
      [1859786928688764, 322003850876835, -3580505521547832])])
    (by kub kubatko_yeager_maggi_6b) (by norm_num) (by decide +kernel)

theorem C56_w3_kubatko_yeager_maggi_6c : Approx kubatko_yeager_maggi_6c 1e-14 :=
  approx_of_check (T := 10 ^ 14) (Dw := 4000000000000000) (D := 6000000000000000) (deg := 6)
    (Z := [(108764249640922, [313461532556601, 5373076934886798, 0]), (108764249640922,
      [5373076934886798, 313461532556601, 0]), (108764249640922, [313461532556601, 313461532556601, 0]),
      (162544166564880, [1189829192841333, 1623811536858987, 0]), (162544166564880, [1623811536858987,
      1189829192841333, 0]), (162544166564880, [1189829192841333, 3186359270299680, 0]),
      (162544166564880, [3186359270299680, 1189829192841333, 0]), (162544166564880, [1623811536858987,
      3186359270299680, 0]), (162544166564880, [3186359270299680, 1623811536858987, 0]),
      (201100563750029, [2000000000000000, 2000000000000000, 5617449074230182]), (201100563750029,
      [2000000000000000, 2000000000000000, -5617449074230182]), (47097659849389, [474900308102304,
      5050199383795392, 5692086883699524]), (47097659849389, [5050199383795392, 474900308102304,
      5692086883699524]), (47097659849389, [474900308102304, 474900308102304, 5692086883699524]),
      (47097659849389, [474900308102304, 5050199383795392, -5692086883699524]), (47097659849389,
      [5050199383795392, 474900308102304, -5692086883699524]), (47097659849389, [474900308102304,
      474900308102304, -5692086883699524]), (167804597090964, [1851079211141298, 3819933019618881,
      3603828316923342]), (167804597090964, [328987769239821, 1851079211141298, 3603828316923342]),
      (167804597090964, [3819933019618881, 328987769239821, 3603828316923342]), (167804597090964,
      [3819933019618881, 1851079211141298, 3603828316923342]), (167804597090964, [328987769239821,
      3819933019618881, 3603828316923342]), (167804597090964, [1851079211141298, 328987769239821,
      3603828316923342]), (167804597090964, [1851079211141298, 3819933019618881, -3603828316923342]),
      (167804597090964, [328987769239821, 1851079211141298, -3603828316923342]), (167804597090964,
      [3819933019618881, 328987769239821, -3603828316923342]), (167804597090964, [3819933019618881,
      1851079211141298, -3603828316923342]), (167804597090964, [328987769239821, 3819933019618881,
      -3603828316923342]), (167804597090964, [1851079211141298, 328987769239821, -3603828316923342])])
    (by kub kubatko_yeager_maggi_6c) (by norm_num) (by decide +kernel)

theorem C56_w3_kubatko_yeager_maggi_7a : Approx kubatko_yeager_maggi_7a 1e-14 :=
  approx_of_check (T := 10 ^ 14) (Dw := 4000000000000000) (D := 6000000000000000) (deg := 7)
    (Z := [(101999439969640, [2841918774593340, 316162450813320, 0]), (101999439969640, [316162450813320,
      2841918774593340, 0]), (101999439969640, [2841918774593340, 2841918774593340, 0]), (13773382049005,
      [-611603090018280, 692695596584736, 0]), (13773382049005, [692695596584736, -611603090018280, 0]),
      (13773382049005, [-611603090018280, 5918907493433553, 0]), (13773382049005, [5918907493433553,
      -611603090018280, 0]), (13773382049005, [692695596584736, 5918907493433553, 0]), (13773382049005,
      [5918907493433553, 692695596584736, 0]), (183161577533988, [580972748244858, 1348424989335435, 0]),
      (183161577533988, [1348424989335435, 580972748244858, 0]), (183161577533988, [580972748244858,
      4070602262419707, 0]), (183161577533988, [4070602262419707, 580972748244858, 0]), (183161577533988,
      [1348424989335435, 4070602262419707, 0]), (183161577533988, [4070602262419707, 1348424989335435,
      0]), (18944865817845, [2000000000000000, 2000000000000000, 7750044314625240]), (18944865817845,
      [2000000000000000, 2000000000000000, -7750044314625240]), (376139984367254, [2000000000000000,
      2000000000000000, 3366182253945588]), (376139984367254, [2000000000000000, 2000000000000000,
      -3366182253945588]), (147104614209618, [2820852384630522, 358295230738956, 4647580015447944]),
      (147104614209618, [358295230738956, 2820852384630522, 4647580015447944]), (147104614209618,
      [2820852384630522, 2820852384630522, 4647580015447944]), (147104614209618, [2820852384630522,
      358295230738956, -4647580015447944]), (147104614209618, [358295230738956, 2820852384630522,
      -4647580015447944]), (147104614209618, [2820852384630522, 2820852384630522, -4647580015447944]),
      (139932422827537, [607719043940703, 4784561912118594, 4647580015449306]), (139932422827537,
      [4784561912118594, 607719043940703, 4647580015449306]), (139932422827537, [607719043940703,
      607719043940703, 4647580015449306]), (139932422827537, [607719043940703, 4784561912118594,
      -4647580015449306]), (139932422827537, [4784561912118594, 607719043940703, -4647580015449306]),
      (139932422827537, [607719043940703, 607719043940703, -4647580015449306])])
    (by kub kubatko_yeager_maggi_7a) (by norm_num) (by decide +kernel)

theorem C56_w3_kubatko_yeager_maggi_7b : Approx kubatko_yeager_maggi_7b 1e-15 :=
  approx_of_check (T := 10 ^ 15) (Dw := 4000000000000000) (D := 6000000000000000) (deg := 7)
    (Z := [(-879316328492506, [601828501399815, 4796342997200370, 0]), (-879316328492506,
      [4796342997200370, 601828501399815, 0]), (-879316328492506, [601828501399815, 601828501399815, 0]),
      (372687220323677, [1166061401502984, 3667877196994032, 0]), (372687220323677, [3667877196994032,
      1166061401502984, 0]), (372687220323677, [1166061401502984, 1166061401502984, 0]),
      (323126141949260, [370967567544675, 1161144841355544, 0]), (323126141949260, [1161144841355544,
      370967567544675, 0]), (323126141949260, [370967567544675, 4467887591099784, 0]), (323126141949260,
      [4467887591099784, 370967567544675, 0]), (323126141949260, [1161144841355544, 4467887591099784,
      0]), (323126141949260, [4467887591099784, 1161144841355544, 0]), (289007666422544,
      [2000000000000000, 2000000000000000, 4407696659824506]), (289007666422544, [2000000000000000,
      2000000000000000, -4407696659824506]), (153278562247698, [2843866047270894, 312267905458212,
      4360809390542346]), (153278562247698, [312267905458212, 2843866047270894, 4360809390542346]),
      (153278562247698, [2843866047270894, 2843866047270894, 4360809390542346]), (153278562247698,
      [2843866047270894, 312267905458212, -4360809390542346]), (153278562247698, [312267905458212,
      2843866047270894, -4360809390542346]), (153278562247698, [2843866047270894, 2843866047270894,
      -4360809390542346]), (65992821952079, [729035115555405, 4541929768889190, 5859954977579088]),
      (65992821952079, [4541929768889190, 729035115555405, 5859954977579088]), (65992821952079,
      [729035115555405, 729035115555405, 5859954977579088]), (65992821952079, [729035115555405,
      4541929768889190, -5859954977579088]), (65992821952079, [4541929768889190, 729035115555405,
      -5859954977579088]), (65992821952079, [729035115555405, 729035115555405, -5859954977579088]),
      (281247805794530, [454257704096286, 5091484591807428, 1835390964099954]), (281247805794530,
      [5091484591807428, 454257704096286, 1835390964099954]), (281247805794530, [454257704096286,
      454257704096286, 1835390964099954]), (281247805794530, [454257704096286, 5091484591807428,
      -1835390964099954]), (281247805794530, [5091484591807428, 454257704096286, -1835390964099954]),
      (281247805794530, [454257704096286, 454257704096286, -1835390964099954])])
    (by kub kubatko_yeager_maggi_7b) (by norm_num) (by decide +kernel)

theorem C56_w3_kubatko_yeager_maggi_7c : Approx kubatko_yeager_maggi_7c 1e-14 :=
  approx_of_check (T := 10 ^ 14) (Dw := 4000000000000000) (D := 6000000000000000) (deg := 7)
    (Z := [(187125249811092, [2000000000000000, 2000000000000000, 0]), (279712056646351,
      [1132308226511637, 3735383546976726, 0]), (279712056646351, [3735383546976726, 1132308226511637,
      0]), (279712056646351, [1132308226511637, 1132308226511637, 0]), (192663794476979,
      [2547159505089258, 905680989821484, 4438230921878490]), (192663794476979, [905680989821484,
      2547159505089258, 4438230921878490]), (192663794476979, [2547159505089258, 2547159505089258,
      4438230921878490]), (192663794476979, [2547159505089258, 905680989821484, -4438230921878490]),
      (192663794476979, [905680989821484, 2547159505089258, -4438230921878490]), (192663794476979,
      [2547159505089258, 2547159505089258, -4438230921878490]), (77939984185063, [334682708090718,
      5330634583818564, 3127151308754046]), (77939984185063, [5330634583818564, 334682708090718,
      3127151308754046]), (77939984185063, [334682708090718, 334682708090718, 3127151308754046]),
      (77939984185063, [334682708090718, 5330634583818564, -3127151308754046]), (77939984185063,
      [5330634583818564, 334682708090718, -3127151308754046]), (77939984185063, [334682708090718,
      334682708090718, -3127151308754046]), (37328649790157, [1291197286745166, 4346384523803349,
      5807086594348548]), (37328649790157, [362418189451485, 1291197286745166, 5807086594348548]),
      (37328649790157, [4346384523803349, 362418189451485, 5807086594348548]), (37328649790157,
      [4346384523803349, 1291197286745166, 5807086594348548]), (37328649790157, [362418189451485,
      4346384523803349, 5807086594348548]), (37328649790157, [1291197286745166, 362418189451485,
      5807086594348548]), (37328649790157, [1291197286745166, 4346384523803349, -5807086594348548]),
      (37328649790157, [362418189451485, 1291197286745166, -5807086594348548]), (37328649790157,
      [4346384523803349, 362418189451485, -5807086594348548]), (37328649790157, [4346384523803349,
      1291197286745166, -5807086594348548]), (37328649790157, [362418189451485, 4346384523803349,
      -5807086594348548]), (37328649790157, [1291197286745166, 362418189451485, -5807086594348548]),
      (75181009232977, [1955732519962722, 3913755366338904, 2480467976232138]), (75181009232977,
      [130512113698374, 1955732519962722, 2480467976232138]), (75181009232977, [3913755366338904,
      130512113698374, 2480467976232138]), (75181009232977, [3913755366338904, 1955732519962722,
      2480467976232138]), (75181009232977, [130512113698374, 3913755366338904, 2480467976232138]),
      (75181009232977, [1955732519962722, 130512113698374, 2480467976232138]), (75181009232977,
      [1955732519962722, 3913755366338904, -2480467976232138]), (75181009232977, [130512113698374,
      1955732519962722, -2480467976232138]), (75181009232977, [3913755366338904, 130512113698374,
      -2480467976232138]), (75181009232977, [3913755366338904, 1955732519962722, -2480467976232138]),
      (75181009232977, [130512113698374, 3913755366338904, -2480467976232138]), (75181009232977,
      [1955732519962722, 130512113698374, -2480467976232138])])
    (by kub kubatko_yeager_maggi_7c) (by norm_num) (by decide +kernel)

theorem C56_w3_kubatko_yeager_maggi_8a : Approx kubatko_yeager_maggi_8a 1e-11 :=
  approx_of_check (T := 10 ^ 11) (Dw := 4000000000000000) (D := 6000000000000000) (deg := 8)
    (Z := [(-628896123664332, [2000000000000000, 2000000000000000, 0]), (-9664501734, [5197711295191497,
      -4395422590382994, 0]), (-9664501734, [-4395422590382994, 5197711295191497, 0]), (-9664501734,
      [5197711295191497, 5197711295191497, 0]), (290043889959886, [2666159599803813, 667680800392374,
      0]), (290043889959886, [667680800392374, 2666159599803813, 0]), (290043889959886,
      [2666159599803813, 2666159599803813, 0]), (164125220310641, [767296500335415, 4465406999329170,
      0]), (164125220310641, [4465406999329170, 767296500335415, 0]), (164125220310641, [767296500335415,
      767296500335415, 0]), (500978176529324, [2000000000000000, 2000000000000000, 1947792987252354]),
      (500978176529324, [2000000000000000, 2000000000000000, -1947792987252354]), (137896989572043,
      [1034086545499812, 3931826909000376, 4183391720089644]), (137896989572043, [3931826909000376,
      1034086545499812, 4183391720089644]), (137896989572043, [1034086545499812, 1034086545499812,
      4183391720089644]), (137896989572043, [1034086545499812, 3931826909000376, -4183391720089644]),
      (137896989572043, [3931826909000376, 1034086545499812, -4183391720089644]), (137896989572043,
      [1034086545499812, 1034086545499812, -4183391720089644]), (93150738786246, [2665827928730199,
      668344142539602, 5508514517828652]), (93150738786246, [668344142539602, 2665827928730199,
      5508514517828652]), (93150738786246, [2665827928730199, 2665827928730199, 5508514517828652]),
      (93150738786246, [2665827928730199, 668344142539602, -5508514517828652]), (93150738786246,
      [668344142539602, 2665827928730199, -5508514517828652]), (93150738786246, [2665827928730199,
      2665827928730199, -5508514517828652]), (26296598245927, [418495133015958, 5163009733968084,
      5730605583148374]), (26296598245927, [5163009733968084, 418495133015958, 5730605583148374]),
      (26296598245927, [418495133015958, 418495133015958, 5730605583148374]), (26296598245927,
      [418495133015958, 5163009733968084, -5730605583148374]), (26296598245927, [5163009733968084,
      418495133015958, -5730605583148374]), (26296598245927, [418495133015958, 418495133015958,
      -5730605583148374]), (31254499752794, [212721741950568, 5574556516098864, 2512440916627494]),
      (31254499752794, [5574556516098864, 212721741950568, 2512440916627494]), (31254499752794,
      [212721741950568, 212721741950568, 2512440916627494]), (31254499752794, [212721741950568,
      5574556516098864, -2512440916627494]), (31254499752794, [5574556516098864, 212721741950568,
      -2512440916627494]), (31254499752794, [212721741950568, 212721741950568, -2512440916627494]),
      (44405706263133, [1796034099699228, 4285740818003022, 3464101587621312]), (44405706263133,
      [-81774917702250, 1796034099699228, 3464101587621312]), (44405706263133, [4285740818003022,
      -81774917702250, 3464101587621312]), (44405706263133, [4285740818003022, 1796034099699228,
      3464101587621312]), (44405706263133, [-81774917702250, 4285740818003022, 3464101587621312]),
      (44405706263133, [1796034099699228, -81774917702250, 3464101587621312]), (44405706263133,
      [1796034099699228, 4285740818003022, -3464101587621312]), (44405706263133, [-81774917702250,
      1796034099699228, -3464101587621312]), (44405706263133, [4285740818003022, -81774917702250,
      -3464101587621312]), (44405706263133, [4285740818003022, 1796034099699228, -3464101587621312]),
      (44405706263133, [-81774917702250, 4285740818003022, -3464101587621312]), (44405706263133,
      [1796034099699228, -81774917702250, -3464101587621312])])
    (by kub kubatko_yeager_maggi_8a) (by norm_num) (by decide +kernel)

theorem C56_w3_kubatko_yeager_maggi_8b : Approx kubatko_yeager_maggi_8b 1e-14 :=
  approx_of_check (T := 10 ^ 14) (Dw := 4000000000000000) (D := 6000000000000000) (deg := 8)
    (Z := [(64622878644877, [2000000000000000, 2000000000000000, 0]), (212815083510681,
      [2757825610848768, 484348778302464, 0]), (212815083510681, [484348778302464, 2757825610848768, 0]),
      (212815083510681, [2757825610848768, 2757825610848768, 0]), (222859308690085, [2000000000000000,
      2000000000000000, 3941441124168708]), (222859308690085, [2000000000000000, 2000000000000000,
      -3941441124168708]), (33167391229558, [2000000000000000, 2000000000000000, 1337342528343108]),
      (33167391229558, [2000000000000000, 2000000000000000, -1337342528343108]), (83683503199655,
      [2753468412892998, 493063174214004, 5250538974059592]), (83683503199655, [493063174214004,
      2753468412892998, 5250538974059592]), (83683503199655, [2753468412892998, 2753468412892998,
      5250538974059592]), (83683503199655, [2753468412892998, 493063174214004, -5250538974059592]),
      (83683503199655, [493063174214004, 2753468412892998, -5250538974059592]), (83683503199655,
      [2753468412892998, 2753468412892998, -5250538974059592]), (160178684391513, [1032805654509093,
      3934388690981814, 2393494682840346]), (160178684391513, [3934388690981814, 1032805654509093,
      2393494682840346]), (160178684391513, [1032805654509093, 1032805654509093, 2393494682840346]),
      (160178684391513, [1032805654509093, 3934388690981814, -2393494682840346]), (160178684391513,
      [3934388690981814, 1032805654509093, -2393494682840346]), (160178684391513, [1032805654509093,
      1032805654509093, -2393494682840346]), (35678259898902, [310923280564026, 5378153438871948,
      456265681253958]), (35678259898902, [5378153438871948, 310923280564026, 456265681253958]),
      (35678259898902, [310923280564026, 310923280564026, 456265681253958]), (35678259898902,
      [310923280564026, 5378153438871948, -456265681253958]), (35678259898902, [5378153438871948,
      310923280564026, -456265681253958]), (35678259898902, [310923280564026, 310923280564026,
      -456265681253958]), (29230569799017, [294335554810071, 5411328890379858, 5028807184956006]),
      (29230569799017, [5411328890379858, 294335554810071, 5028807184956006]), (29230569799017,
      [294335554810071, 294335554810071, 5028807184956006]), (29230569799017, [294335554810071,
      5411328890379858, -5028807184956006]), (29230569799017, [5411328890379858, 294335554810071,
      -5028807184956006]), (29230569799017, [294335554810071, 294335554810071, -5028807184956006]),
      (46399681341109, [993378189780417, 4013243620439166, 5774537807167662]), (46399681341109,
      [4013243620439166, 993378189780417, 5774537807167662]), (46399681341109, [993378189780417,
      993378189780417, 5774537807167662]), (46399681341109, [993378189780417, 4013243620439166,
      -5774537807167662]), (46399681341109, [4013243620439166, 993378189780417, -5774537807167662]),
      (46399681341109, [993378189780417, 993378189780417, -5774537807167662]), (54487856600218,
      [1578298571064531, 4371088184892036, 3464101615157790]), (54487856600218, [50613244043433,
      1578298571064531, 3464101615157790]), (54487856600218, [4371088184892036, 50613244043433,
      3464101615157790]), (54487856600218, [4371088184892036, 1578298571064531, 3464101615157790]),
      (54487856600218, [50613244043433, 4371088184892036, 3464101615157790]), (54487856600218,
      [1578298571064531, 50613244043433, 3464101615157790]), (54487856600218, [1578298571064531,
      4371088184892036, -3464101615157790]), (54487856600218, [50613244043433, 1578298571064531,
      -3464101615157790]), (54487856600218, [4371088184892036, 50613244043433, -3464101615157790]),
      (54487856600218, [4371088184892036, 1578298571064531, -3464101615157790]), (54487856600218,
      [50613244043433, 4371088184892036, -3464101615157790]), (54487856600218, [1578298571064531,
      50613244043433, -3464101615157790])])
    (by kub kubatko_yeager_maggi_8b) (by norm_num) (by decide +kernel)

theorem C56_w3_kubatko_yeager_maggi_9 : Approx kubatko_yeager_maggi_9 1e-14 :=
  approx_of_check (T := 10 ^ 14) (Dw := 4000000000000000) (D := 6000000000000000) (deg := 9)
    (Z := [(179697999934032, [989366633018061, 4021266733963878, 0]), (179697999934032,
      [4021266733963878, 989366633018061, 0]), (179697999934032, [989366633018061, 989366633018061, 0]),
      (29779770020782, [36938962139859, 1081578379514265, 0]), (29779770020782, [1081578379514265,
      36938962139859, 0]), (29779770020782, [36938962139859, 4881482658345876, 0]), (29779770020782,
      [4881482658345876, 36938962139859, 0]), (29779770020782, [1081578379514265, 4881482658345876, 0]),
      (29779770020782, [4881482658345876, 1081578379514265, 0]), (93251945517294, [2000000000000000,
      2000000000000000, 783393599865336]), (93251945517294, [2000000000000000, 2000000000000000,
      -783393599865336]), (79389858812471, [1403128286111565, 3193743427776870, 5377046775424656]),
      (79389858812471, [3193743427776870, 1403128286111565, 5377046775424656]), (79389858812471,
      [1403128286111565, 1403128286111565, 5377046775424656]), (79389858812471, [1403128286111565,
      3193743427776870, -5377046775424656]), (79389858812471, [3193743427776870, 1403128286111565,
      -5377046775424656]), (79389858812471, [1403128286111565, 1403128286111565, -5377046775424656]),
      (144411166376722, [2538685799431980, 922628401136040, 2981316611740212]), (144411166376722,
      [922628401136040, 2538685799431980, 2981316611740212]), (144411166376722, [2538685799431980,
      2538685799431980, 2981316611740212]), (144411166376722, [2538685799431980, 922628401136040,
      -2981316611740212]), (144411166376722, [922628401136040, 2538685799431980, -2981316611740212]),
      (144411166376722, [2538685799431980, 2538685799431980, -2981316611740212]), (30059746399875,
      [227649547699311, 5544700904601378, 2650320603431202]), (30059746399875, [5544700904601378,
      227649547699311, 2650320603431202]), (30059746399875, [227649547699311, 227649547699311,
      2650320603431202]), (30059746399875, [227649547699311, 5544700904601378, -2650320603431202]),
      (30059746399875, [5544700904601378, 227649547699311, -2650320603431202]), (30059746399875,
      [227649547699311, 227649547699311, -2650320603431202]), (21462670335182, [377584366632204,
      5244831266735592, 5632345775512350]), (21462670335182, [5244831266735592, 377584366632204,
      5632345775512350]), (21462670335182, [377584366632204, 377584366632204, 5632345775512350]),
      (21462670335182, [377584366632204, 5244831266735592, -5632345775512350]), (21462670335182,
      [5244831266735592, 377584366632204, -5632345775512350]), (21462670335182, [377584366632204,
      377584366632204, -5632345775512350]), (20254759898769, [2232650177616558, 3572713324475529,
      5594017888463298]), (20254759898769, [194636497907913, 2232650177616558, 5594017888463298]),
      (20254759898769, [3572713324475529, 194636497907913, 5594017888463298]), (20254759898769,
      [3572713324475529, 2232650177616558, 5594017888463298]), (20254759898769, [194636497907913,
      3572713324475529, 5594017888463298]), (20254759898769, [2232650177616558, 194636497907913,
      5594017888463298]), (20254759898769, [2232650177616558, 3572713324475529, -5594017888463298]),
      (20254759898769, [194636497907913, 2232650177616558, -5594017888463298]), (20254759898769,
      [3572713324475529, 194636497907913, -5594017888463298]), (20254759898769, [3572713324475529,
      2232650177616558, -5594017888463298]), (20254759898769, [194636497907913, 3572713324475529,
      -5594017888463298]), (20254759898769, [2232650177616558, 194636497907913, -5594017888463298]),
      (30927308427916, [2715883718200068, 3102950093052675, 1508443909483608]), (30927308427916,
      [181166188747257, 2715883718200068, 1508443909483608]), (30927308427916, [3102950093052675,
      181166188747257, 1508443909483608]), (30927308427916, [3102950093052675, 2715883718200068,
      1508443909483608]), (30927308427916, [181166188747257, 3102950093052675, 1508443909483608]),
      (30927308427916, [2715883718200068, 181166188747257, 1508443909483608]), (30927308427916,
      [2715883718200068, 3102950093052675, -1508443909483608]), (30927308427916, [181166188747257,
      2715883718200068, -1508443909483608]), (30927308427916, [3102950093052675, 181166188747257,
      -1508443909483608]), (30927308427916, [3102950093052675, 2715883718200068, -1508443909483608]),
      (30927308427916, [181166188747257, 3102950093052675, -1508443909483608]), (30927308427916,
      [2715883718200068, 181166188747257, -1508443909483608]), (69133168131076, [1380926104676115,
      4313134230844122, 3898643812474158]), (69133168131076, [305939664479763, 1380926104676115,
      3898643812474158]), (69133168131076, [4313134230844122, 305939664479763, 3898643812474158]),
      (69133168131076, [4313134230844122, 1380926104676115, 3898643812474158]), (69133168131076,
      [305939664479763, 4313134230844122, 3898643812474158]), (69133168131076, [1380926104676115,
      305939664479763, 3898643812474158]), (69133168131076, [1380926104676115, 4313134230844122,
      -3898643812474158]), (69133168131076, [305939664479763, 1380926104676115, -3898643812474158]),
      (69133168131076, [4313134230844122, 305939664479763, -3898643812474158]), (69133168131076,
      [4313134230844122, 1380926104676115, -3898643812474158]), (69133168131076, [305939664479763,
      4313134230844122, -3898643812474158]), (69133168131076, [1380926104676115, 305939664479763,
      -3898643812474158])])
    (by kub kubatko_yeager_maggi_9) (by norm_num) (by decide +kernel)

end Quadpy.W3.Kubatko
