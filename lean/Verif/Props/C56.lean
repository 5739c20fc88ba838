import Verif.Lemmas.DecimalCheck
import Verif.Lemmas.Moments9
import Verif.Model.DecimalRules

/-!
# C56: rules given by decimal numbers
-/

namespace Quadpy.DecimalT2
open Dec

theorem C56_t2_lyness_jespersen_05 : lyness_jespersen_05.ApproxOnSimplex 2 1e-17 :=
  simplex_of_check (T := 10 ^ 17) (Dw := 6000000000000000) (D := 300000000000000000) (deg := 4)
    (Z := [⟨.d3_aa, [659710461931931, 1340289538068069], [[27472864052931219], [133784547274789470]]⟩])
    (by norm_num [lyness_jespersen_05, zScheme, ZEntry.toEntry, rz]) (by norm_num) (by decide +kernel)

theorem C56_t2_lyness_jespersen_12 : lyness_jespersen_12.ApproxOnSimplex 2 1e-16 :=
  simplex_of_check (T := 10 ^ 16) (Dw := 60000000000000000) (D := 30000000000000000) (deg := 6)
    (Z := [⟨.centroid, [9162538007301138], [[]]⟩, ⟨.d3_aa, [5888152084733524, 7774105756837532],
      [[14214924418609539], [5163530088924525]]⟩, ⟨.d3_ab, [1641781411330949], [[0,
      25959220622503713]]⟩])
    (by norm_num [lyness_jespersen_12, zScheme, ZEntry.toEntry, rz]) (by norm_num) (by decide +kernel)

theorem C56_t2_lyness_jespersen_13 : lyness_jespersen_13.ApproxOnSimplex 2 1e-13 :=
  simplex_of_check (T := 10 ^ 13) (Dw := 30000000000000000) (D := 300000000000000000) (deg := 7)
    (Z := [⟨.centroid, [-4487101334032485], [[]]⟩, ⟨.d3_aa, [5268457722996328, 1600417068265167],
      [[78103789823713980], [19539030870664869]]⟩, ⟨.d3_ab, [2313412826707750], [[191533256570942880,
      14607094627595268]]⟩])
    (by norm_num [lyness_jespersen_13, zScheme, ZEntry.toEntry, rz]) (by norm_num) (by decide +kernel)

theorem C56_t2_lyness_jespersen_14 : lyness_jespersen_14.ApproxOnSimplex 2 1e-13 :=
  simplex_of_check (T := 10 ^ 13) (Dw := 60000000000000000) (D := 7500000000000000) (deg := 7)
    (Z := [⟨.centroid, [10578756936031512], [[]]⟩, ⟨.vertex, [242180306552662], [[]]⟩, ⟨.d3_aa,
      [6999123515394188, 6390239508850440], [[1162020451678203], [3518630596078590]]⟩, ⟨.d3_ab,
      [1421102178595603], [[0, 6294743792046927]]⟩])
    (by norm_num [lyness_jespersen_14, zScheme, ZEntry.toEntry, rz]) (by norm_num) (by decide +kernel)

theorem C56_t2_lyness_jespersen_15 : lyness_jespersen_15.ApproxOnSimplex 2 1e-16 :=
  simplex_of_check (T := 10 ^ 16) (Dw := 30000000000000000) (D := 3000000000000000000) (deg := 8)
    (Z := [⟨.centroid, [4329468230333586], [[]]⟩, ⟨.d3_aa, [2852749028018549, 973754928695944,
      3096521116041552], [[1377877764878168700], [151641684951093090], [511707923255280300]]⟩, ⟨.d3_ab,
      [816909425233046], [[25184332229871633, 2185477178866212300]]⟩])
    (by norm_num [lyness_jespersen_15, zScheme, ZEntry.toEntry, rz]) (by norm_num) (by decide +kernel)

theorem C56_t2_lyness_jespersen_16 : lyness_jespersen_16.ApproxOnSimplex 2 1e-11 :=
  simplex_of_check (T := 10 ^ 11) (Dw := 60000000000000000) (D := 300000000000000000) (deg := 8)
    (Z := [⟨.vertex, [241454787058555], [[]]⟩, ⟨.d3_aa, [-16983159758302910, 20847349377826680,
      3894459582824520, 9023705534402644], [[150000000000000000], [148704418252667460],
      [27098327254279599], [70246424912191560]]⟩, ⟨.d3_ab, [1488095238055238], [[0,
      217082039324992500]]⟩])
    (by norm_num [lyness_jespersen_16, zScheme, ZEntry.toEntry, rz]) (by norm_num) (by decide +kernel)

theorem C56_t2_lyness_jespersen_17 : lyness_jespersen_17.ApproxOnSimplex 2 1e-15 :=
  simplex_of_check (T := 10 ^ 15) (Dw := 60000000000000000) (D := 300000000000000000) (deg := 8)
    (Z := [⟨.centroid, [-17005103106683748], [[]]⟩, ⟨.d3_aa, [4194417715959144, 1025454760296053,
      13129792939827016], [[142999631814645750], [10131553216344099], [81104366749621200]]⟩, ⟨.d3_ab,
      [3659351143072855], [[15439300645998447, 223748847230175420]]⟩])
    (by norm_num [lyness_jespersen_17, zScheme, ZEntry.toEntry, rz]) (by norm_num) (by decide +kernel)

theorem C56_t2_lyness_jespersen_18 : lyness_jespersen_18.ApproxOnSimplex 2 1e-15 :=
  simplex_of_check (T := 10 ^ 15) (Dw := 30000000000000000) (D := 300000000000000000) (deg := 9)
    (Z := [⟨.centroid, [2914073888483883], [[]]⟩, ⟨.d3_aa, [940041006814195, 2334826230143263,
      2389432167816271, 767330269760943], [[146904755759621100], [131126877447880650],
      [56461060685709660], [13418854018335891]]⟩, ⟨.d3_ab, [1298506181318682], [[11051523616420878,
      222359579635349400]]⟩])
    (by norm_num [lyness_jespersen_18, zScheme, ZEntry.toEntry, rz]) (by norm_num) (by decide +kernel)

theorem C56_t2_lyness_jespersen_19 : lyness_jespersen_19.ApproxOnSimplex 2 1e-16 :=
  simplex_of_check (T := 10 ^ 16) (Dw := 300000000000000000) (D := 300000000000000000) (deg := 9)
    (Z := [⟨.centroid, [34008745337975760], [[]]⟩, ⟨.vertex, [106257378984633], [[]]⟩, ⟨.d3_aa,
      [4803411513859279, 25242430063373000, 7819254371487040, 24722274599930480], [[150000000000000000],
      [134933801456104860], [14084232959727099], [57561573821234670]]⟩, ⟨.d3_ab, [12985061813186820],
      [[11051523616420878, 222359579635349400]]⟩])
    (by norm_num [lyness_jespersen_19, zScheme, ZEntry.toEntry, rz]) (by norm_num) (by decide +kernel)

theorem C56_t2_lyness_jespersen_20 : lyness_jespersen_20.ApproxOnSimplex 2 1e-14 :=
  simplex_of_check (T := 10 ^ 14) (Dw := 1500000000000000000) (D := 300000000000000000) (deg := 11)
    (Z := [⟨.d3_aa, [20489596504015530, 54276810755143300, 1390509493440906, 88984466071133400,
      115724302372233850], [[9709484433381519], [35805273684777930], [160383314481227160],
      [60992970129384480], [119690790889756740]]⟩, ⟨.d3_ab, [78505667943305850, 31061489458710925],
      [[15053441493148422, 177960364028463960], [6306604960849839, 242246700947937690]]⟩])
    (by norm_num [lyness_jespersen_20, zScheme, ZEntry.toEntry, rz]) (by norm_num) (by decide +kernel)

theorem C56_t2_lyness_jespersen_21 : lyness_jespersen_21.ApproxOnSimplex 2 1e-15 :=
  simplex_of_check (T := 10 ^ 15) (Dw := 300000000000000000) (D := 300000000000000000) (deg := 11)
    (Z := [⟨.centroid, [26393190348666570], [[]]⟩, ⟨.d3_aa, [2623293466120857, 11424471598180600,
      5656634416839376, 21647909263422300, 20798741611661160], [[7796742278486499], [28286250794376810],
      [148391032505164410], [62203014784354260], [131672341710147210]]⟩, ⟨.d3_ab, [2208715134990172,
      12316894628786580], [[0, 257661084384790920], [13452503276739165, 203381296464777060]]⟩])
    (by norm_num [lyness_jespersen_21, zScheme, ZEntry.toEntry, rz]) (by norm_num) (by decide +kernel)

theorem C56_t2_laursen_gellert_06 : laursen_gellert_06.ApproxOnSimplex 2 1e-15 :=
  simplex_of_check (T := 10 ^ 15) (Dw := 48) (D := 3000000000000000) (deg := 4)
    (Z := [⟨.centroid, [18], [[]]⟩, ⟨.d3_ab, [5], [[2210137496905305, 713797099417302]]⟩])
    (by norm_num [laursen_gellert_06, zScheme, ZEntry.toEntry, rz]) (by norm_num) (by decide +kernel)

theorem C56_t2_laursen_gellert_07 : laursen_gellert_07.ApproxOnSimplex 2 1e-15 :=
  simplex_of_check (T := 10 ^ 15) (Dw := 1000000000000000) (D := 3000000000000000) (deg := 5)
    (Z := [⟨.centroid, [225000000000000], [[]]⟩, ⟨.d3_aa, [125939180544827, 132394152788506],
      [[303859521970368], [1410426192315345]]⟩])
    (by norm_num [laursen_gellert_07, zScheme, ZEntry.toEntry, rz]) (by norm_num) (by decide +kernel)

theorem C56_t2_strang_fix_cowper_06 : strang_fix_cowper_06.ApproxOnSimplex 2 1e-15 :=
  simplex_of_check (T := 10 ^ 15) (Dw := 48) (D := 3000000000000000) (deg := 4)
    (Z := [⟨.centroid, [18], [[]]⟩, ⟨.d3_ab, [5], [[2210137496905305, 713797099417302]]⟩])
    (by norm_num [strang_fix_cowper_06, zScheme, ZEntry.toEntry, rz]) (by norm_num) (by decide +kernel)

theorem C56_t2_strang_fix_cowper_07 : strang_fix_cowper_07.ApproxOnSimplex 2 1e-17 :=
  simplex_of_check (T := 10 ^ 17) (Dw := 100000000000000000) (D := 300000000000000000) (deg := 5)
    (Z := [⟨.centroid, [22500000000000000], [[]]⟩, ⟨.d3_aa, [12593918054482717, 13239415278850616],
      [[30385952197036899], [141042619231534515]]⟩])
    (by norm_num [strang_fix_cowper_07, zScheme, ZEntry.toEntry, rz]) (by norm_num) (by decide +kernel)

theorem C56_t2_franke_09 : franke_09.ApproxOnSimplex 2 1e-15 :=
  simplex_of_check (T := 10 ^ 15) (Dw := 50000000000000000) (D := 300000000000000000) (deg := 7)
    (Z := [⟨.plain, [2633215013604600, 6667506099020850, 5983984722975140, 3022443080272870,
      3871391024628970, 3871391024628970, 2231031308161470, 2231031308161470, 930956404694027,
      930956404694027, 3653829270092960, 3653829270092960, 5159217534485850, 5159217534485850],
      [[19390232940485130, 19390232940485130, 261219534119029740], [75143629278246300, 75143629278246300,
      149712741443507400], [121586433940379400, 121586433940379400, 56827132119241200],
      [145028552118072000, 145028552118072000, 9942895763856000], [14707246471724040, 93725438700685500,
      191567314827590460], [93725438700685500, 14707246471724040, 191567314827590460], [8179647516750480,
      194948975649044400, 96871376834205120], [194948975649044400, 8179647516750480, 96871376834205120],
      [2244276015127563, 276878767409591100, 20876956575281337], [276878767409591100, 2244276015127563,
      20876956575281337], [50015606295427500, 232739064148280400, 17245329556292100],
      [232739064148280400, 50015606295427500, 17245329556292100], [45590872614689100, 170730402540093600,
      83678724845217300], [170730402540093600, 45590872614689100, 83678724845217300]]⟩])
    (by norm_num [franke_09, zScheme, ZEntry.toEntry, rz]) (by norm_num) (by decide +kernel)

theorem C56_t2_franke_10 : franke_10.ApproxOnSimplex 2 1e-15 :=
  simplex_of_check (T := 10 ^ 15) (Dw := 5000000000000000) (D := 30000000000000000) (deg := 7)
    (Z := [⟨.plain, [260816160868233, 663602357926664, 561731171392644, 239526221275731, 394576126986614,
      394576126986614, 235501218540342, 235501218540342, 162658476936259, 162658476936259,
      318232366904684, 318232366904684, 526193854900464, 526193854900464], [[1929634710347877,
      1929634710347877, 26140730579304246], [7589949941565450, 7589949941565450, 14820100116869100],
      [12292419428820900, 12292419428820900, 5415161142358200], [14563868637846270, 14563868637846270,
      872262724307460], [1512257800710381, 9316645306778880, 19171096892510739], [9316645306778880,
      1512257800710381, 19171096892510739], [837367735313520, 19430213937710280, 9732418326976200],
      [19430213937710280, 837367735313520, 9732418326976200], [1092238136482548, 26873575321179570,
      2034186542337882], [26873575321179570, 1092238136482548, 2034186542337882], [6070467470829930,
      22301257579826700, 1628274949343370], [22301257579826700, 6070467470829930, 1628274949343370],
      [4801207671310350, 16945536506287440, 8253255822402210], [16945536506287440, 4801207671310350,
      8253255822402210]]⟩])
    (by norm_num [franke_10, zScheme, ZEntry.toEntry, rz]) (by norm_num) (by decide +kernel)

end Quadpy.DecimalT2

namespace Quadpy.DecimalT3
open Dec

theorem C56_t3_keast_3 : keast_3.ApproxOnSimplex 3 1e-15 :=
  simplex_of_check (T := 10 ^ 15) (Dw := 10000000000000000) (D := 7500000000000000) (deg := 3)
    (Z := [⟨.s31, [2177650698804054], [[1078923539507889]]⟩, ⟨.s22, [214899534130631],
      [[3750000000000000]]⟩])
    (by norm_num [keast_3, zScheme, ZEntry.toEntry, rz]) (by norm_num) (by decide +kernel)

theorem C56_t3_keast_5 : keast_5.ApproxOnSimplex 3 1e-15 :=
  simplex_of_check (T := 10 ^ 15) (Dw := 210000000000000000) (D := 30000000000000000) (deg := 4)
    (Z := [⟨.s22, [4000000000000000], [[15000000000000000]]⟩, ⟨.s31, [18603863196025947,
      27896136803974047], [[3015802956756135], [9431186204795766]]⟩])
    (by norm_num [keast_5, zScheme, ZEntry.toEntry, rz]) (by norm_num) (by decide +kernel)

end Quadpy.DecimalT3

namespace Quadpy.DecimalC2
open Dec

theorem C56_c2_franke_8 : franke_8.ApproxRel 2 (Spec.cube 2) 1e-15 :=
  sym_of_check (ratMom_cube 2) (T := 10 ^ 15) (Dw := 20000000000000000) (D := 3000000000000000) (deg := 1)
    (Z := [⟨.d4_a0, [2270819803433745], [[1466780570923107]]⟩, ⟨.d4_aa, [1071001804634310,
      213656159328879], [[2072641651459032], [2818695774290514]]⟩, ⟨.d4_ab, [722261116301535],
      [[2755861323170166, 1034616076093212]]⟩])
    (by norm_num [franke_8, zScheme, ZEntry.toEntry, rz]) (by norm_num) (by decide +kernel)

end Quadpy.DecimalC2

namespace Quadpy.DecimalC3
open Dec

theorem C56_c3_witherden_vincent_07 : witherden_vincent_07.ApproxRel 3 (Spec.cube 3) 1e-38 :=
  sym_of_check (ratMom_cube 3) (T := 10 ^ 38) (Dw := 800000000000000000000000000000000000000) (D := 300000000000000000000000000000000000000) (deg := 7)
    (Z := [⟨.symm_r00, [20012989098356700695575850638756794678],
      [[296425848356602964581379188783966963446]]⟩, ⟨.symm_rr0, [15930172375100887182052758490800036662],
      [[254415682705211618338866257278223518149]]⟩, ⟨.symm_rrr, [45715385606985274296912190785204854361,
      15379614006595869408326783499527494637], [[122386550207495809899242748754561760568],
      [234330846301235551995410444147786220609]]⟩])
    (by norm_num [witherden_vincent_07, zScheme, ZEntry.toEntry, rz]) (by norm_num) (by decide +kernel)

theorem C56_c3_witherden_vincent_09 : witherden_vincent_09.ApproxRel 3 (Spec.cube 3) 1e-38 :=
  sym_of_check (ratMom_cube 3) (T := 10 ^ 38) (Dw := 4000000000000000000000000000000000000000) (D := 300000000000000000000000000000000000000) (deg := 9)
    (Z := [⟨.symm_r00, [216637497874827271504915396597161004065],
      [[184104440877512698150465466922167065356]]⟩, ⟨.symm_rr0, [45894903068088821085622294459823165651],
      [[263306136977303485946032727698299708792]]⟩, ⟨.symm_rrr, [25074397649674514933725743862330843802,
      99429919072011750160434359292804603985], [[261029935398592775284519142659177449918],
      [169233242106009016279985699598921849198]]⟩, ⟨.symm_rrs, [48058401756686683216239969235753016895],
      [[129680370789258649324807458455083151727, 281559126559401523598693060880923638524]]⟩])
    (by norm_num [witherden_vincent_09, zScheme, ZEntry.toEntry, rz]) (by norm_num) (by decide +kernel)

theorem C56_c3_witherden_vincent_11 : witherden_vincent_11.ApproxRel 3 (Spec.cube 3) 1e-38 :=
  sym_of_check (ratMom_cube 3) (T := 10 ^ 38) (Dw := 8000000000000000000000000000000000000000) (D := 300000000000000000000000000000000000000) (deg := 11)
    (Z := [⟨.symm_r00, [202477073612800190585337130967019658900],
      [[243784300229887948917712679213923297833]]⟩, ⟨.symm_rr0,
      [145199345860115698292505800794259823050], [[220400486099102405203915430960264756376]]⟩,
      ⟨.symm_rrr, [117538347956456280389931804010682127110, 44643912078829241641001154282130043664,
      215992045254969129313466666384441313610], [[180502579259478810490323901735595248977],
      [256636728305327995402527441207103972794], [94018021354816416313731969167385389823]]⟩, ⟨.symm_rrs,
      [61441994097835335202750044633046200824, 22614296138821884223196230668984478131],
      [[135239980534352829113365303719080857194, 289529899653813078879084546937603370463],
      [282373457163180979173345047289340392417, 106170844378989040473093861243867502878]]⟩])
    (by norm_num [witherden_vincent_11, zScheme, ZEntry.toEntry, rz]) (by norm_num) (by decide +kernel)

end Quadpy.DecimalC3

namespace Quadpy

/-- What the theorem says for single monomials on the cube of volume 8. -/
example (a : Fin 3 →₀ ℕ) (h : (MvPolynomial.monomial a (1 : ℝ)).totalDegree ≤ 11) :
    |Spec.cube 3 (fun _ => 1) * dot 3 DecimalC3.witherden_vincent_11.weights
        DecimalC3.witherden_vincent_11.points (fun x => MvPolynomial.eval x (MvPolynomial.monomial a 1)) -
      Spec.cube 3 fun x => MvPolynomial.eval x (MvPolynomial.monomial a 1)| ≤ 8e-38 := by
  have := DecimalC3.C56_c3_witherden_vincent_11.2 (MvPolynomial.monomial a 1) h
  have e : Spec.cube 3 (fun _ => 1) = 8 := by
    have := McNameeStenger.cube_one 3
    norm_num at this ⊢
    exact this
  rw [e] at this ⊢
  rw [MvPolynomial.support_monomial, if_neg one_ne_zero] at this
  simp only [Finset.sum_singleton, MvPolynomial.coeff_monomial, if_true, abs_one, mul_one] at this
  exact this.trans (by norm_num)

end Quadpy
