import Verif.Model.Cn
import Verif.Model.Symmetries

/-!
# Model of the rules given by decimal numbers, t2, t3, c2 and c3

The decimal numbers are the ones of the source; in the code they are rounded to floats.
-/

namespace Quadpy.DecimalT2

/-- t2/_lyness_jespersen.py:43-50 -/
noncomputable def lyness_jespersen_05 : Scheme := schemeOfSym 2
  [⟨.d3_aa, [3.298552309659655e-1 / 3, 6.701447690340345e-1 / 3], [[9.157621350977073e-2],
    [4.459484909159649e-1]]⟩] 4

/-- t2/_lyness_jespersen.py:104-113 -/
noncomputable def lyness_jespersen_12 : Scheme := schemeOfSym 2
  [⟨.centroid, [1.527089667883523e-1], [[]]⟩, ⟨.d3_aa, [2.944076042366762e-1 / 3, 3.887052878418766e-1 /
    3], [[4.738308139536513e-1], [1.721176696308175e-1]]⟩, ⟨.d3_ab, [1.641781411330949e-1 / 6], [[0,
    8.653073540834571e-1]]⟩] 6

/-- t2/_lyness_jespersen.py:116-129 -/
noncomputable def lyness_jespersen_13 : Scheme := schemeOfSym 2
  [⟨.centroid, [-1.495700444677495e-1], [[]]⟩, ⟨.d3_aa, [5.268457722996328e-1 / 3, 1.600417068265167e-1 /
    3], [[2.603459660790466e-1], [6.513010290221623e-2]]⟩, ⟨.d3_ab, [4.626825653415500e-1 / 6],
    [[6.384441885698096e-1, 4.869031542531756e-2]]⟩] 7

/-- t2/_lyness_jespersen.py:132-142 -/
noncomputable def lyness_jespersen_14 : Scheme := schemeOfSym 2
  [⟨.centroid, [1.763126156005252e-1], [[]]⟩, ⟨.vertex, [1.210901532763310e-2 / 3], [[]]⟩, ⟨.d3_aa,
    [3.499561757697094e-1 / 3, 3.195119754425220e-1 / 3], [[1.549360602237604e-1],
    [4.691507461438120e-1]]⟩, ⟨.d3_ab, [1.421102178595603e-1 / 6], [[0, 8.392991722729236e-1]]⟩] 7

/-- t2/_lyness_jespersen.py:145-162 -/
noncomputable def lyness_jespersen_15 : Scheme := schemeOfSym 2
  [⟨.centroid, [1.443156076777862e-1], [[]]⟩, ⟨.d3_aa, [2.852749028018549e-1 / 3, 9.737549286959440e-2 /
    3, 3.096521116041552e-1 / 3], [[4.592925882927229e-1], [5.054722831703103e-2],
    [1.705693077517601e-1]]⟩, ⟨.d3_ab, [1.633818850466092e-1 / 6], [[8.394777409957211e-3,
    7.284923929554041e-1]]⟩] 8

/-- t2/_lyness_jespersen.py:165-179 -/
noncomputable def lyness_jespersen_16 : Scheme := schemeOfSym 2
  [⟨.vertex, [1.207273935292775e-2 / 3], [[]]⟩, ⟨.d3_aa, [-8.491579879151455e-1 / 3, 1.042367468891334 /
    3, 1.947229791412260e-1 / 3, 4.511852767201322e-1 / 3], [[0.5], [4.956813941755582e-1],
    [9.032775751426533e-2], [2.341547497073052e-1]]⟩, ⟨.d3_ab, [1.488095238055238e-1 / 6], [[0,
    7.236067977499750e-1]]⟩] 8

/-- t2/_lyness_jespersen.py:182-199 -/
noncomputable def lyness_jespersen_17 : Scheme := schemeOfSym 2
  [⟨.centroid, [-2.834183851113958e-1], [[]]⟩, ⟨.d3_aa, [2.097208857979572e-1 / 3, 5.127273801480265e-2 /
    3, 6.564896469913508e-1 / 3], [[4.766654393821525e-1], [3.377184405448033e-2],
    [2.703478891654040e-1]]⟩, ⟨.d3_ab, [3.659351143072855e-1 / 6], [[5.146433548666149e-2,
    7.458294907672514e-1]]⟩] 8

/-- t2/_lyness_jespersen.py:202-225 -/
noncomputable def lyness_jespersen_18 : Scheme := schemeOfSym 2
  [⟨.centroid, [9.713579628279610e-2], [[]]⟩, ⟨.d3_aa, [9.400410068141950e-2 / 3, 2.334826230143263e-1 /
    3, 2.389432167816271e-1 / 3, 7.673302697609430e-2 / 3], [[4.896825191987370e-1],
    [4.370895914929355e-1], [1.882035356190322e-1], [4.472951339445297e-2]]⟩, ⟨.d3_ab,
    [2.597012362637364e-1 / 6], [[3.683841205473626e-2, 7.411985987844980e-1]]⟩] 9

/-- t2/_lyness_jespersen.py:228-247 -/
noncomputable def lyness_jespersen_19 : Scheme := schemeOfSym 2
  [⟨.centroid, [1.133624844599192e-1], [[]]⟩, ⟨.vertex, [1.062573789846330e-3 / 3], [[]]⟩, ⟨.d3_aa,
    [4.803411513859279e-2 / 3, 2.524243006337300e-1 / 3, 7.819254371487040e-2 / 3, 2.472227459993048e-1 /
    3], [[0.5], [4.497793381870162e-1], [4.694744319909033e-2], [1.918719127374489e-1]]⟩, ⟨.d3_ab,
    [2.597012362637364e-1 / 6], [[3.683841205473626e-2, 7.411985987844980e-1]]⟩] 9

/-- t2/_lyness_jespersen.py:250-274 -/
noncomputable def lyness_jespersen_20 : Scheme := schemeOfSym 2
  [⟨.d3_aa, [4.097919300803106e-2 / 3, 1.085536215102866e-1 / 3, 2.781018986881812e-3 / 3,
    1.779689321422668e-1 / 3, 2.314486047444677e-1 / 3], [[3.236494811127173e-2], [1.193509122825931e-1],
    [5.346110482707572e-1], [2.033099004312816e-1], [3.989693029658558e-1]]⟩, ⟨.d3_ab,
    [3.140226717732234e-1 / 6, 1.242459578348437e-1 / 6], [[5.017813831049474e-2, 5.932012134282132e-1],
    [2.102201653616613e-2, 8.074890031597923e-1]]⟩] 11

/-- t2/_lyness_jespersen.py:277-302 -/
noncomputable def lyness_jespersen_21 : Scheme := schemeOfSym 2
  [⟨.centroid, [8.797730116222190e-2], [[]]⟩, ⟨.d3_aa, [2.623293466120857e-2 / 3, 1.142447159818060e-1 /
    3, 5.656634416839376e-2 / 3, 2.164790926342230e-1 / 3, 2.079874161166116e-1 / 3],
    [[2.598914092828833e-2], [9.428750264792270e-2], [4.946367750172147e-1], [2.073433826145142e-1],
    [4.389078057004907e-1]]⟩, ⟨.d3_ab, [4.417430269980344e-2 / 6, 2.463378925757316e-1 / 6], [[0,
    8.588702812826364e-1], [4.484167758913055e-2, 6.779376548825902e-1]]⟩] 11

/-- t2/_laursen_gellert/__init__.py:36-41 -/
noncomputable def laursen_gellert_06 : Scheme := schemeOfSym 2
  [⟨.centroid, [3 / 8], [[]]⟩, ⟨.d3_ab, [5 / 48], [[0.736712498968435, 0.237932366472434]]⟩] 4

/-- t2/_laursen_gellert/__init__.py:44-52 -/
noncomputable def laursen_gellert_07 : Scheme := schemeOfSym 2
  [⟨.centroid, [9 / 40], [[]]⟩, ⟨.d3_aa, [0.125939180544827, 0.132394152788506], [[0.101286507323456],
    [0.470142064105115]]⟩] 5

/-- t2/_strang_fix_cowper/__init__.py:55-60 -/
noncomputable def strang_fix_cowper_06 : Scheme := schemeOfSym 2
  [⟨.centroid, [3 / 8], [[]]⟩, ⟨.d3_ab, [5 / 48], [[0.736712498968435, 0.237932366472434]]⟩] 4

/-- t2/_strang_fix_cowper/__init__.py:63-71 -/
noncomputable def strang_fix_cowper_07 : Scheme := schemeOfSym 2
  [⟨.centroid, [9 / 40], [[]]⟩, ⟨.d3_aa, [0.12593918054482717, 0.13239415278850616],
    [[0.10128650732345633], [0.47014206410511505]]⟩] 5

/-- t2/_franke.py:17-59 -/
noncomputable def franke_09 : Scheme := schemeOfSym 2
  [⟨.plain, [2 * 0.263321501360460e-1, 2 * 0.666750609902085e-1, 2 * 0.598398472297514e-1, 2 *
    0.302244308027287e-1, 2 * 0.387139102462897e-1, 2 * 0.387139102462897e-1, 2 * 0.223103130816147e-1, 2
    * 0.223103130816147e-1, 2 * 0.930956404694027e-2, 2 * 0.930956404694027e-2, 2 * 0.365382927009296e-1,
    2 * 0.365382927009296e-1, 2 * 0.515921753448585e-1, 2 * 0.515921753448585e-1],
    [[0.646341098016171e-1, 0.646341098016171e-1, 1 - 0.646341098016171e-1 - 0.646341098016171e-1],
    [0.250478764260821, 0.250478764260821, 1 - 0.250478764260821 - 0.250478764260821],
    [0.405288113134598, 0.405288113134598, 1 - 0.405288113134598 - 0.405288113134598],
    [0.483428507060240, 0.483428507060240, 1 - 0.483428507060240 - 0.483428507060240],
    [0.490241549057468e-1, 0.312418129002285, 1 - 0.490241549057468e-1 - 0.312418129002285],
    [0.312418129002285, 0.490241549057468e-1, 1 - 0.312418129002285 - 0.490241549057468e-1],
    [0.272654917225016e-1, 0.649829918830148, 1 - 0.272654917225016e-1 - 0.649829918830148],
    [0.649829918830148, 0.272654917225016e-1, 1 - 0.649829918830148 - 0.272654917225016e-1],
    [0.748092005042521e-2, 0.922929224698637, 1 - 0.748092005042521e-2 - 0.922929224698637],
    [0.922929224698637, 0.748092005042521e-2, 1 - 0.922929224698637 - 0.748092005042521e-2],
    [0.166718687651425, 0.775796880494268, 1 - 0.166718687651425 - 0.775796880494268],
    [0.775796880494268, 0.166718687651425, 1 - 0.775796880494268 - 0.166718687651425],
    [0.151969575382297, 0.569101341800312, 1 - 0.151969575382297 - 0.569101341800312],
    [0.569101341800312, 0.151969575382297, 1 - 0.569101341800312 - 0.151969575382297]]⟩] 7

/-- t2/_franke.py:62-104 -/
noncomputable def franke_10 : Scheme := schemeOfSym 2
  [⟨.plain, [2 * 0.260816160868233e-1, 2 * 0.663602357926664e-1, 2 * 0.561731171392644e-1, 2 *
    0.239526221275731e-1, 2 * 0.394576126986614e-1, 2 * 0.394576126986614e-1, 2 * 0.235501218540342e-1, 2
    * 0.235501218540342e-1, 2 * 0.162658476936259e-1, 2 * 0.162658476936259e-1, 2 * 0.318232366904684e-1,
    2 * 0.318232366904684e-1, 2 * 0.526193854900464e-1, 2 * 0.526193854900464e-1],
    [[0.643211570115959e-1, 0.643211570115959e-1, 1 - 0.643211570115959e-1 - 0.643211570115959e-1],
    [0.252998331385515, 0.252998331385515, 1 - 0.252998331385515 - 0.252998331385515],
    [0.409747314294030, 0.409747314294030, 1 - 0.409747314294030 - 0.409747314294030],
    [0.485462287928209, 0.485462287928209, 1 - 0.485462287928209 - 0.485462287928209],
    [0.504085933570127e-1, 0.310554843559296, 1 - 0.504085933570127e-1 - 0.310554843559296],
    [0.310554843559296, 0.504085933570127e-1, 1 - 0.310554843559296 - 0.504085933570127e-1],
    [0.279122578437840e-1, 0.647673797923676, 1 - 0.279122578437840e-1 - 0.647673797923676],
    [0.647673797923676, 0.279122578437840e-1, 1 - 0.647673797923676 - 0.279122578437840e-1],
    [0.364079378827516e-1, 0.895785844039319, 1 - 0.364079378827516e-1 - 0.895785844039319],
    [0.895785844039319, 0.364079378827516e-1, 1 - 0.895785844039319 - 0.364079378827516e-1],
    [0.202348915694331, 0.743375252660890, 1 - 0.202348915694331 - 0.743375252660890],
    [0.743375252660890, 0.202348915694331, 1 - 0.743375252660890 - 0.202348915694331],
    [0.160040255710345, 0.564851216876248, 1 - 0.160040255710345 - 0.564851216876248],
    [0.564851216876248, 0.160040255710345, 1 - 0.564851216876248 - 0.160040255710345]]⟩] 7

end Quadpy.DecimalT2

namespace Quadpy.DecimalT3

/-- t3/_keast/__init__.py:46-53 -/
noncomputable def keast_3 : Scheme := schemeOfSym 3
  [⟨.s31, [0.2177650698804054], [[0.1438564719343852]]⟩, ⟨.s22, [0.0214899534130631], [[0.5]]⟩] 3

/-- t3/_keast/__init__.py:66-75 -/
noncomputable def keast_5 : Scheme := schemeOfSym 3
  [⟨.s22, [2 / 105], [[0.5]]⟩, ⟨.s31, [0.0885898247429807, 0.1328387466855907], [[0.1005267652252045],
    [0.3143728734931922]]⟩] 4

end Quadpy.DecimalT3

namespace Quadpy.DecimalC2

/-- c2/_franke.py:182-196 -/
noncomputable def franke_8 : Scheme := schemeOfSym 2
  [⟨.d4_a0, [0.454163960686749 / 4], [[0.488926856974369]]⟩, ⟨.d4_aa, [0.214200360926862 / 4,
    0.427312318657758e-1 / 4], [[0.690880550486344], [0.939565258096838]]⟩, ⟨.d4_ab, [0.144452223260307 /
    4], [[0.918620441056722, 0.344872025364404]]⟩] 1

end Quadpy.DecimalC2

namespace Quadpy.DecimalC3

/-- c3/_witherden_vincent/__init__.py:24-45 -/
noncomputable def witherden_vincent_07 : Scheme := schemeOfSym 3
  [⟨.symm_r00, [0.20012989098356700695575850638756794678 / 8],
    [[0.98808616118867654860459729594655654482]]⟩, ⟨.symm_rr0, [0.15930172375100887182052758490800036662
    / 8], [[0.84805227568403872779622085759407839383]]⟩, ⟨.symm_rrr,
    [0.45715385606985274296912190785204854361 / 8, 0.15379614006595869408326783499527494637 / 8],
    [[0.40795516735831936633080916251520586856], [0.78110282100411850665136814715928740203]]⟩] 7

/-- c3/_witherden_vincent/__init__.py:48-74 -/
noncomputable def witherden_vincent_09 : Scheme := schemeOfSym 3
  [⟨.symm_r00, [0.43327499574965454300983079319432200813 / 8],
    [[0.61368146959170899383488488974055688452]]⟩, ⟨.symm_rr0, [0.091789806136177642171244588919646331302
    / 8], [[0.87768712325767828648677575899433236264]]⟩, ⟨.symm_rrr,
    [0.050148795299349029867451487724661687604 / 8, 0.19885983814402350032086871858560920797 / 8],
    [[0.87009978466197591761506380886392483306], [0.56411080702003005426661899866307283066]]⟩,
    ⟨.symm_rrs, [0.09611680351337336643247993847150603379 / 8],
    [[0.43226790263086216441602486151694383909, 0.93853042186467174532897686960307879508]]⟩] 9

/-- c3/_witherden_vincent/__init__.py:77-114 -/
noncomputable def witherden_vincent_11 : Scheme := schemeOfSym 3
  [⟨.symm_r00, [0.2024770736128001905853371309670196589 / 8],
    [[0.81261433409962649639237559737974432611]]⟩, ⟨.symm_rr0, [0.14519934586011569829250580079425982305
    / 8], [[0.73466828699700801734638476986754918792]]⟩, ⟨.symm_rrr,
    [0.11753834795645628038993180401068212711 / 8, 0.044643912078829241641001154282130043664 / 8,
    0.21599204525496912931346666638444131361 / 8], [[0.60167526419826270163441300578531749659],
    [0.85545576101775998467509147069034657598], [0.31339340451605472104577323055795129941]]⟩, ⟨.symm_rrs,
    [0.061441994097835335202750044633046200824 / 8, 0.022614296138821884223196230668984478131 / 8],
    [[0.45079993511450943037788434573026952398, 0.96509966551271026293028182312534456821],
    [0.94124485721060326391115015763113464139, 0.35390281459663013491031287081289167626]]⟩] 11

end Quadpy.DecimalC3
