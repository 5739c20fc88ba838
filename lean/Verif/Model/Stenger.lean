/-
Model of quadpy/enr2/_stenger.py and quadpy/sn/_stenger.py: fully symmetric rules of Stenger whose
points and weights are decimal numbers, tabulated for some dimensions.  A float literal is the real
number it denotes.  `none` models the KeyError of a dimension without data (and the AssertionError of
`fsd`, which does not happen for the dimensions in the tables).
-/
import Verif.Model.Cn
import Verif.Model.CnTransform

namespace Quadpy

/-- The last lines of the functions of both files (e.g. enr2/_stenger.py:83-85): `untangle`, then
`weights /= V`. -/
noncomputable def schemeOfDiv (n : ℕ) (data : List (ℝ × List (List ℝ))) (V : ℝ) (degree : ℕ) : Scheme :=
  ⟨n, (untangle data).2.map (· / V), (untangle data).1, degree⟩

/-- enr2/_stenger.py:75-86 and 141-152, sn/_stenger.py:74-86 and 141-153; the tables have six
weights. -/
noncomputable def stenger7 (n : ℕ) (V u v : ℝ) (B : List ℝ) : Option Scheme := do
  let g1 ← fsd n [(u, 1)]
  let g2 ← fsd n [(v, 1)]
  let g3 ← fsd n [(u, 2)]
  let g4 ← fsd n [(v, 2)]
  let g5 ← fsd n [(u, 3)]
  return schemeOfDiv n [(B.getD 0 0, z n), (B.getD 1 0, g1), (B.getD 2 0, g2), (B.getD 3 0, g3),
    (B.getD 4 0, g4), (B.getD 5 0, g5)] V 7

/-- enr2/_stenger.py:218-234 and 286-302, sn/_stenger.py:219-235 and 287-303; the tables have eight
weights for `n = 3` and nine for larger `n`. -/
noncomputable def stenger9 (n : ℕ) (V u v : ℝ) (B : List ℝ) : Option Scheme := do
  let g1 ← fsd n [(u, 1)]
  let g2 ← fsd n [(v, 1)]
  let g3 ← fsd n [(u, 2)]
  let g4 ← fsd n [(v, 2)]
  let g5 ← fsd n [(u, 1), (v, 1)]
  let g6 ← fsd n [(u, 3)]
  let g7 ← fsd n [(v, 3)]
  let g8 ← if 3 < n then (fsd n [(u, 4)]).map fun g => [(B.getD 8 0, g)] else some []
  return schemeOfDiv n ([(B.getD 0 0, z n), (B.getD 1 0, g1), (B.getD 2 0, g2), (B.getD 3 0, g3),
    (B.getD 4 0, g4), (B.getD 5 0, g5), (B.getD 6 0, g6), (B.getD 7 0, g7)] ++ g8) V 9

/-- enr2/_stenger.py:375-398 and 470-493, sn/_stenger.py:376-399 and 472-495; the tables have 13
weights for `n = 3`, 15 for `n = 4` and 16 for larger `n`. -/
noncomputable def stenger11 (n : ℕ) (V u v w : ℝ) (B : List ℝ) : Option Scheme := do
  let g1 ← fsd n [(u, 1)]
  let g2 ← fsd n [(v, 1)]
  let g3 ← fsd n [(w, 1)]
  let g4 ← fsd n [(u, 2)]
  let g5 ← fsd n [(v, 2)]
  let g6 ← fsd n [(w, 2)]
  let g7 ← fsd n [(u, 1), (v, 1)]
  let g8 ← fsd n [(u, 1), (w, 1)]
  let g9 ← fsd n [(u, 3)]
  let g10 ← fsd n [(v, 3)]
  let g11 ← fsd n [(w, 3)]
  let g12 ← fsd n [(u, 2), (v, 1)]
  let g13 ← if 3 < n then do
      let a ← fsd n [(u, 4)]
      let b ← fsd n [(v, 4)]
      some [(B.getD 13 0, a), (B.getD 14 0, b)]
    else some []
  let g15 ← if 4 < n then (fsd n [(u, 5)]).map fun g => [(B.getD 15 0, g)] else some []
  return schemeOfDiv n ([(B.getD 0 0, z n), (B.getD 1 0, g1), (B.getD 2 0, g2), (B.getD 3 0, g3),
    (B.getD 4 0, g4), (B.getD 5 0, g5), (B.getD 6 0, g6), (B.getD 7 0, g7), (B.getD 8 0, g8),
    (B.getD 9 0, g9), (B.getD 10 0, g10), (B.getD 11 0, g11), (B.getD 12 0, g12)] ++ g13 ++ g15) V 11

namespace Enr2

/-- The table of enr2/_stenger.py:23-73. -/
noncomputable def stenger7aTab : ℕ → Option (ℝ × ℝ × List ℝ)
  | 3 => some (0.524647623275290, 0.165068012388578e1, [-0.166705761599566e2, 0.100296981655678e2,
      0.161699246687754, -0.604719151221535e1, 0.234381399489666e-1, 0.417194501880647e1])
  | 4 => some (0.524647623275290, 0.165068012388578e1, [-0.167539329651562e3, 0.687922329603575e2,
      0.203518409659014, -0.255075279116885e2, 0.415430214106084e-1, 0.739458001434961e1])
  | 6 => some (0.524647623275290, 0.165068012388578e1, [-0.309679578630802e4, 0.815423321880237e3,
      0.117326937169073, -0.173057295296448e3, 0.130511250871491, 0.232307582494626e2])
  | _ => none

/-- enr2/_stenger.py:22-86 `stenger_7a(n)`. -/
noncomputable def stenger7a (n : ℕ) : Option Scheme := do
  let (u, v, B) ← stenger7aTab n
  stenger7 n (√Real.pi ^ n) u v B

/-- The table of enr2/_stenger.py:90-139. -/
noncomputable def stenger7bTab : ℕ → Option (ℝ × ℝ × List ℝ)
  | 3 => some (0.165068012388578e1, 0.524647623275290, [0.166705761599566e2, 0.178903161957074,
      -0.665808190965810e1, 0.148361823143070e-1, 0.229669852539758e1, 0.430097881732984e-2])
  | 4 => some (0.165068012388578e1, 0.524647623275290, [0.688432856406677e2, 0.294997847268286,
      -0.199427272118378e2, 0.110498755408511e-1, 0.407079214570997e1, 0.762328646743931e-2])
  | 5 => some (0.165068012388578e1, 0.524647623275290, [0.220502344940121e3, 0.537746975313769,
      -0.497781460739792e2, -0.743845245712926e-2, 0.721529121489956e1, 0.135119234557687e-1])
  | 6 => some (0.165068012388578e1, 0.524647623275290, [0.616293651884027e3, 0.107529736766179e1,
      -0.113807008098269e3, -0.610828352270520e-1, 0.127887706992535e2, 0.239492607623178e-1])
  | _ => none

/-- enr2/_stenger.py:89-152 `stenger_7b(n)`. -/
noncomputable def stenger7b (n : ℕ) : Option Scheme := do
  let (u, v, B) ← stenger7bTab n
  stenger7 n (√Real.pi ^ n) u v B

/-- The table of enr2/_stenger.py:156-216. -/
noncomputable def stenger9aTab : ℕ → Option (ℝ × ℝ × List ℝ)
  | 3 => some (0.202018287045609e1, 0.958572464613819, [0.676448734429924, 0.511989106291551e-2,
      0.448595723493744, 0.235223454595606e-3, 0.915390713080005e-1, 0.139208199920793e-1,
      0.235223454595606e-3, 0.915390713080008e-1])
  | 4 => some (0.202018287045609e1, 0.958572464613819, [-0.860452945007048, -0.405511998533795e-1,
      0.107026475449715e1, 0.138974239307092e-3, -0.162248779448181, 0.246740110027234e-1,
      0.138974239307094e-3, 0.162248779448181, 0.138974239307094e-3])
  | 5 => some (0.202018287045609e1, 0.958572464613819, [-0.827347006200826e1, -0.160820174530905,
      0.353499863758467e1, 0.738976276909564e-3, -0.862735421812943, 0.437335458190621e-1,
      -0.246325425636523e-3, 0.287578473937648, 0.246325425636523e-3])
  | 6 => some (0.202018287045609e1, 0.958572464613819, [-0.361840434143098e2, -0.447936529138517,
      0.112077863004144e2, 0.392940404320855e-2, -0.254859786784158e1, 0.775156917007496e-1,
      -0.130980134773619e-2, 0.509719573568315, 0.436600449245395e-3])
  | _ => none

/-- enr2/_stenger.py:155-234 `stenger_9a(n)`. -/
noncomputable def stenger9a (n : ℕ) : Option Scheme := do
  let (u, v, B) ← stenger9aTab n
  stenger9 n (√Real.pi ^ n) u v B

/-- The table of enr2/_stenger.py:238-284. -/
noncomputable def stenger9bTab : ℕ → Option (ℝ × ℝ × List ℝ)
  | 4 => some (0.958572464613819, 0.202018287045609e1, [0.265029088766810e-2, 0.637601342635332,
      -0.394394059389228e-1, 0.540829264827264e-1, -0.416922717921281e-3, 0.246740110027234e-1,
      0.540829264827270e-1, 0.416922717921281e-3, 0.540829264827269e-1])
  | 5 => some (0.958572464613819, 0.202018287045609e1, [-0.624416791055272, 0.467494915583104,
      -0.152937760910536, 0.287578473937646, -0.221692883072871e-2, 0.437335458190621e-1,
      -0.958594913125490e-1, 0.738976276909568e-3, 0.958594913125492e-1])
  | 6 => some (0.958572464613819, 0.202018287045609e1, [0.448873836333650e1, -0.238473566140736e1,
      -0.413008493198885, 0.152915872070494e1, -0.654900673868093e-2, 0.775156917007496e-1,
      -0.509719573568314, 0.130980134773618e-2, 0.169906524522772])
  | _ => none

/-- enr2/_stenger.py:237-302 `stenger_9b(n)`. -/
noncomputable def stenger9b (n : ℕ) : Option Scheme := do
  let (u, v, B) ← stenger9bTab n
  stenger9 n (√Real.pi ^ n) u v B

/-- The table of enr2/_stenger.py:306-373. -/
noncomputable def stenger11aTab : ℕ → Option (ℝ × ℝ × ℝ × List ℝ)
  | 3 => some (0.235060497367449e1, 0.436077411927617, 0.133584907401370e1, [-0.881591029957858e1,
      -0.751996143360650e-1, 0.621743189471515e1, 0.241426451456494, -0.120709739276065e-2,
      -0.427751221210138e1, 0.550169924840163e-1, 0.237084999634707e-1, -0.169791992887741e-2,
      -0.252266276123350e-4, 0.326777873717691e1, 0.968469949206802e-2, 0.789754514877422e-3])
  | 4 => some (0.235060497367449e1, 0.436077411927617, 0.133584907401370e1, [0.241502736147339e3,
      -0.196095938531478, -0.128675737999280e3, 0.307568784278696, -0.480908422319460e-2,
      0.698087019367085e2, 0.631837143743771e-1, 0.392226151971179e-1, -0.300948471646799e-2,
      -0.650235306755170e-4, -0.386951974646715e2, 0.171656829095787e-1, 0.139980343116450e-2,
      0.101552487093372e-4, 0.222435922356439e2])
  | _ => none

/-- enr2/_stenger.py:305-398 `stenger_11a(n)`. -/
noncomputable def stenger11a (n : ℕ) : Option Scheme := do
  let (u, v, w, B) ← stenger11aTab n
  stenger11 n (√Real.pi ^ n) u v w B

/-- The table of enr2/_stenger.py:402-468. -/
noncomputable def stenger11bTab : ℕ → Option (ℝ × ℝ × ℝ × List ℝ)
  | 3 => some (0.235060497367449e1, 0.133584907401370e1, 0.436077411927617, [-0.141214037032900e2,
      -0.803730274707282e-1, 0.235546545595906, 0.888123191556611e1, 0.142467131155533e-3,
      0.582993124006494e-1, -0.561099173155661e1, -0.204028691521686e-2, 0.252880089932256e-1,
      -0.814378678627283e-4, 0.804353953375146e-2, 0.393451849690453e1, 0.171183493169724e-3])
  | 4 => some (0.235060497367449e1, 0.133584907401370e1, 0.436077411927617, [-0.151944464736584e3,
      -0.223498438689039, 0.243574919068010, 0.634373877008693e2, -0.782065187814018e-4,
      0.911833754536616e-1, -0.238927288245914e2, -0.422314408318853e-2, 0.448218289217760e-1,
      -0.138053374667391e-3, 0.607473265800655e-2, 0.697375246129742e1, 0.303414841680135e-3,
      -0.314574391771792e-5, 0.409103498175100e-2])
  | 5 => some (0.235060497367449e1, 0.133584907401370e1, 0.436077411927617, [-0.761305347548192e3,
      -0.536360805019297, 0.110669832078736, 0.246421088923968e3, -0.773649327968607e-3,
      0.169088641205970, -0.670700680243651e2, -0.856090560229205e-2, 0.794446232770302e-1,
      -0.220272863263544e-3, -0.373515812228225e-2, 0.123606544052884e2, 0.537788804557843e-3,
      -0.122101861480881e-4, 0.725117070759373e-2, 0.331725011358320e-5])
  | _ => none

/-- enr2/_stenger.py:401-493 `stenger_11b(n)`. -/
noncomputable def stenger11b (n : ℕ) : Option Scheme := do
  let (u, v, w, B) ← stenger11bTab n
  stenger11 n (√Real.pi ^ n) u v w B

end Enr2

namespace Sn

/-- The table of sn/_stenger.py:22-72. -/
noncomputable def stenger7aTab : ℕ → Option (ℝ × ℝ × List ℝ)
  | 3 => some (0.285231516480645, 0.765055323929465, [-0.542565297000466e01, 0.490769827031175e01,
      0.318402337562406, -0.391335495408044e01, 0.436675887074467e-01, 0.308676098900275e01])
  | 4 => some (0.266216481931920, 0.727412389740367, [-0.678226800331914e02, 0.299222999307746e02,
      0.240390523860780, -0.118821423811283e02, 0.459003238309213e-01, 0.361018024911844e01])
  | 5 => some (0.250562807085732, 0.694746590606866, [-0.220221371883822e03, 0.730167125339176e02,
      0.143281369027706, -0.203714128400494e02, 0.448293291677155e-01, 0.383685702879441e01])
  | 6 => some (0.237383303308445, 0.666069941755647, [-0.472474075695084e03, 0.127114265148486e03,
      0.477511403723473e-01, -0.275405124688594e02, 0.410240990676946e-01, 0.376041809497708e01])
  | _ => none

/-- sn/_stenger.py:21-86 `stenger_7a(n)`. -/
noncomputable def stenger7a (n : ℕ) : Option Scheme := do
  let (u, v, B) ← stenger7aTab n
  stenger7 n (nballVolume n 1) u v B

/-- The table of sn/_stenger.py:90-139. -/
noncomputable def stenger7bTab : ℕ → Option (ℝ × ℝ × List ℝ)
  | 3 => some (0.765055323929465, 0.285231516480645, [0.192021185324132e02, 0.351560542364457,
      -0.743934568569924e01, 0.270884863064213e-01, 0.226016702392506e01, 0.828955120051268e-02])
  | 4 => some (0.727412389740367, 0.266216481931920, [0.474254976042737e02, 0.344486899232533,
      -0.133998630586466e02, 0.112015320403370e-01, 0.255857861534543e01, 0.867469794764608e-02])
  | 5 => some (0.694746590606866, 0.250562807085732, [0.860517194425776e02, 0.345922662173719,
      -0.190678561571482e02, -0.583099411878751e-02, 0.264972933271699e01, 0.844338721441717e-02])
  | 6 => some (0.666069941755647, 0.237383303308445, [0.127959890358419e03, 0.355983426079872,
      -0.233024586505972e02, -0.206223580738102e-01, 0.254283229095729e01, 0.770580714268811e-02])
  | _ => none

/-- sn/_stenger.py:89-153 `stenger_7b(n)`. -/
noncomputable def stenger7b (n : ℕ) : Option Scheme := do
  let (u, v, B) ← stenger7bTab n
  stenger7 n (nballVolume n 1) u v B

/-- The table of sn/_stenger.py:157-217. -/
noncomputable def stenger9aTab : ℕ → Option (ℝ × ℝ × List ℝ)
  | 3 => some (0.468848793470714, 0.830223896278566, [-0.287231328328341e-01, 0.199630268052470,
      0.636651162483951e-01, 0.214860470062486e-01, -0.323488968539688e-02, 0.543046730120527e-01,
      0.138854806789114, 0.572067170204320e-03])
  | 4 => some (0.442930458136056, 0.798214220988774, [-0.713264931069213, 0.399661978095933,
      -0.399833383634508e-01, -0.114245162120668, -0.380033830313039e-02, 0.528728807201216e-01,
      0.771286345600799e-01, 0.606328581574664e-03, 0.361445580516503e-01])
  | 5 => some (0.420914805023811, 0.769455324331787, [-0.148607372859000e01, 0.517337302000060,
      -0.128693800819958, -0.972921046543696e-01, -0.434640813962413e-02, 0.485386100042993e-01,
      0.418811699326262e-03, 0.591022411210733e-03, 0.370636589159518e-01])
  | 6 => some (0.401905036089210, 0.743477004521219, [-0.141522888827140e01, 0.225283928934273,
      -0.189925600936916, 0.767542859780860e-01, -0.467837989649319e-02, 0.422029877037414e-01,
      -0.736785106177554e-01, 0.537264443490880e-03, 0.353013676287120e-01])
  | _ => none

/-- sn/_stenger.py:156-235 `stenger_9a(n)`. -/
noncomputable def stenger9a (n : ℕ) : Option Scheme := do
  let (u, v, B) ← stenger9aTab n
  stenger9 n (nballVolume n 1) u v B

/-- The table of sn/_stenger.py:239-285. -/
noncomputable def stenger9bTab : ℕ → Option (ℝ × ℝ × List ℝ)
  | 4 => some (0.798214220988774, 0.442930458136056, [-0.128637919793059e01, -0.425826693459664e-01,
      0.688818442509136, -0.250067281187269e-02, -0.258823394327268, 0.528728807201216e-01,
      -0.435041640541910e-04, 0.149417750663380, 0.324916372814428e-03])
  | 5 => some (0.769455324331787, 0.420914805023811, [-0.442739121785452e01, -0.138203890424606,
      0.170337438731052e01, -0.780124537881237e-03, -0.542056011645791, 0.485386100042993e-01,
      -0.597738789370232e-03, 0.148673447363133, 0.297190300145242e-03])
  | 6 => some (0.743477004521219, 0.401905036089210, [-0.982577681614207e01, -0.210519035276982,
      0.304939333923123e01, 0.149965040552639e-02, -0.770478537111000, 0.422029877037414e-01,
      -0.100724313201402e-02, 0.138129695154516, 0.257417929250816e-03])
  | _ => none

/-- sn/_stenger.py:238-303 `stenger_9b(n)`. -/
noncomputable def stenger9b (n : ℕ) : Option Scheme := do
  let (u, v, B) ← stenger9bTab n
  stenger9 n (nballVolume n 1) u v B

/-- The table of sn/_stenger.py:307-374. -/
noncomputable def stenger11aTab : ℕ → Option (ℝ × ℝ × ℝ × List ℝ)
  | 3 => some (0.871740148509601, 0.209299217902484, 0.591700181433148, [-0.241858949226757e02,
      -0.260615043902870, 0.135920710866830e02, 0.128644782328402, -0.827362457508920e-02,
      -0.773259998046230e01, 0.121529267823348, 0.107430092990906, -0.457147160368296e-02,
      -0.454573469083632e-03, 0.453152994236346e01, 0.249979156876400e-01, 0.537579305958677e-02])
  | 4 => some (0.844750603518454, 0.198187323325469, 0.564399481003361, [0.142841140985092e03,
      -0.409969170254506, -0.833355966329160e02, 0.477233536818062e-01, -0.167713384337120e-01,
      0.486046977166435e02, 0.762265878588936e-01, 0.945800683336929e-01, -0.500622516633870e-02,
      -0.498867819405501e-03, -0.283869034949532e02, 0.255516059013563e-01, 0.504633074872994e-02,
      0.535903211027872e-04, 0.166581940110341e02])
  | _ => none

/-- sn/_stenger.py:306-399 `stenger_11a(n)`. -/
noncomputable def stenger11a (n : ℕ) : Option Scheme := do
  let (u, v, w, B) ← stenger11aTab n
  stenger11 n (nballVolume n 1) u v w B

/-- The table of sn/_stenger.py:403-470. -/
noncomputable def stenger11bTab : ℕ → Option (ℝ × ℝ × ℝ × List ℝ)
  | 4 => some (0.844750603518454, 0.564399481003361, 0.198187323325469, [-0.176252077581424e03,
      -0.499462881047293, -0.922793735873844e-01, 0.698573153138448e02, -0.179342748736783e-04,
      0.138909533618563, -0.246907169366506e02, -0.122578300082603e-01, 0.114765391328613,
      -0.134570335654617e-02, 0.330804559042674e-02, 0.659514417940443e01, 0.181290121048040e-02,
      -0.544956432165929e-04, 0.657282387101229e-02])
  | 5 => some (0.819845995463488, 0.188677422490785, 0.540604637387361, [0.101979474263003e04,
      -0.483876622763145, -0.435066365787229e03, 0.431869862745281e-01, -0.229234716520547e-01,
      0.174586702318035e03, 0.261731304360525e-01, 0.779664996582579e-01, -0.494818146328864e-02,
      -0.473327076222103e-03, -0.625137212983254e02, 0.243721155686252e-01, 0.448291181300128e-02,
      0.284624253627758e-04, 0.168650924640304e02, 0.887274197302674e-05])
  | _ => none

/-- sn/_stenger.py:402-495 `stenger_11b(n)`. -/
noncomputable def stenger11b (n : ℕ) : Option Scheme := do
  let (u, v, w, B) ← stenger11bTab n
  stenger11 n (nballVolume n 1) u v w B

end Sn

end Quadpy
