import Verif.Model.WedgePyramid

/-!
# Model of the wedge rules of Kubatko, Yeager and Maggi

The decimal numbers are the ones of the source; in the code they are rounded to floats.
-/

namespace Quadpy.W3.Kubatko

/-- w3/_kubatko_yeager_maggi.py:506-507 -/
def zeta_pm (xi eta zeta : ℝ) : List (List ℝ) := [[xi, eta, zeta], [xi, eta, -zeta]]

/-- w3/_kubatko_yeager_maggi.py:510-511 -/
def abz (a b z : ℝ) : List (List ℝ) := [[a, b, z], [b, a, z]]

/-- w3/_kubatko_yeager_maggi.py:514-515 -/
def abz_pm (a b z : ℝ) : List (List ℝ) := [[a, b, z], [a, b, -z], [b, a, z], [b, a, -z]]

/-- w3/_kubatko_yeager_maggi.py:518-519 -/
def az (a z : ℝ) : List (List ℝ) := [[a, a, z], [a, a, -z]]

/-- w3/_kubatko_yeager_maggi.py:522-524 -/
noncomputable def s3 : List (List ℝ) := [[-(1 / 3), -(1 / 3), 0]]

/-- w3/_kubatko_yeager_maggi.py:527-530 -/
noncomputable def s3_z (z : ℝ) : List (List ℝ) := [[-(1 / 3), -(1 / 3), z], [-(1 / 3), -(1 / 3), -z]]

/-- w3/_kubatko_yeager_maggi.py:533-535 -/
def s21 (a : ℝ) : List (List ℝ) :=
  let b := -(1 + 2 * a)
  [[a, b, 0], [b, a, 0], [a, a, 0]]

/-- w3/_kubatko_yeager_maggi.py:538-540 -/
def s21_z (a z : ℝ) : List (List ℝ) :=
  let b := -(1 + 2 * a)
  [[a, b, z], [b, a, z], [a, a, z], [a, b, -z], [b, a, -z], [a, a, -z]]

/-- w3/_kubatko_yeager_maggi.py:543-544 -/
def s30 (a b c : ℝ) : List (List ℝ) := [[a, b, 0], [b, a, 0], [a, c, 0], [c, a, 0], [b, c, 0], [c, b, 0]]

/-- w3/_kubatko_yeager_maggi.py:547-562 -/
def s111_z (a b z : ℝ) : List (List ℝ) :=
  let c := -(1 + a + b)
  [[b, c, z], [a, b, z], [c, a, z], [c, b, z], [a, c, z], [b, a, z],
   [b, c, -z], [a, b, -z], [c, a, -z], [c, b, -z], [a, c, -z], [b, a, -z]]

/-- `points[:, :2] += 1; points[:, :2] /= 2` for one point (w3/_kubatko_yeager_maggi.py:24-25) -/
noncomputable def toRef : List ℝ → List ℝ
  | x :: y :: r => (x + 1) / 2 :: (y + 1) / 2 :: r
  | r => r

/-- The common last lines of the rules, e.g. w3/_kubatko_yeager_maggi.py:21-26:
`untangle`, division of the weights by 4, `toRef`. -/
noncomputable def kubatko (data : List (ℝ × List (List ℝ))) (deg : ℕ) : Scheme :=
  ⟨3, (untangle data).2.map (· / 4), (untangle data).1.map toRef, deg⟩

open Real

/-- w3/_kubatko_yeager_maggi.py:97-107 -/
noncomputable def kubatko_yeager_maggi_3c : Scheme :=
  let alpha := 4 * √3 / 15
  kubatko [(-(9 / 4), s3), (25 / 24, s21_z (-(3 / 5)) alpha)] 3


/-- w3/_kubatko_yeager_maggi.py:18-25 -/
noncomputable def kubatko_yeager_maggi_1 : Scheme := kubatko
  [(4, [[-(1 / 3), -(1 / 3), 0]])] 1

/-- w3/_kubatko_yeager_maggi.py:28-38 -/
noncomputable def kubatko_yeager_maggi_2a : Scheme := kubatko
  [(1, [[0.483163247594393, -0.741581623797196, 0]]), (1, [[-0.605498860309242, 0.469416096821288, 0]]),
    (1, zeta_pm (-0.605498860309242) (-0.530583903178712) 0.816496580927726)] 2

/-- w3/_kubatko_yeager_maggi.py:41-47 -/
noncomputable def kubatko_yeager_maggi_2b : Scheme := kubatko
  [(1 / 3, s21 (-1)), (3 / 2, s3_z (2 / 3))] 2

/-- w3/_kubatko_yeager_maggi.py:50-81 -/
noncomputable def kubatko_yeager_maggi_3a : Scheme := kubatko
  [(0.742534890852309, [[0.240692796349625, -0.771991660873412, 0.614747128207527]]), (0.375143463443327,
    [[-0.968326281451138, -0.568046512457875, 0.676689529541421]]), (0.495419047908462,
    [[0.467917833640195, -0.549342790168347, -0.599905857322635]]), (0.523999970843238,
    [[-0.786144119530819, 0.362655041695561, -0.677609795694786]]), (0.980905839025611,
    [[-0.484844897886675, -0.707931130717342, -0.502482717716373]]), (0.881996787927053,
    [[-0.559053711932125, 0.260243325246813, 0.493010512161538]])] 3

/-- w3/_kubatko_yeager_maggi.py:84-94 -/
noncomputable def kubatko_yeager_maggi_3b : Scheme := kubatko
  [(-(43 / 12), s3), (25 / 12, s21 (-(3 / 5))), (2 / 3, s3_z 1)] 3

/-- w3/_kubatko_yeager_maggi.py:110-119 -/
noncomputable def kubatko_yeager_maggi_3d : Scheme := kubatko
  [(4 / 9, s30 (-0.525248027124695) (-0.924672547414225) 0.449920574538920), (2 / 3, s3_z 1)] 3

/-- w3/_kubatko_yeager_maggi.py:122-169 -/
noncomputable def kubatko_yeager_maggi_4a : Scheme := kubatko
  [(0.111155943811228, [[0.812075900047562, -0.986242751499303, 0.850716248413834]]), (0.309060899887509,
    [[-0.792166223585545, 0.687201105597868, -0.115214772515700]]), (0.516646862442958,
    [[-0.756726179789306, -0.731311840596107, -0.451491675441927]]), (0.567975205132714,
    [[-0.552495167978340, 0.015073398439985, -0.824457000064439]]), (0.382742555939017,
    [[-0.357230019521233, 0.126888850505978, 0.855349689995606]]), (0.355960928492268,
    [[-0.987225392999058, 0.082647545710800, 0.452976444667786]]), (0.108183228294342,
    [[-0.816603728785918, -0.915066171481315, 0.997939285245240]]), (0.126355242780924,
    [[0.423489172633859, -1.112801167237130, -0.963298774205756]]), (0.587370828592853,
    [[0.363041084609230, -0.499011410082669, -0.299892769705443]]), (0.934548304626188,
    [[-0.175780343149613, -0.654971142379686, 0.367947041936472]])] 4

/-- w3/_kubatko_yeager_maggi.py:172-182 -/
noncomputable def kubatko_yeager_maggi_4b : Scheme := kubatko
  [(0.545658450421913, s21 (-0.062688380276010)), (0.431647899262139, s3_z 0.866861974009030),
    (0.249954808368331, s21_z (-0.798519188402179) 0.675639823682265)] 4

/-- w3/_kubatko_yeager_maggi.py:185-214 -/
noncomputable def kubatko_yeager_maggi_5a : Scheme := kubatko
  [(0.087576186678730, [[-0.955901336867574, -0.955901336867577, 0.000000000000286]]),
    (0.229447629454892, abz (-0.051621305926029) (-1.017063354038640) 0.000000000000038),
    (0.833056798542985, [[-0.297388746460523, -0.297388746460521, 0.000000000000008]]),
    (0.166443428304729, abz 0.774849157169622 (-0.849021640062096) 0.000000000000080),
    (0.376993270712316, az (-0.665292008657551) 0.756615409654429), (0.170410864470884, az
    (-0.012171148087349) 0.600149379161583), (0.298194157223163, abz_pm (-0.734122164680096)
    0.334122164680066 0.808115770496521)] 5

/-- w3/_kubatko_yeager_maggi.py:217-284 -/
noncomputable def kubatko_yeager_maggi_5b : Scheme := kubatko
  [(0.213895020288765, [[-0.820754415297359, 0.701020947925133, -0.300763696502910]]),
    (0.141917375616806, [[0.611831616907812, -0.869995576950389, 0.348546607420888]]),
    (0.295568859378071, [[-0.951379065092975, -0.087091980055873, 0.150656042323906]]),
    (0.256991945593379, [[0.200535109198601, -0.783721735474016, -0.844285153176719]]),
    (0.122121979248381, [[-0.909622841605196, -0.890218158063352, 0.477120081549168]]),
    (0.175194917962627, [[0.411514133287729, -0.725374126531787, 0.864653509536562]]),
    (0.284969106392719, [[-0.127534496411879, -0.953467283619037, 0.216019762875977]]),
    (0.323336131783334, [[-0.555217727817199, -0.530472194607007, 0.873409672725819]]),
    (0.159056110329063, [[0.706942532529193, -0.782248553944540, -0.390653804976705]]),
    (0.748067388709644, [[-0.278092963133809, -0.291936530517119, -0.126030507204870]]),
    (0.280551223607231, [[-0.057824844208300, -0.056757587543798, 0.539907869785112]]),
    (0.147734016552639, [[-0.043308436222116, 0.012890722780611, -0.776314479909204]]),
    (0.259874920383688, [[-0.774478920734726, 0.476188541042454, 0.745875967497062]]),
    (0.235144061421191, [[-0.765638443571458, 0.177195164202219, -0.888355356215127]]),
    (0.355576942732463, [[-0.732830649614460, -0.737447982744191, -0.651653242952189]])] 5

/-- w3/_kubatko_yeager_maggi.py:287-298 -/
noncomputable def kubatko_yeager_maggi_5c : Scheme := kubatko
  [(0.711455555931488, s3), (0.224710067228267, s21 (-0.025400070899509)), (0.185661421316158, s21_z
    (-0.108803790659256) 0.871002934865444), (0.250074285747794, s21_z (-0.798282108034583)
    0.570426980705159)] 5

/-- w3/_kubatko_yeager_maggi.py:301-317 -/
noncomputable def kubatko_yeager_maggi_6a : Scheme := kubatko
  [(0.168480079940386, s30 0.513019949700545 (-0.930094391938207) (-0.582925557762337)),
    (0.000079282874851, s21 (-1.830988812620400)), (0.544286440652304, s3), (0.026293733850586, s3_z
    1.250521622121900), (0.283472344926041, s21_z (-0.098283514203544) 0.685008566774710),
    (0.115195615637235, s21_z (-0.812603471654584) 0.809574716992997)] 6

/-- w3/_kubatko_yeager_maggi.py:320-336 -/
noncomputable def kubatko_yeager_maggi_6b : Scheme := kubatko
  [(-0.515987215963885, s3), (0.113384887025471, s21 (-0.891966687066689)), (0.489402517688430, s21
    (-0.489005016481638)), (0.205362200002623, s3_z 0.932807703184800), (0.048821553028563, s21_z
    (-0.838683160291348) (-0.946297575072789)), (0.166997606970463, s111_z (-0.892665383041055)
    (-0.380071023770412) 0.596750920257972)] 6

/-- w3/_kubatko_yeager_maggi.py:339-357 -/
noncomputable def kubatko_yeager_maggi_6c : Scheme := kubatko
  [(0.108764249640922, s21 (-0.895512822481133)), (0.162544166564880, s30 (-0.603390269052889)
    (-0.458729487713671) 0.062119756766560), (0.201100563750029, s3_z 0.936241512371697),
    (0.047097659849389, s21_z (-0.841699897299232) 0.948681147283254), (0.167804597090964, s111_z
    (-0.890337410253393) (-0.382973596286234) 0.600638052820557)] 6

/-- w3/_kubatko_yeager_maggi.py:360-380 -/
noncomputable def kubatko_yeager_maggi_7a : Scheme := kubatko
  [(0.101999439969640, s21 (-0.052693741802220)), (0.013773382049005, s30 (-1.203867696672760)
    (-0.769101467805088) 0.972969164477851), (0.183161577533988, s30 (-0.806342417251714)
    (-0.550525003554855) 0.356867420806569), (0.018944865817845, s3_z 1.291674052437540),
    (0.376139984367254, s3_z 0.561030375657598), (0.147104614209618, s21_z (-0.059715871789826)
    0.774596669241324), (0.139932422827537, s21_z (-0.797426985353099) 0.774596669241551)] 7

/-- w3/_kubatko_yeager_maggi.py:383-400 -/
noncomputable def kubatko_yeager_maggi_7b : Scheme := kubatko
  [(-0.879316328492506, s21 (-0.799390499533395)), (0.372687220323677, s21 (-0.611312866165672)),
    (0.323126141949260, s30 (-0.876344144151775) (-0.612951719548152) 0.489295863699928),
    (0.289007666422544, s3_z 0.734616109970751), (0.153278562247698, s21_z (-0.052044650909702)
    0.726801565090391), (0.065992821952079, s21_z (-0.756988294814865) 0.976659162929848),
    (0.281247805794530, s21_z (-0.848580765301238) 0.305898494016659)] 7

/-- w3/_kubatko_yeager_maggi.py:403-423 -/
noncomputable def kubatko_yeager_maggi_7c : Scheme := kubatko
  [(0.187125249811092, s3), (0.279712056646351, s21 (-0.622563924496121)), (0.192663794476979, s21_z
    (-0.150946831636914) 0.739705153646415), (0.077939984185063, s21_z (-0.888439097303094)
    0.521191884792341), (0.037328649790157, s111_z (-0.879193936849505) (-0.569600904418278)
    0.967847765724758), (0.075181009232977, s111_z (-0.956495962100542) (-0.348089160012426)
    0.413411329372023)] 7

/-- w3/_kubatko_yeager_maggi.py:426-447 -/
noncomputable def kubatko_yeager_maggi_8a : Scheme := kubatko
  [(-0.628896123664332, s3), (-0.000009664501734, s21 0.732570431730499), (0.290043889959886, s21
    (-0.111280133398729)), (0.164125220310641, s21 (-0.744234499888195)), (0.500978176529324, s3_z
    0.324632164542059), (0.137896989572043, s21_z (-0.655304484833396) 0.697231953348274),
    (0.093150738786246, s21_z (-0.111390690423267) 0.918085752971442), (0.026296598245927, s21_z
    (-0.860501622328014) 0.955100930524729), (0.031254499752794, s21_z (-0.929092752683144)
    0.418740152771249), (0.044405706263133, s111_z (-1.027258305900750) (-0.401321966766924)
    0.577350264603552)] 8

/-- w3/_kubatko_yeager_maggi.py:450-471 -/
noncomputable def kubatko_yeager_maggi_8b : Scheme := kubatko
  [(0.064622878644877, s3), (0.212815083510681, s21 (-0.080724796383744)), (0.222859308690085, s3_z
    0.656906854028118), (0.033167391229558, s3_z 0.222890421390518), (0.083683503199655, s21_z
    (-0.082177195702334) 0.875089829009932), (0.160178684391513, s21_z (-0.655731448496969)
    0.398915780473391), (0.035678259898902, s21_z (-0.896358906478658) 0.076044280208993),
    (0.029230569799017, s21_z (-0.901888148396643) 0.838134530826001), (0.046399681341109, s21_z
    (-0.668873936739861) 0.962422967861277), (0.054487856600218, s111_z (-0.983128918652189)
    (-0.473900476311823) 0.577350269192965)] 8

/-- w3/_kubatko_yeager_maggi.py:474-503 -/
noncomputable def kubatko_yeager_maggi_9 : Scheme := kubatko
  [(0.179697999934032, s21 (-0.670211122327313)), (0.029779770020782, s30 (-0.987687012620047)
    (-0.639473873495245) 0.627160886115292), (0.093251945517294, s3_z 0.130565599977556),
    (0.079389858812471, s21_z (-0.532290571296145) 0.896174462570776), (0.144411166376722, s21_z
    (-0.153771400189340) 0.496886101956702), (0.030059746399875, s21_z (-0.924116817433563)
    0.441720100571867), (0.021462670335182, s21_z (-0.874138544455932) 0.938724295918725),
    (0.020254759898769, s111_z (-0.935121167364029) (-0.255783274127814) 0.932336314743883),
    (0.030927308427916, s111_z (-0.939611270417581) (-0.094705427266644) 0.251407318247268),
    (0.069133168131076, s111_z (-0.898020111840079) (-0.539691298441295) 0.649773968745693)] 9

end Quadpy.W3.Kubatko
