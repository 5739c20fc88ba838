import Verif.Lemmas.PattersonCheck

/-!
# The tables of Gauss-Patterson rules as integers

Every literal `0.123` of `Model/Patterson.lean` is `123 * 10^(-3)`; `tabZ` and `wZ6` to `wZ8` hold these
pairs, `srt6` to `srt8` the sorted numerators over `10 ^ 23`.
-/

set_option maxRecDepth 8000

namespace Quadpy
namespace Patterson
open OneDim

/-- Numerators and exponents of `patTable`. -/
def tabZ : ℕ → List (ℕ × ℕ)
  | 1 =>
    [(7745966692414834, 16)]
  | 2 =>
    [(4342437493468025, 16), (9604912687080203, 16)]
  | 3 =>
    [(2233866864289669, 16), (6211029467372264, 16), (8884592328722570, 16),
      (9938319632127550, 16)]
  | 4 =>
    [(1124889431331866, 16), (3311353932579768, 16), (5313197436443756, 16),
      (7024962064915271, 16), (8367259381688688, 16), (9296548574297401, 16),
      (9815311495537401, 16), (9990981249676676, 16)]
  | 5 =>
    [(5634431304659279, 17), (1682352515522075, 16), (2777498220218243, 16),
      (3833593241987304, 16), (4836180269458411, 16), (5771957100520458, 16),
      (6629096600247806, 16), (7397560443526947, 16), (8069405319502176, 16),
      (8639079381936905, 16), (9103711569570043, 16), (9463428583734029, 16),
      (9721828747485818, 16), (9886847575474295, 16), (9972062593722220, 16),
      (9998728881203576, 16)]
  | 6 =>
    [(2818464894974569, 17), (8445404008371088, 17), (1404242331525602, 16),
      (1958975027111002, 16), (2506787303034832, 16), (3045764415567140, 16),
      (3574038378315322, 16), (4089798212298887, 16), (4591300119898323, 16),
      (5076877575337166, 16), (5544951326319325, 16), (5994039302422429, 16),
      (6422766425097595, 16), (6829874310910792, 16), (7214230853700989, 16),
      (7574839663805136, 16), (7910849337998483, 16), (8221562543649804, 16),
      (8506444947683502, 16), (8765134144847053, 16), (8997448997769401, 16),
      (9203400254700124, 16), (9383203977795929, 16), (9537300064257611, 16),
      (9666378515584165, 16), (9771415146397057, 16), (9853714995985203, 16),
      (9914957211781061, 16), (9957241046984072, 16), (9983166353184074, 16),
      (9995987996719107, 16), (9999824303548916, 16)]
  | 7 =>
    [(14093886410782462614, 21), (42269164765363603212, 21), (70406976042855179063, 21),
      (98482396598119202090, 21), (12647058437230196685, 20), (15434681148137810869, 20),
      (18208649675925219825, 20), (20966523824318119477, 20), (23705884558982972721, 20),
      (26424337241092676194, 20), (29119514851824668196, 20), (31789081206847668318, 20),
      (34430734159943802278, 20), (37042208795007823014, 20), (39621280605761593918, 20),
      (42165768662616330006, 20), (44673538766202847374, 20), (47142506587165887693, 20),
      (49570640791876146017, 20), (51955966153745702199, 20), (54296566649831149049, 20),
      (56590588542365442262, 20), (58836243444766254143, 20), (61031811371518640016, 20),
      (63175643771119423041, 20), (65266166541001749610, 20), (67301883023041847920, 20),
      (69281376977911470289, 20), (71203315536225203459, 20), (73066452124218126133, 20),
      (74869629361693660282, 20), (76611781930376009072, 20), (78291939411828301639, 20),
      (79909229096084140180, 20), (81462878765513741344, 20), (82952219463740140018, 20),
      (84376688267270860104, 20), (85735831088623215653, 20), (87029305554811390585, 20),
      (88256884024734190684, 20), (89418456833555902286, 20), (90514035881326159519, 20),
      (91543758715576504064, 20), (92507893290707565236, 20), (93406843615772578800, 20),
      (94241156519108305981, 20), (95011529752129487656, 20), (95718821610986096274, 20),
      (96364062156981213252, 20), (96948465950245923177, 20), (97473445975240266776, 20),
      (97940628167086268381, 20), (98351865757863272876, 20), (98709252795403406719, 20),
      (99015137040077015918, 20), (99272134428278861533, 20), (99483150280062100052, 20),
      (99651414591489027385, 20), (99780535449595727456, 20), (99874561446809511470, 20),
      (99938033802502358193, 20), (99976049092443204733, 20), (99994399620705437576, 20),
      (99999759637974846462, 20)]
  | 8 =>
    [(704713845933674648514, 23), (211398533783310883350, 22), (352278828084410232603, 22),
      (493081047908686267156, 22), (633773999173222898797, 22), (774326523498572825675, 22),
      (914707508403553909095, 22), (105488589749541988533, 21), (119483070065440005133, 21),
      (133451100421161601344, 21), (147389598111939940054, 21), (161295490111305257361, 21),
      (175165714086311475707, 21), (188997219411721861059, 21), (202786968183064697557, 21),
      (216531936228472628081, 21), (230229114119222177156, 21), (243875508178893021593, 21),
      (257468141491069790481, 21), (271004054905512543536, 21), (284480308042725577496, 21),
      (297893980296857823437, 21), (311242171836871800300, 21), (324522004605921855207, 21),
      (337730623318886219621, 21), (350865196458001209011, 21), (363922917266549655269, 21),
      (376901004740559344802, 21), (389796704618470795479, 21), (402607290368737092671, 21),
      (415330064175321663764, 21), (427962357921062742583, 21), (440501534168875795783, 21),
      (452944987140767283784, 21), (465290143694634735858, 21), (477534464298829155284, 21),
      (489675444004456155436, 21), (501710613415391878251, 21), (513637539655988578507, 21),
      (525453827336442687395, 21), (537157119515795115982, 21), (548745098662529448608, 21),
      (560215487612728441818, 21), (571566050525742833992, 21), (582794593837318850840, 21),
      (593898967210121954393, 21), (604877064481584353319, 21), (615726824608992638014, 21),
      (626446232611719746542, 21), (637033320510492495071, 21), (647486168263572388782, 21),
      (657802904699713735422, 21), (667981708447749702165, 21), (678020808862644517838, 21),
      (687918486947839325756, 21), (697673076273711232906, 21), (707282963891961103412, 21),
      (716746591245747095767, 21), (726062455075389632685, 21), (735229108319491547663, 21),
      (744245161011347082309, 21), (753109281170558142523, 21), (761820195689839149173, 21),
      (770376691217076824278, 21), (778777615032822744702, 21), (787021875923539422170, 21),
      (795108445051100526780, 21), (803036356819268687782, 21), (810804709738146594361, 21),
      (818412667287925807395, 21), (825859458783650001088, 21), (833144380243172624728, 21),
      (840266795261030442350, 21), (847226135891580884381, 21), (854021903545468625813, 21),
      (860653669904299969802, 21), (867121077859315215614, 21), (873423842480859310192, 21),
      (879561752026556262568, 21), (885534668997285008926, 21), (891342531251319871666, 21),
      (896985353188316590376, 21), (902463227016165675048, 21), (907776324115058903624, 21),
      (912924896514370590080, 21), (917909278499077501636, 21), (922729888363349241523, 21),
      (927387230329536696843, 21), (931881896650953639345, 21), (936214569916450806625, 21),
      (940386025573669721370, 21), (944397134685866648591, 21), (948248866934137357063, 21),
      (951942293872573589498, 21), (955478592438183697574, 21), (958859048710200221356, 21),
      (962085061904651475741, 21), (965158148579915665979, 21), (968079947017759947964, 21),
      (970852221732792443256, 21), (973476868052506926773, 21), (975955916702011753129, 21),
      (978291538324758539526, 21), (980486047876721339416, 21), (982541908851080604251, 21),
      (984461737328814534596, 21), (986248305913007552681, 21), (987904547695124280467, 21),
      (989433560520240838716, 21), (990838611958294243677, 21), (992123145530863117683, 21),
      (993290788851684966211, 21), (994345364356723405931, 21), (995290903148810302261, 21),
      (996131662079315037786, 21), (996872143485260161299, 21), (997517116063472399965, 21),
      (998071634524930323302, 21), (998541055697167906027, 21), (998931050830810562236, 21),
      (999247618943342473599, 21), (999497112467187190535, 21), (999686286448317731776, 21),
      (999822363679787739196, 21), (999913081144678282800, 21), (999966730098486276883, 21),
      (999992298136257588028, 21), (999999672956734384381, 21)]
  | _ => []

theorem patTable_eq : ∀ k, patTable k = (tabZ k).map dec
  | 0 => rfl
  | 1 => rfl
  | 2 => rfl
  | 3 => rfl
  | 4 => rfl
  | 5 => rfl
  | 6 => rfl
  | 7 => rfl
  | 8 => rfl
  | _ + 9 => rfl

/-- The positive points of the stages `1, ..., k`. -/
def posZ : ℕ → List (ℕ × ℕ)
  | 0 => []
  | k + 1 => posZ k ++ tabZ (k + 1)

theorem pos_eq (k : ℕ) : pos patTable k = (posZ k).map dec := by
  induction k with
  | zero => rfl
  | succ k ih => rw [pos, posZ, List.map_append, ih, patTable_eq]

/-- Strictly ascending, above `a`. -/
def asc (a : ℕ) : List ℕ → Bool
  | [] => true
  | x :: l => Nat.blt a x && asc x l

theorem asc_sound : ∀ {l : List ℕ} {a : ℕ}, asc a l = true → (a :: l).Pairwise (· < ·)
  | [], a, _ => by simp
  | x :: l, a, h => by
    rw [asc, Bool.and_eq_true] at h
    have ih := asc_sound h.2
    have hx : a < x := by simpa [Nat.blt] using h.1
    rw [List.pairwise_cons] at ih ⊢
    refine ⟨fun y hy => ?_, List.pairwise_cons.2 ih⟩
    rcases List.mem_cons.1 hy with rfl | hy
    · exact hx
    · exact hx.trans (ih.1 y hy)

/-- The numerators are sorted to `R`. -/
def SortedTo (k : ℕ) (R : List ℕ) : Prop :=
  ((posZ k).map (num 23)).insertionSort (· ≤ ·) = R ∧ asc 0 R = true ∧
    ((posZ k).all fun p => Nat.ble p.2 23) = true

theorem SortedTo.points {k : ℕ} {R : List ℕ} (h : SortedTo k R) :
    (patPoints patTable k).insertionSort (· ≤ ·) =
      GenzKeister.mirrorNeg (0 :: R.map (nz (10 ^ 23))) := by
  refine sort_patPoints (r := R.map (nz (10 ^ 23))) ?_ ?_
  · rw [pos_eq, map_dec h.2.2, sort_nz (by positivity), h.1]
  · intro x hx
    obtain ⟨n, hn, rfl⟩ := List.mem_map.1 hx
    have h1 := asc_sound h.2.1
    have h2 := (List.pairwise_cons.1 h1).1 n hn
    rw [nz]
    positivity

theorem SortedTo.pairwise {k : ℕ} {R : List ℕ} (h : SortedTo k R) :
    (0 :: R.map (nz (10 ^ 23))).Pairwise (· < ·) := by
  have h1 := asc_sound h.2.1
  have := h1.map (nz (10 ^ 23)) fun a b hab => nz_lt (D := 10 ^ 23) (by positivity) hab
  simpa [nz] using this

/-- The sorted numerators. -/
def srt0 : List ℕ :=
  []

theorem sortedTo0 : SortedTo 0 srt0 := by
  unfold SortedTo
  decide +kernel

/-- The sorted numerators. -/
def srt1 : List ℕ :=
  [77459666924148340000000]

theorem sortedTo1 : SortedTo 1 srt1 := by
  unfold SortedTo
  decide +kernel

/-- The sorted numerators. -/
def srt2 : List ℕ :=
  [43424374934680250000000, 77459666924148340000000, 96049126870802030000000]

theorem sortedTo2 : SortedTo 2 srt2 := by
  unfold SortedTo
  decide +kernel

/-- The sorted numerators. -/
def srt3 : List ℕ :=
  [22338668642896690000000, 43424374934680250000000, 62110294673722640000000,
    77459666924148340000000, 88845923287225700000000, 96049126870802030000000,
    99383196321275500000000]

theorem sortedTo3 : SortedTo 3 srt3 := by
  unfold SortedTo
  decide +kernel

/-- The sorted numerators. -/
def srt4 : List ℕ :=
  [11248894313318660000000, 22338668642896690000000, 33113539325797680000000,
    43424374934680250000000, 53131974364437560000000, 62110294673722640000000,
    70249620649152710000000, 77459666924148340000000, 83672593816886880000000,
    88845923287225700000000, 92965485742974010000000, 96049126870802030000000,
    98153114955374010000000, 99383196321275500000000, 99909812496766760000000]

theorem sortedTo4 : SortedTo 4 srt4 := by
  unfold SortedTo
  decide +kernel

/-- The sorted numerators. -/
def srt5 : List ℕ :=
  [5634431304659279000000, 11248894313318660000000, 16823525155220750000000,
    22338668642896690000000, 27774982202182430000000, 33113539325797680000000,
    38335932419873040000000, 43424374934680250000000, 48361802694584110000000,
    53131974364437560000000, 57719571005204580000000, 62110294673722640000000,
    66290966002478060000000, 70249620649152710000000, 73975604435269470000000,
    77459666924148340000000, 80694053195021760000000, 83672593816886880000000,
    86390793819369050000000, 88845923287225700000000, 91037115695700430000000,
    92965485742974010000000, 94634285837340290000000, 96049126870802030000000,
    97218287474858180000000, 98153114955374010000000, 98868475754742950000000,
    99383196321275500000000, 99720625937222200000000, 99909812496766760000000,
    99987288812035760000000]

theorem sortedTo5 : SortedTo 5 srt5 := by
  unfold SortedTo
  decide +kernel

/-- The sorted numerators. -/
def srt6 : List ℕ :=
  [2818464894974569000000, 5634431304659279000000, 8445404008371088000000,
    11248894313318660000000, 14042423315256020000000, 16823525155220750000000,
    19589750271110020000000, 22338668642896690000000, 25067873030348320000000,
    27774982202182430000000, 30457644155671400000000, 33113539325797680000000,
    35740383783153220000000, 38335932419873040000000, 40897982122988870000000,
    43424374934680250000000, 45913001198983230000000, 48361802694584110000000,
    50768775753371660000000, 53131974364437560000000, 55449513263193250000000,
    57719571005204580000000, 59940393024224290000000, 62110294673722640000000,
    64227664250975950000000, 66290966002478060000000, 68298743109107920000000,
    70249620649152710000000, 72142308537009890000000, 73975604435269470000000,
    75748396638051360000000, 77459666924148340000000, 79108493379984830000000,
    80694053195021760000000, 82215625436498040000000, 83672593816886880000000,
    85064449476835020000000, 86390793819369050000000, 87651341448470530000000,
    88845923287225700000000, 89974489977694010000000, 91037115695700430000000,
    92034002547001240000000, 92965485742974010000000, 93832039777959290000000,
    94634285837340290000000, 95373000642576110000000, 96049126870802030000000,
    96663785155841650000000, 97218287474858180000000, 97714151463970570000000,
    98153114955374010000000, 98537149959852030000000, 98868475754742950000000,
    99149572117810610000000, 99383196321275500000000, 99572410469840720000000,
    99720625937222200000000, 99831663531840740000000, 99909812496766760000000,
    99959879967191070000000, 99987288812035760000000, 99998243035489160000000]

theorem sortedTo6 : SortedTo 6 srt6 := by
  unfold SortedTo
  decide +kernel

/-- The sorted numerators. -/
def srt7 : List ℕ :=
  [1409388641078246261400, 2818464894974569000000, 4226916476536360321200, 5634431304659279000000,
    7040697604285517906300, 8445404008371088000000, 9848239659811920209000,
    11248894313318660000000, 12647058437230196685000, 14042423315256020000000,
    15434681148137810869000, 16823525155220750000000, 18208649675925219825000,
    19589750271110020000000, 20966523824318119477000, 22338668642896690000000,
    23705884558982972721000, 25067873030348320000000, 26424337241092676194000,
    27774982202182430000000, 29119514851824668196000, 30457644155671400000000,
    31789081206847668318000, 33113539325797680000000, 34430734159943802278000,
    35740383783153220000000, 37042208795007823014000, 38335932419873040000000,
    39621280605761593918000, 40897982122988870000000, 42165768662616330006000,
    43424374934680250000000, 44673538766202847374000, 45913001198983230000000,
    47142506587165887693000, 48361802694584110000000, 49570640791876146017000,
    50768775753371660000000, 51955966153745702199000, 53131974364437560000000,
    54296566649831149049000, 55449513263193250000000, 56590588542365442262000,
    57719571005204580000000, 58836243444766254143000, 59940393024224290000000,
    61031811371518640016000, 62110294673722640000000, 63175643771119423041000,
    64227664250975950000000, 65266166541001749610000, 66290966002478060000000,
    67301883023041847920000, 68298743109107920000000, 69281376977911470289000,
    70249620649152710000000, 71203315536225203459000, 72142308537009890000000,
    73066452124218126133000, 73975604435269470000000, 74869629361693660282000,
    75748396638051360000000, 76611781930376009072000, 77459666924148340000000,
    78291939411828301639000, 79108493379984830000000, 79909229096084140180000,
    80694053195021760000000, 81462878765513741344000, 82215625436498040000000,
    82952219463740140018000, 83672593816886880000000, 84376688267270860104000,
    85064449476835020000000, 85735831088623215653000, 86390793819369050000000,
    87029305554811390585000, 87651341448470530000000, 88256884024734190684000,
    88845923287225700000000, 89418456833555902286000, 89974489977694010000000,
    90514035881326159519000, 91037115695700430000000, 91543758715576504064000,
    92034002547001240000000, 92507893290707565236000, 92965485742974010000000,
    93406843615772578800000, 93832039777959290000000, 94241156519108305981000,
    94634285837340290000000, 95011529752129487656000, 95373000642576110000000,
    95718821610986096274000, 96049126870802030000000, 96364062156981213252000,
    96663785155841650000000, 96948465950245923177000, 97218287474858180000000,
    97473445975240266776000, 97714151463970570000000, 97940628167086268381000,
    98153114955374010000000, 98351865757863272876000, 98537149959852030000000,
    98709252795403406719000, 98868475754742950000000, 99015137040077015918000,
    99149572117810610000000, 99272134428278861533000, 99383196321275500000000,
    99483150280062100052000, 99572410469840720000000, 99651414591489027385000,
    99720625937222200000000, 99780535449595727456000, 99831663531840740000000,
    99874561446809511470000, 99909812496766760000000, 99938033802502358193000,
    99959879967191070000000, 99976049092443204733000, 99987288812035760000000,
    99994399620705437576000, 99998243035489160000000, 99999759637974846462000]

theorem sortedTo7 : SortedTo 7 srt7 := by
  unfold SortedTo
  decide +kernel

/-- The sorted numerators. -/
def srt8 : List ℕ :=
  [704713845933674648514, 1409388641078246261400, 2113985337833108833500, 2818464894974569000000,
    3522788280844102326030, 4226916476536360321200, 4930810479086862671560,
    5634431304659279000000, 6337739991732228987970, 7040697604285517906300,
    7743265234985728256750, 8445404008371088000000, 9147075084035539090950,
    9848239659811920209000, 10548858974954198853300, 11248894313318660000000,
    11948307006544000513300, 12647058437230196685000, 13345110042116160134400,
    14042423315256020000000, 14738959811193994005400, 15434681148137810869000,
    16129549011130525736100, 16823525155220750000000, 17516571408631147570700,
    18208649675925219825000, 18899721941172186105900, 19589750271110020000000,
    20278696818306469755700, 20966523824318119477000, 21653193622847262808100,
    22338668642896690000000, 23022911411922217715600, 23705884558982972721000,
    24387550817889302159300, 25067873030348320000000, 25746814149106979048100,
    26424337241092676194000, 27100405490551254353600, 27774982202182430000000,
    28448030804272557749600, 29119514851824668196000, 29789398029685782343700,
    30457644155671400000000, 31124217183687180030000, 31789081206847668318000,
    32452200460592185520700, 33113539325797680000000, 33773062331888621962100,
    34430734159943802278000, 35086519645800120901100, 35740383783153220000000,
    36392291726654965526900, 37042208795007823014000, 37690100474055934480200,
    38335932419873040000000, 38979670461847079547900, 39621280605761593918000,
    40260729036873709267100, 40897982122988870000000, 41533006417532166376400,
    42165768662616330006000, 42796235792106274258300, 43424374934680250000000,
    44050153416887579578300, 44673538766202847374000, 45294498714076728378400,
    45913001198983230000000, 46529014369463473585800, 47142506587165887693000,
    47753446429882915528400, 48361802694584110000000, 48967544400445615543600,
    49570640791876146017000, 50171061341539187825100, 50768775753371660000000,
    51363753965598857850700, 51955966153745702199000, 52545382733644268739500,
    53131974364437560000000, 53715711951579511598200, 54296566649831149049000,
    54874509866252944860800, 55449513263193250000000, 56021548761272844181800,
    56590588542365442262000, 57156605052574283399200, 57719571005204580000000,
    58279459383731885084000, 58836243444766254143000, 59389896721012195439300,
    59940393024224290000000, 60487706448158435331900, 61031811371518640016000,
    61572682460899263801400, 62110294673722640000000, 62644623261171974654200,
    63175643771119423041000, 63703332051049249507100, 64227664250975950000000,
    64748616826357238878200, 65266166541001749610000, 65780290469971373542200,
    66290966002478060000000, 66798170844774970216500, 67301883023041847920000,
    67802080886264451783800, 68298743109107920000000, 68791848694783932575600,
    69281376977911470289000, 69767307627371123290600, 70249620649152710000000,
    70728296389196110341200, 71203315536225203459000, 71674659124574709576700,
    72142308537009890000000, 72606245507538963268500, 73066452124218126133000,
    73522910831949154766300, 73975604435269470000000, 74424516101134708230900,
    74869629361693660282000, 75310928117055814252300, 75748396638051360000000,
    76182019568983914917300, 76611781930376009072000, 77037669121707682427800,
    77459666924148340000000, 77877761503282274470200, 78291939411828301639000,
    78702187592353942217000, 79108493379984830000000, 79510844505110052678000,
    79909229096084140180000, 80303635681926868778200, 80694053195021760000000,
    81080470973814659436100, 81462878765513741344000, 81841266728792580739500,
    82215625436498040000000, 82585945878365000108800, 82952219463740140018000,
    83314438024317262472800, 83672593816886880000000, 84026679526103044235000,
    84376688267270860104000, 84722613589158088438100, 85064449476835020000000,
    85402190354546862581300, 85735831088623215653000, 86065366990429996980200,
    86390793819369050000000, 86712107785931521561400, 87029305554811390585000,
    87342384248085931019200, 87651341448470530000000, 87956175202655626256800,
    88256884024734190684000, 88553466899728500892600, 88845923287225700000000,
    89134253125131987166600, 89418456833555902286000, 89698535318831659037600,
    89974489977694010000000, 90246322701616567504800, 90514035881326159519000,
    90777632411505890362400, 91037115695700430000000, 91292489651437059008000,
    91543758715576504064000, 91790927849907750163600, 92034002547001240000000,
    92272988836334924152300, 92507893290707565236000, 92738723032953669684300,
    92965485742974010000000, 93188189665095363934500, 93406843615772578800000,
    93621456991645080662500, 93832039777959290000000, 94038602557366972137000,
    94241156519108305981000, 94439713468586664859100, 94634285837340290000000,
    94824886693413735706300, 95011529752129487656000, 95194229387257358949800,
    95373000642576110000000, 95547859243818369757400, 95718821610986096274000,
    95885904871020022135600, 96049126870802030000000, 96208506190465147574100,
    96364062156981213252000, 96515814857991566597900, 96663785155841650000000,
    96807994701775994796400, 96948465950245923177000, 97085222173279244325600,
    97218287474858180000000, 97347686805250692677300, 97473445975240266776000,
    97595591670201175312900, 97714151463970570000000, 97829153832475853952600,
    97940628167086268381000, 98048604787672133941600, 98153114955374010000000,
    98254190885108060425100, 98351865757863272876000, 98446173732881453459600,
    98537149959852030000000, 98624830591300755268100, 98709252795403406719000,
    98790454769512428046700, 98868475754742950000000, 98943356052024083871600,
    99015137040077015918000, 99083861195829424367700, 99149572117810610000000,
    99212314553086311768300, 99272134428278861533000, 99329078885168496621100,
    99383196321275500000000, 99434536435672340593100, 99483150280062100052000,
    99529090314881030226100, 99572410469840720000000, 99613166207931503778600,
    99651414591489027385000, 99687214348526016129900, 99720625937222200000000,
    99751711606347239996500, 99780535449595727456000, 99807163452493032330200,
    99831663531840740000000, 99854105569716790602700, 99874561446809511470000,
    99893105083081056223600, 99909812496766760000000, 99924761894334247359900,
    99938033802502358193000, 99949711246718719053500, 99959879967191070000000,
    99968628644831773177600, 99976049092443204733000, 99982236367978773919600,
    99987288812035760000000, 99991308114467828280000, 99994399620705437576000,
    99996673009848627688300, 99998243035489160000000, 99999229813625758802800,
    99999759637974846462000, 99999967295673438438100]

theorem sortedTo8 : SortedTo 8 srt8 := by
  unfold SortedTo
  decide +kernel

theorem checkR1 : checkR (srt1.map fun n => n ^ 2) 3 ((10 ^ 23) ^ 2) (10 ^ 14) 1 = true := by
  decide +kernel

theorem checkR2 : checkR (srt2.map fun n => n ^ 2) 105 ((10 ^ 23) ^ 2) (10 ^ 14) 2 = true := by
  decide +kernel

theorem checkR3 : checkR (srt3.map fun n => n ^ 2) 2027025 ((10 ^ 23) ^ 2) (10 ^ 14) 4 = true := by
  decide +kernel

theorem checkR4 : checkR (srt4.map fun n => n ^ 2) 191898783962510625 ((10 ^ 23) ^ 2) (10 ^ 14) 8 = true := by
  decide +kernel

theorem checkR5 : checkR (srt5.map fun n => n ^ 2) 112275575285571389562324404930670903477890625 ((10 ^ 23) ^ 2) (10 ^ 14) 16 = true := by
  decide +kernel

/-- Numerators and exponents of `patS6`. -/
def wZ6 : List (ℕ × ℕ) :=
  [(5053609520786252, 20), (1807395644453884, 19), (3777466463269846, 19), (6326073193626335, 19),
    (9383698485423815, 19), (1289524082610417, 18), (1681142865421470, 18),
    (2108815245726633, 18), (2568764943794020, 18), (3057753410175531, 18),
    (3572892783517299, 18), (4111503978654693, 18), (4671050372114322, 18),
    (5249123454808859, 18), (5843449875835640, 18), (6451900050175737, 18),
    (7072489995433555, 18), (7703375233279742, 18), (8342838753968157, 18),
    (8989275784064136, 18), (9641177729702537, 18), (1029711695795636, 17),
    (1095573338783790, 17), (1161572331995513, 17), (1227583056008277, 17),
    (1293483966360737, 17), (1359157100976555, 17), (1424487737291678, 17),
    (1489364166481518, 17), (1553677555584398, 17), (1617321872957772, 17),
    (1680193857410386, 17), (1742193015946417, 17), (1803221639039129, 17),
    (1863184825613879, 17), (1921990512472777, 17), (1979549504809750, 17),
    (2035775505847216, 17), (2090585144581202, 17), (2143898001250387, 17),
    (2195636630531782, 17), (2245726582681610, 17), (2294096422938775, 17),
    (2340677749531401, 17), (2385405210603854, 17), (2428216520333660, 17),
    (2469052474448768, 17), (2507856965294977, 17), (2544576996546477, 17),
    (2579162697602423, 17), (2611567337670610, 17), (2641747339505826, 17),
    (2669662292745036, 17), (2695274966763303, 17), (2718551322962479, 17),
    (2739460526398143, 17), (2757974956648187, 17), (2774070217827968, 17),
    (2787725147661370, 17), (2798921825523816, 17), (2807645579381725, 17),
    (2813884991562715, 17), (2817631903301660, 17)]

theorem patS6_eq : patS6 = wZ6.map dec := rfl

/-- The weights of the positive points over `10 ^ 20`. -/
def wts6 : List ℕ :=
  [2817631903301660000, 2813884991562715000, 2807645579381725000, 2798921825523816000,
    2787725147661370000, 2774070217827968000, 2757974956648187000, 2739460526398143000,
    2718551322962479000, 2695274966763303000, 2669662292745036000, 2641747339505826000,
    2611567337670610000, 2579162697602423000, 2544576996546477000, 2507856965294977000,
    2469052474448768000, 2428216520333660000, 2385405210603854000, 2340677749531401000,
    2294096422938775000, 2245726582681610000, 2195636630531782000, 2143898001250387000,
    2090585144581202000, 2035775505847216000, 1979549504809750000, 1921990512472777000,
    1863184825613879000, 1803221639039129000, 1742193015946417000, 1680193857410386000,
    1617321872957772000, 1553677555584398000, 1489364166481518000, 1424487737291678000,
    1359157100976555000, 1293483966360737000, 1227583056008277000, 1161572331995513000,
    1095573338783790000, 1029711695795636000, 964117772970253700, 898927578406413600,
    834283875396815700, 770337523327974200, 707248999543355500, 645190005017573700,
    584344987583564000, 524912345480885900, 467105037211432200, 411150397865469300,
    357289278351729900, 305775341017553100, 256876494379402000, 210881524572663300,
    168114286542147000, 128952408261041700, 93836984854238150, 63260731936263350,
    37774664632698460, 18073956444538840, 5053609520786252]

theorem wts6_eq : (wZ6.map (num 20)).reverse = wts6 ∧ (wZ6.all fun p => Nat.ble p.2 20) = true := by
  decide +kernel

theorem checkN6 : checkN 95 2818881418019236000 wts6 (srt6.map fun n => n ^ 2) (10 ^ 20) ((10 ^ 23) ^ 2) (10 ^ 14) = true := by
  decide +kernel

theorem mirror6 : patMirror patS6 0.2818881418019236e-01 =
    GenzKeister.mirror (nz (10 ^ 20) 2818881418019236000 :: wts6.map (nz (10 ^ 20))) := by
  have h0 : (0.2818881418019236e-01 : ℝ) = nz (10 ^ 20) 2818881418019236000 := dec_eq (E := 20) (p := (2818881418019236, 17)) (by decide)
  rw [h0, patS6_eq, map_dec wts6_eq.2, ← wts6_eq.1, patMirror, GenzKeister.mirror]
  simp only [List.tail_cons, List.take_succ_cons, List.take_zero, List.map_reverse, List.reverse_reverse]

/-- Numerators and exponents of `patS7`. -/
def wZ7 : List (ℕ × ℕ) :=
  [(69379364324108267170, 25), (25157870384280661489, 24), (53275293669780613125, 24),
    (90372734658751149261, 24), (13575491094922871973, 23), (18887326450650491366, 23),
    (24921240048299729402, 23), (31630366082226447689, 23), (38974528447328229322, 23),
    (46918492424785040975, 23), (55429531493037471492, 23), (64476204130572477933, 23),
    (74028280424450333046, 23), (84057143271072246365, 23), (94536151685852538246, 23),
    (10544076228633167722, 22), (11674841174299594077, 22), (12843824718970101768, 22),
    (14049079956551446427, 22), (15288767050877655684, 22), (16561127281544526052, 22),
    (17864463917586498247, 22), (19197129710138724125, 22), (20557519893273465236, 22),
    (21944069253638388388, 22), (23355251860571608737, 22), (24789582266575679307, 22),
    (26245617274044295626, 22), (27721957645934509940, 22), (29217249379178197538, 22),
    (30730184347025783234, 22), (32259500250878684614, 22), (33803979910869203823, 22),
    (35362449977167777340, 22), (36933779170256508183, 22), (38516876166398709241, 22),
    (40110687240750233989, 22), (41714193769840788528, 22), (43326409680929828545, 22),
    (44946378920320678616, 22), (46573172997568547773, 22), (48205888648512683476, 22),
    (49843645647655386012, 22), (51485584789781777618, 22), (53130866051870565663, 22),
    (54778666939189508240, 22), (56428181013844441585, 22), (58078616599775673635, 22),
    (59729195655081658049, 22), (61379152800413850435, 22), (63027734490857587172, 22),
    (64674198318036867274, 22), (66317812429018878941, 22), (67957855048827733948, 22),
    (69593614093904229394, 22), (71224386864583871532, 22), (72849479805538070639, 22),
    (74468208324075910174, 22), (76079896657190565832, 22), (77683877779219912200, 22),
    (79279493342948491103, 22), (80866093647888599710, 22), (82443037630328680306, 22),
    (84009692870519326354, 22), (85565435613076896192, 22), (87109650797320868736, 22),
    (88641732094824942641, 22), (90161081951956431600, 22), (91667111635607884067, 22),
    (93159241280693950932, 22), (94636899938300652943, 22), (96099525623638830097, 22),
    (97546565363174114611, 22), (98977475240487497440, 22), (10039172044056840798, 21),
    (10178877529236079733, 21), (10316812330947621682, 21), (10452925722906011926, 21),
    (10587167904885197931, 21), (10719490006251933623, 21), (10849844089337314099, 21),
    (10978183152658912470, 21), (11104461134006926537, 21), (11228632913408049354, 21),
    (11350654315980596602, 21), (11470482114693874380, 21), (11588074033043952568, 21),
    (11703388747657003101, 21), (11816385890830235763, 21), (11927026053019270040, 21),
    (12035270785279562630, 21), (12141082601668299679, 21), (12244424981611985899, 21),
    (12345262372243838455, 21), (12443560190714035263, 21), (12539284826474884353, 21),
    (12632403643542078765, 21), (12722884982732382906, 21), (12810698163877361967, 21),
    (12895813488012114694, 21), (12978202239537399286, 21), (13057836688353048840, 21),
    (13134690091960152836, 21), (13208736697529129966, 21), (13279951743930530650, 21),
    (13348311463725179953, 21), (13413793085110098513, 21), (13476374833816515982, 21),
    (13536035934956213614, 21), (13592756614812395910, 21), (13646518102571291428, 21),
    (13697302631990716258, 21), (13745093443001896632, 21), (13789874783240936517, 21),
    (13831631909506428676, 21), (13870351089139840997, 21), (13906019601325461264, 21),
    (13938625738306850804, 21), (13968158806516938516, 21), (13994609127619079852, 21),
    (14017968039456608810, 21), (14038227896908623303, 21), (14055382072649964277, 21),
    (14069424957813575318, 21), (14080351962553661325, 21), (14088159516508301065, 21),
    (14092845069160408355, 21)]

theorem patS7_eq : patS7 = wZ7.map dec := rfl

/-- The weights of the positive points over `10 ^ 25`. -/
def wts7 : List ℕ :=
  [140928450691604083550000, 140881595165083010650000, 140803519625536613250000,
    140694249578135753180000, 140553820726499642770000, 140382278969086233030000,
    140179680394566088100000, 139946091276190798520000, 139681588065169385160000,
    139386257383068508040000, 139060196013254612640000, 138703510891398409970000,
    138316319095064286760000, 137898747832409365170000, 137450934430018966320000,
    136973026319907162580000, 136465181025712914280000, 135927566148123959100000,
    135360359349562136140000, 134763748338165159820000, 134137930851100985130000,
    133483114637251799530000, 132799517439305306500000, 132087366975291299660000,
    131346900919601528360000, 130578366883530488400000, 129782022395373992860000,
    128958134880121146940000, 128106981638773619670000, 127228849827323829060000,
    126324036435420787650000, 125392848264748843530000, 124435601907140352630000,
    123452623722438384550000, 122444249816119858990000, 121410826016682996790000,
    120352707852795626300000, 119270260530192700400000, 118163858908302357630000,
    117033887476570031010000, 115880740330439525680000, 114704821146938743800000,
    113506543159805966020000, 112286329134080493540000, 111044611340069265370000,
    109781831526589124700000, 108498440893373140990000, 107194900062519336230000,
    105871679048851979310000, 104529257229060119260000, 103168123309476216820000,
    101788775292360797330000, 100391720440568407980000, 98977475240487497440000,
    97546565363174114611000, 96099525623638830097000, 94636899938300652943000,
    93159241280693950932000, 91667111635607884067000, 90161081951956431600000,
    88641732094824942641000, 87109650797320868736000, 85565435613076896192000,
    84009692870519326354000, 82443037630328680306000, 80866093647888599710000,
    79279493342948491103000, 77683877779219912200000, 76079896657190565832000,
    74468208324075910174000, 72849479805538070639000, 71224386864583871532000,
    69593614093904229394000, 67957855048827733948000, 66317812429018878941000,
    64674198318036867274000, 63027734490857587172000, 61379152800413850435000,
    59729195655081658049000, 58078616599775673635000, 56428181013844441585000,
    54778666939189508240000, 53130866051870565663000, 51485584789781777618000,
    49843645647655386012000, 48205888648512683476000, 46573172997568547773000,
    44946378920320678616000, 43326409680929828545000, 41714193769840788528000,
    40110687240750233989000, 38516876166398709241000, 36933779170256508183000,
    35362449977167777340000, 33803979910869203823000, 32259500250878684614000,
    30730184347025783234000, 29217249379178197538000, 27721957645934509940000,
    26245617274044295626000, 24789582266575679307000, 23355251860571608737000,
    21944069253638388388000, 20557519893273465236000, 19197129710138724125000,
    17864463917586498247000, 16561127281544526052000, 15288767050877655684000,
    14049079956551446427000, 12843824718970101768000, 11674841174299594077000,
    10544076228633167722000, 9453615168585253824600, 8405714327107224636500,
    7402828042445033304600, 6447620413057247793300, 5542953149303747149200,
    4691849242478504097500, 3897452844732822932200, 3163036608222644768900,
    2492124004829972940200, 1888732645065049136600, 1357549109492287197300, 903727346587511492610,
    532752936697806131250, 251578703842806614890, 69379364324108267170]

theorem wts7_eq : (wZ7.map (num 25)).reverse = wts7 ∧ (wZ7.all fun p => Nat.ble p.2 25) = true := by
  decide +kernel

theorem checkN7 : checkN 191 140944070900961793470000 wts7 (srt7.map fun n => n ^ 2) (10 ^ 25) ((10 ^ 23) ^ 2) (10 ^ 14) = true := by
  decide +kernel

theorem mirror7 : patMirror patS7 0.14094407090096179347e-01 =
    GenzKeister.mirror (nz (10 ^ 25) 140944070900961793470000 :: wts7.map (nz (10 ^ 25))) := by
  have h0 : (0.14094407090096179347e-01 : ℝ) = nz (10 ^ 25) 140944070900961793470000 := dec_eq (E := 25) (p := (14094407090096179347, 21)) (by decide)
  rw [h0, patS7_eq, map_dec wts7_eq.2, ← wts7_eq.1, patMirror, GenzKeister.mirror]
  simp only [List.tail_cons, List.take_succ_cons, List.take_zero, List.map_reverse, List.reverse_reverse]

/-- Numerators and exponents of `patS8`. -/
def wZ8 : List (ℕ × ℕ) :=
  [(945715933950007048827, 27), (345456507169149134898, 26), (736624069102321668857, 26),
    (125792781889592743525, 25), (190213681905875816679, 25), (266376412339000901358, 25),
    (353751372055189588628, 25), (451863674126296143105, 25), (560319507856164252140, 25),
    (678774554733972416227, 25), (806899228014035293851, 25), (944366322532705527066, 25),
    (109085545645741522051, 24), (124606200241498368482, 24), (140970302204104791413, 24),
    (158151830411132242924, 24), (176126765545083195474, 24), (194872642236641146532, 24),
    (214368090034216937149, 24), (234592462123925204879, 24), (255525589595236862014, 24),
    (277147657465187357459, 24), (299439176850911730874, 24), (322381020652862389664, 24),
    (345954492129903871350, 24), (370141402122251665232, 24), (394924138246873704434, 24),
    (420285716355361231823, 24), (446209810101403247488, 24), (472680758429262691232, 24),
    (499683553312800484519, 24), (527203811431658386125, 24), (555227733977307579715, 24),
    (583742058714979703847, 24), (612734008012225209294, 24), (642191235948505088403, 24),
    (672101776960108194646, 24), (702453997827572321358, 24), (733236554224767912055, 24),
    (764438352543882784191, 24), (796048517297550871506, 24), (828056364077226302608, 24),
    (860451377808527848128, 24), (893223195879324912340, 24), (926361595613111283368, 24),
    (959856485506936206261, 24), (993697899638760857945, 24), (102787599466367326179, 23),
    (106238104885340071375, 23), (109720346268191941940, 23), (113233376051597664917, 23),
    (116776259302858043685, 23), (120348074001265964881, 23), (123947911332878396534, 23),
    (127574875977346947345, 23), (131228086370221478128, 23), (134906674928353113127, 23),
    (138609788229672549700, 23), (142336587141720519900, 23), (146086246895890987689, 23),
    (149857957106456636214, 23), (153650921735128916170, 23), (157464359003212166189, 23),
    (161297501254393423070, 23), (165149594771914570655, 23), (169019899554346019117, 23),
    (172907689054461607168, 23), (176812249885838886701, 23), (180732881501808930079, 23),
    (184668895851282540913, 23), (188619617015808475394, 23), (192584380831993546204, 23),
    (196562534503150547732, 23), (200553436203751169944, 23), (204556454679958293446, 23),
    (208570968849203942640, 23), (212596367401472533045, 23), (216632048404649142727, 23),
    (220677418916003329194, 23), (224731894601603393082, 23), (228794899365195972378, 23),
    (232865864987842738864, 23), (236944230779380495146, 23), (241029443242563417382, 23),
    (245120955750556483923, 23), (249218228238276930060, 23), (253320726907925325750, 23),
    (257427923948908888092, 23), (261539297272236109225, 23), (265654330259352828314, 23),
    (269772511525294586667, 23), (273893334695947541201, 23), (278016298199139435045, 23),
    (282140905069222207923, 23), (286266662764757868253, 23), (290393082998878368175, 23),
    (294519681581857582284, 23), (298645978275408290247, 23), (302771496658198544480, 23),
    (306895764002069252174, 23), (311018311158427546158, 23), (315138672454287935858, 23),
    (319256385597434736790, 23), (323370991590184336368, 23), (327482034651233969564, 23),
    (331589062145094394706, 23), (335691624518616761342, 23), (339789275244138669739, 23),
    (343881570768790591876, 23), (347968070469521146972, 23), (352048336613417922682, 23),
    (356121934322919357659, 23), (360188431545532431869, 23), (364247399027690353194, 23),
    (368298410292403911967, 23), (372341041620379550870, 23), (376374872034296338241, 23),
    (380399483285952829161, 23), (384414459846013158917, 23), (388419388896099560998, 23),
    (392413860322995774660, 23), (396397466714742455513, 23), (400369803358421688562, 23),
    (404330468239442998549, 23), (408279062042157838350, 23), (412215188151643401528, 23),
    (416138452656509745764, 23), (420048464352596631772, 23), (423944834747438184434, 23),
    (427827178065384480959, 23), (431695111253279479928, 23), (435548253986604343679, 23),
    (439386228676004195260, 23), (443208660474124713206, 23), (447015177282692726900, 23),
    (450805409759782158001, 23), (454578991327213285488, 23), (458335558178039420335, 23),
    (462074749284080687482, 23), (465796206403469754658, 23), (469499574088179046532, 23),
    (473184499691503264714, 23), (476850633375474925263, 23), (480497628118194150483, 23),
    (484125139721057135214, 23), (487732826815870573054, 23), (491320350871841897367, 23),
    (494887376202437487201, 23), (498433569972103029914, 23), (501958602202842039909, 23),
    (505462145780650125058, 23), (508943876461803986674, 23), (512403472879005351831, 23),
    (515840616547381084096, 23), (519254991870341614863, 23), (522646286145300596306, 23),
    (526014189569259311205, 23), (529358395244259896547, 23), (532678599182711857974, 23),
    (535974500312596681161, 23), (539245800482555593606, 23), (542492204466865704951, 23),
    (545713419970309863995, 23), (548909157632945623482, 23), (552079131034778706457, 23),
    (555223056700346326850, 23), (558340654103215637610, 23), (561431645670402467678, 23),
    (564495756786715368885, 23), (567532715799029830087, 23), (570542254020497332312, 23),
    (573524105734693719020, 23), (576478008199711142954, 23), (579403701652197628421, 23),
    (582300929311348057702, 23), (585169437382850155033, 23), (588008975062788803205, 23),
    (590819294541511788161, 23), (593600151007459827614, 23), (596351302650963502011, 23),
    (599072510668009471472, 23), (601763539263978131522, 23), (604424155657354634589, 23),
    (607054130083414983949, 23), (609653235797888692923, 23), (612221249080599294931, 23),
    (614757949239083790214, 23), (617263118612191922727, 23), (619736542573665996342, 23),
    (622178009535701763157, 23), (624587310952490748541, 23), (626964241323744217671, 23),
    (629308598198198836688, 23), (631620182177103938227, 23), (633898796917690165912, 23),
    (636144249136619145314, 23), (638356348613413709795, 23), (640534908193868098342, 23),
    (642679743793437438922, 23), (644790674400605734710, 23), (646867522080231481688, 23),
    (648910111976869964292, 23), (650918272318071200827, 23), (652891834417652442012, 23),
    (654830632678944064054, 23), (656734504598007641819, 23), (658603290766824937794, 23),
    (660436834876456498276, 23), (662234983720168509457, 23), (663997587196526532519, 23),
    (665724498312454708217, 23), (667415573186258997654, 23), (669070671050613006584, 23),
    (670689654255504925648, 23), (672272388271144108036, 23), (673818741690825799086, 23),
    (675328586233752529078, 23), (676801796747810680683, 23), (678238251212300746082, 23),
    (679637830740619795480, 23), (681000419582894688374, 23), (682325905128564571420, 23),
    (683614177908911221841, 23), (684865131599535812903, 23), (686078663022780697951, 23),
    (687254672150094831613, 23), (688393062104341470995, 23), (689493739162046825872, 23),
    (690556612755588354803, 23), (691581595475321433825, 23), (692568603071643155621, 23),
    (693517554456992049848, 23), (694428371707782549438, 23), (695300980066273063177, 23),
    (696135307942366551493, 23), (696931286915342540213, 23), (697688851735519545845, 23),
    (698407940325846925786, 23), (699088493783425207545, 23), (699730456380953992594, 23),
    (700333775568106572820, 23), (700898401972830440494, 23), (701424289402572916425, 23),
    (701911394845431165171, 23), (702359678471225911031, 23), (702769103632498213858, 23),
    (703139636865428709508, 23), (703471247890678765907, 23), (703763909614153052319, 23),
    (704017598127683066242, 23), (704232292709631209597, 23), (704407975825415053266, 23),
    (704544633127951476780, 23), (704642253458020417748, 23), (704700828844548013730, 23)]

theorem patS8_eq : patS8 = wZ8.map dec := rfl

/-- The weights of the positive points over `10 ^ 27`. -/
def wts8 : List ℕ :=
  [7047008288445480137300000, 7046422534580204177480000, 7045446331279514767800000,
    7044079758254150532660000, 7042322927096312095970000, 7040175981276830662420000,
    7037639096141530523190000, 7034712478906787659070000, 7031396368654287095080000,
    7027691036324982138580000, 7023596784712259110310000, 7019113948454311651710000,
    7014242894025729164250000, 7008984019728304404940000, 7003337755681065728200000,
    6997304563809539925940000, 6990884937834252075450000, 6984079403258469257860000,
    6976888517355195458450000, 6969312869153425402130000, 6961353079423665514930000,
    6953009800662730631770000, 6944283717077825494380000, 6935175544569920498480000,
    6925686030716431556210000, 6915815954753214338250000, 6905566127555883548030000,
    6894937391620468258720000, 6883930621043414709950000, 6872546721500948316130000,
    6860786630227806979510000, 6848651315995358129030000, 6836141779089112218410000,
    6823259051285645714200000, 6810004195828946883740000, 6796378307406197954800000,
    6782382512123007460820000, 6768017967478106806830000, 6753285862337525290780000,
    6738187416908257990860000, 6722723882711441080360000, 6706896542555049256480000,
    6690706710506130065840000, 6674155731862589976540000, 6657244983124547082170000,
    6639975871965265325190000, 6622349837201685094570000, 6604368348764564982760000,
    6586032907668249377940000, 6567345045980076418190000, 6548306326789440640540000,
    6528918344176524420120000, 6509182723180712008270000, 6489101119768699642920000,
    6468675220802314816880000, 6447906744006057347100000, 6426797437934374389220000,
    6405349081938680983420000, 6383563486134137097950000, 6361442491366191453140000,
    6338987969176901659120000, 6316201821771039382270000, 6293085981981988366880000,
    6269642413237442176710000, 6245873109524907485410000, 6221780095357017631570000,
    6197365425736659963420000, 6172631186121919227270000, 6147579492390837902140000,
    6122212490805992949310000, 6096532357978886929230000, 6070541300834149839490000,
    6044241556573546345890000, 6017635392639781315220000, 5990725106680094714720000,
    5963513026509635020110000, 5936001510074598276140000, 5908192945415117881610000,
    5880089750627888032050000, 5851694373828501550330000, 5823009293113480577020000,
    5794037016521976284210000, 5764780081997111429540000, 5735241057346937190200000,
    5705422540204973323120000, 5675327157990298300870000, 5644957567867153688850000,
    5614316456704024676780000, 5583406541032156376100000, 5552230567003463268500000,
    5520791310347787064570000, 5489091576329456234820000, 5457134199703098639950000,
    5424922044668657049510000, 5392458004825555936060000, 5359745003125966811610000,
    5326785991827118579740000, 5293583952442598965470000, 5260141895692593112050000,
    5226462861453005963060000, 5192549918703416148630000, 5158406165473810840960000,
    5124034728790053518310000, 5089438764618039866740000, 5054621457806501250580000,
    5019586022028420399090000, 4984335699721030299140000, 4948873762024374872010000,
    4913203508718418973670000, 4877328268158705730540000, 4841251397210571352140000,
    4804976281181941504830000, 4768506333754749252630000, 4731844996915032647140000,
    4694995740881790465320000, 4657962064034697546580000, 4620747492840806874820000,
    4583355581780394203350000, 4545789913272132854880000, 4508054097597821580010000,
    4470151772826927269000000, 4432086604741247132060000, 4393862286760041952600000,
    4355482539866043436790000, 4316951112532794799280000, 4278271780653844809590000,
    4239448347474381844340000, 4200484643525966317720000, 4161384526565097457640000,
    4122151881516434015280000, 4082790620421578383500000, 4043304682394429985490000,
    4003698033584216885620000, 3963974667147424555130000, 3924138603229957746600000,
    3884193888960995609980000, 3844144598460131589170000, 3803994832859528291610000,
    3763748720342963382410000, 3723410416203795508700000, 3682984102924039119670000,
    3642473990276903531940000, 3601884315455324318690000, 3561219343229193576590000,
    3520483366134179226820000, 3479680704695211469720000, 3438815707687905918760000,
    3397892752441386697390000, 3356916245186167613420000, 3315890621450943947060000,
    3274820346512339695640000, 3233709915901843363680000, 3192563855974347367900000,
    3151386724542879358580000, 3110183111584275461580000, 3068957640020692521740000,
    3027714966581985444800000, 2986459782754082902470000, 2945196815818575822840000,
    2903930829988783681750000, 2862666627647578682530000, 2821409050692222079230000,
    2780162981991394350450000, 2738933346959475412010000, 2697725115252945866670000,
    2656543302593528283140000, 2615392972722361092250000, 2574279239489088880920000,
    2533207269079253257500000, 2492182282382769300600000, 2451209557505564839230000,
    2410294432425634173820000, 2369442307793804951460000, 2328658649878427388640000,
    2287948993651959723780000, 2247318946016033930820000, 2206774189160033291940000,
    2166320484046491427270000, 2125963674014725330450000, 2085709688492039426400000,
    2045564546799582934460000, 2005534362037511699440000, 1965625345031505477320000,
    1925843808319935462040000, 1886196170158084753940000, 1846688958512825409130000,
    1807328815018089300790000, 1768122498858388867010000, 1729076890544616071680000,
    1690198995543460191170000, 1651495947719145706550000, 1612975012543934230700000,
    1574643590032121661890000, 1536509217351289161700000, 1498579571064566362140000,
    1460862468958909876890000, 1423365871417205199000000, 1386097882296725497000000,
    1349066749283531131270000, 1312280863702214781280000, 1275748759773469473450000,
    1239479113328783965340000, 1203480740012659648810000, 1167762593028580436850000,
    1132333760515976649170000, 1097203462681919419400000, 1062381048853400713750000,
    1027875994663673261790000, 993697899638760857945000, 959856485506936206261000,
    926361595613111283368000, 893223195879324912340000, 860451377808527848128000,
    828056364077226302608000, 796048517297550871506000, 764438352543882784191000,
    733236554224767912055000, 702453997827572321358000, 672101776960108194646000,
    642191235948505088403000, 612734008012225209294000, 583742058714979703847000,
    555227733977307579715000, 527203811431658386125000, 499683553312800484519000,
    472680758429262691232000, 446209810101403247488000, 420285716355361231823000,
    394924138246873704434000, 370141402122251665232000, 345954492129903871350000,
    322381020652862389664000, 299439176850911730874000, 277147657465187357459000,
    255525589595236862014000, 234592462123925204879000, 214368090034216937149000,
    194872642236641146532000, 176126765545083195474000, 158151830411132242924000,
    140970302204104791413000, 124606200241498368482000, 109085545645741522051000,
    94436632253270552706600, 80689922801403529385100, 67877455473397241622700,
    56031950785616425214000, 45186367412629614310500, 35375137205518958862800,
    26637641233900090135800, 19021368190587581667900, 12579278188959274352500,
    7366240691023216688570, 3454565071691491348980, 945715933950007048827]

theorem wts8_eq : (wZ8.map (num 27)).reverse = wts8 ∧ (wZ8.all fun p => Nat.ble p.2 27) = true := by
  decide +kernel

theorem checkN8 : checkN 383 7047203545048089673460000 wts8 (srt8.map fun n => n ^ 2) (10 ^ 27) ((10 ^ 23) ^ 2) (10 ^ 14) = true := by
  decide +kernel

theorem mirror8 : patMirror patS8 0.704720354504808967346e-02 =
    GenzKeister.mirror (nz (10 ^ 27) 7047203545048089673460000 :: wts8.map (nz (10 ^ 27))) := by
  have h0 : (0.704720354504808967346e-02 : ℝ) = nz (10 ^ 27) 7047203545048089673460000 := dec_eq (E := 27) (p := (704720354504808967346, 23)) (by decide)
  rw [h0, patS8_eq, map_dec wts8_eq.2, ← wts8_eq.1, patMirror, GenzKeister.mirror]
  simp only [List.tail_cons, List.take_succ_cons, List.take_zero, List.map_reverse, List.reverse_reverse]

end Patterson
end Quadpy
