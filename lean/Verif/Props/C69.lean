import Verif.Model.RegistryData
import Verif.Model.GoodScheme
import Mathlib.Data.List.Nodup
import Mathlib.Data.List.Induction

/-!
# C69: the dictionaries `schemes`
-/

namespace Quadpy.Registry
open Quadpy

/-! ### Dictionaries -/

/-- No key occurs twice. -/
def Dict.Proper (d : Dict) : Prop := (d.map Prod.fst).Nodup

theorem setItem_keys (d : Dict) (k : String) (v : Function) :
    (setItem d k v).map Prod.fst = if k ∈ d.map Prod.fst then d.map Prod.fst else d.map Prod.fst ++ [k] := by
  unfold setItem
  have h : (d.any fun e => decide (e.1 = k)) = true ↔ k ∈ d.map Prod.fst := by
    simp only [List.any_eq_true, decide_eq_true_eq, List.mem_map]
  by_cases hk : k ∈ d.map Prod.fst
  · rw [if_pos (h.2 hk), if_pos hk, List.map_map]
    refine List.map_congr_left fun e _ => ?_
    simp only [Function.comp]
    split_ifs with he
    · exact he.symm
    · rfl
  · rw [if_neg (fun h' => hk (h.1 h')), if_neg hk, List.map_append]
    rfl

theorem setItem_proper {d : Dict} (h : d.Proper) (k : String) (v : Function) : (setItem d k v).Proper := by
  unfold Dict.Proper at *
  rw [setItem_keys]
  split_ifs with hk
  · exact h
  · exact h.append (by simp) (by simpa using hk)

theorem getItem_setItem (d : Dict) (k s : String) (v : Function) :
    getItem (setItem d k v) s = if s = k then some v else getItem d s := by
  unfold getItem setItem
  split_ifs with h1 h2 h2
  · subst h2
    induction d with
    | nil => simp at h1
    | cons e d ih =>
      rw [List.map_cons, List.find?_cons]
      by_cases he : e.1 = s
      · simp [he]
      · simp only [he, if_false, decide_false]
        refine ih ?_
        simpa [he] using h1
  · induction d with
    | nil => rfl
    | cons e d ih =>
      rw [List.map_cons, List.find?_cons, List.find?_cons]
      by_cases he : e.1 = k
      · have hs : ¬ k = s := fun h => h2 h.symm
        have hs' : ¬ e.1 = s := fun h => h2 (h.symm.trans he)
        simp only [he, if_true, hs, decide_false]
        by_cases hd : (d.any fun e => decide (e.1 = k)) = true
        · exact ih hd
        · congr 1
          have : (d.map fun e => if e.1 = k then (k, v) else e) = d := by
            refine (List.map_congr_left fun x hx => ?_).trans (List.map_id _)
            rw [if_neg]
            · rfl
            · intro hxk
              exact hd (List.any_eq_true.2 ⟨x, hx, by simpa using hxk⟩)
          rw [this]
      · simp only [he, if_false]
        by_cases hs : e.1 = s
        · simp [hs]
        · simp only [hs, decide_false]
          refine ih ?_
          simpa [he] using h1
  · subst h2
    rw [List.find?_append]
    have : d.find? (fun e => decide (e.1 = s)) = none := by
      rw [List.find?_eq_none]
      intro x hx hxs
      exact h1 (List.any_eq_true.2 ⟨x, hx, hxs⟩)
    simp [this]
  · rw [List.find?_append]
    have : ¬ k = s := fun h => h2 h.symm
    cases d.find? (fun e => decide (e.1 = s)) <;> simp [this]

/-- C69: after any calls of `register`, the key `s` gives the function which was registered last among those with the
`__name__` `s`; it is a KeyError exactly if there is none. -/
theorem C69_lookup (calls : List (List Function)) (s : String) :
    (∀ f, getItem (registerAll calls) s = some f ↔
      ∃ l r, calls.flatten = l ++ f :: r ∧ f.name = s ∧ ∀ g ∈ r, g.name ≠ s) ∧
    (getItem (registerAll calls) s = none ↔ ∀ f ∈ calls.flatten, f.name ≠ s) := by
  have hflat : ∀ d, calls.foldl register d = register d calls.flatten := by
    induction calls with
    | nil => intro d; rfl
    | cons c calls ih =>
      intro d
      rw [List.foldl_cons, ih, List.flatten_cons]
      simp only [register, List.foldl_append]
  unfold registerAll
  rw [hflat]
  generalize calls.flatten = L
  induction L using List.reverseRecOn with
  | nil =>
    refine ⟨fun f => ?_, ?_⟩
    · simp [register, getItem]
    · simp [register, getItem]
  | append_singleton L a ih =>
    have hstep : register [] (L ++ [a]) = setItem (register [] L) a.name a := by
      simp only [register, List.foldl_append, List.foldl_cons, List.foldl_nil]
    rw [hstep]
    obtain ⟨ih1, ih2⟩ := ih
    constructor
    · intro f
      rw [getItem_setItem]
      split_ifs with h
      · constructor
        · intro h'
          rw [Option.some.injEq] at h'
          subst h'
          exact ⟨L, [], rfl, h.symm, by simp⟩
        · rintro ⟨l, r, h1, h2, h3⟩
          rcases List.eq_nil_or_concat r with rfl | ⟨r', b, rfl⟩
          · have := List.append_inj_right' h1 rfl
            simp only [List.cons.injEq, and_true] at this
            rw [this]
          · rw [List.concat_eq_append, ← List.cons_append, ← List.append_assoc] at h1
            have := List.append_inj_right' h1 rfl
            simp only [List.cons.injEq, and_true] at this
            exact absurd h.symm (h3 a (by rw [this]; simp))
      · rw [ih1]
        constructor
        · rintro ⟨l, r, rfl, h2, h3⟩
          refine ⟨l, r ++ [a], by simp, h2, ?_⟩
          intro g hg
          rcases List.mem_append.1 hg with hg | hg
          · exact h3 g hg
          · rw [List.mem_singleton.1 hg]
            exact fun h' => h h'.symm
        · rintro ⟨l, r, h1, h2, h3⟩
          rcases List.eq_nil_or_concat r with rfl | ⟨r', b, rfl⟩
          · have := List.append_inj_right' h1 rfl
            simp only [List.cons.injEq, and_true] at this
            exact absurd h2.symm (by rw [← this]; exact h)
          · rw [List.concat_eq_append, ← List.cons_append, ← List.append_assoc] at h1
            exact ⟨l, r', List.append_inj_left' h1 rfl, h2, fun g hg => h3 g (by simp [hg])⟩
    · rw [getItem_setItem]
      split_ifs with h
      · simp only [reduceCtorEq, false_iff]
        intro h'
        exact h' a (by simp) h.symm
      · rw [ih2]
        constructor
        · intro h' f hf
          rcases List.mem_append.1 hf with hf | hf
          · exact h' f hf
          · rw [List.mem_singleton.1 hf]
            exact fun h'' => h h''.symm
        · exact fun h' f hf => h' f (List.mem_append_left _ hf)

/-- C69: no key occurs twice in the dictionary. -/
theorem C69_keys (calls : List (List Function)) : ((registerAll calls).map Prod.fst).Nodup := by
  have h1 : ∀ (l : List Function) (d : Dict), d.Proper → (register d l).Proper := by
    intro l
    induction l with
    | nil => exact fun d h => h
    | cons a l ih => exact fun d h => ih _ (setItem_proper h _ _)
  have h2 : ∀ (calls : List (List Function)) (d : Dict), d.Proper → (calls.foldl register d).Proper := by
    intro calls
    induction calls with
    | nil => exact fun d h => h
    | cons a l ih => exact fun d h => ih _ (h1 a d h)
  exact h2 calls [] (by simp [Dict.Proper])

/-! ### The registrations of quadpy -/

/-- The dictionary `quadpy.<domain>.schemes` after `import quadpy`. -/
def schemes (d : Domain) : Dict := registerAll [(regs d).filterMap fun r => (fns d)[r.2]?]

/-- A number for each string.  (Only used to compare many strings quickly.) -/
def code (s : String) : ℕ := s.toByteArray.data.toList.foldl (fun a c => a * 256 + c.toNat) 1

def c2Codes : List ℕ :=
  [30787518287860656500222781657437029636136753, 30787518287860656500222781657437029636136754,
   30787518287860656500222781657437029636136755, 30787518287860656500222781657437029636136756, 25541446680409891941,
   472454400861744381844225200803547275057, 472454400861744381844225200803547275058,
   8715248048464370648363628328842818322091710420289811210033,
   2231103500406878885981088852183761490455477867594191532678961,
   2231103500406878885981088852183761490455477867594191532678962,
   2231103500406878885981088852183761490455477867594191532678963,
   2231103500406878885981088852183761490455477867594191532941105,
   2231103500406878885981088852183761490455477867594191532941106,
   132984131598882608770196965466961949494807593083232049, 132984131598882608770196965466961949494807593083232050,
   104842197801787185, 104842197801787186, 104842197801787187, 430932144826059638693638192,
   430932144826059638693638193, 430932144826059638693638194, 430932144826059638693638196, 430932144826059638693638197,
   430932144826059638693638198, 430932144826059638693638199, 430932144826059638693638200, 430932144826059638693638201,
   430932144826059638693638448, 2114498330369541780063088443511514018213872688945,
   2114498330369541780063088443511514018213872688946, 2114498330369541780063088443511514018213872688947,
   2114498330369541780063088443511514018213872688948, 2114498330369541780063088443511514018213872688949,
   2114498330369541780063088443511514018213872688950, 25828813939799318321, 6612176368588625490529,
   6612176368588625490530, 6612176368588625490785, 6612176368588625490786, 6612176368588625490787,
   25828813939799318325, 25828813939799318326, 25828813939799318327, 25828813939799318328,
   31393565113916359922586459221018057241882227, 122631155386306651878963522600264386305842,
   122631155386306651878963522600264386371378, 122631155386306651878963522600264386436914, 101738323788062513,
   101738323788062514, 102845536526494828, 102849870082368882, 401774534747506,
   31833907833994880703122394042569201541865265, 31833907833994880703122394042569201541865266, 26546583917931622515,
   2103259019535757845744292502707167552869498052401, 2103259019535757845744292502707167552869498052402,
   26761348229894528818, 26761348229894528820, 26761348229894528822, 114953646165359771887140286513,
   114953646165359771887140286514, 114953646165359771887140286515, 114953646165359771887140286516,
   114953646165359771887140286517, 114953646165359771887140286518, 114953646165359771887140286519,
   114953646165359771887140286520, 114953646165359771887140286521, 114953646165359771887140286768,
   114953646165359771887140286769, 114953646165359771887140286770, 114953646165359771887140286771,
   114953646165359771887140286772, 114953646165359771887140286773, 114953646165359771887140286774,
   114953646165359771887140286775, 114953646165359771887140286776, 114953646165359771887140286777,
   114953646165359771887140287024, 114953646165359771887140287025, 114953646165359771887140287026,
   114953646165359771887140287027, 114953646165359771887140287028, 114953646165359771887140287029,
   114953646165359771887140287030, 114953646165359771887140287031, 114953646165359771887140287032,
   114953646165359771887140287033, 114953646165359771887140287280, 114953646165359771887140287281,
   114953646165359771887140287282, 114953646165359771887140287283, 114953646165359771887140287284,
   114953646165359771887140287285, 114953646165359771887140287286, 114953646165359771887140287287,
   114953646165359771887140287288, 114953646165359771887140287289, 114953646165359771887140287536,
   114953646165359771887140287537, 114953646165359771887140287538, 114953646165359771887140287539,
   114953646165359771887140287540, 114953646165359771887140287541, 114953646165359771887140287542,
   114953646165359771887140287543, 114953646165359771887140287544, 114953646165359771887140287545,
   114953646165359771887140287792, 114953646165359771887140287793, 114953646165359771887140287794,
   114953646165359771887140287795, 114953646165359771887140287796, 114953646165359771887140287797,
   29429686897822962606652009832241, 29429686897822962606652009963313, 29429686897822962606652009963314,
   29429686897822962606652009963315, 29429686897822962606652010094388, 29429686897822962606652010225460,
   105660234436079470, 8371965525373170427730804221738401528324316977, 8371965525373170427730804221738401528324316978,
   8371965525373170427730804221738401528324448049, 8371965525373170427730804221738401528324448050,
   8371965525373170427730804221738401528324579121, 8371965525373170427730804221738401528324579122,
   2143223257854165766676814423994168497148763516977, 2143223257854165766676814423994168497148763516979,
   2143223257854165766676814423994168497148763516981, 2143223257854165766676814423994168497148763516983,
   2143223257854165766676814423994168497148763516985, 2143223257854165766676814423994168497148763517233,
   2143223257854165766676814423994168497148763517235, 2143223257854165766676814423994168497148763517237,
   2143223257854165766676814423994168497148763517239, 2143223257854165766676814423994168497148763517241,
   2143223257854165766676814423994168497148763517489]

theorem c2Codes_eq : c2Fns.map (fun f => code f.name) = c2Codes := by decide +kernel

/-- The names in c2 which are not those of the functions. -/
def c2Aliases : List (String × ℕ) :=
  [("dunavant_03", 430932144826059638693638195), ("stroud_c2_1_2", 29429686897822962606652009832242),
   ("stroud_c2_3_4", 29429686897822962606652009963316), ("stroud_c2_3_5", 29429686897822962606652009963317),
   ("stroud_c2_5_1", 29429686897822962606652010094385), ("stroud_c2_5_2", 29429686897822962606652010094386),
   ("stroud_c2_5_3", 29429686897822962606652010094387), ("stroud_c2_5_5", 29429686897822962606652010094389),
   ("stroud_c2_5_6", 29429686897822962606652010094390), ("stroud_c2_5_7", 29429686897822962606652010094391),
   ("stroud_c2_7_1", 29429686897822962606652010225457), ("stroud_c2_7_2", 29429686897822962606652010225458),
   ("stroud_c2_7_3", 29429686897822962606652010225459), ("stroud_c2_7_5", 29429686897822962606652010225461),
   ("stroud_c2_7_6", 29429686897822962606652010225462), ("stroud_c2_9_1", 29429686897822962606652010356529),
   ("stroud_c2_11_1", 7533999845842678427302914514050865), ("stroud_c2_11_2", 7533999845842678427302914514050866),
   ("stroud_c2_13_1", 7533999845842678427302914514181937), ("stroud_c2_15_1", 7533999845842678427302914514313009),
   ("stroud_c2_15_2", 7533999845842678427302914514313010)]

def c3Codes : List ℕ :=
  [26330687130466610804, 28393822388434784578336664940148, 411653060715896,
   122631155386306651878963522600264386305843, 122631155386306651878963522600264386371379,
   122631155386306651878963522600264386502451, 122631155386306651878963522600264386633523,
   31393575778894502881014661785667682961404769, 31393575778894502881014661785667682961404770,
   28552290840611479221364683928165, 136734367813081189432957345096936209826962682062069553,
   136734367813081189432957345096936209826962682062069554, 136734367813081189432957345096936209826962682062069555,
   136734367813081189432957345096936209826962682062069556, 136734367813081189432957345096936209826962682062069557,
   136734367813081189432957345096936209826962682062069558, 136734367813081189432957345096936209826962682062069559,
   26760780890720398201, 469780247312326911929668909567825769594, 114936744815712244389175588196,
   449061384549300576045315639, 104842197801787185, 104842197801787186, 29429686897822962606656304930610,
   29429686897822962606656304930611, 2143223257854165766676814423994168497148763516983,
   2143223257854165766676814423994168497148763516985, 2143223257854165766676814423994168497148763517233]

theorem c3Codes_eq : c3Fns.map (fun f => code f.name) = c3Codes := by decide +kernel

/-- The names in c3 which are not those of the functions. -/
def c3Aliases : List (String × ℕ) :=
  [("stroud_c3_3_1", 29429686897822962606656304930609), ("stroud_c3_3_4", 29429686897822962606656304930612),
   ("stroud_c3_3_5", 29429686897822962606656304930613), ("stroud_c3_3_6", 29429686897822962606656304930614),
   ("stroud_c3_3_7", 29429686897822962606656304930615), ("stroud_c3_5_1", 29429686897822962606656305061681),
   ("stroud_c3_5_2", 29429686897822962606656305061682), ("stroud_c3_5_3", 29429686897822962606656305061683),
   ("stroud_c3_5_4", 29429686897822962606656305061684), ("stroud_c3_5_5", 29429686897822962606656305061685),
   ("stroud_c3_5_6", 29429686897822962606656305061686), ("stroud_c3_5_7", 29429686897822962606656305061687),
   ("stroud_c3_5_8", 29429686897822962606656305061688), ("stroud_c3_7_1a", 7533999845842678427304014129344865),
   ("stroud_c3_7_1b", 7533999845842678427304014129344866), ("stroud_c3_7_2", 29429686897822962606656305192754),
   ("stroud_c3_7_3", 29429686897822962606656305192755), ("witherden_vincent_01",
   2143223257854165766676814423994168497148763516977), ("witherden_vincent_03",
   2143223257854165766676814423994168497148763516979), ("witherden_vincent_05",
   2143223257854165766676814423994168497148763516981)]

def e2rCodes : List ℕ :=
  [7926471924715197609078703252492067187715563313, 7926471924715197609078703252492067187715563314,
   2029176812727090587924148032637969200055047118641, 2057408683305622563886626191508639399403993653089,
   2057408683305622563886626191508639399403993653090, 2114498330369541780063088443511514018213872688945,
   2114498330369541780063088443511514018213872688946, 2114498330369541780063088443511514018213872688947,
   2114498330369541780063088443511514018213872688949, 493748213897145773710547845659965546293,
   493748213897145773710547845659965546294, 1754146033395705375383345]

theorem e2rCodes_eq : e2rFns.map (fun f => code f.name) = e2rCodes := by decide +kernel

/-- The names in e2r which are not those of the functions. -/
def e2rAliases : List (String × ℕ) :=
  [("stroud_5_1", 1754146033395705375448881), ("stroud_7_1", 1754146033395705375579953), ("stroud_9_1",
   1754146033395705375711025), ("stroud_11_1", 449061384549300576044801841), ("stroud_11_2",
   449061384549300576044801842), ("stroud_15_1", 449061384549300576045063985)]

def e2r2Codes : List ℕ :=
  [7926471924715197609078703252492067187715563313, 7926471924715197609078703252492067187715563314,
   2029176812727090587924148032637969200055047118641, 2057408683305622563886626191508639399403993653089,
   2057408683305622563886626191508639399403993653090, 2114498330369541780063088443511514018213872688945,
   2114498330369541780063088443511514018213872688946, 2114498330369541780063088443511514018213872688947,
   2114498330369541780063088443511514018213872688948, 2114498330369541780063088443511514018213872688949,
   493748213897145773710547845659965546293, 493748213897145773710547845659965546294, 1754146033395705375383345,
   1754146033395705375448882, 1754146033395705375579954]

theorem e2r2Codes_eq : e2r2Fns.map (fun f => code f.name) = e2r2Codes := by decide +kernel

/-- The names in e2r2 which are not those of the functions. -/
def e2r2Aliases : List (String × ℕ) :=
  [("stroud_5_1", 1754146033395705375448881), ("stroud_7_1", 1754146033395705375579953), ("stroud_9_1",
   1754146033395705375711025), ("stroud_11_1", 449061384549300576044801841), ("stroud_11_2",
   449061384549300576044801842), ("stroud_13_1", 449061384549300576044932913), ("stroud_15_1",
   449061384549300576045063985)]

def e3rCodes : List ℕ :=
  [126399542757669318069900248488951179849783, 126399542757669318069900248488951179849784,
   126399542757669318069900248488951179849785, 126399542757669318069900248488951179850032,
   126399542757669318069900248488951179850033]

theorem e3rCodes_eq : e3rFns.map (fun f => code f.name) = e3rCodes := by decide +kernel

/-- The names in e3r which are not those of the functions. -/
def e3rAliases : List (String × ℕ) :=
  []

def e3r2Codes : List ℕ :=
  [126399542757669318069900248488951179849783, 126399542757669318069900248488951179849785,
   32358282945963345425894463613171502041544801, 32358282945963345425894463613171502041544802,
   32358282945963345425894463613171502041608289, 32358282945963345425894463613171502041608290,
   32358282945963345425894463613171502041608545, 32358282945963345425894463613171502041608546,
   493748213897145773448694700655160614705]

theorem e3r2Codes_eq : e3r2Fns.map (fun f => code f.name) = e3r2Codes := by decide +kernel

/-- The names in e3r2 which are not those of the functions. -/
def e3r2Aliases : List (String × ℕ) :=
  [("stroud_e3r2_5_1", 1928703960535725677533963674434494257), ("stroud_e3r2_5_2a",
   493748213897145773448694700655230530145), ("stroud_e3r2_5_2b", 493748213897145773448694700655230530146),
   ("stroud_e3r2_5_3", 1928703960535725677533963674434494259), ("stroud_e3r2_7_1a",
   493748213897145773448694700655264084321), ("stroud_e3r2_7_1b", 493748213897145773448694700655264084322),
   ("stroud_e3r2_7_2a", 493748213897145773448694700655264084577), ("stroud_e3r2_7_2b",
   493748213897145773448694700655264084578)]

def s2Codes : List ℕ :=
  [1668994710656786082586417, 1668994710656786082586418, 1668994710656786082586419, 1668994710656786082586420,
   1668994710656786082586421, 1668994710656786082586422, 1668994710656786082586423, 1668994710656786082586424,
   469780247312326911929668909567825769594, 26330687130466610804, 7926471924715197609078703252492067187715301169,
   7926471924715197609078703252492067187715563313, 7926471924715197609078703252492067187715563314,
   2029176812727090587924148032637969200055047118641, 429694904046078762752499505, 429694904046078762752499506,
   429694904046078762752499507, 31393565113916359922586459221018057241882227, 29187349268635602944107914616625,
   29187349268635602944107914616626, 29187349268635602944107914616627, 1590771871598,
   31393575778894502881014661785667682891358002, 31393575778894502881014661785667682891423538,
   479027950727760358902201260157282758967, 479027950727760358902201260157282758968,
   479027950727760358902201260157282758969, 479027950727760358902201260157282759216,
   479027950727760358902201260157282759217, 1716163822554216067981105, 1716163822554216067981106,
   1716163822554216067981107, 1716163822554216067981108, 1716163822554216067981109, 1716163822554216067981110,
   1716163822554216067981111, 1716163822554216067981112, 1716163822554216067981113, 439337938573879313403162928,
   439337938573879313403162929, 439337938573879313403162930, 439337938573879313403162931, 439337938573879313403162932,
   439337938573879313403162933, 400657977206130, 1721107694074518284230449, 1721107694074518284230450,
   1721107694074518284230451, 1721107694074518284230452, 1721107694074518284230453, 1721107694074518284230454,
   441831459911069243066048305, 441831459911069243066048306, 441831459911069243066048307, 445363605783624312501646647,
   32093185722896695644291572612108879896079987, 2114498330369541780063088443511514018213872688945,
   2114498330369541780063088443511514018213872688946, 2114498330369541780063088443511514018213872688947,
   2114498330369541780063088443511514018213872688948, 2114498330369541780063088443511514018213872688949,
   2114498330369541780063088443511514018213872688950, 29429686897822962624244196138801,
   29429686897822962624244196400947, 8371965525373170427730804221738401528324448049,
   8371965525373170427730804221738401528324448050, 8371965525373170427730804221738401528324579121]

theorem s2Codes_eq : s2Fns.map (fun f => code f.name) = s2Codes := by decide +kernel

/-- The names in s2 which are not those of the functions. -/
def s2Aliases : List (String × ℕ) :=
  [("hammer_stroud_11_2", 31393575778894502881014661785667682891292466), ("stroud_s2_3_1",
   29429686897822962624244196007729), ("stroud_s2_3_2", 29429686897822962624244196007730), ("stroud_s2_4_1",
   29429686897822962624244196073265), ("stroud_s2_5_2", 29429686897822962624244196138802), ("stroud_s2_7_1",
   29429686897822962624244196269873), ("stroud_s2_7_2", 29429686897822962624244196269874), ("stroud_s2_9_1",
   29429686897822962624244196400945), ("stroud_s2_9_2", 29429686897822962624244196400946), ("stroud_s2_9_4",
   29429686897822962624244196400948), ("stroud_s2_9_5", 29429686897822962624244196400949), ("stroud_s2_11_1",
   7533999845842678431806514141421361), ("stroud_s2_11_2", 7533999845842678431806514141421362), ("stroud_s2_11_3",
   7533999845842678431806514141421363), ("stroud_s2_11_4", 7533999845842678431806514141421364), ("stroud_s2_13_1",
   7533999845842678431806514141552433), ("stroud_s2_13_2", 7533999845842678431806514141552434), ("stroud_s2_15_1",
   7533999845842678431806514141683505), ("stroud_s2_15_2", 7533999845842678431806514141683506), ("stroud_s2_17_1",
   7533999845842678431806514141814577)]

def s3Codes : List ℕ :=
  [26330687130466610804, 25682186354736127793, 25682186354736127794, 25682186354736127795,
   31393575778894502881014661785667682891292467, 31393575778894502881014661785667682891358003,
   31393575778894502881014661785667682891489075, 8036755399396992737539753417130926820237980513,
   8036755399396992737539753417130926820237980514, 6741813047959430588776, 1754146033395705375579956,
   449061384549300576044998449]

theorem s3Codes_eq : s3Fns.map (fun f => code f.name) = s3Codes := by decide +kernel

/-- The names in s3 which are not those of the functions. -/
def s3Aliases : List (String × ℕ) :=
  [("stroud_3_1", 1754146033395705375317809), ("stroud_5_1", 1754146033395705375448881), ("stroud_5_2",
   1754146033395705375448882), ("stroud_7_1a", 449061384549300576148468065), ("stroud_7_1b",
   449061384549300576148468066), ("stroud_7_2", 1754146033395705375579954), ("stroud_7_3", 1754146033395705375579955)]

def t2Codes : List ℕ :=
  [469780247312326911929668909567825769594, 391853311816297, 30872269844408218161086273968353017294249777,
   30872269844408218161086273968353017294249778, 30872269844408218161086273968353017294249779,
   30872269844408218161086273968353017294249780, 25608996302527359332, 411653060715896, 448990622116482137488715380,
   120948363109057580704936267890809130671921, 390830790832745, 430932144826059638693638193,
   430932144826059638693638194, 430932144826059638693638195, 430932144826059638693638196, 430932144826059638693638197,
   430932144826059638693638198, 430932144826059638693638199, 430932144826059638693638200, 430932144826059638693638201,
   430932144826059638693638448, 430932144826059638693638449, 430932144826059638693638450, 430932144826059638693638451,
   430932144826059638693638452, 430932144826059638693638453, 430932144826059638693638454, 430932144826059638693638455,
   430932144826059638693638456, 430932144826059638693638457, 430932144826059638693638704, 6612176368588625489977,
   6612176368588625490224, 6629403471722842254958, 477786910017876558786875196036016791345,
   477786910017876558786875196036016791346, 34517601606361501920408730571941521056800745954526650161,
   34517601606361501920408730571941521056800745954526650162, 34517601606361501920408730571941521056800745954526650163,
   34517601606361501920408730571941521056800745954526650164, 34517601606361501920408730571941521056800745954526650165,
   1701996654696192674836529, 1701996654696192674836530, 1701996654696192674836531, 1701996654696192674836532,
   1701996654696192674836533, 1701996654696192674836534, 1701996654696192674836535, 1701996654696192674836536,
   1701996654696192674836537, 1701996654696192674836784, 2120632426373411648829659397272038864886851121201,
   2120632426373411648829659397272038864886851121203, 2120632426373411648829659397272038864886851121204,
   2120632426373411648829659397272038864886851121205, 2120632426373411648829659397272038864886851121206,
   2120632426373411648829659397272038864886851121207, 2120632426373411648829659397272038864886851121208,
   2120632426373411648829659397272038864886851121209, 2120632426373411648829659397272038864886851121456,
   8125961109168620243449783511951777786848359009, 8125961109168620243449783511951777786848359010,
   31742035582689922825975716843561631979876406, 31742035582689922825975716843561631979876407,
   31742035582689922825975716843561631979876408, 31742035582689922825975716843561631979876409,
   31742035582689922825975716843561631979876656, 31742035582689922825975716843561631979876657,
   31742035582689922825975716843561631979876658, 31742035582689922825975716843561631979876659,
   31742035582689922825975716843561631979876660, 8125961109168620243449783511951777786848425313,
   8125961109168620243449783511951777786848425314, 400657977206130, 7391152377946491861330510378643507,
   7391152377946491861330510378643508, 7391152377946491861330510378643509, 7391152377946491861330510378643510,
   7391152377946491861330510378643512, 7391152377946491861330510378643513, 7391152377946491861330510378643760,
   7391152377946491861330510378643761, 7391152377946491861330510378643762, 7391152377946491861330510378643763,
   8128049404774732866310148746401526142344310833, 8128049404774732866310148746401526142344310834,
   8128049404774732866310148746401526142344310835, 8128049404774732866310148746401526142344310837,
   8128049404774732866310148746401526142344310838, 8128049404774732866310148746401526142344310839,
   8128049404774732866310148746401526142344310840, 8128049404774732866310148746401526142344310841,
   8128049404774732866310148746401526142344311089, 8128049404774732866310148746401526142344311090,
   8128049404774732866310148746401526142344311091, 8128049404774732866310148746401526142344311092,
   8128049404774732866310148746401526142344311093, 8128049404774732866310148746401526142344311094,
   8128049404774732866310148746401526142344311095, 8128049404774732866310148746401526142344311096,
   8128049404774732866310148746401526142344311097, 8128049404774732866310148746401526142344311344,
   8128049404774732866310148746401526142344311345, 538388880813467302741530648561439764168979983982384,
   538388880813467302741530648561439764168979983982385, 538388880813467302741530648561439764168979983982386,
   538388880813467302741530648561439764168979983982387, 538388880813467302741530648561439764168979983982388,
   538388880813467302741530648561439764168979983982389, 538388880813467302741530648561439764168979983982390,
   538388880813467302741530648561439764168979983982391, 538388880813467302741530648561439764168979983982392,
   137827553488247629501831846031728579627257733555630136, 137827553488247629501831846031728579627257733555630137,
   137827553488247629501831846031728579627257733555630384, 137827553488247629501831846031728579627257733555630385,
   137827553488247629501831846031728579627257733555630386, 137827553488247629501831846031728579627257733555630387,
   137827553488247629501831846031728579627257733555630388, 137827553488247629501831846031728579627257733555630389,
   137827553488247629501831846031728579627257733555630390, 137827553488247629501831846031728579627257733555630391,
   29429686897822962625343707897649, 2125918316515957309574348497170582538885975465777,
   2125918316515957309574348497170582538885975465778, 2125918316515957309574348497170582538885975465780,
   2125918316515957309574348497170582538885975465781, 2125918316515957309574348497170582538885975465784,
   8349663417674405752348690967691478526878232624, 8349663417674405752348690967691478526878232625,
   8349663417674405752348690967691478526878232626, 8349663417674405752348690967691478526878232627,
   8349663417674405752348690967691478526878232628, 8349663417674405752348690967691478526878232629,
   8349663417674405752348690967691478526878232630, 8349663417674405752348690967691478526878232631,
   8349663417674405752348690967691478526878232632, 8349663417674405752348690967691478526878232633,
   8349663417674405752348690967691478526878232880, 8349663417674405752348690967691478526878232881,
   8349663417674405752348690967691478526878232882, 8349663417674405752348690967691478526878232883,
   8349663417674405752348690967691478526878232884, 8349663417674405752348690967691478526878232885,
   8349663417674405752348690967691478526878232886, 8349663417674405752348690967691478526878232887,
   8349663417674405752348690967691478526878232888, 8349663417674405752348690967691478526878232889,
   29740712060028392699276409401397, 1949087461876535700758465218306072369, 1949087461876535700758465218306072370,
   1949087461876535700758465218306072371, 1949087461876535700758465218306072372,
   1949087461876535700758465218306072373, 1949087461876535700758465218306072374,
   9205070813223328040043731747420531821569277714617282223921,
   9205070813223328040043731747420531821569277714617282223922,
   9205070813223328040043731747420531821569277714617282223923,
   9205070813223328040043731747420531821569277714617282223924,
   9205070813223328040043731747420531821569277714617282223925,
   9205070813223328040043731747420531821569277714617282223926,
   9205070813223328040043731747420531821569277714617282223927,
   9205070813223328040043731747420531821569277714617282223928, 2143223257854165766676814423994168497148763516977,
   2143223257854165766676814423994168497148763516978, 2143223257854165766676814423994168497148763516980,
   2143223257854165766676814423994168497148763516981, 2143223257854165766676814423994168497148763516982,
   2143223257854165766676814423994168497148763516983, 2143223257854165766676814423994168497148763516984,
   2143223257854165766676814423994168497148763516985, 2143223257854165766676814423994168497148763517232,
   2143223257854165766676814423994168497148763517233, 2143223257854165766676814423994168497148763517234,
   2143223257854165766676814423994168497148763517235, 2143223257854165766676814423994168497148763517236,
   2143223257854165766676814423994168497148763517237, 2143223257854165766676814423994168497148763517238,
   2143223257854165766676814423994168497148763517239, 2143223257854165766676814423994168497148763517240,
   2143223257854165766676814423994168497148763517241, 2143223257854165766676814423994168497148763517488,
   500336893802858211566918350977556754481, 500336893802858211566918350977556754482,
   500336893802858211566918350977556754483, 500336893802858211566918350977556754484,
   500336893802858211566918350977556754485, 500336893802858211566918350977556754486,
   500336893802858211566918350977556754487, 500336893802858211566918350977556754488,
   500336893802858211566918350977556754489, 500336893802858211566918350977556754736,
   500336893802858211566918350977556754737, 500336893802858211566918350977556754738,
   500336893802858211566918350977556754739, 500336893802858211566918350977556754740,
   500336893802858211566918350977556754741, 500336893802858211566918350977556754742,
   500336893802858211566918350977556754743, 500336893802858211566918350977556754744,
   500336893802858211566918350977556754745, 500336893802858211566918350977556754992,
   500336893802858211566918350977556754993, 500336893802858211566918350977556754994,
   500336893802858211566918350977556754995, 500336893802858211566918350977556754996,
   500336893802858211566918350977556754997, 500336893802858211566918350977556754998,
   500336893802858211566918350977556754999, 500336893802858211566918350977556755000,
   500336893802858211566918350977556755001, 500336893802858211566918350977556755248,
   500336893802858211566918350977556755249, 500336893802858211566918350977556755250,
   500336893802858211566918350977556755251, 500336893802858211566918350977556755252,
   500336893802858211566918350977556755253, 500336893802858211566918350977556755254,
   500336893802858211566918350977556755255, 500336893802858211566918350977556755256,
   500336893802858211566918350977556755257, 500336893802858211566918350977556755504,
   500336893802858211566918350977556755505, 500336893802858211566918350977556755506,
   500336893802858211566918350977556755507, 500336893802858211566918350977556755508,
   500336893802858211566918350977556755509, 500336893802858211566918350977556755510,
   500336893802858211566918350977556755511, 500336893802858211566918350977556755512,
   500336893802858211566918350977556755513, 500336893802858211566918350977556755760,
   1964805302425029400221563272826281777, 1964805302425029400221563272826281778, 1964805302425029400221563272826281779]

theorem t2Codes_eq : t2Fns.map (fun f => code f.name) = t2Codes := by decide +kernel

/-- The names in t2 which are not those of the functions. -/
def t2Aliases : List (String × ℕ) :=
  [("strang_fix_cowper_02", 2120632426373411648829659397272038864886851121202), ("laursen_gellert_01",
   31742035582689922825975716843561631979876401), ("laursen_gellert_03",
   31742035582689922825975716843561631979876403), ("laursen_gellert_04",
   31742035582689922825975716843561631979876404), ("laursen_gellert_05",
   31742035582689922825975716843561631979876405), ("liu_vinokur_01", 7391152377946491861330510378643505),
   ("liu_vinokur_02", 7391152377946491861330510378643506), ("liu_vinokur_07", 7391152377946491861330510378643511),
   ("lyness_jespersen_04", 8128049404774732866310148746401526142344310836), ("lyness_jespersen_10",
   8128049404774732866310148746401526142344311088), ("stroud_t2_3_1", 29429686897822962625343707635505),
   ("stroud_t2_5_1", 29429686897822962625343707766577)]

def t3Codes : List ℕ :=
  [7903295971867412417081621736857674527555149624, 7903295971867412417081621736857674527555149625,
   6629403471722842254958, 34517601606361501920408730571941521056800745954526650161,
   34517601606361501920408730571941521056800745954526650162, 34517601606361501920408730571941521056800745954526650163,
   2068827885793747119730005513674386312775459614770, 2068827885793747119730005513674386312775459614771,
   2068827885793747119730005513674386312775459614772, 2068827885793747119730005513674386312775459614773,
   2068827885793747119730005513674386312775459614774, 2068827885793747119730005513674386312775459614775,
   2068827885793747119730005513674386312775459614776, 2068827885793747119730005513674386312775459614777,
   2068827885793747119730005513674386312775459615024, 2068827885793747119730005513674386312775459615025,
   2068827885793747119730005513674386312775459615026, 2068827885793747119730005513674386312775459615027,
   2068827885793747119730005513674386312775459615028, 2068827885793747119730005513674386312775459615029,
   2068827885793747119730005513674386312775459615030, 2068827885793747119730005513674386312775459615031,
   2068827885793747119730005513674386312775459615032, 529619938763199262650881411500642896070517661448545,
   529619938763199262650881411500642896070517661448546, 2068827885793747119730005513674386312775459615280,
   102286885769207600, 102286885769207601, 102286885769207602, 102286885769207603, 102286885769207604,
   102286885769207605, 102286885769207606, 102286885769207607, 102286885769207608, 102286885769207609,
   7391152377946491861330510378643505, 7391152377946491861330510378643506, 7391152377946491861330510378643507,
   7391152377946491861330510378643508, 7391152377946491861330510378643509, 7391152377946491861330510378643510,
   7391152377946491861330510378643511, 7391152377946491861330510378643512, 7391152377946491861330510378643513,
   7391152377946491861330510378643760, 7391152377946491861330510378643761, 7391152377946491861330510378643762,
   7391152377946491861330510378643763, 7391152377946491861330510378643764, 113079773607202834371058429562,
   449004771417704984461795121, 449004771417704984461795122, 449004771417704984461795123, 449004771417704984461795124,
   449004771417704984461795125, 449004771417704984461795126, 29429686897822962625348002733873,
   29429686897822962625348002864945, 32615872725290647470112074092544837995618096,
   32615872725290647470112074092544837995618097, 32615872725290647470112074092544837995618098,
   32615872725290647470112074092544837995618099, 32615872725290647470112074092544837995618100,
   32615872725290647470112074092544837995618101, 32615872725290647470112074092544837995618102,
   32615872725290647470112074092544837995618103, 32615872725290647470112074092544837995618104,
   32615872725290647470112074092544837995618105, 29740712060028392699276409401397,
   140458233844350098267268856009224423546894496377827182, 2143223257854165766676814423994168497148763516977,
   2143223257854165766676814423994168497148763516978, 2143223257854165766676814423994168497148763516979,
   2143223257854165766676814423994168497148763516981, 2143223257854165766676814423994168497148763516982,
   2143223257854165766676814423994168497148763516983, 2143223257854165766676814423994168497148763516984,
   2143223257854165766676814423994168497148763516985, 2143223257854165766676814423994168497148763517232,
   500336893802858211566918350977556754481, 500336893802858211566918350977556754482,
   500336893802858211566918350977556754483, 500336893802858211566918350977556754484,
   500336893802858211566918350977556754485, 500336893802858211566918350977556754486,
   500336893802858211566918350977556754487, 500336893802858211566918350977556754488,
   500336893802858211566918350977556754489, 500336893802858211566918350977556754736,
   500336893802858211566918350977556754737, 500336893802858211566918350977556754738,
   500336893802858211566918350977556754739, 500336893802858211566918350977556754740,
   500336893802858211566918350977556754741, 6332702514, 6332702515, 6332702516, 6332702517, 6332702518,
   1964805302425029400221563272826281777, 1964805302425029400221563272826281778]

theorem t3Codes_eq : t3Fns.map (fun f => code f.name) = t3Codes := by decide +kernel

/-- The names in t3 which are not those of the functions. -/
def t3Aliases : List (String × ℕ) :=
  []

def u2Codes : List ℕ :=
  [399614384303990]

theorem u2Codes_eq : u2Fns.map (fun f => code f.name) = u2Codes := by decide +kernel

/-- The names in u2 which are not those of the functions. -/
def u2Aliases : List (String × ℕ) :=
  []

def u3Codes : List ℕ :=
  [30787518287860656500222781657437029636136753, 30787518287860656500222781657437029636136754,
   30787518287860656500222781657437029636136755, 30787518287860656500222781657437029636136756,
   30787518287860656500222781657437029636136757, 109675537207262949978629156921, 109675537207262949978629157169,
   109675537207262949978629157171, 1861041125932710739888463601192611892, 1861041125932710739888463601192611897,
   1861041125932710739888463601192612150, 1861041125932710739888463601192612405, 6648137032226654073139,
   6648137032226654073141, 6648137032226654073143, 1701923080250023442725217, 1701923080250023442725218,
   1701923080250023442788705, 1701923080250023442788706, 1701923080250023442788707, 1701923080250023442788708,
   1701923080250023442788709, 1701923080250023442788710, 1701923080250023442789217, 1701923080250023442789218,
   1701923080250023442789219, 1701923080250023442789729, 1701923080250023442789730, 1701923080250023442790241,
   1701923080250023442790242, 1701923080250023442790243, 6648137032226654073401, 6648137032226654073649,
   6648137032226654073651, 6648137032226654073653, 6648137032226654073655, 1701923080250023442856289,
   1701923080250023442856290, 112775109745021473760004289377, 112775109745021473760004289378,
   112775109745021473760004289379, 440527772441490131875016757, 440527772441490131875016759,
   440527772441490131875016761, 440527772441490131875017009, 440527772441490131875017011, 440527772441490131875017013,
   440527772441490131875017015, 440527772441490131875017017, 440527772441490131875017265, 440527772441490131875017267,
   440527772441490131875017269, 440527772441490131875017271, 440527772441490131875017273, 440527772441490131875017521,
   440527772441490131875017525, 440527772441490131875017777, 440527772441490131875017783, 440527772441490131875018035,
   440527772441490131875018041, 440527772441490131875018293, 440527772441490131875018545, 440527772441490131875018551,
   440527772441490131875018803, 440527772441490131875018809, 440527772441490131875019061, 440527772441490131875082289,
   440527772441490131875082295, 440527772441490131875082547, 440527772441490131875082553, 440527772441490131875082805,
   440527772441490131875083057, 1725497803559726554755121, 1725497803559726554755122, 1725497803559726554755123,
   1725497803559726554755124, 1725497803559726554755125, 1725497803559726554755126, 1725497803559726554755127,
   1725497803559726554755128, 1725497803559726554755129, 1725497803559726554755376, 7533999845842678432370563606470450]

theorem u3Codes_eq : u3Fns.map (fun f => code f.name) = u3Codes := by decide +kernel

/-- The names in u3 which are not those of the functions. -/
def u3Aliases : List (String × ℕ) :=
  [("stroud_u3_3_1", 29429686897822962626447514230577), ("stroud_u3_5_1", 29429686897822962626447514361649),
   ("stroud_u3_5_2", 29429686897822962626447514361650), ("stroud_u3_5_3", 29429686897822962626447514361651),
   ("stroud_u3_5_4", 29429686897822962626447514361652), ("stroud_u3_5_5", 29429686897822962626447514361653),
   ("stroud_u3_7_2", 29429686897822962626447514492722), ("stroud_u3_7_1", 29429686897822962626447514492721),
   ("stroud_u3_8_1", 29429686897822962626447514558257), ("stroud_u3_9_1", 29429686897822962626447514623793),
   ("stroud_u3_9_2", 29429686897822962626447514623794), ("stroud_u3_9_3", 29429686897822962626447514623795),
   ("stroud_u3_11_1", 7533999845842678432370563606470449), ("stroud_u3_11_3", 7533999845842678432370563606470451),
   ("stroud_u3_14_1", 7533999845842678432370563606667057)]

/-- The codes of the names of the functions. -/
def codes : Domain → List ℕ
  | .c2 => c2Codes
  | .c3 => c3Codes
  | .e2r => e2rCodes
  | .e2r2 => e2r2Codes
  | .e3r => e3rCodes
  | .e3r2 => e3r2Codes
  | .s2 => s2Codes
  | .s3 => s3Codes
  | .t2 => t2Codes
  | .t3 => t3Codes
  | .u2 => u2Codes
  | .u3 => u3Codes

/-- Names which are not those of the functions, with their codes. -/
def aliases : Domain → List (String × ℕ)
  | .c2 => c2Aliases
  | .c3 => c3Aliases
  | .e2r => e2rAliases
  | .e2r2 => e2r2Aliases
  | .e3r => e3rAliases
  | .e3r2 => e3r2Aliases
  | .s2 => s2Aliases
  | .s3 => s3Aliases
  | .t2 => t2Aliases
  | .t3 => t3Aliases
  | .u2 => u2Aliases
  | .u3 => u3Aliases

theorem codes_eq (d : Domain) : (fns d).map (fun f => code f.name) = codes d := by
  cases d
  · exact c2Codes_eq
  · exact c3Codes_eq
  · exact e2rCodes_eq
  · exact e2r2Codes_eq
  · exact e3rCodes_eq
  · exact e3r2Codes_eq
  · exact s2Codes_eq
  · exact s3Codes_eq
  · exact t2Codes_eq
  · exact t3Codes_eq
  · exact u2Codes_eq
  · exact u3Codes_eq

/-- A test for `Nodup`. -/
def nodupB : List ℕ → Bool
  | [] => true
  | a :: l => !(l.any (Nat.beq a)) && nodupB l

theorem nodup_of_nodupB {l : List ℕ} (h : nodupB l = true) : l.Nodup := by
  induction l with
  | nil => exact List.nodup_nil
  | cons a l ih =>
    simp only [nodupB, Bool.and_eq_true, Bool.not_eq_true', List.any_eq_false] at h
    refine List.nodup_cons.2 ⟨fun ha => h.1 a ha (Nat.beq_refl a), ih h.2⟩

theorem codes_nodup (d : Domain) : (codes d).Nodup := by
  refine nodup_of_nodupB ?_
  cases d <;> decide +kernel

theorem aliases_code (d : Domain) : ∀ a ∈ aliases d, code a.1 = a.2 := by cases d <;> decide +kernel

theorem aliases_new (d : Domain) : ∀ a ∈ aliases d, a.2 ∉ codes d := by cases d <;> decide +kernel

/-- Every registered name is that of the function or one of the others. -/
theorem regs_names (d : Domain) : ∀ r ∈ regs d,
    ∃ f ∈ (fns d)[r.2]?, f.name = r.1 ∨ r.1 ∈ (aliases d).map Prod.fst := by cases d <;> decide +kernel

/-- Every function is registered. -/
theorem regs_all (d : Domain) : ∀ i < (fns d).length, ∃ r ∈ regs d, r.2 = i := by
  have h : (List.range (fns d).length).all (fun i => ((regs d).map Prod.snd).any (Nat.beq i)) = true := by
    cases d <;> decide +kernel
  intro i hi
  obtain ⟨j, hj, hij⟩ := List.any_eq_true.1 (List.all_eq_true.1 h i (List.mem_range.2 hi))
  obtain ⟨r, hr, rfl⟩ := List.mem_map.1 hj
  exact ⟨r, hr, (Nat.eq_of_beq_eq_true hij).symm⟩

theorem names_nodup (d : Domain) : ((fns d).map Function.name).Nodup := by
  refine List.Nodup.of_map code ?_
  rw [List.map_map]
  have := codes_nodup d
  rw [← codes_eq] at this
  exact this

/-- C69: in every domain, the dictionary contains exactly the functions which are registered, each under the name of its
definition; no two functions compete for a name. -/
theorem C69_schemes (d : Domain) (s : String) (f : Function) :
    getItem (schemes d) s = some f ↔ f ∈ fns d ∧ f.name = s := by
  have hmem : ∀ g, g ∈ ([(regs d).filterMap fun r => (fns d)[r.2]?] : List (List Function)).flatten ↔ g ∈ fns d := by
    intro g
    simp only [List.flatten_cons, List.flatten_nil, List.append_nil, List.mem_filterMap]
    constructor
    · rintro ⟨r, -, h⟩
      exact List.mem_of_getElem? h
    · intro h
      obtain ⟨i, hi, rfl⟩ := List.mem_iff_getElem.1 h
      obtain ⟨r, hr, rfl⟩ := regs_all d i hi
      exact ⟨r, hr, List.getElem?_eq_getElem hi⟩
  obtain ⟨h1, h2⟩ := C69_lookup [(regs d).filterMap fun r => (fns d)[r.2]?] s
  constructor
  · intro h
    obtain ⟨l, r, h3, h4, -⟩ := (h1 f).1 h
    exact ⟨(hmem f).1 (by rw [h3]; simp), h4⟩
  · rintro ⟨h3, h4⟩
    cases hg : getItem (schemes d) s with
    | none => exact absurd h4 (h2.1 hg f ((hmem f).2 h3))
    | some g =>
      obtain ⟨l, r, h5, h6, -⟩ := (h1 g).1 hg
      have hg' : g ∈ fns d := (hmem g).1 (by rw [h5]; simp)
      rw [List.inj_on_of_nodup_map (names_nodup d) hg' h3 (h6.trans h4.symm)]

/-- C69 is false: the names under which functions are passed to `register` are keys only if they are the names of the
definitions.  With any other name there is a KeyError. -/
theorem C69_alias (d : Domain) (r : String × ℕ) (hr : r ∈ regs d) : ∃ f, (fns d)[r.2]? = some f ∧
    getItem (schemes d) f.name = some f ∧ getItem (schemes d) r.1 = if r.1 = f.name then some f else none := by
  obtain ⟨f, hf, h⟩ := regs_names d r hr
  have hf' : f ∈ fns d := List.mem_of_getElem? hf
  have h0 : getItem (schemes d) f.name = some f := (C69_schemes d f.name f).2 ⟨hf', rfl⟩
  refine ⟨f, hf, h0, ?_⟩
  split_ifs with he
  · rw [he]
    exact h0
  · rcases h with h | h
    · exact absurd h.symm he
    · obtain ⟨a, ha, h3⟩ := List.mem_map.1 h
      cases hg : getItem (schemes d) r.1 with
      | none => rfl
      | some g =>
        obtain ⟨h4, h5⟩ := (C69_schemes d r.1 g).1 hg
        refine absurd ?_ (aliases_new d a ha)
        rw [← codes_eq, ← aliases_code d a ha, h3, ← h5]
        exact List.mem_map.2 ⟨g, h4, rfl⟩

/-- C69 is false in the square, cube, disk, ball, triangle, sphere, and in the planes and spaces with weights
`exp(-r)` and `exp(-r²)` except e3r: some function is registered with a name which is not a key. -/
theorem C69_alias_fails (d : Domain) (hd : d ∉ [Domain.e3r, .t3, .u2]) :
    ∃ r ∈ regs d, getItem (schemes d) r.1 = none := by
  have key : ∃ r ∈ regs d, ∀ f ∈ (fns d)[r.2]?, r.1 ≠ f.name := by
    cases d
    all_goals first | (exfalso; revert hd; decide; done) | clear hd
    · exact ⟨("dunavant_03", 16), by decide +kernel, by decide +kernel⟩
    · exact ⟨("stroud_c3_3_1", 21), by decide +kernel, by decide +kernel⟩
    · exact ⟨("stroud_5_1", 9), by decide +kernel, by decide +kernel⟩
    · exact ⟨("stroud_5_1", 10), by decide +kernel, by decide +kernel⟩
    · exact ⟨("stroud_e3r2_5_1", 0), by decide +kernel, by decide +kernel⟩
    · exact ⟨("hammer_stroud_11_2", 8), by decide +kernel, by decide +kernel⟩
    · exact ⟨("stroud_3_1", 4), by decide +kernel, by decide +kernel⟩
    · exact ⟨("strang_fix_cowper_02", 38), by decide +kernel, by decide +kernel⟩
    · exact ⟨("stroud_u3_3_1", 72), by decide +kernel, by decide +kernel⟩
  obtain ⟨r, hr, h⟩ := key
  refine ⟨r, hr, ?_⟩
  obtain ⟨f, hf, -, h2⟩ := C69_alias d r hr
  rw [h2, if_neg (h f hf)]

/-- C69: in e3r, t3 and u2 every name which is registered is a key. -/
theorem C69_no_alias (d : Domain) (hd : d ∈ [Domain.e3r, .t3, .u2]) (r : String × ℕ) (hr : r ∈ regs d) :
    ∃ f, (fns d)[r.2]? = some f ∧ getItem (schemes d) r.1 = some f := by
  obtain ⟨f, hf, h0, -⟩ := C69_alias d r hr
  obtain ⟨f', hf', h⟩ := regs_names d r hr
  have : f' = f := by
    rw [hf] at hf'
    exact (Option.mem_some_iff.1 hf').symm
  subst this
  rcases h with h | h
  · exact ⟨f', hf, h ▸ h0⟩
  · simp only [List.mem_cons, List.not_mem_nil, or_false] at hd
    rcases hd with rfl | rfl | rfl <;> simp [aliases, e3rAliases, t3Aliases, u2Aliases] at h

/-! ### The names in the tables of get_good_scheme -/

/-- The dictionary from which `get_good_scheme` of a domain takes the schemes. -/
def ofGood : Good.Domain → Domain
  | .c2 => .c2
  | .c3 => .c3
  | .s2 => .s2
  | .s3 => .s3
  | .t2 => .t2
  | .t3 => .t3
  | .u3 => .u3
  | .e2r => .e2r
  | .e2r2 => .e2r2
  | .e3r => .e3r
  | .e3r2 => .e3r2

/-- The numbers of the functions in the tables. -/
def goodIdx : Good.Domain → List ℕ
  | .c2 => [18, 18, 45, 45, 4, 4, 16, 16, 28, 28, 134, 134, 135, 135, 33, 33, 137, 137, 138, 138, 139, 139]
  | .c3 => [0, 0, 1, 1, 5, 5, 9, 9, 26, 26, 27, 27]
  | .s2 => [9, 9, 8, 8, 51, 21, 34, 34, 46, 46, 52, 52, 13, 13, 39, 39, 14, 14, 43, 43]
  | .s3 => [0, 0, 4, 4, 5, 5, 9, 9, 11, 11, 11, 11, 11, 11, 11]
  | .t2 => [6, 6, 38, 53, 157, 40, 58, 67, 96, 99, 171, 192, 193, 194, 195, 176, 197, 198, 179, 29, 201, 202, 203,
      204, 205, 206, 207, 208, 209, 210, 211, 212, 213, 214, 215, 216, 217, 218, 219, 220, 221, 222, 223, 224, 225,
      226, 227, 228, 229, 230, 231]
  | .t3 => [26, 26, 3, 73, 47, 47, 33, 76, 77, 78, 79, 67, 68, 68, 101]
  | .u3 => [38, 38, 38, 38, 0, 0, 4, 4, 76, 76, 79, 79, 46, 46, 46, 46, 47, 47, 48, 48, 49, 49, 50, 50, 27, 27, 53,
      53, 53, 53, 54, 54, 55, 55, 55, 55, 56, 56, 56, 56, 56, 56, 57, 57, 57, 57, 57, 57]
  | .e2r => [11, 11, 11, 11, 11, 9, 10, 10, 4, 4, 6, 6, 8, 8, 8, 8]
  | .e2r2 => [12, 12, 12, 12, 12, 10, 11, 11, 3, 3, 6, 6, 9, 9, 9, 9]
  | .e3r => [1, 1, 1, 1, 1, 1, 3, 3]
  | .e3r2 => [2, 2, 2, 2, 2, 2, 5, 5]

theorem goodIdx_spec (d : Good.Domain) : (Good.table d).map (fun e => e.2.1) =
    (goodIdx d).map fun i => (((fns (ofGood d))[i]?).map Function.name).getD "" := by cases d <;> decide +kernel

/-- C69: whatever name `get_good_scheme` looks up is a key of the dictionary of its domain. -/
theorem C69_good (d : Good.Domain) (e : ℤ × String × Option ℕ) (he : e ∈ Good.table d) :
    ∃ f, getItem (schemes (ofGood d)) e.2.1 = some f ∧ f.name = e.2.1 := by
  have h : e.2.1 ∈ (Good.table d).map (fun e => e.2.1) := List.mem_map.2 ⟨e, he, rfl⟩
  rw [goodIdx_spec] at h
  obtain ⟨i, hi, h⟩ := List.mem_map.1 h
  have hlt : ∀ d, ∀ i ∈ goodIdx d, i < (fns (ofGood d)).length := by
    intro d
    cases d <;> decide +kernel
  have hi' := hlt d i hi
  rw [List.getElem?_eq_getElem hi'] at h
  exact ⟨_, (C69_schemes _ _ _).2 ⟨List.getElem_mem hi', h⟩, h⟩

/-- `quadpy.c2.schemes["stroud_c2_5_3"]` is a KeyError; the rule is `quadpy.c2.schemes["burnside"]`. -/
example : getItem (schemes .c2) "stroud_c2_5_3" = none ∧
    getItem (schemes .c2) "burnside" = some ⟨"c2/_burnside.py", "burnside"⟩ := by
  obtain ⟨f, h1, h2, h3⟩ := C69_alias .c2 ("stroud_c2_5_3", 4) (by decide +kernel)
  have hf : f = ⟨"c2/_burnside.py", "burnside"⟩ := by
    have : (fns .c2)[4]? = some ⟨"c2/_burnside.py", "burnside"⟩ := by decide +kernel
    exact Option.some.inj (h1.symm.trans this)
  subst hf
  exact ⟨by rw [h3]; rfl, h2⟩

/-- A function which is registered with a name that is in use replaces the other one. -/
example : getItem (registerAll [[⟨"a.py", "f"⟩, ⟨"a.py", "g"⟩], [⟨"b.py", "f"⟩]]) "f" = some ⟨"b.py", "f"⟩ :=
  ((C69_lookup _ _).1 _).2 ⟨[⟨"a.py", "f"⟩, ⟨"a.py", "g"⟩], [], rfl, rfl, by simp⟩

end Quadpy.Registry
