import Verif.Model.Cn
import Verif.Model.Symmetries
import Mathlib.Analysis.Real.Pi.Bounds

/-!
# Model of the rules with decimal numbers and roots or pi, c2, c3 and s2

The decimal numbers are the ones of the source; in the code they are rounded to floats.
-/

namespace Quadpy.Mixed

/-- c2/_franke.py:39-55 -/
noncomputable def franke_2a : Scheme :=
  let a : ℝ := √((15 + 2 * √30) / 35)
  let b : ℝ := √((15 - 2 * √30) / 35)
  let c : ℝ := 5 * (18 + √30) / 324 / 4
  let d : ℝ := 2 * (18 + √30) / 81 / 4
  schemeOfSym 2 [⟨.sxy, [0.01094603802180727, c, 0.07601767326255625], [[0.105784012371275e1, a], [√(3 /
    5), b], [0.469253522127911, a]]⟩, ⟨.c2_0a, [d], [[b]]⟩] 7

/-- c2/_franke.py:58-70 -/
noncomputable def franke_2b : Scheme :=
  let a : ℝ := √((15 + 2 * √30) / 35)
  let b : ℝ := √((15 - 2 * √30) / 35)
  schemeOfSym 2 [⟨.sxy, [0.0483131729357575, 0.0422624803047505, 0.120773808410886], [[0.774596669241483,
    a], [0.915060523380880, b], [0.396191039748320, b]]⟩, ⟨.c2_0a, [0.077301076697212], [[a]]⟩] 7

/-- c2/_franke.py:73-101 -/
noncomputable def franke_3a : Scheme :=
  let a : ℝ := √(5 / 9 + 2 / 63 * √70)
  let b : ℝ := √(5 / 9 - 2 / 63 * √70)
  schemeOfSym 2 [⟨.sxy, [0.705065140564012e-1 / 4, 0.721121511007611e-1 / 4, 0.971492736037507e-1 / 4,
    0.368549048677049 / 4], [[0.845927799771709, a], [0.628901636732253, a], [0.959681421214621, b],
    [0.436030596273468, b]]⟩, ⟨.c2_a0, [0.316049382716049 / 4], [[0.774596669241483]]⟩, ⟨.c2_0a,
    [0.188616439798053 / 4, 0.258606964371341e-1 / 4], [[a], [b]]⟩, ⟨.zero, [0.505679012345679 / 4],
    [[]]⟩] 9

/-- c2/_franke.py:104-132 -/
noncomputable def franke_3b : Scheme :=
  let a : ℝ := √(5 / 9 + 2 / 63 * √70)
  let b : ℝ := √(5 / 9 - 2 / 63 * √70)
  schemeOfSym 2 [⟨.sxy, [0.499290623065150e-1 / 4, 0.158445182284802 / 4, 0.183383788151247 / 4,
    0.881476523665422e-1 / 4], [[0.945813739519925, a], [0.465346624836203, a], [0.804253925742002, b],
    [0.681385892163677, b]]⟩, ⟨.c2_a0, [0.114456375561331 / 4, 0.454432513327558 / 4],
    [[0.963018409085396], [0.428610143223121]]⟩, ⟨.c2_0a, [0.571052809297435e-1 / 4, 0.414194459963155 /
    4], [[a], [b]]⟩] 9

/-- c2/_franke.py:135-154 -/
noncomputable def franke_3c : Scheme :=
  let a : ℝ := √(5 / 9 + 2 / 63 * √70)
  let b : ℝ := √(5 / 9 - 2 / 63 * √70)
  schemeOfSym 2 [⟨.sxy, [0.494522019130682e-1 / 4, 0.163914731881061 / 4, 0.265904816944092 / 4],
    [[0.949307350001342, a], [0.458177548931134, a], [0.774596669241483, b]]⟩, ⟨.c2_a0,
    [0.113041839046410 / 4, 0.479922229600720 / 4], [[0.967776908976724], [0.417754671502987]]⟩, ⟨.c2_0a,
    [0.471199025241204e-1 / 4, 0.425447707110548 / 4], [[a], [b]]⟩, ⟨.zero, [-0.481503595164821e-1 / 4],
    [[]]⟩] 9

/-- c2/_hammer_stroud.py:34-40 -/
noncomputable def hammer_stroud_3_2 : Scheme :=
  let xi1 : ℝ := √(3 / 287 * (38 - √583))
  let xi2 : ℝ := √(3 / 287 * (38 + √583))
  schemeOfSym 2 [⟨.d4_a0, [98 / (4 * 405)], [[√(6 / 7)]]⟩, ⟨.d4_aa, [0.5205929166673945 / 4,
    0.2374317746906302 / 4], [[xi1], [xi2]]⟩] 7

/-- c3/_hammer_stroud.py:75-85 -/
noncomputable def hammer_stroud_6_3 : Scheme :=
  let alpha : ℝ := √(6 / 7)
  schemeOfSym 3 [⟨.symm_r00, [1078 / 3645 / 8], [[alpha]]⟩, ⟨.symm_rr0, [343 / 3645 / 8], [[alpha]]⟩,
    ⟨.symm_rrr, [0.2247031747656014 / 8, 0.4123338622714356 / 8], [[0.7341125287521153],
    [0.4067031864267161]]⟩] 7

/-- s2/_hammer_stroud.py:62-79 -/
noncomputable def hammer_stroud_19 : Scheme :=
  let alpha1 : ℝ := (16 + √6) / 288
  let alpha2 : ℝ := (137 - 32 * √6) / 1818
  let alpha3 : ℝ := (520 + 155 * √6) / 3636 / 8
  let a : ℝ := √((6 + √6) / 10)
  schemeOfSym 2 [⟨.zero, [1 / 9], [[]]⟩, ⟨.d4_ab, [alpha1, alpha3], [[0.5505043204538557,
    0.2280263556769715], [0.7932084745126058, 0.4645097310495256]]⟩, ⟨.d4_a0, [alpha2], [[a]]⟩] 9

/-- s2/_hammer_stroud.py:87-117 -/
noncomputable def hammer_stroud_21 : Scheme :=
  let alpha0 : ℝ := 0.0341505695624825 / Real.pi
  let alpha1 : ℝ := 0.0640242008621985 / Real.pi
  let alpha2 : ℝ := 0.0341505695624825 / Real.pi
  schemeOfSym 2 [⟨.d4_ab, [alpha0, alpha1, alpha1, alpha1, alpha1, alpha2, alpha2, alpha2],
    [[0.2584361661674054, 0.0514061496288813], [0.5634263397544869, 0.1120724670846205],
    [0.4776497869993547, 0.3191553840796721], [0.8028016728473508, 0.1596871812824163],
    [0.6805823955716280, 0.4547506180649039], [0.2190916025980981, 0.1463923286035535],
    [0.9461239423417719, 0.1881957532057769], [0.8020851487551318, 0.5359361621905023]]⟩] 15

/-- s2/_wissmann_becker.py:20-33 -/
noncomputable def wissmann_becker_6_1 : Scheme :=
  schemeOfSym 2 [⟨.plain, [0.192106330409167 / Real.pi, 0.642883172453235 / Real.pi, 0.030327815305342 /
    Real.pi, 0.030327815305342 / Real.pi, 0.502358408812314 / Real.pi, 0.502358408812314 / Real.pi,
    0.340540094500688 / Real.pi, 0.340540094500688 / Real.pi, 0.280075256745352 / Real.pi,
    0.280075256745352 / Real.pi], [[0, 0.914874261544932], [0, -0.206355543412215], [0.978839047064283,
    0.662952453661044], [-0.978839047064283, 0.662952453661044], [0.458236515708684, 0.464889889783278],
    [-0.458236515708684, 0.464889889783278], [0.802017004072343, -0.174207378839556],
    [-0.802017004072343, -0.174207378839556], [0.373683864304499, -0.770749853148807],
    [-0.373683864304499, -0.770749853148807]]⟩] 6

/-- s2/_wissmann_becker.py:36-50 -/
noncomputable def wissmann_becker_6_2 : Scheme :=
  schemeOfSym 2 [⟨.plain, [0.552687596464871 / Real.pi, 0.076090439302545 / Real.pi, 0.441690572122440 /
    Real.pi, 0.076090439302545 / Real.pi, 0.076090439302545 / Real.pi, 0.076090439302545 / Real.pi,
    0.076090439302545 / Real.pi, 0.441690572122440 / Real.pi, 0.441690572122440 / Real.pi,
    0.441690572122440 / Real.pi, 0.441690572122440 / Real.pi], [[0, 0.0], [0, 1.032546063890842], [0,
    -0.726359846042944], [0.982009662438297, 0.319074281217230], [-0.982009662438297, 0.319074281217230],
    [0.606915348667678, -0.835347313162651], [-0.606915348667678, -0.835347313162651],
    [0.426943605361474, 0.587637459480312], [-0.426943605361474, 0.587637459480312], [0.690809264754287,
    -0.224457536458840], [-0.690809264754287, -0.224457536458840]]⟩] 6

/-- s2/_wissmann_becker.py:53-70 -/
noncomputable def wissmann_becker_8_1 : Scheme :=
  schemeOfSym 2 [⟨.plain, [0.334521439965580 / Real.pi, 0.087911387704639 / Real.pi, 0.167628039106469 /
    Real.pi, 0.305874815913735 / Real.pi, 0.087911387704639 / Real.pi, 0.087911387704639 / Real.pi,
    0.087911387704639 / Real.pi, 0.087911387704639 / Real.pi, 0.167628039106469 / Real.pi,
    0.167628039106469 / Real.pi, 0.167628039106469 / Real.pi, 0.167628039106469 / Real.pi,
    0.305874815913735 / Real.pi, 0.305874815913735 / Real.pi, 0.305874815913735 / Real.pi,
    0.305874815913735 / Real.pi], [[0, 0.000000000000000], [0, 0.953321175521807], [0,
    -0.882458098900126], [0, 0.582334188120499], [0.906662316102171, 0.294592444333741],
    [-0.906662316102171, 0.294592444333741], [0.560348127669843, -0.771253032094644],
    [-0.560348127669843, -0.771253032094644], [0.518695856299547, 0.713923598834010],
    [-0.518695856299547, 0.713923598834010], [0.839267525316398, -0.272694549383947],
    [-0.839267525316398, -0.272694549383947], [0.553832724273449, 0.179951160534772],
    [-0.553832724273449, 0.179951160534772], [0.342287447682940, -0.471118254595022],
    [-0.342287447682940, -0.471118254595022]]⟩] 8

end Quadpy.Mixed
