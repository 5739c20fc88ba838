/-
Model of quadpy/e1r2/_genz_keister.py: rules with decimal points and weights.  A float literal is the
real number it denotes.
-/
import Mathlib.Analysis.Real.Pi.Bounds
import Mathlib.Data.List.Sort

namespace Quadpy
namespace GenzKeister

/-- e1r2/_genz_keister.py:21-21 `_points_0` -/
noncomputable def points0 : List ℝ :=
  [0.0]

/-- e1r2/_genz_keister.py:22-22 `_points_1` -/
noncomputable def points1 : List ℝ :=
  points0 ++ [√(3 / 2)]

/-- e1r2/_genz_keister.py:27-31 `_points_2` -/
noncomputable def points2 : List ℝ :=
  points1 ++ [5.2403354748695763e-1, 2.0232301911005157e0, 2.9592107790638380e0]

/-- e1r2/_genz_keister.py:43-49 `_points_3` -/
noncomputable def points3 : List ℝ :=
  points2 ++ [8.7004089535290285e-1, 1.8357079751751868e0, 2.2665132620567876e0,
    3.6677742159463378e0, 4.4995993983103881e0]

/-- e1r2/_genz_keister.py:51-60 `_points_4` -/
noncomputable def points4 : List ℝ :=
  points3 ++ [1.7606414208200893e-1, 1.5794121348467671e0, 2.5705583765842968e0,
    3.3491639537131945e0, 4.0292201405043713e0, 5.0360899444730940e0, 5.6432578578857449e0,
    6.3759392709822356e0]

/-- e1r2/_genz_keister.py:61-71 `_points_5` -/
noncomputable def points5 : List ℝ :=
  points3 ++ [0.214618180588171e0, 1.561553427651873e0, 2.597288631188366e0, 3.315584617593290e0,
    4.057956316089741e0, 4.986551454150765e0, 5.521865209868350e0, 6.124527854622158e0,
    6.853200069757519e0]

/-- e1r2/_genz_keister.py:72-84 `_points_6` -/
noncomputable def points6 : List ℝ :=
  points3 ++ [0.195324784415805e0, 1.585873011819188e0, 2.043834754429505e0, 2.630415236459871e0,
    3.296114596212218e0, 4.070919267883068e0, 4.953574342912980e0, 5.437443360177798e0,
    5.961461043404500e0, 6.547083258397540e0, 7.251792998192644e0]

/-- e1r2/_genz_keister.py:85-98 `_points_7` -/
noncomputable def points7 : List ℝ :=
  points3 ++ [0.196029453662011e0, 1.583643465293944e0, 2.089340389294661e0, 2.633356763661946e0,
    3.295265921534226e0, 4.071335874253583e0, 4.952329763008589e0, 5.434053000365068e0,
    5.954781975039809e0, 6.535398426382995e0, 7.231746029072501e0, 10.167574994881873e0]

/-- e1r2/_genz_keister.py:112-120 -/
noncomputable def weights2 : List ℝ :=
  [4.5014700975378197e-1, 4.7869428549114124e-1, 1.6811892894767771e-1, 1.4173117873979098e-2,
    1.6708826306882348e-4]

/-- e1r2/_genz_keister.py:122-135 -/
noncomputable def weights3 : List ℝ :=
  [5.3788160700510168e-1, 3.6924643368920851e-1, 1.0838861955003017e-1, 1.1360729895748269e-1,
    3.2055243099445879e-2, -1.1232438489069229e-2, 5.1133174390883855e-3, 1.0656589772852267e-4,
    1.0802767206624762e-6, 1.5295717705322357e-9]

/-- e1r2/_genz_keister.py:137-159 -/
noncomputable def weights4 : List ℝ :=
  [9.1262675363737921e-4, 3.3988595585585218e-1, 2.6244871488784277e-1, 1.6371221555735804e-1,
    8.0245518147390893e-2, 2.7780508908535097e-2, 5.5928828911469180e-3, 4.0967527720344047e-3,
    1.4515580425155904e-3, 4.8785399304443770e-4, 6.3328620805617891e-5, 4.8462799737020461e-6,
    4.3737818040926989e-7, 3.7920222392319532e-8, 8.1553721816916897e-10, 5.4896836948499462e-12,
    9.6599466278563243e-15, 1.8684014894510604e-18]

/-- e1r2/_genz_keister.py:162-185 -/
noncomputable def weights5 : List ℝ :=
  [0.171719680968980257e0, 0.261712932511430884e0, 0.253636910481387185e0, 0.16611584261479281e0,
    0.783630990508037449e-1, 0.274962713372148476e-1, 0.768092665770660459e-2,
    0.313373786000304381e-2, 0.174733389581099482e-2, 0.41642095727577091e-3,
    0.571885531470621903e-4, 0.586639457073896277e-5, 0.524482423744884136e-6,
    0.294146671497083432e-7, 0.748907559239519284e-9, 0.809333688669950037e-11,
    0.323016866782871498e-13, 0.332834739632930463e-16, 0.337304188079177058e-20]

/-- e1r2/_genz_keister.py:188-213 -/
noncomputable def weights6 : List ℝ :=
  [0.997525375254611951e-1, 0.293588795735908566e0, 0.258718519718241095e0, 0.164543666806555251e0,
    0.799536390803302298e-1, 0.293244560924894295e-1, 0.125041498584003435e-2,
    0.317007878644325588e-1, -0.25616995850607458e-1, 0.249379691096933139e-2,
    0.335013114947200879e-3, 0.512198007019776873e-4, 0.675628907134744976e-5,
    0.558982787078644997e-6, 0.264376044449260516e-7, 0.710371395169350952e-9,
    0.103121966469463034e-10, 0.724614869051195508e-13, 0.202183949965101288e-15,
    0.152506745534300636e-18, 0.117725656974405367e-22]

/-- e1r2/_genz_keister.py:217-243 -/
noncomputable def weights7 : List ℝ :=
  [0.102730713753441829e0, 0.292243810406117141e0, 0.258535954731607738e0, 0.164609842422580606e0,
    0.798689557875757008e-1, 0.29000335749726387e-1, 0.248083722871002796e-2,
    0.119383201790913588e-1, -0.687704270963253854e-2, 0.267479828788552937e-2,
    0.32753080006610181e-3, 0.508343873102544037e-4, 0.680410934802210232e-5,
    0.560127964848432175e-6, 0.263481722999966618e-7, 0.70903573389336778e-9,
    0.104028132097205732e-10, 0.747837010380540069e-13, 0.217337608710893738e-15,
    0.175937309107750992e-18, 0.15516931262860431e-22, 0.968100020641528185e-37]

/-- e1r2/_genz_keister.py:104-245: points, weights and degree before the last lines; `none` models the
AssertionError of line 217.  A negative `n` fails, too (line 102). -/
noncomputable def table : ℕ → Option (List ℝ × List ℝ × ℕ)
  | 0 => some (points0, [√Real.pi], 1)
  | 1 => some (points1, [2 / 3 * √Real.pi, 1 / 6 * √Real.pi], 5)
  | 2 => some (points2, weights2, 15)
  | 3 => some (points3, weights3, 29)
  | 4 => some (points4, weights4, 51)
  | 5 => some (points5, weights5, 55)
  | 6 => some (points6, weights6, 63)
  | 7 => some (points7, weights7, 67)
  | _ => none

/-- `np.concatenate([w[1:][::-1], [w[0]], w[1:]])` (line 248) for a list that is not empty. -/
def mirror (w : List ℝ) : List ℝ := w.tail.reverse ++ w.take 1 ++ w.tail

/-- `np.concatenate([-p[1:][::-1], [p[0]], p[1:]])` (line 251) for a list that is not empty. -/
def mirrorNeg (p : List ℝ) : List ℝ := (p.tail.reverse.map fun x => -x) ++ p.take 1 ++ p.tail

/-- `np.sort` -/
noncomputable def sort (p : List ℝ) : List ℝ := p.insertionSort (· ≤ ·)

/-- e1r2/_genz_keister.py:101-253 `genz_keister(n)`: points, weights, degree. -/
noncomputable def genzKeister (n : ℕ) : Option (List ℝ × List ℝ × ℕ) :=
  (table n).map fun t => (mirrorNeg (sort t.1), mirror t.2.1, t.2.2)

end GenzKeister
end Quadpy
