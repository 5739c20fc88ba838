import Verif.Model.Cn
import Verif.Model.Symmetries
import Verif.Model.OneDim
import Verif.Model.Combinatorics

/-!
# Model of product rules given as plain lists of points
-/

namespace Quadpy

/-- helpers/misc.py:53-58 `untangle` for single points, and the dictionary entry `"plain"` made of it. -/
def plainOf (data : List (ℝ × List ℝ)) : SymEntry := ⟨.plain, data.map (·.1), data.map (·.2)⟩

namespace ProductRules

/-- s3/_stroud.py:32-34, 44-46: the points and weights in radial direction, for the weight `r^2` on
`[-1, 1]` -/
noncomputable def radial_7_4 : List (ℝ × ℝ) :=
  let alpha := √((35 + 2 * √70) / 63)
  let beta := √((35 - 2 * √70) / 63)
  let wa := (50 + √70) / 300
  let wb := (50 - √70) / 300
  [(-alpha, wa), (-beta, wb), (beta, wb), (alpha, wa)]

/-- s3/_stroud.py:36-38, 48-50: points and weights of the Gauss rule with 4 points -/
noncomputable def polar_7_4 : List (ℝ × ℝ) :=
  let alpha := √((15 + 2 * √30) / 35)
  let beta := √((15 - 2 * √30) / 35)
  let wa := (18 - √30) / 36
  let wb := (18 + √30) / 36
  [(-alpha, wa), (-beta, wb), (beta, wb), (alpha, wa)]

/-- s3/_stroud.py:40-42, 52: points and weights of the Chebyshev rule with 4 points -/
noncomputable def azimuth_7_4 : List (ℝ × ℝ) :=
  let alpha := √((2 + √2) / 4)
  let beta := √((2 - √2) / 4)
  [(-alpha, Real.pi / 4), (-beta, Real.pi / 4), (beta, Real.pi / 4), (alpha, Real.pi / 4)]

/-- s3/_stroud.py:28-77 `stroud_7_4`; `weights /= 4 / 3 * math.pi` acts on the array which is already
in the dictionary. -/
noncomputable def stroud_7_4 : Scheme :=
  schemeOfSym 3 [plainOf (radial_7_4.flatMap fun p => polar_7_4.flatMap fun q => azimuth_7_4.map fun k =>
    (p.2 * q.2 * k.2 / (4 / 3 * Real.pi),
      [p.1 * √(1 - q.1 ^ 2) * √(1 - k.1 ^ 2), p.1 * √(1 - q.1 ^ 2) * k.1, p.1 * q.1 * 1]))] 7

/-- t2/_stroud.py:30-45, t3/_stroud.py:35-50: `s` and `B`, a Gauss rule for the weight `1 - s` on
`[0, 1]` -/
noncomputable def conical1 : List (ℝ × ℝ) :=
  [(5.710419611452533e-02, 1.355069134315012e-01), (2.768430136381415e-01, 2.034645680102685e-01),
    (5.835904323689318e-01, 1.298475476082247e-01), (8.602401356562251e-01, 3.118097095000554e-02)]

/-- t3/_stroud.py:59-74: `t` and `C`, a Gauss rule for the weight `(1 - t)^2` on `[0, 1]` -/
noncomputable def conical2 : List (ℝ × ℝ) :=
  [(4.850054944699245e-02, 1.108884156112685e-01), (2.386007375518456e-01, 1.434587897992167e-01),
    (5.170472951043522e-01, 6.863388717292915e-02), (7.958514178967657e-01, 1.035224074991912e-02)]

/-- t2/_stroud.py:19-21, t3/_stroud.py:23-25: the rule `gauss_legendre(4)` with points `P` and weights `W`,
moved to `[0, 1]` -/
noncomputable def toUnit (P W : List ℝ) : List (ℝ × ℝ) := List.zip (P.map fun x => (x + 1) / 2) (W.map fun w => w / 2)

/-- t2/_stroud.py:17-58 `stroud_t2_7_1`, with the rule `gauss_legendre(4)` given -/
noncomputable def stroud_t2_7_1 (P W : List ℝ) : Scheme :=
  schemeOfSym 2 [plainOf ((toUnit P W).flatMap fun p => conical1.map fun q =>
    (2 * p.2 * q.2, [q.1, p.1 * (1 - q.1), (1 - p.1) * (1 - q.1)]))] 7

/-- t3/_stroud.py:20-94 `stroud_t3_7_1`, with the rule `gauss_legendre(4)` given -/
noncomputable def stroud_t3_7_1 (P W : List ℝ) : Scheme :=
  schemeOfSym 3 [plainOf ((toUnit P W).flatMap fun p => conical1.flatMap fun q => conical2.map fun k =>
    (6 * p.2 * q.2 * k.2, [k.1, q.1 * (1 - k.1), p.1 * (1 - q.1) * (1 - k.1),
      (1 - p.1) * (1 - q.1) * (1 - k.1)]))] 7

/-- u3/_mclaren.py:148, 178: the numbers `r` and `s` of `mclaren_10` -/
noncomputable def mc_r : ℝ := √((5 - √5) / 10)
/-- u3/_mclaren.py:148 -/
noncomputable def mc_s : ℝ := √((5 + √5) / 10)

/-- u3/_mclaren.py:158-166: `z = np.sqrt(y)` -/
noncomputable def mc_z0 : ℝ := √0.8318603575087328951583062165711519728388
/-- u3/_mclaren.py:158-166 -/
noncomputable def mc_z1 : ℝ := √0.5607526046766541293084396308069013490725
/-- u3/_mclaren.py:158-166 -/
noncomputable def mc_z2 : ℝ := √0.4118893592345073860321480490176804941547
/-- u3/_mclaren.py:158-166 -/
noncomputable def mc_z3 : ℝ := √0.1479981814629634692260834719469411619893
/-- u3/_mclaren.py:158-166 -/
noncomputable def mc_z4 : ℝ := √0.04473134613410273910111648293922113227845
/-- u3/_mclaren.py:158-166 -/
noncomputable def mc_z5 : ℝ := √0.002768150983039381173906148718103889666260

/-- u3/_mclaren.py:168-182: the five triples `(u, v, w)` -/
noncomputable def mc_uvw : List (ℝ × ℝ × ℝ) :=
  [((mc_z3 - mc_z2) / 2 / mc_s, (mc_z4 + mc_z5) / 2 / mc_s, (mc_z0 + mc_z1) / 2 / mc_s),
    ((mc_z1 - mc_z4) / 2 / mc_s, (mc_z5 + mc_z3) / 2 / mc_s, (mc_z0 + mc_z2) / 2 / mc_s),
    ((mc_z5 - mc_z1) / 2 / mc_s, (mc_z2 + mc_z4) / 2 / mc_s, (mc_z0 + mc_z3) / 2 / mc_s),
    ((mc_z2 - mc_z5) / 2 / mc_s, (mc_z3 + mc_z1) / 2 / mc_s, (mc_z0 + mc_z4) / 2 / mc_s),
    ((mc_z4 - mc_z3) / 2 / mc_s, (mc_z1 + mc_z2) / 2 / mc_s, (mc_z0 + mc_z5) / 2 / mc_s)]

/-- u3/_mclaren.py:184-203: the points with their weights -/
noncomputable def mc_data : List (ℝ × List ℝ) :=
  (pmRoll [mc_r, mc_s, 0]).map (fun x => (125 / 10080, x)) ++
  ([fun u v w => [u, v, w], fun u v w => [u, -v, -w], fun u v w => [-u, -v, w], fun u v w => [-u, v, -w],
    fun u v w => [v, w, u], fun u v w => [v, -w, -u], fun u v w => [-v, -w, u], fun u v w => [-v, w, -u],
    fun u v w => [w, u, v], fun u v w => [w, -u, -v], fun u v w => [-w, -u, v],
    fun u v w => [-w, u, -v]] : List (ℝ → ℝ → ℝ → List ℝ)).flatMap fun g =>
      mc_uvw.map fun t => (143 / 10080, g t.1 t.2.1 t.2.2)

/-- u3/_mclaren.py:145-207 `mclaren_10`, also `stroud_u3_14_1` (u3/_stroud.py:20) -/
noncomputable def mclaren_10 : Scheme := schemeOfSym 3 [plainOf mc_data] 14

/-- s3/_stroud.py:114-129: the radial rule of `stroud_14_1` -/
noncomputable def radial_s3_14 : List (ℝ × ℝ) :=
  [(3.242534234038097e-01, 3.284025994586210e-02), (6.133714327005908e-01, 9.804813271549834e-02),
    (8.360311073266362e-01, 1.262636728646019e-01), (9.681602395076261e-01, 7.618126780737085e-02)]

/-- s3/_stroud.py:80-143 `stroud_14_1` -/
noncomputable def s3_stroud_14_1 : Scheme :=
  schemeOfSym 3 [plainOf (radial_s3_14.flatMap fun p => mc_data.map fun q =>
    (p.2 * q.1 * 3, q.2.map fun x => p.1 * x))] 14

/-- e3r2/_stroud.py:45-60: the radial rule of `stroud_e3r2_14_1` -/
noncomputable def radial_e3r2_14 : List (ℝ × ℝ) :=
  [(7.235510187528402e-01, 2.265043732793035e-01), (1.468553289216669e00, 1.908084800858996e-01),
    (2.266580584531844e00, 2.539731378612040e-02), (3.190993201781527e00, 4.032955750550135e-04)]

/-- e3r2/_stroud.py:23-74 `stroud_e3r2_14_1` -/
noncomputable def e3r2_stroud_14_1 : Scheme :=
  schemeOfSym 3 [plainOf (radial_e3r2_14.flatMap fun p => mc_data.map fun q =>
    (p.2 * (q.1 / (√Real.pi / 4)), q.2.map fun x => p.1 * x))] 14

/-- s2/_mysovskih.py:55-83 -/
noncomputable def mysovskih_3_data : List SymEntry :=
  [⟨.d 8 1, [(4998 + 343 * √21) / 253125, (4998 - 343 * √21) / 253125],
    [[√((21 - √21) / 28)], [√((21 + √21) / 28)]]⟩,
   ⟨.d 4 1, [(1055603 * √1401 + 26076047) / 43200000 / √1401, 16807 / 800000,
    (1055603 * √1401 - 26076047) / 43200000 / √1401],
    [[√((69 - √1401) / 112)], [√(5 / 7)], [√((69 + √1401) / 112)]]⟩,
   ⟨.d 4 0, [0.398811120280412e-1, 0.348550570365141e-1, 0.210840370156484e-1, 0.531979391979623e-2],
    [[0.252863797091230], [0.577728928444823], [0.873836956644882], [0.989746802511491]]⟩]

/-- s2/_mysovskih.py:55-86 `mysovskih_3` -/
noncomputable def mysovskih_3 : Scheme := schemeOfSym 2 mysovskih_3_data 15

end ProductRules
end Quadpy
