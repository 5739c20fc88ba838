/-
Model of quadpy/helpers/symmetries.py.  quadpy/t3/_helpers.py and quadpy/u3/_helpers.py have their own
copies of the expansion loop, with their own tables; the loops are the same line by line, so the tables
are joined here.
-/
import Verif.Model.Combinatorics
import Verif.Model.Scheme
import Mathlib.Analysis.SpecialFunctions.Trigonometric.Basic

namespace Quadpy

/-- The keys of the table helpers/symmetries.py:291-335 (`"zero2"`, `"zero3"` and `"0"` share one
function; `"plain"` copies the given point). `d n offset` stands for `"dn.offset"`. -/
inductive SymKey
  | zero | a | a0
  | d4_aa | d4_a0 | c4 | d4_ab | c2_a0 | c2_0a | sxy | c2 | sx
  | centroid | vertex | d3_ab | d3_aa | c3_ab | swap_ab | s2_static
  | d (n offset : ℕ)
  | symm_r00 | symm_rr0 | symm_rs0_roll | symm_rrr | symm_rrs | symm_rss_pm
  | plain
  -- t3/_helpers.py:140-147
  | s4 | s31 | s22 | s211 | s1111
  -- u3/_helpers.py:522-536
  | a1 | a2 | a3 | llm | llm2 | pq0 | pq02 | rs0 | rsw | rsw2 | rst | rst_weird
  deriving DecidableEq

/-- u3/_helpers.py:309-348 `_llm2`: the array of points. -/
def llm2Pts (L m : ℝ) : List (List ℝ) :=
    [[L, L, m], [-L, L, m], [L, -L, m], [-L, -L, m],
     [L, L, -m], [-L, L, -m], [L, -L, -m], [-L, -L, -m],
     [L, m, L], [-L, m, L], [L, m, -L], [-L, m, -L],
     [L, -m, L], [-L, -m, L], [L, -m, -L], [-L, -m, -L],
     [m, L, L], [m, -L, L], [m, L, -L], [m, -L, -L],
     [-m, L, L], [-m, -L, L], [-m, L, -L], [-m, -L, -L]]

/-- u3/_helpers.py:216-263 `_pq02`: the array of points. -/
def pq02Pts (a b : ℝ) : List (List ℝ) :=
    [[a, b, 0], [-a, b, 0], [-a, -b, 0], [a, -b, 0],
     [b, a, 0], [-b, a, 0], [-b, -a, 0], [b, -a, 0],
     [a, 0, b], [-a, 0, b], [-a, 0, -b], [a, 0, -b],
     [b, 0, a], [-b, 0, a], [-b, 0, -a], [b, 0, -a],
     [0, a, b], [0, -a, b], [0, -a, -b], [0, a, -b],
     [0, b, a], [0, -b, a], [0, -b, -a], [0, b, -a]]

/-- u3/_helpers.py:266-298 `_rs0`: the array of points. -/
def rs0Pts (a b : ℝ) : List (List ℝ) :=
    [[a, b, 0], [-a, b, 0], [-a, -b, 0], [a, -b, 0],
     [b, 0, a], [-b, 0, a], [-b, 0, -a], [b, 0, -a],
     [0, a, b], [0, -a, b], [0, -a, -b], [0, a, -b]]

/-- u3/_helpers.py:361-429 `_rsw2`: the array of points. -/
def rsw2Pts (r s w : ℝ) : List (List ℝ) :=
    [[r, s, w], [w, r, s], [s, w, r], [s, r, w], [w, s, r], [r, w, s],
     [-r, s, w], [w, -r, s], [s, w, -r], [s, -r, w], [w, s, -r], [-r, w, s],
     [r, -s, w], [w, r, -s], [-s, w, r], [-s, r, w], [w, -s, r], [r, w, -s],
     [r, s, -w], [-w, r, s], [s, -w, r], [s, r, -w], [-w, s, r], [r, -w, s],
     [-r, -s, w], [w, -r, -s], [-s, w, -r], [-s, -r, w], [w, -s, -r], [-r, w, -s],
     [-r, s, -w], [-w, -r, s], [s, -w, -r], [s, -r, -w], [-w, s, -r], [-r, -w, s],
     [r, -s, -w], [-w, r, -s], [-s, -w, r], [-s, r, -w], [-w, -s, r], [r, -w, -s],
     [-r, -s, -w], [-w, -r, -s], [-s, -w, -r], [-s, -r, -w], [-w, -s, -r], [-r, -w, -s]]

/-- u3/_helpers.py:432-476 `_rst`: the array of points. -/
def rstPts (r s w : ℝ) : List (List ℝ) :=
    [[r, s, w], [w, r, s], [s, w, r], [-r, s, w], [w, -r, s], [s, w, -r],
     [r, -s, w], [w, r, -s], [-s, w, r], [r, s, -w], [-w, r, s], [s, -w, r],
     [-r, -s, w], [w, -r, -s], [-s, w, -r], [-r, s, -w], [-w, -r, s], [s, -w, -r],
     [r, -s, -w], [-w, r, -s], [-s, -w, r], [-r, -s, -w], [-w, -r, -s], [-s, -w, -r]]

/-- u3/_helpers.py:479-519 `_rst_weird`: the array of points. -/
def rst_weirdPts (r s t : ℝ) : List (List ℝ) :=
    [[r, s, t], [-r, t, s], [s, t, r], [-s, r, t], [t, r, s], [-t, s, r],
     [r, -s, -t], [-r, -t, -s], [s, -t, -r], [-s, -r, -t], [t, -r, -s], [-t, -s, -r],
     [r, t, -s], [-r, s, -t], [s, r, -t], [-s, t, -r], [t, s, -r], [-t, r, -s],
     [r, -t, s], [-r, -s, t], [s, -r, t], [-s, -t, r], [t, -s, r], [-t, -r, s]]

/-- The orbit of one column of parameters: helpers/symmetries.py, one branch per function.
A wrong number of parameters raises in the code (unpacking); here it gives the empty orbit. -/
noncomputable def orbit (dim : ℕ) : SymKey → List ℝ → List (List ℝ)
  -- symmetries.py:6-7
  | .zero, _ => [List.replicate dim 0]
  -- symmetries.py:266-271
  | .a, [a] => iterProduct (List.replicate dim [a, -a])
  -- symmetries.py:274-283
  | .a0, [a] => (List.range dim).flatMap fun i =>
      [List.replicate i 0 ++ [a] ++ List.replicate (dim - i - 1) 0,
       List.replicate i 0 ++ [-a] ++ List.replicate (dim - i - 1) 0]
  -- symmetries.py:20-24
  | .d4_aa, [a] => [[a, a], [-a, a], [a, -a], [-a, -a]]
  -- symmetries.py:27-32
  | .d4_a0, [a] => [[a, 0], [-a, 0], [0, a], [0, -a]]
  -- symmetries.py:35-39
  | .c4, [a, b] => [[a, b], [-a, -b], [-b, a], [b, -a]]
  -- symmetries.py:10-17
  | .d4_ab, [s, t] =>
      [[s, t], [-s, t], [s, -t], [-s, -t], [t, s], [-t, s], [t, -s], [-t, -s]]
  -- symmetries.py:63-67
  | .c2_a0, [r] => [[r, 0], [-r, 0]]
  -- symmetries.py:70-75
  | .c2_0a, [a] => [[0, a], [0, -a]]
  -- symmetries.py:42-46
  | .sxy, [x, y] => [[x, y], [x, -y], [-x, y], [-x, -y]]
  -- symmetries.py:56-60
  | .c2, [x, y] => [[x, y], [-x, -y]]
  -- symmetries.py:49-53
  | .sx, [x, y] => [[x, y], [-x, y]]
  -- symmetries.py:78-79 (the float `1 / 3` is the real number 1/3 here)
  | .centroid, _ => [[1 / 3, 1 / 3, 1 / 3]]
  -- symmetries.py:82-83
  | .vertex, _ => [[1, 0, 0], [0, 1, 0], [0, 0, 1]]
  -- symmetries.py:92-99
  | .d3_ab, [a, b] => let c := 1 - a - b
      [[a, b, c], [c, a, b], [b, c, a], [b, a, c], [c, b, a], [a, c, b]]
  -- symmetries.py:86-89 (columns of the symmetric array)
  | .d3_aa, [a] => let b := 1 - 2 * a
      [[a, a, b], [a, b, a], [b, a, a]]
  -- symmetries.py:102-107
  | .c3_ab, [a, b] => let c := 1 - a - b
      [[a, b, c], [c, a, b], [b, c, a]]
  -- symmetries.py:110-115
  | .swap_ab, [a, b] => let c := 1 - a - b
      [[a, b, c], [b, a, c]]
  -- symmetries.py:118-123
  | .s2_static, [a] => let b := 1 - 2 * a
      [[a, a, b]]
  -- symmetries.py:126-135
  | .d n offset, [r] => (List.range n).map fun k : ℕ =>
      let alpha := (2 * (k : ℝ) + offset) * Real.pi / n
      [Real.cos alpha * r, Real.sin alpha * r]
  -- symmetries.py:138-151
  | .symm_r00, [r] => [[r, 0, 0], [-r, 0, 0], [0, r, 0], [0, -r, 0], [0, 0, r], [0, 0, -r]]
  -- symmetries.py:154-173
  | .symm_rr0, [a] =>
      [[a, a, 0], [a, 0, a], [0, a, a], [a, -a, 0], [a, 0, -a], [0, a, -a],
       [-a, a, 0], [-a, 0, a], [0, -a, a], [-a, -a, 0], [-a, 0, -a], [0, -a, -a]]
  -- symmetries.py:176-196
  | .symm_rs0_roll, [r, s] =>
      [[r, s, 0], [r, -s, 0], [-r, s, 0], [-r, -s, 0],
       [0, r, s], [0, r, -s], [0, -r, s], [0, -r, -s],
       [s, 0, r], [s, 0, -r], [-s, 0, r], [-s, 0, -r]]
  -- symmetries.py:199-213
  | .symm_rrr, [a] =>
      [[a, a, a], [-a, a, a], [a, -a, a], [-a, -a, a],
       [a, a, -a], [-a, a, -a], [a, -a, -a], [-a, -a, -a]]
  -- symmetries.py:216-247
  | .symm_rrs, [a, b] =>
      [[a, a, b], [a, b, a], [b, a, a], [a, -a, b], [a, b, -a], [b, a, -a],
       [-a, a, b], [-a, b, a], [b, -a, a], [-a, -a, b], [-a, b, -a], [b, -a, -a],
       [a, a, -b], [a, -b, a], [-b, a, a], [a, -a, -b], [a, -b, -a], [-b, a, -a],
       [-a, a, -b], [-a, -b, a], [-b, -a, a], [-a, -a, -b], [-a, -b, -a], [-b, -a, -a]]
  -- symmetries.py:250-263
  | .symm_rss_pm, [r, s] =>
      [[r, s, s], [s, r, s], [s, s, r], [-r, -s, -s], [-s, -r, -s], [-s, -s, -r]]
  -- symmetries.py:334
  | .plain, col => [col]
  -- t3/_helpers.py:53-56
  | .s4, _ => [[1 / 4, 1 / 4, 1 / 4, 1 / 4]]
  -- t3/_helpers.py:59-63
  | .s31, [a] => let b := 1 - 3 * a
      [[a, a, a, b], [a, a, b, a], [a, b, a, a], [b, a, a, a]]
  -- t3/_helpers.py:66-82
  | .s22, [a] => let b := (1 - 2 * a) / 2
      [[a, a, b, b], [a, b, a, b], [b, a, a, b], [a, b, b, a],
       [b, a, b, a], [b, b, a, a]]
  -- t3/_helpers.py:85-105
  | .s211, [a, b] => let c := 1 - 2 * a - b
      [[a, a, b, c], [a, b, a, c], [b, a, a, c], [a, b, c, a],
       [b, a, c, a], [b, c, a, a], [a, a, c, b], [a, c, a, b],
       [c, a, a, b], [a, c, b, a], [c, a, b, a], [c, b, a, a]]
  -- t3/_helpers.py:108-140
  | .s1111, [a, b, c] => let d := 1 - a - b - c
      [[a, b, c, d], [a, b, d, c], [a, c, b, d], [a, c, d, b],
       [a, d, b, c], [a, d, c, b], [b, a, c, d], [b, a, d, c],
       [b, c, a, d], [b, c, d, a], [b, d, a, c], [b, d, c, a],
       [c, a, b, d], [c, a, d, b], [c, b, a, d], [c, b, d, a],
       [c, d, a, b], [c, d, b, a], [d, a, b, c], [d, a, c, b],
       [d, b, a, c], [d, b, c, a], [d, c, a, b], [d, c, b, a]]
  -- u3/_helpers.py:161-167
  | .a1, _ => let a : ℝ := 1
      [[a, 0, 0], [-a, 0, 0], [0, a, 0], [0, -a, 0], [0, 0, a], [0, 0, -a]]
  -- u3/_helpers.py:170-191
  | .a2, _ => let a := 1 / Real.sqrt 2
      [[a, a, 0], [a, -a, 0], [-a, a, 0], [-a, -a, 0],
       [a, 0, a], [a, 0, -a], [-a, 0, a], [-a, 0, -a],
       [0, a, a], [0, a, -a], [0, -a, a], [0, -a, -a]]
  -- u3/_helpers.py:194-209
  | .a3, _ => let a := 1 / Real.sqrt 3
      [[a, a, a], [a, a, -a], [a, -a, a], [a, -a, -a],
       [-a, a, a], [-a, a, -a], [-a, -a, a], [-a, -a, -a]]
  -- u3/_helpers.py:309-348
  | .llm2, [L, m] => llm2Pts L m
  | .llm2, [L] => let m := Real.sqrt (1 - 2 * L ^ 2)
      llm2Pts L m
  -- u3/_helpers.py:301-306
  | .llm, [v] => let L := Real.sin (v * Real.pi) / Real.sqrt 2; let m := Real.cos (v * Real.pi)
      llm2Pts L m
  -- u3/_helpers.py:216-263
  | .pq02, [a, b] => pq02Pts a b
  | .pq02, [a] => let b := Real.sqrt (1 - a ^ 2)
      pq02Pts a b
  -- u3/_helpers.py:212-213
  | .pq0, [v] => let a := Real.sin (v * Real.pi); let b := Real.cos (v * Real.pi)
      pq02Pts a b
  -- u3/_helpers.py:266-298
  | .rs0, [a, b] => rs0Pts a b
  | .rs0, [a] => let b := Real.sqrt (1 - a ^ 2)
      rs0Pts a b
  -- u3/_helpers.py:361-429
  | .rsw2, [r, s, w] => rsw2Pts r s w
  | .rsw2, [r, s] => let w := Real.sqrt (1 - r ^ 2 - s ^ 2)
      rsw2Pts r s w
  -- u3/_helpers.py:351-358
  | .rsw, [v0, v1] => let r := Real.sin (v1 * Real.pi) * Real.cos (v0 * Real.pi)
      let s := Real.sin (v1 * Real.pi) * Real.sin (v0 * Real.pi); let w := Real.cos (v1 * Real.pi)
      rsw2Pts r s w
  -- u3/_helpers.py:432-476
  | .rst, [r, s, w] => rstPts r s w
  | .rst, [r, s] => let w := Real.sqrt (1 - r ^ 2 - s ^ 2)
      rstPts r s w
  -- u3/_helpers.py:479-519
  | .rst_weird, [r, s, t] => rst_weirdPts r s t
  | .rst_weird, [r, s] => let t := Real.sqrt (1 - r ^ 2 - s ^ 2)
      rst_weirdPts r s t
  | _, _ => []

/-- One entry of the dictionary: key, weights, and the columns of the parameter array (the code
stores rows).  For keys without parameters there is one empty column. -/
structure SymEntry where
  key : SymKey
  weights : List ℝ
  cols : List (List ℝ)

/-- helpers/symmetries.py:286-343 (t3/_helpers.py:143-165, u3/_helpers.py:522-550), one pass of the
loop: the points of an entry (orbit position is the slow index, column the fast one, lines 336-340). -/
noncomputable def entryPoints (dim : ℕ) (e : SymEntry) : List (List ℝ) :=
  (List.range (orbit dim e.key (e.cols.headD [])).length).flatMap fun c =>
    e.cols.map fun col => (orbit dim e.key col).getD c []

/-- helpers/symmetries.py:355-357 (t3/_helpers.py:175-178, u3/_helpers.py:560-563),
`np.tile(values, count)`. -/
noncomputable def entryWeights (dim : ℕ) (e : SymEntry) : List ℝ :=
  (List.replicate (orbit dim e.key (e.cols.headD [])).length e.weights).flatten

/-- helpers/symmetries.py:346-358 `expand_symmetries(data, dim)`: points and weights. -/
noncomputable def expandSymmetries (data : List SymEntry) (dim : ℕ) :
    List (List ℝ) × List ℝ :=
  ((data.map (entryPoints dim)).flatten, (data.map (entryWeights dim)).flatten)

end Quadpy
