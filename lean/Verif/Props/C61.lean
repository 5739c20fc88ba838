import Verif.Model.Plot
import Verif.Props.C12
import Mathlib.Analysis.SpecialFunctions.Complex.Arg
import Mathlib.Tactic.Linarith
import Mathlib.Tactic.FieldSimp
import Mathlib.Tactic.LinearCombination

/-!
# C61 — what `plot` and `show` draw
-/

namespace Quadpy.Plot

open Real

/-! ### Arrays -/

theorem T_T (a : Arr) : a.T.T = a := rfl

theorem rows_ofRows {L : List (List ℝ)} {c : ℕ} (h : ∀ x ∈ L, x.length = c) : (ofRows L c).rows = L := by
  apply List.ext_getElem
  · simp [ofRows, Arr.rows]
  · intro i h1 h2
    have hl : (L[i]).length = c := h _ (List.getElem_mem h2)
    apply List.ext_getElem
    · simp [ofRows, Arr.rows, hl]
    · intro j h3 h4
      simp [ofRows, Arr.rows, h2, h4]

theorem rows_length (a : Arr) : a.rows.length = a.r := by simp [Arr.rows]

theorem row_length {a : Arr} {p : List ℝ} (h : p ∈ a.rows) : p.length = a.c := by
  obtain ⟨i, -, rfl⟩ := List.mem_map.1 h
  simp

/-! ### The sizes of the discs and balls -/

/-- The diameters (in one dimension), areas and volumes are the parts `|w| / Σ w` of the total. -/
theorem C61_size {weights : List ℝ} (hs : 0 < weights.sum) {total : ℝ} (ht : 0 ≤ total) (w : ℝ) :
    2 * radius1d weights total w = |w| / weights.sum * total ∧
    π * radius2d weights total w ^ 2 = |w| / weights.sum * total ∧
    4 / 3 * π * radius3d weights total w ^ 3 = |w| / weights.sum * total ∧
    0 ≤ radius1d weights total w ∧ 0 ≤ radius2d weights total w ∧ 0 ≤ radius3d weights total w := by
  have h0 : 0 ≤ |w| / weights.sum * total := by positivity
  have hp := pi_pos
  refine ⟨by rw [radius1d]; ring, ?_, ?_, by rw [radius1d]; positivity, sqrt_nonneg _, ?_⟩
  · rw [radius2d, sq_sqrt (by positivity)]
    field_simp
  · have h1 : 0 ≤ |w| / weights.sum * total / (4.0 / 3.0 * π) := by positivity
    rw [radius3d, cbrt, if_pos h1, ← rpow_natCast, ← rpow_mul h1]
    norm_num
    field_simp
  · have h1 : 0 ≤ |w| / weights.sum * total / (4.0 / 3.0 * π) := by positivity
    rw [radius3d, cbrt, if_pos h1]
    positivity

theorem sum_abs_parts (weights : List ℝ) (total s : ℝ) :
    (weights.map fun w => |w| / s * total).sum = (weights.map fun w => |w|).sum / s * total := by
  induction weights with
  | nil => simp
  | cons w ws ih => simp only [List.map_cons, List.sum_cons, ih]; ring

theorem sum_le_sum_abs (weights : List ℝ) : weights.sum ≤ (weights.map fun w => |w|).sum := by
  induction weights with
  | nil => simp
  | cons w ws ih => simp only [List.map_cons, List.sum_cons]; linarith [le_abs_self w]

theorem sum_abs_eq_iff (weights : List ℝ) :
    (weights.map fun w => |w|).sum = weights.sum ↔ ∀ w ∈ weights, 0 ≤ w := by
  induction weights with
  | nil => simp
  | cons w ws ih =>
    simp only [List.map_cons, List.sum_cons, List.mem_cons, forall_eq_or_imp]
    constructor
    · intro h
      have h1 := sum_le_sum_abs ws
      have h2 := le_abs_self w
      exact ⟨abs_eq_self.1 (by linarith), ih.1 (by linarith)⟩
    · rintro ⟨h1, h2⟩
      rw [abs_of_nonneg h1, ih.2 h2]

/-- "Choose radius such that the sum of areas of the circles equals total_area" (plot.py, lines 35 and 98):
this is so exactly when no weight is negative; otherwise the sum is larger. -/
theorem C61_total {weights : List ℝ} (hs : 0 < weights.sum) {total : ℝ} (ht : 0 < total) :
    total ≤ (weights.map fun w => π * radius2d weights total w ^ 2).sum ∧
    ((weights.map fun w => π * radius2d weights total w ^ 2).sum = total ↔ ∀ w ∈ weights, 0 ≤ w) ∧
    ((weights.map fun w => 4 / 3 * π * radius3d weights total w ^ 3).sum = total ↔
      ∀ w ∈ weights, 0 ≤ w) := by
  have e2 : (weights.map fun w => π * radius2d weights total w ^ 2) =
      weights.map fun w => |w| / weights.sum * total :=
    List.map_congr_left fun w _ => (C61_size hs ht.le w).2.1
  have e3 : (weights.map fun w => 4 / 3 * π * radius3d weights total w ^ 3) =
      weights.map fun w => |w| / weights.sum * total :=
    List.map_congr_left fun w _ => (C61_size hs ht.le w).2.2.1
  rw [e2, e3, sum_abs_parts]
  have key : (weights.map fun w => |w|).sum / weights.sum * total = total ↔ ∀ w ∈ weights, 0 ≤ w := by
    rw [← sum_abs_eq_iff, mul_eq_right₀ ht.ne', div_eq_one_iff_eq hs.ne']
  refine ⟨?_, key, key⟩
  rw [le_mul_iff_one_le_left ht, one_le_div hs]
  exact sum_le_sum_abs weights

example : radius2d [1 / 2, 1 / 2] (2 * π) (1 / 2) = 1 := by
  have := pi_pos.ne'
  norm_num [radius2d]
  field_simp

/-! ### In the plane -/

theorem discs_eq {L : List (List ℝ)} (h : ∀ x ∈ L, x.length = 2) (weights : List ℝ) (radius : ℝ → ℝ) :
    discs (ofRows L 2) weights radius =
      .ok (List.zipWith (fun x w => ⟨x, radius w, blueGe w⟩) L weights) := by
  unfold discs
  rw [if_neg (by simp [ofRows]), rows_ofRows h]
  congr 1
  apply List.ext_getElem
  · simp
  · intro i h1 h2
    have hi : i < L.length := by simp at h1; omega
    simp [List.take_of_length_le (h L[i] (List.getElem_mem hi)).le]

/-- A disc for each point, at the point, in s2, e2r, e2r2 and u2. -/
theorem C61_plane {S : Scheme} (hp : ∀ x ∈ S.points, x.length = 2) :
    plotS2 S = .ok (List.zipWith (fun x w => ⟨x, radius2d S.weights π w, blueGe w⟩) S.points S.weights) ∧
    plotE2 S = .ok (List.zipWith (fun x w => ⟨x, radius2d S.weights (2 * π) w, blueGe w⟩)
      S.points S.weights) ∧
    plotU2 S = .ok (List.zipWith
      (fun x w => ⟨x, radius2d S.weights (π ^ 3 / S.weights.length) w, blueGe w⟩) S.points S.weights) :=
  ⟨discs_eq hp _ _, discs_eq hp _ _, discs_eq hp _ _⟩

/-- A disc for each point at its image, in t2 and c2. -/
theorem C61_mapped (S : Scheme) (triangle : Fin 3 → Fin 2 → ℝ) (quad : (Fin 2 → Fin 2) → Fin 2 → ℝ) :
    plotT2 S triangle = .ok (List.zipWith (fun x w =>
      ⟨List.ofFn (Tn.transform (toVec 3 x) triangle), radius2d S.weights (Tn.getVol triangle) w, blueGe w⟩)
      S.points S.weights) ∧
    plotC2 S quad = .ok (List.zipWith (fun x w =>
      ⟨List.ofFn (Cn.transform (toVec 2 x) quad), radius2d S.weights (quadVol quad) w, blueGe w⟩)
      S.points S.weights) := by
  constructor
  · rw [plotT2, plotDisks, discs_eq (by intro x hx; obtain ⟨y, -, rfl⟩ := List.mem_map.1 hx; simp),
      List.zipWith_map_left]
  · rw [plotC2, plotDisks, discs_eq (by intro x hx; obtain ⟨y, -, rfl⟩ := List.mem_map.1 hx; simp),
      List.zipWith_map_left]

/-- On the circle the radii of the discs of `krylov(n)` add up to `π`, as the comment says. -/
theorem C61_u2 {n : ℕ} (hn : 1 ≤ n) {L : List Blob} (h : plotU2 (U2.krylov n) = .ok L) :
    L.length = n ∧ (L.map Blob.radius).sum = π := by
  have hpts : ∀ x ∈ (U2.krylov n).points, x.length = 2 := by
    intro x hx
    obtain ⟨k, -, rfl⟩ := List.mem_map.1 hx
    rfl
  rw [(C61_plane hpts).2.2] at h
  have h := (Except.ok.inj h).symm
  subst h
  have hn0 : (n : ℝ) ≠ 0 := by positivity
  have hr : radius2d (List.replicate n (1 / (n : ℝ))) (π ^ 3 / n) (1 / n) = π / n := by
    have hp := pi_pos
    rw [radius2d, List.sum_replicate, nsmul_eq_mul, mul_one_div_cancel hn0, div_one,
      abs_of_nonneg (by positivity), show 1 / (n : ℝ) * (π ^ 3 / n) / π = (π / n) ^ 2 by field_simp,
      sqrt_sq (by positivity)]
  have hlen : (U2.krylov n).points.length = n := by simp [U2.krylov]
  refine ⟨by simp [U2.krylov], ?_⟩
  rw [List.map_zipWith]
  have : List.zipWith (fun (_ : List ℝ) w => radius2d (U2.krylov n).weights
      (π ^ 3 / (U2.krylov n).weights.length) w) (U2.krylov n).points (U2.krylov n).weights =
      List.replicate n (π / n) := by
    apply List.eq_replicate_iff.2
    refine ⟨by simp [U2.krylov], fun b hb => ?_⟩
    obtain ⟨i, hi, rfl⟩ := List.mem_iff_getElem.1 hb
    simp [U2.krylov]
    simpa using hr
  rw [this, List.sum_replicate, nsmul_eq_mul]
  field_simp

/-- `C1Scheme.plot(interval)` draws the points of the reference interval whatever the interval is. -/
theorem C61_c1 (points weights : List ℝ) (a b : ℝ) :
    plotC1 points weights a b =
      .ok (List.zipWith (fun x w => ⟨[x, 0], radius1d weights (b - a) w, blueGe w⟩) points weights) := by
  rw [plotC1, plotDisks1d, discs_eq (by intro x hx; obtain ⟨y, -, rfl⟩ := List.mem_map.1 hx; simp),
    List.zipWith_map_left]

/-- So on an interval away from `[-1, 1]` every disc is outside of the interval. -/
theorem C61_c1_wrong {points weights : List ℝ} {a b : ℝ} (h : ∀ x ∈ points, x ∈ Set.Icc (-1) 1) (ha : 1 < a)
    {L : List Blob} (hL : plotC1 points weights a b = .ok L) :
    ∀ B ∈ L, ∃ x < a, B.center = [x, 0] := by
  rw [C61_c1] at hL
  have hL := (Except.ok.inj hL).symm
  subst hL
  intro B hB
  obtain ⟨i, hi, rfl⟩ := List.mem_iff_getElem.1 hB
  have hi' : i < points.length := by simp at hi; omega
  exact ⟨points[i], by linarith [(h _ (List.getElem_mem hi')).2], by simp⟩

/-- The midpoint rule on `[2, 4]`: a disc of radius 1 around 0. -/
example : plotC1 [0] [2] 2 4 = .ok [⟨[0, 0], 1, true⟩] := by
  rw [C61_c1]
  norm_num [radius1d, blueGe]

/-- Each disc or ball has the colour blue exactly if its weight has the property `p`. -/
def Coloured (weights : List ℝ) (p : ℝ → Prop) (out : Except Err (List Blob)) : Prop :=
  ∀ L, out = .ok L → ∀ (i : ℕ) (B : Blob), L[i]? = some B → ∃ w, weights[i]? = some w ∧ (B.blue = true ↔ p w)

theorem coloured_zipWith {α : Type} (l : List α) (weights : List ℝ) (f : α → ℝ → Blob) (p : ℝ → Prop)
    (h : ∀ x w, (f x w).blue = true ↔ p w) : Coloured weights p (.ok (List.zipWith f l weights)) := by
  intro L hL i B hB
  rw [Except.ok.injEq] at hL
  subst hL
  obtain ⟨hi, rfl⟩ := List.getElem?_eq_some_iff.1 hB
  have hi' : i < weights.length := by simp at hi; omega
  refine ⟨weights[i], List.getElem?_eq_getElem hi', ?_⟩
  rw [List.getElem_zipWith]
  exact h _ _

theorem coloured_discs (pts : Arr) (weights : List ℝ) (radius : ℝ → ℝ) :
    Coloured weights (fun w => 0 ≤ w) (discs pts weights radius) := by
  unfold discs
  split_ifs
  · intro L hL
    cases hL
  · exact coloured_zipWith _ _ _ _ fun x w => by simp [blueGe]

/-- The colours in the plane, and in space with matplotlib: red exactly for negative weights.  With vtk zero is
red, too. -/
theorem C61_colour (S : Scheme) (triangle : Fin 3 → Fin 2 → ℝ) (quad : (Fin 2 → Fin 2) → Fin 2 → ℝ)
    (points weights : List ℝ) (a b : ℝ) (pts : Arr) (volume : ℝ) :
    Coloured S.weights (fun w => 0 ≤ w) (plotS2 S) ∧ Coloured S.weights (fun w => 0 ≤ w) (plotE2 S) ∧
    Coloured S.weights (fun w => 0 ≤ w) (plotU2 S) ∧ Coloured S.weights (fun w => 0 ≤ w) (plotT2 S triangle) ∧
    Coloured S.weights (fun w => 0 ≤ w) (plotC2 S quad) ∧
    Coloured weights (fun w => 0 ≤ w) (plotC1 points weights a b) ∧
    Coloured weights (fun w => 0 ≤ w) (showMpl pts weights volume) ∧
    Coloured weights (fun w => 0 < w) (showVtk pts weights volume) := by
  refine ⟨?_, ?_, ?_, ?_, ?_, ?_, ?_, ?_⟩
  · rw [plotS2, plotDisks]
    exact coloured_discs _ _ _
  · rw [plotE2, plotDisks]
    exact coloured_discs _ _ _
  · rw [plotU2, plotDisks]
    exact coloured_discs _ _ _
  · rw [(C61_mapped S triangle quad).1]
    exact coloured_zipWith _ _ _ _ fun x w => by simp [blueGe]
  · rw [(C61_mapped S triangle quad).2]
    exact coloured_zipWith _ _ _ _ fun x w => by simp [blueGe]
  · rw [C61_c1]
    exact coloured_zipWith _ _ _ _ fun x w => by simp [blueGe]
  · unfold showMpl
    split_ifs
    · intro L hL
      cases hL
    · exact coloured_zipWith _ _ _ _ fun x w => by simp [blueGe]
  · unfold showVtk
    split_ifs
    · intro L hL
      cases hL
    · exact coloured_zipWith _ _ _ _ fun x w => by simp [blueGt]

/-! ### The area of a quadrilateral -/

/-- Gauss's formula for the area of a quadrilateral with the corners 00, 10, 11, 01 in this order. -/
noncomputable def shoelace (q : (Fin 2 → Fin 2) → Fin 2 → ℝ) : ℝ :=
  |(q ![1, 1] 0 - q ![0, 0] 0) * (q ![0, 1] 1 - q ![1, 0] 1) -
    (q ![0, 1] 0 - q ![1, 0] 0) * (q ![1, 1] 1 - q ![0, 0] 1)| / 2

theorem vol_tri (a b c : Fin 2 → ℝ) : Tn.getVol (n := 2) ![a, b, c] =
    |(b 0 - a 0) * (c 1 - a 1) - (b 1 - a 1) * (c 0 - a 0)| / 2 := by
  rw [Tn.C12_det, Matrix.det_fin_two]
  norm_num [Matrix.of_apply, Nat.factorial]

/-- The total area is right for parallelograms. -/
theorem C61_c2_parallelogram (q : (Fin 2 → Fin 2) → Fin 2 → ℝ)
    (h : ∀ i, q ![1, 1] i - q ![0, 1] i = q ![1, 0] i - q ![0, 0] i) : quadVol q = shoelace q := by
  rw [quadVol, vol_tri, vol_tri, shoelace]
  have h0 := h 0
  have h1 := h 1
  have e1 : q ![1, 1] 0 = q ![0, 1] 0 + q ![1, 0] 0 - q ![0, 0] 0 := by linarith
  have e2 : q ![1, 1] 1 = q ![0, 1] 1 + q ![1, 0] 1 - q ![0, 0] 1 := by linarith
  rw [e1, e2]
  generalize q ![0, 0] 0 = a
  generalize q ![0, 0] 1 = b
  generalize q ![1, 0] 0 = c
  generalize q ![1, 0] 1 = d
  generalize q ![0, 1] 0 = e
  generalize q ![0, 1] 1 = f
  have k1 : (e - a) * (f + d - b - b) - (f - b) * (e + c - a - a) =
      -((c - a) * (f - b) - (d - b) * (e - a)) := by ring
  have k2 : (e + c - a - a) * (f - d) - (e - c) * (f + d - b - b) =
      2 * ((c - a) * (f - b) - (d - b) * (e - a)) := by ring
  rw [k1, k2, abs_neg, abs_mul]
  norm_num

/-- It is wrong for other quadrilaterals: the two triangles overlap. -/
theorem C61_c2_wrong : ∃ q : (Fin 2 → Fin 2) → Fin 2 → ℝ, quadVol q = 3 / 2 ∧ shoelace q = 2 ∧
    shoelace q = Tn.getVol (n := 2) ![q ![0, 0], q ![1, 0], q ![0, 1]] +
      Tn.getVol (n := 2) ![q ![1, 1], q ![1, 0], q ![0, 1]] := by
  refine ⟨fun b => if b = ![0, 0] then ![0, 0] else if b = ![1, 0] then ![1, 0]
    else if b = ![0, 1] then ![0, 1] else ![2, 2], ?_⟩
  have h1 : (![1, 0] : Fin 2 → Fin 2) ≠ ![0, 0] := by decide
  have h2 : (![0, 1] : Fin 2 → Fin 2) ≠ ![0, 0] := by decide
  have h3 : (![0, 1] : Fin 2 → Fin 2) ≠ ![1, 0] := by decide
  have h4 : (![1, 1] : Fin 2 → Fin 2) ≠ ![0, 0] := by decide
  have h5 : (![1, 1] : Fin 2 → Fin 2) ≠ ![1, 0] := by decide
  have h6 : (![1, 1] : Fin 2 → Fin 2) ≠ ![0, 1] := by decide
  rw [quadVol, shoelace, vol_tri, vol_tri, vol_tri]
  simp only [if_neg h1, if_neg h2, if_neg h3, if_neg h4, if_neg h5, if_neg h6, if_true]
  norm_num [abs_of_nonneg, abs_of_nonpos]

/-! ### In space -/

/-- A ball for each point: at the image of the point under `T`, with the volume in proportion to the
weight. -/
def BallsAt (S : Scheme) (T : List ℝ → List ℝ) (volume : ℝ) (out : Except Err (List Blob)) : Prop :=
  ∃ L, out = .ok L ∧ L.map Blob.center = S.points.map T ∧
    L.map Blob.radius = S.weights.map (radius3d S.weights volume)

theorem mpl_good {L : List (List ℝ)} (h : ∀ x ∈ L, x.length = 3) {weights : List ℝ}
    (hw : weights.length = L.length) (volume : ℝ) :
    ∃ B, showMpl (ofRows L 3) weights volume = .ok B ∧ B.map Blob.center = L ∧
      B.map Blob.radius = weights.map (radius3d weights volume) := by
  refine ⟨_, by unfold showMpl; rw [if_neg (by simp [ofRows])], ?_, ?_⟩
  · rw [rows_ofRows h]
    apply List.ext_getElem
    · simp [hw]
    · intro i h1 h2
      simp [List.take_of_length_le (h L[i] (List.getElem_mem h2)).le]
  · rw [rows_ofRows h]
    apply List.ext_getElem
    · simp [hw]
    · intro i h1 h2
      simp

theorem vtk_good {L : List (List ℝ)} (h : ∀ x ∈ L, x.length = 3) {weights : List ℝ}
    (hw : weights.length = L.length) (volume : ℝ) :
    ∃ B, showVtk (ofRows L 3).T weights volume = .ok B ∧ B.map Blob.center = L ∧
      B.map Blob.radius = weights.map (radius3d weights volume) := by
  refine ⟨_, by unfold showVtk; rw [T_T, if_neg (by simp [ofRows])], ?_, ?_⟩
  · rw [rows_ofRows h]
    apply List.ext_getElem
    · simp [hw]
    · intro i h1 h2
      simp
  · rw [rows_ofRows h]
    apply List.ext_getElem
    · simp [hw]
    · intro i h1 h2
      simp

/-- The combinations which draw what they should: c3, w3 and p3 with matplotlib, s3, e3r and e3r2 with vtk. -/
theorem C61_show_good {S : Scheme} (hw : S.weights.length = S.points.length)
    (hp : ∀ x ∈ S.points, x.length = 3) (hexa : (Fin 3 → Fin 2) → Fin 3 → ℝ)
    (wedge : Fin 2 → Fin 3 → Fin 3 → ℝ) (pyra : Fin 5 → Fin 3 → ℝ) (volume : ℝ) :
    BallsAt S (fun x => List.ofFn (Cn.transform (toVec 3 x) hexa)) volume (showC3 S hexa volume .mpl) ∧
    BallsAt S (fun x => List.ofFn (W3.transform (toVec 3 x) wedge)) volume (showW3 S wedge volume .mpl) ∧
    BallsAt S (fun x => List.ofFn (P3.transform (toVec 3 x) pyra)) 1 (showP3 S pyra .mpl) ∧
    BallsAt S id (4.0 / 3.0 * π) (showS3 S .vtk) ∧
    BallsAt S id (8 * π) (showE3 S .vtk) := by
  have hl : ∀ (T : List ℝ → Fin 3 → ℝ), ∀ x ∈ S.points.map fun x => List.ofFn (T x), x.length = 3 := by
    intro T x hx
    obtain ⟨y, -, rfl⟩ := List.mem_map.1 hx
    simp
  refine ⟨mpl_good (hl _) (by simpa using hw) _, mpl_good (hl _) (by simpa using hw) _,
    mpl_good (hl _) (by simpa using hw) _, ?_, ?_⟩
  · obtain ⟨B, h1, h2, h3⟩ := vtk_good hp hw (4.0 / 3.0 * π)
    exact ⟨B, h1, by simpa using h2, h3⟩
  · obtain ⟨B, h1, h2, h3⟩ := vtk_good hp hw (8 * π)
    exact ⟨B, h1, by simpa using h2, h3⟩

/-- The default of c3 and w3 (and p3 with vtk) is an error unless there are exactly three points. -/
theorem C61_show_vtk_fails {S : Scheme} (hw : S.weights.length = S.points.length)
    (h0 : S.points ≠ []) (h3 : S.points.length ≠ 3) (hexa : (Fin 3 → Fin 2) → Fin 3 → ℝ)
    (wedge : Fin 2 → Fin 3 → Fin 3 → ℝ) (pyra : Fin 5 → Fin 3 → ℝ) (volume : ℝ) :
    showC3 S hexa volume = .error .typeError ∧ showW3 S wedge volume = .error .typeError ∧
      showP3 S pyra .vtk = .error .typeError := by
  have hne : S.weights ≠ [] := by
    intro h
    rw [h] at hw
    exact h0 (List.length_eq_zero_iff.1 hw.symm)
  have key : ∀ (T : List ℝ → List ℝ) v, showVtk (ofRows (S.points.map T) 3) S.weights v =
      .error .typeError := by
    intro T v
    unfold showVtk
    rw [if_pos ⟨by simpa [Arr.T, ofRows] using h3, by simp [Arr.T, ofRows], hne⟩]
  exact ⟨key _ _, key _ _, key _ _⟩

/-- s3, e3r and e3r2 with matplotlib draw at most three balls, however many points there are; with one or
two points it is an error. -/
theorem C61_show_mpl_wrong {S : Scheme} (hw : S.weights.length = S.points.length) (h0 : S.points ≠ []) :
    (S.points.length < 3 → showS3 S .mpl = .error .indexError ∧ showE3 S .mpl = .error .indexError) ∧
    (3 ≤ S.points.length → ∃ L L', showS3 S .mpl = .ok L ∧ showE3 S .mpl = .ok L' ∧
      L.length = 3 ∧ L'.length = 3) := by
  have hne : S.weights ≠ [] := by
    intro h
    rw [h] at hw
    exact h0 (List.length_eq_zero_iff.1 hw.symm)
  have hc : (pointsArr S 3).c = S.points.length := rfl
  have hr : (pointsArr S 3).r = 3 := rfl
  constructor
  · intro h
    constructor <;>
      exact if_pos ⟨by rw [hc]; exact h, by rw [hr]; simp, hne⟩
  · intro h
    have e : ∀ v, showMpl (pointsArr S 3) S.weights v = .ok _ := fun v =>
      if_neg (by rw [hc]; exact fun h' => absurd h'.1 (by omega))
    refine ⟨_, _, e _, e _, ?_, ?_⟩ <;>
      · rw [List.length_zipWith, rows_length, hr, hw]
        omega

/-- `T3Scheme.show` never draws anything. -/
theorem C61_t3_never (S : Scheme) (hw : S.weights.length = S.points.length)
    (tet : Fin 4 → Fin 3 → ℝ) (backend : Backend) (L : List Blob) :
    showT3 S tet backend ≠ .ok L := by
  intro h
  unfold showT3 at h
  unfold matmul at h
  split at h
  · rename_i hc
    have h4 : S.points.length = 4 := by simpa [Arr.T, ofRows, pointsArr] using hc.symm
    have hne : S.weights ≠ [] := by
      intro h
      rw [h, h4] at hw
      simp at hw
    cases backend with
    | mpl => exact absurd h (by simp [bind, Except.bind])
    | vtk =>
      simp only [bind, Except.bind] at h
      unfold showVtk at h
      rw [T_T, if_pos ⟨by simp [Arr.T, pointsArr, ofRows], by simp [Arr.T, ofRows], hne⟩] at h
      exact absurd h (by simp)
  · exact absurd h (by simp [bind, Except.bind])

/-- The centroid rule on a hexahedron cannot be shown with the default backend. -/
example : showC3 ⟨3, [1], [[0, 0, 0]], 1⟩ (fun b i => (b i : ℝ)) 1 = .error .typeError :=
  (C61_show_vtk_fails (S := ⟨3, [1], [[0, 0, 0]], 1⟩) rfl (by simp) (by simp) _
    (fun _ _ _ => 0) (fun _ _ => 0) 1).1

/-! ### Caps -/

theorem rotate_eq {b : Fin 3 → ℝ} (hb : dot3 b b = 1) (h : b 2 ≠ -1) (X : Fin 3 → ℝ) :
    rotate b X = ![X 0 + b 0 * (X 2 - (b 0 * X 0 + b 1 * X 1) / (1 + b 2)),
      X 1 + b 1 * (X 2 - (b 0 * X 0 + b 1 * X 1) / (1 + b 2)), b 2 * X 2 - (b 0 * X 0 + b 1 * X 1)] := by
  have h1 : 1 + b 2 ≠ 0 := fun h' => h (by linarith)
  have hd : dot3 ![0, 0, 1] b = b 2 := by simp [dot3]
  unfold rotate
  simp only [hd, if_neg h]
  unfold dot3 at hb
  funext i
  fin_cases i
  · simp [cross]
    ring
  · simp [cross]
    ring
  · simp [cross]
    field_simp
    linear_combination (-X 2) * hb

theorem rotate_pole {b : Fin 3 → ℝ} (hb : dot3 b b = 1) (h : b 2 = -1) (X : Fin 3 → ℝ) :
    rotate b X = (fun i => -X i) ∧ b 0 = 0 ∧ b 1 = 0 := by
  have hd : dot3 ![0, 0, 1] b = b 2 := by simp [dot3]
  refine ⟨by unfold rotate; simp [hd, h], ?_⟩
  unfold dot3 at hb
  rw [h] at hb
  constructor <;> nlinarith [sq_nonneg (b 0), sq_nonneg (b 1)]

/-- The map takes the north pole to `b` and keeps all inner products; that is, angles and lengths. -/
theorem C61_rotate {b : Fin 3 → ℝ} (hb : dot3 b b = 1) (X Y : Fin 3 → ℝ) :
    rotate b ![0, 0, 1] = b ∧ dot3 (rotate b X) (rotate b Y) = dot3 X Y := by
  by_cases h : b 2 = -1
  · obtain ⟨-, h0, h1⟩ := rotate_pole hb h X
    rw [(rotate_pole hb h X).1, (rotate_pole hb h Y).1, (rotate_pole hb h _).1]
    refine ⟨?_, by simp [dot3]⟩
    funext i
    fin_cases i <;> simp [h0, h1, h]
  · have h1 : 1 + b 2 ≠ 0 := fun h' => h (by linarith)
    rw [rotate_eq hb h, rotate_eq hb h, rotate_eq hb h]
    refine ⟨?_, ?_⟩
    · funext i
      fin_cases i <;> simp
    · unfold dot3 at hb
      simp only [dot3, Matrix.cons_val_zero, Matrix.cons_val_one, Matrix.cons_val]
      have hk : b 0 * b 0 + b 1 * b 1 = (1 - b 2) * (1 + b 2) := by linear_combination hb
      generalize hs : (b 0 * X 0 + b 1 * X 1) = s
      generalize ht : (b 0 * Y 0 + b 1 * Y 1) = t
      have e1 : s = s / (1 + b 2) * (1 + b 2) := by field_simp
      have e2 : t = t / (1 + b 2) * (1 + b 2) := by field_simp
      generalize s / (1 + b 2) = s' at *
      generalize t / (1 + b 2) = t' at *
      have : (X 0 + b 0 * (X 2 - s')) * (Y 0 + b 0 * (Y 2 - t')) +
          (X 1 + b 1 * (X 2 - s')) * (Y 1 + b 1 * (Y 2 - t')) =
          X 0 * Y 0 + X 1 * Y 1 + (Y 2 - t') * s + (X 2 - s') * t +
            (b 0 * b 0 + b 1 * b 1) * ((X 2 - s') * (Y 2 - t')) := by
        rw [← hs, ← ht]; ring
      rw [this, hk, e1, e2]
      ring

theorem rotate_surj {b : Fin 3 → ℝ} (hb : dot3 b b = 1) (X : Fin 3 → ℝ) : ∃ Y, rotate b Y = X := by
  by_cases h : b 2 = -1
  · exact ⟨fun i => -X i, by rw [(rotate_pole hb h _).1]; simp⟩
  · have h1 : 1 + b 2 ≠ 0 := fun h' => h (by linarith)
    unfold dot3 at hb
    refine ⟨![X 0 - b 0 * (X 2 + (b 0 * X 0 + b 1 * X 1) / (1 + b 2)),
      X 1 - b 1 * (X 2 + (b 0 * X 0 + b 1 * X 1) / (1 + b 2)), b 2 * X 2 + (b 0 * X 0 + b 1 * X 1)], ?_⟩
    rw [rotate_eq hb h]
    have hk : b 0 * b 0 + b 1 * b 1 = (1 - b 2) * (1 + b 2) := by linear_combination hb
    simp only [Matrix.cons_val_zero, Matrix.cons_val_one, Matrix.cons_val]
    generalize hs : (b 0 * X 0 + b 1 * X 1) = s
    have e1 : s = s / (1 + b 2) * (1 + b 2) := by field_simp
    generalize hs' : s / (1 + b 2) = s' at *
    have e3 : b 0 * (X 0 - b 0 * (X 2 + s')) + b 1 * (X 1 - b 1 * (X 2 + s')) =
        (1 + b 2) * (s' - (1 - b 2) * (X 2 + s')) := by
      linear_combination hs - (X 2 + s') * hk + e1
    rw [e3, mul_div_cancel_left₀ _ h1, e1]
    funext i
    fin_cases i
    · simp
      ring
    · simp
      ring
    · simp
      ring

/-- For a weight between `-1` and `1` the surface drawn is the cap around the point on the sphere of
radius 1.01: all points of this sphere with `⟨X, b⟩ ≥ 1.01 (1 - 2 |w|)`.  On the unit sphere a cap of this
height `2 |w|` has the area `2 π · 2 |w|`, the part `|w|` of the area `4 π`. -/
theorem C61_cap {b : Fin 3 → ℝ} (hb : dot3 b b = 1) {w : ℝ} (hw : |w| ≤ 1) :
    cap b w = {X | dot3 X X = 1.01 ^ 2 ∧ 1.01 * (1 - 2 * |w|) ≤ dot3 X b} := by
  have hp := pi_pos
  have ha : openingAngle w = arccos (1 - 2 * |w|) := by
    rw [openingAngle, abs_mul, abs_of_pos (by positivity : (0 : ℝ) < 4 * π)]
    congr 2
    field_simp
    ring
  have hr1 : -1 ≤ 1 - 2 * |w| := by linarith
  have hr2 : 1 - 2 * |w| ≤ 1 := by linarith [abs_nonneg w]
  have hdot : ∀ Y, dot3 (rotate b Y) b = Y 2 := by
    intro Y
    have := (C61_rotate hb Y ![0, 0, 1]).2
    rw [(C61_rotate hb Y Y).1] at this
    rw [this]
    simp [dot3]
  ext X
  constructor
  · rintro ⟨az, pol, -, -, h1, h2, rfl⟩
    refine ⟨?_, ?_⟩
    · rw [(C61_rotate hb _ _).2]
      simp only [dot3, capPoint, Matrix.cons_val_zero, Matrix.cons_val_one, Matrix.cons_val]
      linear_combination (1.01 ^ 2 * sin pol ^ 2) * sin_sq_add_cos_sq az + 1.01 ^ 2 * sin_sq_add_cos_sq pol
    · rw [hdot]
      simp only [capPoint, Matrix.cons_val]
      rw [ha] at h2
      have := cos_le_cos_of_nonneg_of_le_pi h1 (arccos_le_pi _) h2
      rw [cos_arccos hr1 hr2] at this
      norm_num
      linarith
  · rintro ⟨h1, h2⟩
    obtain ⟨Y, rfl⟩ := rotate_surj hb X
    rw [(C61_rotate hb _ _).2] at h1
    rw [hdot] at h2
    unfold dot3 at h1
    have hz1 : -1 ≤ Y 2 / 1.01 := by
      rw [le_div_iff₀ (by norm_num)]
      nlinarith [sq_nonneg (Y 0), sq_nonneg (Y 1)]
    have hz2 : Y 2 / 1.01 ≤ 1 := by
      rw [div_le_iff₀ (by norm_num)]
      nlinarith [sq_nonneg (Y 0), sq_nonneg (Y 1)]
    set pol := arccos (Y 2 / 1.01) with hpol
    have hcos : cos pol = Y 2 / 1.01 := cos_arccos hz1 hz2
    have hsin : 0 ≤ sin pol := sin_nonneg_of_nonneg_of_le_pi (arccos_nonneg _) (arccos_le_pi _)
    have hsq : (Y 0) ^ 2 + (Y 1) ^ 2 = (1.01 * sin pol) ^ 2 := by
      have := sin_sq_add_cos_sq pol
      rw [hcos] at this
      field_simp at this
      nlinarith
    -- the azimuth
    obtain ⟨az, ha0, ha1, hc, hs⟩ : ∃ az, 0 ≤ az ∧ az ≤ 2 * π ∧ 1.01 * sin pol * cos az = Y 0 ∧
        1.01 * sin pol * sin az = Y 1 := by
      let z : ℂ := ⟨Y 0, Y 1⟩
      have hn : ‖z‖ = 1.01 * sin pol := by
        rw [Complex.norm_eq_sqrt_sq_add_sq]
        show √((Y 0) ^ 2 + (Y 1) ^ 2) = _
        rw [hsq, sqrt_sq (by positivity)]
      have hre : ‖z‖ * cos z.arg = Y 0 := by rw [Complex.norm_mul_cos_arg]
      have him : ‖z‖ * sin z.arg = Y 1 := by rw [Complex.norm_mul_sin_arg]
      rw [hn] at hre him
      by_cases hneg : 0 ≤ z.arg
      · exact ⟨z.arg, hneg, by linarith [Complex.arg_le_pi z], hre, him⟩
      · refine ⟨z.arg + 2 * π, by linarith [Complex.neg_pi_lt_arg z], by linarith, ?_, ?_⟩
        · rw [cos_add_two_pi, hre]
        · rw [sin_add_two_pi, him]
    refine ⟨az, pol, ha0, ha1, arccos_nonneg _, ?_, ?_⟩
    · rw [ha, hpol]
      refine arccos_le_arccos ?_
      rw [le_div_iff₀ (by norm_num)]
      linarith
    · congr 1
      funext i
      fin_cases i
      · simp only [capPoint]
        simpa using (by linarith : Y 0 = 1.01 * (cos az * sin pol))
      · simp only [capPoint]
        simpa using (by linarith : Y 1 = 1.01 * (sin az * sin pol))
      · simp only [capPoint]
        simpa using (by rw [hcos]; field_simp : Y 2 = 1.01 * cos pol)

end Quadpy.Plot
