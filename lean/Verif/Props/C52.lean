import Verif.Lemmas.Arrays
import Mathlib.Tactic.NormNum
import Mathlib.Tactic.FinCases
import Mathlib.Tactic.Linarith

/-!
# C52: integrate for arrays of balls, spheres and simplices
-/

namespace Quadpy
open NdArray

/-- `e + 1` axes of the same length: the entry at `(i0, t)` has the factor of the radius at `(i0, t)`,
but the points are scaled with the radius at `(i0, reversed(t))` and shifted by the centre at
`reversed((i0, t))`. -/
theorem C52_ball_axes (n : ℕ) (vol : ℝ → ℝ) (w : List ℝ) (pts : List (List ℝ))
    (f : (Fin n → ℝ) → ℝ) (center radius : NdArray) (e k : ℕ) (hw : w.length = pts.length)
    (hr : radius.shape = List.replicate (e + 1) k)
    (hc : center.shape = List.replicate (e + 1) k ++ [n]) :
    ∃ R, integrateArr n vol w pts f center radius = some R ∧ R.shape = List.replicate (e + 1) k ∧
      ∀ i t, t.length = e → (∀ a ∈ i :: t, a < k) →
        R.get (i :: t) = vol (radius.get (i :: t)) * dot n w pts fun x => f fun j =>
          radius.get (i :: t.reverse) * x j + center.get ((i :: t).reverse ++ [j.val]) := by
  have hsh : ((outer radius (ofRows n pts)).swapaxes).shape =
      pts.length :: (List.replicate (e + 1) k ++ [n]) := by
    have := swapList_ends (List.replicate e k) k pts.length n
    rw [List.length_replicate] at this
    simp only [swapaxes, outer, ofRows, hr]
    rw [show (List.replicate (e + 1) k ++ [pts.length, n]).length - 2 = e + 1 by simp,
      List.replicate_succ, List.cons_append, this, ← List.replicate_succ, List.replicate_succ']
    simp
  have hadd : ∃ x, (outer radius (ofRows n pts)).swapaxes.add center = some x ∧
      x.shape = pts.length :: (List.replicate (e + 1) k ++ [n]) ∧
      x.get = fun i => ((outer radius (ofRows n pts)).swapaxes).bget i + center.bget i := by
    rw [add, hsh, hc, show pts.length :: (List.replicate (e + 1) k ++ [n]) =
      [pts.length] ++ (List.replicate (e + 1) k ++ [n]) from rfl, bshape_suffix]
    exact ⟨_, rfl, rfl, rfl⟩
  obtain ⟨x, hx, hxs, hxg⟩ := hadd
  have hfs : (applyF n f x.T).shape = List.replicate (e + 1) k ++ [pts.length] := by
    simp [applyF, NdArray.T, hxs]
  have hdot : (applyF n f x.T).dotLast w = some ⟨List.replicate (e + 1) k,
      fun i => ∑ p : Fin w.length, w[p] * (applyF n f x.T).get (i ++ [p.val])⟩ := by
    rw [dotLast, hfs, if_pos (by simp [hw])]
    simp
  have hfin : integrateArr n vol w pts f center radius = some ⟨List.replicate (e + 1) k, fun i =>
      (radius.map vol).bget i * NdArray.bget ⟨List.replicate (e + 1) k, fun i =>
        ∑ p : Fin w.length, w[p] * (applyF n f x.T).get (i ++ [p.val])⟩ i⟩ := by
    simp only [integrateArr, hx, hdot, Option.bind_some, mul, NdArray.map, hr, bshape_self,
      Option.map_some]
  refine ⟨_, hfin, rfl, ?_⟩
  · intro i t ht hv
    have V : Valid (i :: t) (List.replicate (e + 1) k) := by
      have := valid_replicate hv
      simpa [ht] using this
    have VR : Valid (i :: t).reverse (List.replicate (e + 1) k) := by simpa using V.reverse
    dsimp only
    rw [bget_valid (by exact (hr ▸ V : Valid (i :: t) radius.shape)), bget_valid V]
    dsimp only
    congr 1
    rw [← sum_eq_dot n w pts hw]
    refine Finset.sum_congr rfl fun p _ => ?_
    congr 1
    simp only [applyF, NdArray.T, hxg]
    congr 1
    funext j
    have hp : p.val < pts.length := hw ▸ p.isLt
    have hrev : (j.val :: (i :: t ++ [p.val])).reverse =
        [p.val] ++ ((i :: t).reverse ++ [j.val]) := by simp
    have VC : Valid ((i :: t).reverse ++ [j.val]) center.shape := by
      rw [hc]; exact VR.append (.one j.isLt)
    have VRR : Valid ([p.val] ++ ((i :: t).reverse ++ [j.val]))
        ((outer radius (ofRows n pts)).swapaxes).shape := by
      rw [hsh]; exact (Valid.one hp).append (VR.append (.one j.isLt))
    rw [hrev, bget_append VC, bget_valid VRR]
    congr 1
    simp only [swapaxes]
    rw [show (outer radius (ofRows n pts)).shape.length - 2 = t.reverse.length + 1 by
        simp [outer, ofRows, hr, ht],
      show [p.val] ++ ((i :: t).reverse ++ [j.val]) = p.val :: (t.reverse ++ [i, j.val]) by simp,
      swapList_ends]
    simp only [outer, hr, List.length_replicate]
    rw [show i :: (t.reverse ++ [p.val, j.val]) = (i :: t.reverse) ++ [p.val, j.val] by simp,
      show e + 1 = (i :: t.reverse).length by simp [ht], List.take_left, List.drop_left]
    simp [ofRows, toVec]

/-- One ball (scalar radius, centre of shape `(n,)`). -/
theorem C52_ball_one (n : ℕ) (vol : ℝ → ℝ) (w : List ℝ) (pts : List (List ℝ))
    (f : (Fin n → ℝ) → ℝ) (center radius : NdArray) (hw : w.length = pts.length)
    (hr : radius.shape = []) (hc : center.shape = [n]) :
    ∃ R, integrateArr n vol w pts f center radius = some R ∧ R.shape = [] ∧
      R.get [] = vol (radius.get []) * dot n w pts fun x => f fun j =>
          radius.get [] * x j + center.get [j.val] := by
  have hadd : ∃ x, (outer radius (ofRows n pts)).swapaxes.add center = some x ∧
      x.shape = [pts.length, n] ∧
      x.get = fun i => ((outer radius (ofRows n pts)).swapaxes).bget i + center.bget i := by
    have := bshape_suffix [pts.length] [n]
    simp only [List.cons_append, List.nil_append] at this
    have hsh : ((outer radius (ofRows n pts)).swapaxes).shape = [pts.length, n] := by
      simp [swapaxes, outer, ofRows, hr, swapList_two]
    rw [add, hsh, hc, this]
    exact ⟨_, rfl, rfl, rfl⟩
  obtain ⟨x, hx, hxs, hxg⟩ := hadd
  have hfs : (applyF n f x.T).shape = [pts.length] := by simp [applyF, NdArray.T, hxs]
  have hdot : (applyF n f x.T).dotLast w = some ⟨[],
      fun i => ∑ p : Fin w.length, w[p] * (applyF n f x.T).get (i ++ [p.val])⟩ := by
    rw [dotLast, hfs, if_pos (by simp [hw])]
    simp
  have hfin : integrateArr n vol w pts f center radius = some ⟨[], fun i =>
      (radius.map vol).bget i * NdArray.bget ⟨[], fun i =>
        ∑ p : Fin w.length, w[p] * (applyF n f x.T).get (i ++ [p.val])⟩ i⟩ := by
    simp only [integrateArr, hx, hdot, Option.bind_some, mul, NdArray.map, hr, bshape_self,
      Option.map_some]
  refine ⟨_, hfin, rfl, ?_⟩
  · dsimp only
    rw [bget_valid (by simp only [NdArray.map, hr]; exact .nil), bget_valid (by exact .nil)]
    dsimp only
    congr 1
    rw [← sum_eq_dot n w pts hw]
    refine Finset.sum_congr rfl fun p _ => ?_
    congr 1
    simp only [applyF, NdArray.T, hxg]
    congr 1
    funext j
    have hp : p.val < pts.length := hw ▸ p.isLt
    rw [show (j.val :: ([] ++ [p.val])).reverse = [p.val] ++ [j.val] by simp,
      bget_append (a := center) (by rw [hc]; exact .one j.isLt), bget_valid]
    · simp [swapaxes, outer, ofRows, hr, swapList_two, toVec]
    · simp only [swapaxes, outer, ofRows, hr, List.nil_append, List.length_cons, List.length_nil,
        swapList_two]
      exact (Valid.one hp).append (.one j.isLt)

/-- The value that `integrate` returns for the ball with index `i`, called on its own. -/
noncomputable def singleBall (n : ℕ) (vol : ℝ → ℝ) (w : List ℝ) (pts : List (List ℝ))
    (f : (Fin n → ℝ) → ℝ) (center radius : NdArray) (i : List ℕ) : ℝ :=
  vol (radius.get i) * dot n w pts fun x => f fun j =>
    radius.get i * x j + center.get (i ++ [j.val])

/-- **One axis**: `k` balls, centres of shape `(k, n)`: the result has the shape `(k,)` and its
entries are the values for the single balls, for every `k`. -/
theorem C52_ball_list (n : ℕ) (vol : ℝ → ℝ) (w : List ℝ) (pts : List (List ℝ))
    (f : (Fin n → ℝ) → ℝ) (center radius : NdArray) (k : ℕ) (hw : w.length = pts.length)
    (hr : radius.shape = [k]) (hc : center.shape = [k, n]) :
    ∃ R, integrateArr n vol w pts f center radius = some R ∧ R.shape = [k] ∧
      ∀ i < k, R.get [i] = singleBall n vol w pts f center radius [i] := by
  obtain ⟨R, h, hs, hg⟩ := C52_ball_axes n vol w pts f center radius 0 k hw hr hc
  exact ⟨R, h, hs, fun i hi => by simpa [singleBall] using hg i [] rfl (by simpa using hi)⟩

/-- **Two axes of different lengths**: `integrate` raises or returns an array of another shape. -/
theorem C52_ball_grid_shape (n : ℕ) (vol : ℝ → ℝ) (w : List ℝ) (pts : List (List ℝ))
    (f : (Fin n → ℝ) → ℝ) (center radius : NdArray) (k l : ℕ) (hkl : k ≠ l)
    (hr : radius.shape = [k, l]) (hc : center.shape = [k, l, n]) (R : NdArray)
    (hR : integrateArr n vol w pts f center radius = some R) : R.shape ≠ [k, l] := by
  have hsh : ((outer radius (ofRows n pts)).swapaxes).shape = [pts.length, l, k, n] := by
    simp [swapaxes, outer, ofRows, hr, swapList]
  by_cases hk : k = 1
  · subst hk
    have hl : l ≠ 1 := fun h => hkl h.symm
    have hx : ∃ x, (outer radius (ofRows n pts)).swapaxes.add center = some x ∧
        x.shape = [pts.length, l, l, n] := by
      simp [add, hsh, hc, bshape, bshapeRev, bdim, hl, hkl]
    obtain ⟨x, hx, hxs⟩ := hx
    by_cases hN : pts.length = w.length
    · simp [integrateArr, hx, dotLast, applyF, NdArray.T, hxs, hN, mul, NdArray.map, hr, bshape,
        bshapeRev, bdim, hl, hkl] at hR
      subst hR
      simpa using hl
    · simp [integrateArr, hx, dotLast, applyF, NdArray.T, hxs, hN] at hR
  by_cases hl : l = 1
  · subst hl
    have hx : ∃ x, (outer radius (ofRows n pts)).swapaxes.add center = some x ∧
        x.shape = [pts.length, k, k, n] := by
      simp [add, hsh, hc, bshape, bshapeRev, bdim, hk, Ne.symm hkl]
    obtain ⟨x, hx, hxs⟩ := hx
    by_cases hN : pts.length = w.length
    · simp [integrateArr, hx, dotLast, applyF, NdArray.T, hxs, hN, mul, NdArray.map, hr, bshape,
        bshapeRev, bdim, hk, Ne.symm hkl] at hR
      subst hR
      simpa using hk
    · simp [integrateArr, hx, dotLast, applyF, NdArray.T, hxs, hN] at hR
  · have hx : (outer radius (ofRows n pts)).swapaxes.add center = none := by
      simp [add, hsh, hc, bshape, bshapeRev, bdim, hk, hl, hkl]
    simp [integrateArr, hx] at hR

/-- **A square grid of balls**, both axes of length `k`: the entry `(i, j)` is the value for the
radius at `(i, j)` and the centre at `(j, i)`. -/
theorem C52_ball_grid (n : ℕ) (vol : ℝ → ℝ) (w : List ℝ) (pts : List (List ℝ))
    (f : (Fin n → ℝ) → ℝ) (center radius : NdArray) (k : ℕ) (hw : w.length = pts.length)
    (hr : radius.shape = [k, k]) (hc : center.shape = [k, k, n]) :
    ∃ R, integrateArr n vol w pts f center radius = some R ∧ R.shape = [k, k] ∧
      ∀ i < k, ∀ j < k, R.get [i, j] = vol (radius.get [i, j]) * dot n w pts fun x => f fun c =>
        radius.get [i, j] * x c + center.get [j, i, c.val] := by
  obtain ⟨R, h, hs, hg⟩ := C52_ball_axes n vol w pts f center radius 1 k hw hr hc
  exact ⟨R, h, hs, fun i hi j hj => by simpa using hg i [j] rfl (by simp [hi, hj])⟩

/-- `SnScheme.integrate` on a list of `k` balls gives the `k` single values. -/
theorem C52_sn_list (n : ℕ) (w : List ℝ) (pts : List (List ℝ)) (f : (Fin n → ℝ) → ℝ)
    (center radius : NdArray) (k : ℕ) (hw : w.length = pts.length)
    (hr : radius.shape = [k]) (hc : center.shape = [k, n]) :
    ∃ R, Sn.integrateA n w pts f center radius = some R ∧ R.shape = [k] ∧ ∀ i < k, R.get [i] =
      Sn.integrate w pts f (fun j => center.get [i, j.val]) (radius.get [i]) :=
  C52_ball_list n _ w pts f center radius k hw hr hc

/-- `UnScheme.integrate` on a list of `k` spheres gives the `k` single values. -/
theorem C52_un_list (n : ℕ) (w : List ℝ) (pts : List (List ℝ)) (f : (Fin n → ℝ) → ℝ)
    (center radius : NdArray) (k : ℕ) (hw : w.length = pts.length)
    (hr : radius.shape = [k]) (hc : center.shape = [k, n]) :
    ∃ R, Un.integrateA n w pts f center radius = some R ∧ R.shape = [k] ∧ ∀ i < k, R.get [i] =
      Un.integrate w pts f (fun j => center.get [i, j.val]) (radius.get [i]) :=
  C52_ball_list n _ w pts f center radius k hw hr hc

/-- `U2Scheme.integrate` on a list of `k` circles gives the `k` single values. -/
theorem C52_u2_list (w : List ℝ) (pts : List (List ℝ)) (f : (Fin 2 → ℝ) → ℝ)
    (center radius : NdArray) (k : ℕ) (hw : w.length = pts.length)
    (hr : radius.shape = [k]) (hc : center.shape = [k, 2]) :
    ∃ R, U2.integrateA w pts f center radius = some R ∧ R.shape = [k] ∧ ∀ i < k, R.get [i] =
      U2.integrate w pts f (fun j => center.get [i, j.val]) (radius.get [i]) :=
  C52_ball_list 2 _ w pts f center radius k hw hr hc

/-- `S2Scheme.integrate` on a list of `k` disks gives the `k` single values. -/
theorem C52_s2_list (w : List ℝ) (pts : List (List ℝ)) (f : (Fin 2 → ℝ) → ℝ)
    (center radius : NdArray) (k : ℕ) (hw : w.length = pts.length)
    (hr : radius.shape = [k]) (hc : center.shape = [k, 2]) :
    ∃ R, S2.integrateA w pts f center radius = some R ∧ R.shape = [k] ∧ ∀ i < k, R.get [i] =
      S2.integrate w pts f (fun j => center.get [i, j.val]) (radius.get [i]) :=
  C52_ball_list 2 _ w pts f center radius k hw hr hc

/-- `S3Scheme.integrate` on a list of `k` balls gives the `k` single values. -/
theorem C52_s3_list (w : List ℝ) (pts : List (List ℝ)) (f : (Fin 3 → ℝ) → ℝ)
    (center radius : NdArray) (k : ℕ) (hw : w.length = pts.length)
    (hr : radius.shape = [k]) (hc : center.shape = [k, 3]) :
    ∃ R, S3.integrateA w pts f center radius = some R ∧ R.shape = [k] ∧ ∀ i < k, R.get [i] =
      S3.integrate w pts f (fun j => center.get [i, j.val]) (radius.get [i]) :=
  C52_ball_list 3 _ w pts f center radius k hw hr hc

/-- The values for the single balls are *not* what a square grid of balls gives: the midpoint rule
on a `2 × 2` grid of unit disks with centres `(i, 0)`. -/
theorem C52_grid_wrong : ∃ (center radius : NdArray) (f : (Fin 2 → ℝ) → ℝ) (R : NdArray),
    radius.shape = [2, 2] ∧ center.shape = [2, 2, 2] ∧
    S2.integrateA [1] [[0, 0]] f center radius = some R ∧ R.shape = [2, 2] ∧
    R.get [0, 1] ≠ S2.integrate [1] [[0, 0]] f (fun j => center.get [0, 1, j.val])
      (radius.get [0, 1]) := by
  obtain ⟨R, h, hs, hg⟩ := C52_ball_grid 2 (fun r => Real.pi * r ^ 2) [1] [[0, 0]] (fun x => x 0)
    ⟨[2, 2, 2], fun i => if i.getD 2 0 = 0 then i.getD 0 0 else 0⟩ ⟨[2, 2], fun _ => 1⟩ 2 rfl rfl rfl
  refine ⟨_, _, _, R, rfl, rfl, h, hs, ?_⟩
  rw [hg 0 (by norm_num) 1 (by norm_num)]
  simp [S2.integrate, dot, toVec, Real.pi_ne_zero]

/-- `U3Scheme.integrate` for one sphere. -/
theorem C52_u3_one (w : List ℝ) (pts : List (List ℝ)) (f : (Fin 3 → ℝ) → ℝ)
    (center radius : NdArray) (hw : w.length = pts.length)
    (hr : radius.shape = []) (hc : center.shape = [3]) :
    ∃ R, U3.integrateA w pts f center radius = some R ∧ R.shape = [] ∧ R.get [] =
      U3.integrate w pts f (fun j => center.get [j.val]) (radius.get []) := by
  obtain ⟨pr, hpr, hps, hpg⟩ : ∃ pr, (ofRows 3 pts).mul radius = some pr ∧
      pr.shape = [pts.length, 3] ∧ pr.get = fun i => (ofRows 3 pts).bget i * radius.bget i := by
    have := bshape_suffix [pts.length, 3] []
    simp only [List.append_nil] at this
    rw [mul, hr, show (ofRows 3 pts).shape = [pts.length, 3] from rfl, this]
    exact ⟨_, rfl, rfl, rfl⟩
  obtain ⟨x, hx, hxs, hxg⟩ : ∃ x, pr.add center = some x ∧
      x.shape = [pts.length, 3] ∧ x.get = fun i => pr.bget i + center.bget i := by
    have := bshape_suffix [pts.length] [3]
    simp only [List.cons_append, List.nil_append] at this
    rw [add, hps, hc, this]
    exact ⟨_, rfl, rfl, rfl⟩
  have hfs : (applyF 3 f x.T).shape = [pts.length] := by simp [applyF, NdArray.T, hxs]
  have hdot : (applyF 3 f x.T).dotLast w = some ⟨[],
      fun i => ∑ p : Fin w.length, w[p] * (applyF 3 f x.T).get (i ++ [p.val])⟩ := by
    rw [dotLast, hfs, if_pos (by simp [hw])]
    simp
  have hfin : U3.integrateA w pts f center radius = some ⟨[], fun i =>
      (radius.map fun r => 4 * Real.pi * r ^ 2).bget i * NdArray.bget ⟨[], fun i =>
        ∑ p : Fin w.length, w[p] * (applyF 3 f x.T).get (i ++ [p.val])⟩ i⟩ := by
    simp only [U3.integrateA, hpr, hx, hdot, Option.bind_some]
    simp only [mul, NdArray.map, hr, bshape_self, Option.map_some]
  refine ⟨_, hfin, rfl, ?_⟩
  dsimp only
  rw [bget_valid (by simp only [NdArray.map, hr]; exact .nil), bget_valid (by exact .nil)]
  dsimp only [U3.integrate]
  congr 1
  rw [← sum_eq_dot 3 w pts hw]
  refine Finset.sum_congr rfl fun p _ => ?_
  congr 1
  simp only [applyF, NdArray.T, hxg]
  congr 1
  funext j
  have hp : p.val < pts.length := hw ▸ p.isLt
  have V : Valid ([p.val] ++ [j.val]) [pts.length, 3] := (Valid.one hp).append (.one j.isLt)
  rw [show (j.val :: ([] ++ [p.val])).reverse = [p.val] ++ [j.val] by simp,
    bget_append (a := center) (by rw [hc]; exact .one j.isLt), bget_valid (by rw [hps]; exact V), hpg]
  dsimp only
  have e : radius.bget ([p.val] ++ [j.val]) = radius.get [] := by
    have := bget_append (a := radius) (t := [p.val] ++ [j.val]) (i := []) (by rw [hr]; exact .nil)
    simpa using this
  rw [bget_valid (by exact V), e]
  simp [ofRows, toVec]

/-- Unlike the other classes, `U3Scheme.integrate` raises for every list of `k ≠ 1` spheres (for
schemes with more than three points). -/
theorem C52_u3_list (w : List ℝ) (pts : List (List ℝ)) (f : (Fin 3 → ℝ) → ℝ)
    (center radius : NdArray) (k : ℕ) (hk : k ≠ 1) (hN : 3 < pts.length)
    (hr : radius.shape = [k]) (hc : center.shape = [k, 3]) :
    U3.integrateA w pts f center radius = none := by
  by_cases h3 : k = 3
  · subst h3
    obtain ⟨pr, hpr, hps⟩ : ∃ pr, (ofRows 3 pts).mul radius = some pr ∧
        pr.shape = [pts.length, 3] := by
      simp [mul, hr, ofRows, bshape, bshapeRev, bdim]
    have : pr.add center = none := by
      have h1 : pts.length ≠ 3 := by omega
      have h2 : pts.length ≠ 1 := by omega
      simp [add, hps, hc, bshape, bshapeRev, bdim, h1, h2]
    simp [U3.integrateA, hpr, this]
  · have : (ofRows 3 pts).mul radius = none := by
      simp [mul, hr, ofRows, bshape, bshapeRev, bdim, hk, Ne.symm h3]
    simp [U3.integrateA, this]

/-! ### Simplices -/

/-- Simplices along `e` axes of the same length: the entry at `i` has the volume of the simplex at
`i`, but the points are those of the simplex at `reversed(i)`. -/
theorem C52_tn_axes (n m : ℕ) (w : List ℝ) (pts : List (List ℝ)) (f : (Fin m → ℝ) → ℝ)
    (simplex : NdArray) (e k : ℕ) (hw : w.length = pts.length)
    (hs : simplex.shape = (n + 1) :: (List.replicate e k ++ [m])) :
    ∃ R, Tn.integrateA n m w pts f simplex = some R ∧ R.shape = List.replicate e k ∧
      ∀ i, i.length = e → (∀ a ∈ i, a < k) →
        R.get i = Tn.getVol (n := n) (m := m) (Tn.slice simplex i) *
          dot (n + 1) w pts fun xi => f (Tn.transform xi (Tn.slice simplex i.reverse)) := by
  have hd : simplex.T.shape.dropLast = m :: List.replicate e k := by
    rw [NdArray.T, hs]
    simp only [List.reverse_cons, List.reverse_append, List.reverse_replicate, List.dropLast_concat]
    simp
  have hv : simplex.shape.tail.dropLast = List.replicate e k := by rw [hs]; simp
  obtain ⟨g, hdot⟩ : ∃ g, g = fun i => ∑ p : Fin w.length, w[p] * (applyF m f
      ⟨simplex.T.shape.dropLast ++ [pts.length], fun i =>
      ∑ v : Fin (n + 1), simplex.T.get (i.dropLast ++ [v.val]) *
        (pts.getD (i.getLast?.getD 0) []).getD v.val 0⟩).get (i ++ [p.val]) := ⟨_, rfl⟩
  have hfin : Tn.integrateA n m w pts f simplex = some ⟨List.replicate e k, fun i =>
      NdArray.bget ⟨List.replicate e k, fun i =>
        Tn.getVol (n := n) (m := m) (Tn.slice simplex i)⟩ i *
        NdArray.bget ⟨List.replicate e k, g⟩ i⟩ := by
    rw [Tn.integrateA, if_pos (by rw [hs]; rfl)]
    have h1 : (simplex.T.shape.dropLast ++ [pts.length]).tail.getLast? = some w.length := by
      rw [hd]; simp [hw]
    have h2 : (simplex.T.shape.dropLast ++ [pts.length]).tail.dropLast = List.replicate e k := by
      rw [hd]; simp
    dsimp only
    rw [dotLast_some _ _ h1, ← hdot, Option.bind_some, mul, hv]
    dsimp only [applyF]
    rw [h2, bshape_self]
    rfl
  refine ⟨_, hfin, rfl, fun i hi hlt => ?_⟩
  have V : Valid i (List.replicate e k) := by simpa [hi] using valid_replicate hlt
  dsimp only
  rw [bget_valid (by exact V), bget_valid (by exact V)]
  dsimp only
  congr 1
  rw [hdot, ← sum_eq_dot (n + 1) w pts hw]
  refine Finset.sum_congr rfl fun p _ => ?_
  congr 1
  simp only [applyF]
  congr 1
  funext j
  simp only [Tn.transform, Tn.slice]
  refine Finset.sum_congr rfl fun v _ => ?_
  have e1 : (j.val :: (i ++ [p.val])).dropLast = j.val :: i := by
    rw [← List.cons_append, List.dropLast_concat]
  have e2 : (j.val :: (i ++ [p.val])).getLast?.getD 0 = p.val := by
    rw [← List.cons_append, List.getLast?_concat]; rfl
  rw [e1, e2, mul_comm]
  congr 1
  simp [NdArray.T]

/-- `TnScheme.integrate` on a list of `k` simplices gives the `k` single values. -/
theorem C52_tn_list (n m : ℕ) (w : List ℝ) (pts : List (List ℝ)) (f : (Fin m → ℝ) → ℝ)
    (simplex : NdArray) (k : ℕ) (hw : w.length = pts.length)
    (hs : simplex.shape = [n + 1, k, m]) :
    ∃ R, Tn.integrateA n m w pts f simplex = some R ∧ R.shape = [k] ∧ ∀ i < k, R.get [i] =
      Tn.integrate w pts f (fun (v : Fin (n + 1)) (j : Fin m) => simplex.get [v.val, i, j.val]) := by
  obtain ⟨R, h, h1, h2⟩ := C52_tn_axes n m w pts f simplex 1 k hw hs
  exact ⟨R, h, h1, fun i hi => h2 [i] rfl (by simpa using hi)⟩

/-- `TnScheme.integrate` on one simplex. -/
theorem C52_tn_one (n m : ℕ) (w : List ℝ) (pts : List (List ℝ)) (f : (Fin m → ℝ) → ℝ)
    (simplex : NdArray) (hw : w.length = pts.length) (hs : simplex.shape = [n + 1, m]) :
    ∃ R, Tn.integrateA n m w pts f simplex = some R ∧ R.shape = [] ∧ R.get [] =
      Tn.integrate w pts f (fun (v : Fin (n + 1)) (j : Fin m) => simplex.get [v.val, j.val]) := by
  obtain ⟨R, h, h1, h2⟩ := C52_tn_axes n m w pts f simplex 0 0 hw hs
  exact ⟨R, h, h1, h2 [] rfl (by simp)⟩

/-- A grid of simplices with axes of different lengths: `integrate` raises or returns an array of
another shape. -/
theorem C52_tn_grid_shape (n m : ℕ) (w : List ℝ) (pts : List (List ℝ)) (f : (Fin m → ℝ) → ℝ)
    (simplex : NdArray) (k l : ℕ) (hkl : k ≠ l) (hs : simplex.shape = [n + 1, k, l, m]) (R : NdArray)
    (hR : Tn.integrateA n m w pts f simplex = some R) : R.shape ≠ [k, l] := by
  by_cases hN : pts.length = w.length
  · by_cases hk : k = 1
    · subst hk
      have hl : l ≠ 1 := fun h => hkl h.symm
      simp [Tn.integrateA, hs, NdArray.T, dotLast, applyF, hN, mul, bshape, bshapeRev, bdim, hl,
        hkl] at hR
      subst hR
      simpa using hl
    by_cases hl : l = 1
    · subst hl
      simp [Tn.integrateA, hs, NdArray.T, dotLast, applyF, hN, mul, bshape, bshapeRev, bdim, hk,
        Ne.symm hkl] at hR
      subst hR
      simpa using hk
    · simp [Tn.integrateA, hs, NdArray.T, dotLast, applyF, hN, mul, bshape, bshapeRev, bdim, hk, hl,
        Ne.symm hkl] at hR
  · simp [Tn.integrateA, hs, NdArray.T, dotLast, applyF, hN] at hR

/-- A square grid of simplices: the entry `(i, j)` is the volume of the simplex `(i, j)` times the
mean over the simplex `(j, i)`. -/
theorem C52_tn_grid (n m : ℕ) (w : List ℝ) (pts : List (List ℝ)) (f : (Fin m → ℝ) → ℝ)
    (simplex : NdArray) (k : ℕ) (hw : w.length = pts.length)
    (hs : simplex.shape = [n + 1, k, k, m]) :
    ∃ R, Tn.integrateA n m w pts f simplex = some R ∧ R.shape = [k, k] ∧
      ∀ i < k, ∀ j < k, R.get [i, j] =
        Tn.getVol (fun (v : Fin (n + 1)) (c : Fin m) => simplex.get [v.val, i, j, c.val]) *
          dot (n + 1) w pts fun xi => f (Tn.transform xi
            (fun (v : Fin (n + 1)) (c : Fin m) => simplex.get [v.val, j, i, c.val])) := by
  obtain ⟨R, h, h1, h2⟩ := C52_tn_axes n m w pts f simplex 2 k hw hs
  exact ⟨R, h, h1, fun i hi j hj => h2 [i, j] rfl (by simp [hi, hj])⟩

theorem vol_segment (s : Fin 2 → Fin 1 → ℝ) (d : ℝ) (hd : 0 ≤ d)
    (h : s 1 0 - s 0 0 = d) : Tn.getVol (n := 1) (m := 1) s = d := by
  have e : ∀ i j : Fin 2, Tn.cmMatrix (n := 1) (m := 1) s i.succ j.succ =
      ∑ k, (s i k - s j k) * (s i k - s j k) := fun _ _ => rfl
  have e11 := e 0 0
  have e12 := e 0 1
  have e21 := e 1 0
  have e22 := e 1 1
  have h0 : ∀ j : Fin 2, Tn.cmMatrix (n := 1) (m := 1) s 0 j.succ = 1 := fun _ => rfl
  have h1 : ∀ j : Fin 2, Tn.cmMatrix (n := 1) (m := 1) s j.succ 0 = 1 := fun _ => rfl
  have h00 : Tn.cmMatrix (n := 1) (m := 1) s 0 0 = 0 := rfl
  have e01 := h0 0
  have e02 := h0 1
  have e10 := h1 0
  have e20 := h1 1
  simp only [Fin.succ_zero_eq_one, Fin.succ_one_eq_two, Finset.univ_unique, Fin.default_eq_zero,
    Fin.isValue, Finset.sum_singleton, sub_self, mul_zero] at e11 e12 e21 e22 e01 e02 e10 e20
  rw [Tn.getVol, Matrix.det_fin_three, e11, e12, e21, e22, e01, e02, e10, e20, h00]
  rw [← neg_sub (s 1 0) (s 0 0), h]
  refine (congrArg Real.sqrt ?_).trans (Real.sqrt_sq hd)
  norm_num
  ring

/-- Non-trivial case: the centroid rule on two segments of the line, `[0, 2]` and `[1, 5]`, with
`f(x) = x`: the values 2 and 12. -/
example : ∃ R, Tn.integrateA 1 1 [1] [[1 / 2, 1 / 2]] (fun x => x 0)
    ⟨[2, 2, 1], fun i => if i.getD 0 0 = 0 then (if i.getD 1 0 = 0 then 0 else 1) else
      (if i.getD 1 0 = 0 then 2 else 5)⟩ = some R ∧ R.shape = [2] ∧ R.get [0] = 2 ∧
    R.get [1] = 12 := by
  obtain ⟨R, h, h1, h2⟩ := C52_tn_list 1 1 [1] [[1 / 2, 1 / 2]] (fun x => x 0)
    ⟨[2, 2, 1], fun i => if i.getD 0 0 = 0 then (if i.getD 1 0 = 0 then 0 else 1) else
      (if i.getD 1 0 = 0 then 2 else 5)⟩ 2 rfl rfl
  refine ⟨R, h, h1, ?_, ?_⟩
  · rw [h2 0 (by norm_num), Tn.integrate, vol_segment _ 2 (by norm_num) (by simp)]
    simp [Tn.transform, dot, toVec]
  · rw [h2 1 (by norm_num), Tn.integrate, vol_segment _ 4 (by norm_num) (by norm_num)]
    simp [Tn.transform, dot, toVec]
    norm_num

/-- Non-trivial case: two disks with radii 1 and 2 and centres `(3, 0)` and `(5, 0)`; the midpoint
rule for `f(x) = x` gives `3 pi` and `20 pi`. -/
example : ∃ R, S2.integrateA [1] [[0, 0]] (fun x => x 0)
    ⟨[2, 2], fun i => if i.getD 1 0 = 0 then (if i.getD 0 0 = 0 then 3 else 5) else 0⟩
    ⟨[2], fun i => if i.getD 0 0 = 0 then 1 else 2⟩ = some R ∧ R.shape = [2] ∧
    R.get [0] = 3 * Real.pi ∧ R.get [1] = 20 * Real.pi := by
  obtain ⟨R, h, h1, h2⟩ := C52_s2_list [1] [[0, 0]] (fun x => x 0)
    ⟨[2, 2], fun i => if i.getD 1 0 = 0 then (if i.getD 0 0 = 0 then 3 else 5) else 0⟩
    ⟨[2], fun i => if i.getD 0 0 = 0 then 1 else 2⟩ 2 rfl rfl rfl
  refine ⟨R, h, h1, ?_, ?_⟩
  · rw [h2 0 (by norm_num)]
    simp [S2.integrate, dot, toVec]
    ring
  · rw [h2 1 (by norm_num)]
    simp [S2.integrate, dot, toVec]
    ring

end Quadpy
