import Verif.Model.Optimize
import Mathlib.Tactic.Linarith
import Mathlib.Tactic.Ring

/-!
# Splitting, reshaping and summing columns (for C60)
-/

namespace Quadpy.Optimize

/-! ### Splitting and reshaping -/

/-- The pieces of a list of given lengths. -/
def pieces : List ℝ → List ℕ → List (List ℝ)
  | _, [] => []
  | x, s :: ss => x.take s :: pieces (x.drop s) ss

theorem npSplit_eq (x : List ℝ) : ∀ (sizes : List ℕ) (k : ℕ), sizes ≠ [] →
    (x.drop k).length = sizes.sum → npSplit x k (splits k sizes) = pieces (x.drop k) sizes
  | [], _, h, _ => absurd rfl h
  | [s], k, _, h => by
    simp only [splits, npSplit, pieces]
    rw [List.take_of_length_le (by rw [h]; simp)]
  | s :: t :: ss, k, _, h => by
    have h' : (x.drop (k + s)).length = (t :: ss).sum := by
      rw [← List.drop_drop, List.length_drop, h]
      simp
    simp only [splits, npSplit]
    rw [npSplit_eq x (t :: ss) (k + s) (by simp) h', pieces.eq_def (x.drop k)]
    simp only [List.drop_drop, Nat.add_sub_cancel_left]

theorem reshape_succ (l : List ℝ) (r m : ℕ) :
    reshape l [r + 1, m] = l.take m :: reshape (l.drop m) [r, m] := by
  simp only [reshape, List.range_succ_eq_map, List.map_cons, List.map_map, Function.comp_def]
  refine congrArg₂ _ (by simp) (List.map_congr_left fun i _ => ?_)
  rw [List.drop_drop]
  congr 2
  rw [Nat.succ_mul, add_comm]

theorem reshape_flatten : ∀ (rows : Rows) (m : ℕ), (∀ r ∈ rows, r.length = m) →
    reshape rows.flatten [rows.length, m] = rows
  | [], m, _ => by simp [reshape]
  | r :: rs, m, h => by
    have hr : r.length = m := h r (by simp)
    rw [List.length_cons, reshape_succ, List.flatten_cons, List.take_left' hr, List.drop_left' hr,
      reshape_flatten rs m fun r' h' => h r' (by simp [h'])]

theorem flatten_reshape : ∀ (r m : ℕ) (l : List ℝ), l.length = r * m →
    (reshape l [r, m]).flatten = l ∧ (reshape l [r, m]).length = r ∧
      ∀ row ∈ reshape l [r, m], row.length = m
  | 0, m, l, h => by
    have : l = [] := List.length_eq_zero_iff.1 (by simpa using h)
    simp [reshape, this]
  | r + 1, m, l, h => by
    have hl : (l.drop m).length = r * m := by rw [List.length_drop, h, Nat.succ_mul]; omega
    obtain ⟨h1, h2, h3⟩ := flatten_reshape r m (l.drop m) hl
    rw [reshape_succ]
    refine ⟨by rw [List.flatten_cons, h1, List.take_append_drop], by rw [List.length_cons, h2], ?_⟩
    intro row hrow
    rcases List.mem_cons.1 hrow with rfl | hrow
    · rw [List.length_take, h, Nat.succ_mul]; omega
    · exact h3 row hrow

/-- A proper entry of a data file: at least one weight, one coordinate per weight in each row, and a single
weight when there are no coordinates. -/
def Proper (v : Rows) : Prop :=
  ∃ w rows, v = w :: rows ∧ w ≠ [] ∧ (∀ r ∈ rows, r.length = w.length) ∧ (rows = [] → w.length = 1)

/-- The coordinates `v'` have the format of the coordinates in `v`. -/
def SameFormat (v v' : Rows) : Prop :=
  v'.length = v.tail.length ∧ ∀ r ∈ v', r.length = (v.headD []).length

theorem reshape_proper {v : Rows} (hv : Proper v) {l : List ℝ} (hl : l.length = v.tail.flatten.length) :
    (reshape l (shape v.tail)).flatten = l ∧ SameFormat v (reshape l (shape v.tail)) := by
  obtain ⟨w, rows, rfl, -, h, -⟩ := hv
  cases rows with
  | nil =>
    have : l = [] := List.length_eq_zero_iff.1 (by simpa using hl)
    simp [shape, reshape, this, SameFormat]
  | cons r rs =>
    have hr : r.length = w.length := h r (by simp)
    have hf : (r :: rs).flatten.length = (rs.length + 1) * w.length := by
      rw [List.length_flatten, List.map_congr_left (g := fun _ => w.length) fun x hx => h x hx]
      simp
      ring
    have := flatten_reshape (rs.length + 1) r.length l (by rw [hl, List.tail_cons, hf, hr])
    simp only [List.tail_cons, shape, SameFormat, List.headD_cons, List.length_cons]
    exact ⟨this.1, this.2.1, fun x hx => by rw [this.2.2 x hx, hr]⟩

theorem reshape_self {v : Rows} (hv : Proper v) : reshape v.tail.flatten (shape v.tail) = v.tail := by
  obtain ⟨w, rows, rfl, -, h, -⟩ := hv
  cases rows with
  | nil => simp [shape, reshape]
  | cons r rs =>
    have hr : r.length = w.length := h r (by simp)
    exact reshape_flatten (r :: rs) r.length fun x hx => by rw [h x hx, hr]

/-- `xToDict` piece by piece. -/
def toDict : List (SymKey × Rows) → List ℝ → List (SymKey × Rows)
  | [], _ => []
  | (k, v) :: t, x => (k, reshape (x.take v.tail.flatten.length) (shape v.tail)) ::
      toDict t (x.drop v.tail.flatten.length)

theorem x0_length (data : List (SymKey × Rows)) :
    (x0 data).length = (data.map fun kv => kv.2.tail.flatten.length).sum := by
  rw [x0, List.length_flatten, List.map_map]
  rfl

theorem xToDict_eq (data : List (SymKey × Rows)) (x : List ℝ) (hx : x.length = (x0 data).length) :
    xToDict data x = toDict data x := by
  cases data with
  | nil => simp [xToDict, toDict]
  | cons kv data =>
    have h : ∀ (data : List (SymKey × Rows)) (x : List ℝ),
        (data.map Prod.fst).zip (List.zipWith reshape
          (pieces x ((data.map fun kv => kv.2.tail).map fun v => v.flatten.length))
          ((data.map fun kv => kv.2.tail).map shape)) = toDict data x := by
      intro data
      induction data with
      | nil => intro x; simp [toDict]
      | cons kv data ih =>
        intro x
        simp only [List.map_cons, pieces, List.zipWith_cons_cons, List.zip_cons_cons, toDict, ih]
    rw [xToDict, npSplit_eq _ _ 0 (by simp), List.drop_zero, h]
    rw [List.drop_zero, hx, x0_length]
    simp [Function.comp_def]

theorem toDict_x0 : ∀ (data : List (SymKey × Rows)), (∀ kv ∈ data, Proper kv.2) →
    toDict data (x0 data) = data.map fun kv => (kv.1, kv.2.tail)
  | [], _ => rfl
  | (k, v) :: t, h => by
    have ih := toDict_x0 t fun kv hkv => h kv (by simp [hkv])
    have e : x0 ((k, v) :: t) = v.tail.flatten ++ x0 t := by simp [x0]
    rw [toDict, e, List.take_left' rfl, List.drop_left' rfl, ih, reshape_self (h (k, v) (by simp))]
    rfl

theorem toDict_spec : ∀ (data : List (SymKey × Rows)) (x : List ℝ), (∀ kv ∈ data, Proper kv.2) →
    x.length = (x0 data).length →
    ((toDict data x).map fun kv => kv.2.flatten).flatten = x ∧
      List.Forall₂ (fun kv kv' => kv'.1 = kv.1 ∧ SameFormat kv.2 kv'.2) data (toDict data x)
  | [], x, _, hx => by
    have : x = [] := List.length_eq_zero_iff.1 (by simpa [x0] using hx)
    simp [toDict, this]
  | (k, v) :: t, x, h, hx => by
    have e : (x0 ((k, v) :: t)).length = v.tail.flatten.length + (x0 t).length := by simp [x0]
    rw [e] at hx
    obtain ⟨i1, i2⟩ := toDict_spec t (x.drop v.tail.flatten.length) (fun kv hkv => h kv (by simp [hkv]))
      (by rw [List.length_drop, hx]; omega)
    obtain ⟨r1, r2⟩ := reshape_proper (h (k, v) (by simp)) (l := x.take v.tail.flatten.length)
      (by rw [List.length_take, hx]; simp)
    rw [toDict]
    refine ⟨?_, List.Forall₂.cons ⟨rfl, r2⟩ i2⟩
    rw [List.map_cons, List.flatten_cons, i1]
    dsimp only
    rw [r1, List.take_append_drop]

/-! ### Summing up columns -/

/-- The weights of all points: each group of `n` weights repeated `l` times. -/
def tileAll : List (ℕ × ℕ) → List ℝ → List ℝ
  | [], _ => []
  | (l, n) :: t, w => (List.replicate l (w.take n)).flatten ++ tileAll t (w.drop n)

theorem rowDot_nil_right (a : List ℝ) : rowDot a [] = 0 := by simp [rowDot]

theorem rowDot_append : ∀ (a b c d : List ℝ), a.length = c.length →
    rowDot (a ++ b) (c ++ d) = rowDot a c + rowDot b d := by
  intro a b c d h
  simp only [rowDot]
  rw [List.zipWith_append h, List.sum_append]

theorem rowDot_take_drop (a b c : List ℝ) (h : b.length ≤ a.length) :
    rowDot a (b ++ c) = rowDot (a.take b.length) b + rowDot (a.drop b.length) c := by
  conv_lhs => rw [← List.take_append_drop b.length a]
  rw [rowDot_append]
  rw [List.length_take]
  omega

theorem pySlice_block (row : List ℝ) (k i l n : ℕ) (hi : i < n) (h : k + l * n ≤ row.length) :
    pySlice row (k + i) (k + l * n) n = (List.range l).map fun c => row.getD (k + i + c * n) 0 := by
  rw [pySlice, min_eq_left h]
  congr 2
  rcases Nat.eq_zero_or_pos l with rfl | hl
  · rw [Nat.zero_mul]
    exact Nat.div_eq_of_lt (by omega)
  · have : n ≤ l * n := Nat.le_mul_of_pos_left n hl
    rw [show k + l * n - (k + i) + n - 1 = l * n + (n - 1 - i) by omega, mul_comm,
      Nat.mul_add_div (by omega), Nat.div_eq_of_lt (by omega)]
    rfl

theorem rowDot_map_range (n : ℕ) (f : ℕ → ℝ) : ∀ (w : List ℝ), w.length = n →
    rowDot ((List.range n).map f) w = ((List.range n).map fun i => f i * w.getD i 0).sum := by
  intro w hw
  have : w = (List.range n).map fun i => w.getD i 0 := by
    apply List.ext_getElem
    · simp [hw]
    · intro i h1 h2
      simp [h1]
  rw [rowDot]
  conv_lhs => rw [this]
  rw [List.zipWith_map_left, List.zipWith_map_right, List.zipWith_self]

theorem take_eq_map_range (row : List ℝ) (k n : ℕ) (h : k + n ≤ row.length) :
    (row.drop k).take n = (List.range n).map fun i => row.getD (k + i) 0 := by
  apply List.ext_getElem
  · simp; omega
  · intro i h1 h2
    have hi : i < n := by simpa using h2
    simp only [List.getElem_take, List.getElem_drop, List.getElem_map, List.getElem_range]
    rw [List.getD_eq_getElem?_getD, List.getElem?_eq_getElem (by omega), Option.getD_some]

/-- One group of columns. -/
theorem block_dot (row : List ℝ) (n : ℕ) (w : List ℝ) (hw : w.length = n) : ∀ (l k : ℕ),
    k + l * n ≤ row.length →
    ((List.range n).map fun i => ((List.range l).map fun c => row.getD (k + i + c * n) 0).sum *
      w.getD i 0).sum = rowDot ((row.drop k).take (l * n)) (List.replicate l w).flatten
  | 0, k, _ => by simp [rowDot]
  | l + 1, k, h => by
    have hm : (l + 1) * n = n + l * n := by ring
    rw [hm] at h
    have ih := block_dot row n w hw l (k + n) (by omega)
    rw [List.replicate_succ, List.flatten_cons, rowDot_take_drop _ _ _ (by
      rw [List.length_take, List.length_drop, hw, hm]; omega), hw, List.take_take, hm,
      min_eq_left (by omega), List.drop_take, List.drop_drop, show n + l * n - n = l * n by omega, ← ih,
      take_eq_map_range row k n (by omega), rowDot_map_range n _ w hw, ← List.sum_map_add]
    refine congrArg List.sum (List.map_congr_left fun i _ => ?_)
    rw [List.range_succ_eq_map, List.map_cons, List.sum_cons, List.map_map, add_mul]
    simp only [Function.comp_def, Nat.zero_mul, Nat.add_zero]
    congr 3
    refine List.map_congr_left fun c _ => ?_
    congr 1
    rw [Nat.succ_mul]
    omega

/-- The reduced row times the weights is the full row times the weights of all points. -/
theorem colSums_dot (row : List ℝ) : ∀ (L : List (ℕ × ℕ)) (k : ℕ) (w : List ℝ),
    row.length = k + (L.map fun p => p.1 * p.2).sum → w.length = (L.map Prod.snd).sum →
    (colSums row k L).length = (L.map Prod.snd).sum ∧
      rowDot (colSums row k L) w = rowDot (row.drop k) (tileAll L w)
  | [], k, w, h, hw => by simp [colSums, tileAll, rowDot]
  | (l, n) :: t, k, w, h, hw => by
    simp only [List.map_cons, List.sum_cons] at h hw
    obtain ⟨i1, i2⟩ := colSums_dot row t (k + l * n) (w.drop n) (by rw [h]; ring)
      (by rw [List.length_drop, hw]; omega)
    have hwn : (w.take n).length = n := by rw [List.length_take, hw]; omega
    have hf : (List.replicate l (w.take n)).flatten.length = l * n := by
      simp [List.length_flatten, hwn]
    refine ⟨by simp [colSums, i1], ?_⟩
    rw [colSums, tileAll]
    conv_lhs => rw [← List.take_append_drop n w]
    rw [rowDot_append _ _ _ _ (by simp [hwn]), i2, rowDot_map_range n _ _ hwn,
      rowDot_take_drop _ _ _ (by rw [hf, List.length_drop, h]; omega), hf, List.drop_drop]
    congr 1
    rw [← block_dot row n (w.take n) hwn l k (by omega)]
    refine congrArg List.sum (List.map_congr_left fun i hi => ?_)
    rw [pySlice_block row k i l n (List.mem_range.1 hi) (by omega)]

/-! ### Putting the weights in front -/

theorem prepend_spec (w : List ℝ) : ∀ (data d : List (SymKey × Rows)) (k : ℕ),
    List.Forall₂ (fun kv kv' => kv'.1 = kv.1 ∧ SameFormat kv.2 kv'.2) data d →
    (∀ kv ∈ data, Proper kv.2) → w.length = k + (numSymm data).sum →
    (prepend w k d).map (fun kv => (kv.1, kv.2.tail)) = d ∧
      List.Forall₂ (fun kv kv' => (kv'.2.headD []).length = (kv.2.headD []).length) data (prepend w k d) ∧
      (d.map fun kv => entryPoints 2 (pointEntry kv)) =
        ((prepend w k d).map fun kv => entryPoints 2 (fileEntry kv)) ∧
      (((prepend w k d).map fun kv => entryWeights 2 (fileEntry kv)).flatten =
        tileAll ((d.map fun kv => (orbit 2 kv.1 ((columns kv.2).headD [])).length).zip (numSymm data))
          (w.drop k))
  | [], _, k, .nil, _, _ => by simp [prepend, tileAll]
  | (key, v) :: data, (key', v') :: d, k, .cons h0 ht, hp, hw => by
    obtain ⟨wt, rows, hv, hne, hl, h1⟩ := hp (key, v) (by simp)
    obtain ⟨hf1, hf2⟩ := h0.2
    have hp' : ∀ kv ∈ data, Proper kv.2 := fun kv hkv => hp kv (by simp [hkv])
    dsimp only at hv hf1 hf2
    subst hv
    simp only [List.tail_cons, List.headD_cons] at hf1 hf2
    simp only [numSymm, List.map_cons, List.sum_cons, List.headD_cons] at hw
    have hkw : wt.length ≤ w.length - k := by omega
    cases v' with
    | nil =>
      have hrows : rows = [] := List.length_eq_zero_iff.1 (by simpa using hf1.symm)
      have hn : wt.length = 1 := h1 hrows
      obtain ⟨a1, a2, a3, a4⟩ := prepend_spec w data d (k + 1) ht hp' (by rw [hw, hn, numSymm]; ring)
      have e : [w.getD k 0] = (w.drop k).take 1 := by
        rw [take_eq_map_range w k 1 (by omega)]
        simp
      rw [prepend]
      refine ⟨by simp [a1], .cons (by simp [hn]) a2, by rw [List.map_cons, List.map_cons, a3]; rfl, ?_⟩
      rw [List.map_cons, List.flatten_cons, a4]
      simp only [List.map_cons, numSymm, List.headD_cons, List.zip_cons_cons, tileAll, hn, List.drop_drop]
      simp only [entryWeights, fileEntry, List.headD_cons, List.tail_cons, e]
    | cons r rs =>
      have hr : r.length = wt.length := hf2 r (by simp)
      obtain ⟨a1, a2, a3, a4⟩ := prepend_spec w data d (k + r.length) ht hp'
        (by rw [hw, hr, numSymm]; ring)
      rw [prepend]
      have hlen : ((w.drop k).take r.length).length = wt.length := by
        rw [List.length_take, List.length_drop]; omega
      refine ⟨by simp [a1], .cons (by simpa using hlen) a2,
        by rw [List.map_cons, List.map_cons, a3]; rfl, ?_⟩
      rw [List.map_cons, List.flatten_cons, a4]
      simp only [List.map_cons, numSymm, List.headD_cons, List.zip_cons_cons, tileAll, List.drop_drop]
      simp only [entryWeights, fileEntry, List.headD_cons, List.tail_cons, hr]

end Quadpy.Optimize
