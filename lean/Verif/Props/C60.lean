import Verif.Lemmas.Optimize
import Mathlib.Algebra.Order.BigOperators.Group.List
import Mathlib.Algebra.Order.BigOperators.Ring.Finset
import Mathlib.Analysis.InnerProductSpace.Projection.Minimal
import Mathlib.Analysis.InnerProductSpace.PiL2
import Mathlib.Tactic.FieldSimp
import Mathlib.Tactic.NormNum

/-!
# C60 — `quadpy-optimize` improves a data file
-/

namespace Quadpy

namespace Spec

/-- `Σ w_p q(x_p)`. -/
def ruleValue (W : List ℝ) (P : List (List ℝ)) (q : List ℝ → ℝ) : ℝ :=
  (List.zipWith (fun w p => w * q p) W P).sum

/-- The sum of the squared errors of a rule for the functions `phi`, the integral of the first being
`b0`, those of the others `0`. -/
def sqError (phi : List (List ℝ → ℝ)) (b0 : ℝ) (W : List ℝ) (P : List (List ℝ)) : ℝ :=
  match phi with
  | [] => 0
  | p :: ps => (ruleValue W P p - b0) ^ 2 + (ps.map fun q => ruleValue W P q ^ 2).sum

/-- `Σ c_r phi_r`. -/
def comb (c : List ℝ) (phi : List (List ℝ → ℝ)) : List ℝ → ℝ := fun x =>
  (List.zipWith (fun a p => a * p x) c phi).sum

end Spec

namespace Optimize

open Spec

/-- A data file as written: at least one entry, and every entry is proper. -/
def GoodData (data : List (SymKey × Rows)) : Prop := data ≠ [] ∧ ∀ kv ∈ data, Proper kv.2

/-- The same keys in the same order, each with as many weights and coordinates. -/
def SameShape (d d' : List (SymKey × Rows)) : Prop :=
  d'.map (fun kv => (kv.1, kv.2.map List.length)) = d.map fun kv => (kv.1, kv.2.map List.length)

/-! ### The vector of coordinates and the dictionary -/

theorem C60_roundtrip {data : List (SymKey × Rows)} (h : ∀ kv ∈ data, Proper kv.2) :
    xToDict data (x0 data) = data.map fun kv => (kv.1, kv.2.tail) := by
  rw [xToDict_eq _ _ rfl, toDict_x0 _ h]

theorem map_length_of_forall {l : Rows} {n m : ℕ} (hl : l.length = m) (h : ∀ r ∈ l, r.length = n) :
    l.map List.length = List.replicate m n := by
  rw [List.eq_replicate_iff]
  exact ⟨by simpa using hl, fun b hb => by
    obtain ⟨r, hr, rfl⟩ := List.mem_map.1 hb
    exact h r hr⟩

theorem sameFormat_lengths {v v' : Rows} (hv : Proper v) (h : SameFormat v v') :
    v'.map List.length = v.tail.map List.length := by
  obtain ⟨w, rows, rfl, -, hr, -⟩ := hv
  rw [map_length_of_forall h.1 h.2]
  exact (map_length_of_forall rfl hr).symm

theorem C60_dict {data : List (SymKey × Rows)} (h : ∀ kv ∈ data, Proper kv.2) {x : List ℝ}
    (hx : x.length = (x0 data).length) :
    ((xToDict data x).map fun kv => kv.2.flatten).flatten = x ∧
      SameShape (data.map fun kv => (kv.1, kv.2.tail)) (xToDict data x) := by
  rw [xToDict_eq _ _ hx]
  obtain ⟨h1, h2⟩ := toDict_spec data x h hx
  refine ⟨h1, ?_⟩
  have : ∀ (d d' : List (SymKey × Rows)), (∀ kv ∈ d, Proper kv.2) →
      List.Forall₂ (fun kv kv' => kv'.1 = kv.1 ∧ SameFormat kv.2 kv'.2) d d' →
      SameShape (d.map fun kv => (kv.1, kv.2.tail)) d' := by
    intro d d' hp hf
    induction hf with
    | nil => rfl
    | @cons kv kv' d d' h0 _ ih =>
      have ih := ih fun kv hkv => hp kv (by simp [hkv])
      simp only [SameShape, List.map_cons] at ih ⊢
      rw [ih, h0.1, sameFormat_lengths (hp kv (by simp)) h0.2]
  exact this _ _ h h2

/-- The file of the triangle rule with one centroid and one orbit of three points: the coordinates are one
number. -/
example : xToDict [(.centroid, [[9 / 40]]), (.d3_aa, [[1 / 8], [1 / 10]])] [1 / 5] =
    [(.centroid, []), (.d3_aa, [[1 / 5]])] := by
  simp [xToDict, splits, npSplit, reshape, shape]

/-! ### The weights -/

theorem sqRes_eq (E : Env) (hphi : E.phi ≠ []) (P : List (List ℝ)) (W w : List ℝ)
    (row : (List ℝ → ℝ) → List ℝ)
    (h : ∀ p, rowDot (row p) w = rowDot (P.map p) W) :
    sqRes (E.phi.map row) (rhs E) w = sqError E.phi E.int_p0 W P := by
  have hv : ∀ p, rowDot (row p) w = ruleValue W P p := by
    intro p
    rw [h, rowDot, ruleValue, List.zipWith_map_left, List.zipWith_comm]
    simp only [mul_comm]
  cases hE : E.phi with
  | nil => exact absurd hE hphi
  | cons p ps =>
    have : ∀ ps : List (List ℝ → ℝ), (List.zipWith (fun r y => (rowDot r w - y) ^ 2) (ps.map row)
        (List.replicate ps.length 0)).sum = (ps.map fun q => ruleValue W P q ^ 2).sum := by
      intro ps
      induction ps with
      | nil => rfl
      | cons q qs ih => simp [List.replicate_succ, ih, hv]
    simp only [sqRes, rhs, hE, List.map_cons, List.zipWith_cons_cons, List.sum_cons, sqError, hv,
      List.length_cons, Nat.add_sub_cancel, this]

theorem sqError_nonneg (phi : List (List ℝ → ℝ)) (b0 : ℝ) (W : List ℝ) (P : List (List ℝ)) :
    0 ≤ sqError phi b0 W P := by
  unfold sqError
  split
  · exact le_rfl
  · refine add_nonneg (sq_nonneg _) (List.sum_nonneg fun x hx => ?_)
    obtain ⟨q, -, rfl⟩ := List.mem_map.1 hx
    exact sq_nonneg _

/-- The squared error of the rule in a file. -/
noncomputable def fileError (E : Env) (D : List (SymKey × Rows)) : ℝ :=
  sqError E.phi E.int_p0 (expandSymmetries (D.map fileEntry) 2).2 (expandSymmetries (D.map fileEntry) 2).1

theorem getW_spec {E : Env} (hphi : E.phi ≠ []) (hl : LstsqSpec E.lstsq) {data : List (SymKey × Rows)}
    (hp : ∀ kv ∈ data, Proper kv.2) {x : List ℝ} (hx : x.length = (x0 data).length)
    {A : List (List ℝ)} {w : List ℝ} {v : ℝ} (h : getW E data x = .ok (some (A, w), v)) :
    w.length = (numSymm data).sum ∧ (numSymm data).sum < E.phi.length ∧
      v = √(fileError E (prepend w 0 (xToDict data x))) ∧
      ∀ w' : List ℝ, w'.length = (numSymm data).sum →
        fileError E (prepend w 0 (xToDict data x)) ≤ fileError E (prepend w' 0 (xToDict data x)) := by
  unfold getW at h
  dsimp only at h
  set d := xToDict data x with hd
  set P := (pointsOnly d 2).1 with hP
  set ln := (pointsOnly d 2).2.zip (numSymm data) with hln
  split at h
  · exact absurd h (by simp)
  rename_i hassert
  rw [not_not] at hassert
  set A' := E.phi.map fun phi => colSums (P.map phi) 0 ln with hA'
  have hf : List.Forall₂ (fun kv kv' => kv'.1 = kv.1 ∧ SameFormat kv.2 kv'.2) data d := by
    rw [hd, xToDict_eq _ _ hx]
    exact (toDict_spec data x hp hx).2
  have hlen : d.length = data.length := hf.length_eq.symm
  have hsnd : ln.map Prod.snd = numSymm data := by
    rw [hln, List.map_snd_zip]
    simp [pointsOnly, numSymm, hlen]
  have hcol : ∀ w' : List ℝ, w'.length = (numSymm data).sum → ∀ phi,
      (colSums (P.map phi) 0 ln).length = (numSymm data).sum ∧
        rowDot (colSums (P.map phi) 0 ln) w' = rowDot (P.map phi) (tileAll ln w') := by
    intro w' hw' phi
    have := colSums_dot (P.map phi) ln 0 w' (by rw [List.length_map, hassert]; simp) (by rw [hsnd, hw'])
    rw [hsnd, List.drop_zero] at this
    exact this
  have hAne : A' ≠ [] := by rw [hA']; simpa using hphi
  have hAlen : A'.length = E.phi.length := by simp [hA']
  have hrows : ∀ r ∈ A', r.length = (numSymm data).sum := by
    intro r hr
    obtain ⟨phi, -, rfl⟩ := List.mem_map.1 hr
    exact (hcol (List.replicate (numSymm data).sum 0) (by simp) phi).1
  have hpos : 0 < E.phi.length := List.length_pos_iff.2 hphi
  obtain ⟨l1, l2, l3, l4⟩ := hl A' (rhs E) (numSymm data).sum hrows
    (by rw [hAlen, rhs, List.length_cons, List.length_replicate]; omega) hAne
  have hfile : ∀ w' : List ℝ, w'.length = (numSymm data).sum →
      sqRes A' (rhs E) w' = fileError E (prepend w' 0 d) := by
    intro w' hw'
    obtain ⟨-, -, p3, p4⟩ := prepend_spec w' data d 0 hf hp (by rw [hw']; simp)
    rw [fileError, hA']
    refine sqRes_eq E hphi _ _ w' _ fun p => ?_
    rw [(hcol w' hw' p).2]
    congr 1
    · rw [hP, pointsOnly, expandSymmetries, p3, List.map_map]
      rfl
    · rw [List.drop_zero] at p4
      rw [expandSymmetries]
      dsimp only
      rw [List.map_map, Function.comp_def (entryWeights 2), p4]
      rfl
  split at h
  · exact absurd h (by simp)
  split at h
  · exact absurd h (by simp)
  rename_i r rs hr
  simp only [Except.ok.injEq, Prod.mk.injEq, Option.some.injEq] at h
  obtain ⟨⟨rfl, rfl⟩, rfl⟩ := h
  rw [hr] at l4
  split_ifs at l4 with hc
  · obtain ⟨rfl, -⟩ := List.cons.inj l4
    refine ⟨l1, by rw [← hAlen]; exact hc.2, by rw [hfile _ l1], fun w' hw' => ?_⟩
    rw [← hfile _ l1, ← hfile _ hw']
    exact l2 w' hw'

/-! ### The result of a run -/

theorem run_ok {E : Env} {minimize : (List ℝ → Except Err ℝ) → List ℝ → Except Err (List ℝ × ℝ)}
    {data : List (SymKey × Rows)} {d : List (SymKey × Rows)} {v : ℝ} (h : run E minimize data = .ok (d, v)) :
    ∃ r0 x, residual E data (x0 data) = .ok r0 ∧ minimize (residual E data) (x0 data) = .ok (x, v) ∧
      v < r0 ∧ ∃ A w r, getW E data x = .ok (some (A, w), r) ∧ d = prepend w 0 (xToDict data x) := by
  unfold run at h
  cases hr : residual E data (x0 data) with
  | error e => rw [hr] at h; exact absurd h (by simp [bind, Except.bind])
  | ok r0 =>
    rw [hr] at h
    cases hm : minimize (residual E data) (x0 data) with
    | error e => rw [hm] at h; exact absurd h (by simp [bind, Except.bind])
    | ok out =>
      obtain ⟨x, v'⟩ := out
      rw [hm] at h
      simp only [bind, Except.bind] at h
      split at h
      · exact absurd h (by simp)
      rename_i hlt
      cases hg : getW E data x with
      | error e => rw [hg] at h; exact absurd h (by simp)
      | ok g =>
        rw [hg] at h
        obtain ⟨a, r⟩ := g
        cases a with
        | none => exact absurd h (by simp)
        | some a =>
          obtain ⟨A, w⟩ := a
          simp only [Except.ok.injEq, Prod.mk.injEq] at h
          obtain ⟨rfl, rfl⟩ := h
          exact ⟨r0, x, rfl, rfl, not_le.1 hlt, A, w, r, hg, rfl⟩

theorem prepend_shape {data d : List (SymKey × Rows)} {w : List ℝ}
    (hp : ∀ kv ∈ data, Proper kv.2)
    (hf : List.Forall₂ (fun kv kv' => kv'.1 = kv.1 ∧ SameFormat kv.2 kv'.2) data d)
    (hw : w.length = (numSymm data).sum) : SameShape data (prepend w 0 d) := by
  obtain ⟨h1, h2, -⟩ := prepend_spec w data d 0 hf hp (by rw [hw]; simp)
  have key : ∀ (data D d : List (SymKey × Rows)), (∀ kv ∈ data, Proper kv.2) →
      D.map (fun kv => (kv.1, kv.2.tail)) = d → (∀ kv ∈ D, kv.2 ≠ []) →
      List.Forall₂ (fun kv kv' => kv'.1 = kv.1 ∧ SameFormat kv.2 kv'.2) data d →
      List.Forall₂ (fun kv kv' => (kv'.2.headD []).length = (kv.2.headD []).length) data D →
      SameShape data D := by
    intro data D d hp hd hne hf hg
    subst hd
    induction hg with
    | nil => rfl
    | @cons kv kv' data D h0 _ ih =>
      rw [List.map_cons, List.forall₂_cons] at hf
      have ih := ih (fun kv hkv => hp kv (by simp [hkv])) (fun kv hkv => hne kv (by simp [hkv])) hf.2
      simp only [SameShape, List.map_cons] at ih ⊢
      have hpk := hp kv (by simp)
      have hl := sameFormat_lengths hpk hf.1.2
      have hk : kv'.1 = kv.1 := hf.1.1
      obtain ⟨wt, rows, hv, -⟩ := hpk
      have hne' := hne kv' (by simp)
      obtain ⟨k, v⟩ := kv
      obtain ⟨k', v'⟩ := kv'
      dsimp only at hv hk hl hne' h0
      subst hv
      cases v' with
      | nil => exact absurd rfl hne'
      | cons a b =>
        simp only [List.tail_cons, List.headD_cons] at hl h0
        simp only [List.map_cons, ih, hk, hl, h0]
  refine key _ _ _ hp h1 ?_ hf h2
  have : ∀ (d : List (SymKey × Rows)) (k : ℕ), ∀ kv ∈ prepend w k d, kv.2 ≠ [] := by
    intro d
    induction d with
    | nil => intro k kv hkv; simp [prepend] at hkv
    | cons kv d ih =>
      obtain ⟨key, v⟩ := kv
      intro k kv hkv
      cases v with
      | nil =>
        rw [prepend] at hkv
        rcases List.mem_cons.1 hkv with rfl | hkv
        · simp
        · exact ih _ _ hkv
      | cons r rs =>
        rw [prepend] at hkv
        rcases List.mem_cons.1 hkv with rfl | hkv
        · simp
        · exact ih _ _ hkv
  exact this d 0

/-- When the optimisation returns data, these have the keys and the shape of the file; the number returned
is the root of the sum of the squared errors of the rule they describe. -/
theorem C60_run {E : Env} (hphi : E.phi ≠ []) (hl : LstsqSpec E.lstsq)
    {minimize : (List ℝ → Except Err ℝ) → List ℝ → Except Err (List ℝ × ℝ)} (hm : MinimizeSpec minimize)
    {data : List (SymKey × Rows)} (hg : GoodData data) {d : List (SymKey × Rows)} {v : ℝ}
    (h : run E minimize data = .ok (d, v)) :
    SameShape data d ∧
      v = √(sqError E.phi E.int_p0 (expandSymmetries (d.map fileEntry) 2).2
        (expandSymmetries (d.map fileEntry) 2).1) := by
  obtain ⟨r0, x, -, hmin, -, A, w, r, hw, rfl⟩ := run_ok h
  obtain ⟨hx, hv⟩ := hm _ _ _ _ hmin
  obtain ⟨g1, -, g2, -⟩ := getW_spec hphi hl hg.2 hx hw
  have : v = r := by
    rw [residual, hw] at hv
    simpa [Except.map] using hv.symm
  refine ⟨prepend_shape hg.2 ?_ g1, by rw [this, g2]; rfl⟩
  rw [xToDict_eq _ _ hx]
  exact (toDict_spec data x hg.2 hx).2

theorem prepend_self (pre : List ℝ) : ∀ (data : List (SymKey × Rows)), (∀ kv ∈ data, Proper kv.2) →
    prepend (pre ++ (data.map fun kv => kv.2.headD []).flatten) pre.length
      (data.map fun kv => (kv.1, kv.2.tail)) = data := by
  intro data
  induction data generalizing pre with
  | nil => intro _; rfl
  | cons kv data ih =>
    intro hp
    obtain ⟨key, v⟩ := kv
    obtain ⟨w, rows, hv, hne, hr, h1⟩ := hp (key, v) (by simp)
    dsimp only at hv
    subst hv
    have ih := ih (pre ++ w) fun kv hkv => hp kv (by simp [hkv])
    simp only [List.map_cons, List.headD_cons, List.flatten_cons, List.tail_cons]
    rw [List.append_assoc, List.length_append] at ih
    cases rows with
    | nil =>
      rw [h1 rfl] at ih
      obtain ⟨a, rfl⟩ := List.length_eq_one_iff.1 (h1 rfl)
      rw [prepend, ih]
      simp
    | cons r rs =>
      have hrl : r.length = w.length := hr r (by simp)
      rw [prepend, hrl, ih]
      simp

/-- The rule returned is better than the one in the file, whatever weights are put in the file: provided
that the weights are determined by the points of the file. -/
theorem C60_improves {E : Env} (hphi : E.phi ≠ []) (hl : LstsqSpec E.lstsq)
    {minimize : (List ℝ → Except Err ℝ) → List ℝ → Except Err (List ℝ × ℝ)} (hm : MinimizeSpec minimize)
    {data : List (SymKey × Rows)} (hg : GoodData data) {d : List (SymKey × Rows)} {v : ℝ}
    (h : run E minimize data = .ok (d, v)) {a : List (List ℝ) × List ℝ} {r0 : ℝ}
    (h0 : getW E data (x0 data) = .ok (some a, r0)) {data' : List (SymKey × Rows)}
    (hs : SameShape data data') (ht : data'.map (fun kv => kv.2.tail) = data.map fun kv => kv.2.tail) :
    v < √(sqError E.phi E.int_p0 (expandSymmetries (data'.map fileEntry) 2).2
        (expandSymmetries (data'.map fileEntry) 2).1) := by
  obtain ⟨r0', x, hr0, -, hlt, -⟩ := run_ok h
  have e : r0' = r0 := by
    rw [residual, h0] at hr0
    simpa [Except.map] using hr0.symm
  rw [e] at hlt
  obtain ⟨A, w⟩ := a
  obtain ⟨-, -, g2, g3⟩ := getW_spec hphi hl hg.2 rfl h0
  have hkeys : ∀ (D D' : List (SymKey × Rows)), (∀ kv ∈ D, Proper kv.2) → SameShape D D' →
      D'.map (fun kv => kv.2.tail) = D.map (fun kv => kv.2.tail) →
      (∀ kv ∈ D', Proper kv.2) ∧ numSymm D' = numSymm D ∧
        D'.map (fun kv => (kv.1, kv.2.tail)) = D.map fun kv => (kv.1, kv.2.tail) := by
    intro D
    induction D with
    | nil =>
      intro D' _ hs _
      have : D' = [] := by simpa [SameShape] using hs
      subst this
      simp [numSymm]
    | cons kv D ih =>
      intro D' hp hs ht
      cases D' with
      | nil => simp [SameShape] at hs
      | cons kv' D' =>
        simp only [SameShape, List.map_cons, List.cons.injEq, Prod.mk.injEq] at hs ht
        obtain ⟨i1, i2, i3⟩ := ih D' (fun kv hkv => hp kv (by simp [hkv])) hs.2 ht.2
        obtain ⟨key, v⟩ := kv
        obtain ⟨key', v'⟩ := kv'
        obtain ⟨w, rows, hv, hne, hr, h1⟩ := hp (key, v) (by simp)
        dsimp only at hv hs ht
        subst hv
        cases v' with
        | nil => simp at hs
        | cons w' rows' =>
          simp only [List.map_cons, List.cons.injEq] at hs
          simp only [List.tail_cons] at ht
          obtain ⟨rfl, ht⟩ := ht
          obtain ⟨⟨rfl, hw, -⟩, -⟩ := hs
          refine ⟨?_, by simp only [numSymm] at i2; simp only [numSymm, List.map_cons, i2, List.headD_cons, hw], by simp [i3]⟩
          intro kv hkv
          rcases List.mem_cons.1 hkv with rfl | hkv
          · exact ⟨w', rows', rfl, by rintro rfl; exact hne (List.length_eq_zero_iff.1 hw.symm),
              fun r h => by rw [hr r h, hw], fun h => by rw [hw, h1 h]⟩
          · exact i1 kv hkv
  obtain ⟨k1, k2, k3⟩ := hkeys data data' hg.2 hs ht
  have hself := prepend_self [] data' k1
  rw [k3, List.nil_append, List.length_nil, ← C60_roundtrip hg.2] at hself
  have hw' : (data'.map fun kv => kv.2.headD []).flatten.length = (numSymm data).sum := by
    rw [List.length_flatten, List.map_map, ← k2]
    rfl
  have := g3 _ hw'
  rw [hself] at this
  refine hlt.trans_le ?_
  rw [g2]
  exact Real.sqrt_le_sqrt this

/-! ### What the number returned says about the rule -/

theorem ruleValue_comb (W : List ℝ) (P : List (List ℝ)) (c : List ℝ) (phi : List (List ℝ → ℝ)) :
    ruleValue W P (comb c phi) = (List.zipWith (fun a p => a * ruleValue W P p) c phi).sum := by
  induction c generalizing phi with
  | nil =>
    simp only [comb, List.zipWith_nil_left, List.sum_nil, ruleValue, mul_zero]
    rw [List.sum_eq_zero]
    intro x hx
    rw [List.mem_iff_getElem] at hx
    obtain ⟨i, hi, rfl⟩ := hx
    simp
  | cons a c ih =>
    cases phi with
    | nil =>
      simp only [comb, List.zipWith_nil_right, List.sum_nil, ruleValue, mul_zero]
      rw [List.sum_eq_zero]
      intro x hx
      rw [List.mem_iff_getElem] at hx
      obtain ⟨i, hi, rfl⟩ := hx
      simp
    | cons p phi =>
      rw [List.zipWith_cons_cons, List.sum_cons, ← ih]
      simp only [ruleValue, comb, List.zipWith_cons_cons, List.sum_cons]
      clear ih
      induction W generalizing P with
      | nil => simp
      | cons w W ih =>
        cases P with
        | nil => simp
        | cons x P =>
          simp only [List.zipWith_cons_cons, List.sum_cons, ih]
          ring

theorem cauchy (c : List ℝ) : ∀ e : List ℝ,
    (List.zipWith (· * ·) c e).sum ^ 2 ≤ (c.map (· ^ 2)).sum * (e.map (· ^ 2)).sum := by
  induction c with
  | nil =>
    intro e
    simp
  | cons a c ih =>
    intro e
    cases e with
    | nil => simp
    | cons b e =>
      have h := ih e
      have hc : 0 ≤ (c.map (· ^ 2)).sum := List.sum_nonneg fun x hx => by
        obtain ⟨y, -, rfl⟩ := List.mem_map.1 hx
        exact sq_nonneg y
      have he : 0 ≤ (e.map (· ^ 2)).sum := List.sum_nonneg fun x hx => by
        obtain ⟨y, -, rfl⟩ := List.mem_map.1 hx
        exact sq_nonneg y
      simp only [List.zipWith_cons_cons, List.map_cons, List.sum_cons]
      set S := (List.zipWith (· * ·) c e).sum
      set C := (c.map (· ^ 2)).sum
      set D := (e.map (· ^ 2)).sum
      have key : 2 * (a * b) * S ≤ a ^ 2 * D + b ^ 2 * C := by
        have h1 : |S| ≤ √C * √D := by
          rw [← Real.sqrt_mul hc]
          exact Real.abs_le_sqrt h
        have h2 : 2 * (a * b) * S ≤ 2 * |a * b| * (√C * √D) := by
          calc 2 * (a * b) * S ≤ |2 * (a * b) * S| := le_abs_self _
            _ = 2 * |a * b| * |S| := by rw [abs_mul, abs_mul]; norm_num
            _ ≤ _ := by gcongr
        have h3 := two_mul_le_add_sq (|a| * √D) (|b| * √C)
        rw [mul_pow, mul_pow, Real.sq_sqrt hc, Real.sq_sqrt he, sq_abs, sq_abs] at h3
        rw [abs_mul] at h2
        nlinarith
      nlinarith

/-- The error of a rule for a combination of the polynomials is at most the root of the sum of the squared
errors times the norm of the coefficients. -/
theorem C60_bound (phi : List (List ℝ → ℝ)) (b0 : ℝ) (W : List ℝ) (P : List (List ℝ)) (c : List ℝ)
    (hc : c.length = phi.length) :
    |ruleValue W P (comb c phi) - c.headD 0 * b0| ≤
      √(sqError phi b0 W P) * √((c.map (· ^ 2)).sum) := by
  rw [ruleValue_comb, ← Real.sqrt_mul (sqError_nonneg _ _ _ _)]
  refine Real.abs_le_sqrt ?_
  cases c with
  | nil =>
    have : phi = [] := List.length_eq_zero_iff.1 (by simpa using hc.symm)
    subst this
    simp [sqError]
  | cons a c =>
    cases phi with
    | nil => simp at hc
    | cons p phi =>
      have h := cauchy (a :: c) ((ruleValue W P p - b0) :: phi.map fun q => ruleValue W P q)
      simp only [List.zipWith_cons_cons, List.map_cons, List.sum_cons, List.map_map,
        List.zipWith_map_right, Function.comp_def] at h
      simp only [List.zipWith_cons_cons, List.sum_cons, List.headD_cons, sqError, List.map_cons]
      refine le_trans (le_of_eq ?_) (h.trans_eq (mul_comm _ _))
      ring

/-- The number is `0` exactly when the rule is exact for all combinations of the polynomials. -/
theorem C60_zero_iff (phi : List (List ℝ → ℝ)) (b0 : ℝ) (W : List ℝ) (P : List (List ℝ)) :
    √(sqError phi b0 W P) = 0 ↔
      ∀ c : List ℝ, c.length = phi.length → ruleValue W P (comb c phi) = c.headD 0 * b0 := by
  constructor
  · intro h c hc
    have := C60_bound phi b0 W P c hc
    rw [h, zero_mul] at this
    exact sub_eq_zero.1 (abs_nonpos_iff.1 this)
  · intro h
    rw [Real.sqrt_eq_zero (sqError_nonneg _ _ _ _)]
    cases phi with
    | nil => rfl
    | cons p ps =>
      have hz : ∀ (ps : List (List ℝ → ℝ)),
          (List.zipWith (fun a p => a * ruleValue W P p) (List.replicate ps.length 0) ps).sum = 0 := by
        intro ps
        induction ps with
        | nil => rfl
        | cons q qs ih => simp [List.replicate_succ, ih]
      have h0 : ruleValue W P p = b0 := by
        have := h (1 :: List.replicate ps.length 0) (by simp)
        rw [ruleValue_comb] at this
        simpa [hz] using this
      have hq : ∀ q ∈ ps, ruleValue W P q = 0 := by
        intro q hq
        obtain ⟨u, t, rfl⟩ := List.append_of_mem hq
        have := h (0 :: (List.replicate u.length 0 ++ 1 :: List.replicate t.length 0)) (by simp)
        rw [ruleValue_comb, List.zipWith_cons_cons, List.zipWith_append (by simp)] at this
        simpa [hz] using this
      rw [sqError, h0, sub_self, List.map_congr_left (g := fun _ => (0 : ℝ)) fun q h => by
        rw [hq q h]; norm_num]
      simp

/-! ### When there is no result -/

/-- Only files of the domain "T2" (in any case) can be improved. -/
theorem C60_only_t2 {domain : Option String} {E : Env}
    {minimize : (List ℝ → Except Err ℝ) → List ℝ → Except Err (List ℝ × ℝ)}
    {data : List (SymKey × Rows)} {out : List (SymKey × Rows) × ℝ}
    (h : optimize domain E minimize data = .ok out) : ∃ s, domain = some s ∧ s.toLower = "t2" := by
  unfold optimize at h
  split at h
  · exact absurd h (by simp)
  · rename_i s
    refine ⟨s, rfl, ?_⟩
    by_contra hne
    rw [if_neg hne] at h
    split_ifs at h <;> simp [runDomain, s2Names, c2Names, u3Names] at h

theorem C60_errors (E : Env) (minimize : (List ℝ → Except Err ℝ) → List ℝ → Except Err (List ℝ × ℝ))
    (data : List (SymKey × Rows)) :
    optimize none E minimize data = .error .exit ∧
    (∀ s : String, s.toLower = "s2" ∨ s.toLower = "c2" →
      optimize (some s) E minimize data = .error .importError) ∧
    (∀ s : String, s.toLower = "u3" → optimize (some s) E minimize data = .error .typeError) ∧
    (∀ s : String, s.toLower ∉ ["t2", "s2", "c2", "u3"] →
      optimize (some s) E minimize data = .error .exit) := by
  refine ⟨rfl, ?_, ?_, ?_⟩
  · rintro s (h | h) <;> simp [optimize, h, runDomain, s2Names, c2Names]
  · intro s h
    simp [optimize, h, runDomain, u3Names]
  · intro s h
    simp only [List.mem_cons, List.not_mem_nil, or_false, not_or] at h
    simp [optimize, h.1, h.2.1, h.2.2.1, h.2.2.2]

/-- There is no result when there are not more polynomials than weights. -/
theorem C60_too_many_weights {E : Env} (hphi : E.phi ≠ []) (hl : LstsqSpec E.lstsq)
    {minimize : (List ℝ → Except Err ℝ) → List ℝ → Except Err (List ℝ × ℝ)} (hm : MinimizeSpec minimize)
    {data : List (SymKey × Rows)} (hg : GoodData data) (hn : E.phi.length ≤ (numSymm data).sum)
    (out : List (SymKey × Rows) × ℝ) : run E minimize data ≠ .ok out := by
  intro h
  obtain ⟨d, v⟩ := out
  obtain ⟨r0, x, -, hmin, -, A, w, r, hw, -⟩ := run_ok h
  obtain ⟨hx, -⟩ := hm _ _ _ _ hmin
  obtain ⟨-, g1, -⟩ := getW_spec hphi hl hg.2 hx hw
  omega

/-! ### A run

The assumptions on the two library routines can be met: here are routines which meet them, and a run with
these which improves a rule. -/

theorem rowDot_eq_sum {n : ℕ} {a w : List ℝ} (ha : a.length = n) (hw : w.length = n) :
    rowDot a w = ∑ j : Fin n, a.getD j 0 * w.getD j 0 := by
  have : a = (List.range n).map fun i => a.getD i 0 := by
    apply List.ext_getElem
    · simp [ha]
    · intro i h1 h2
      simp [h1]
  conv_lhs => rw [this]
  rw [rowDot_map_range n _ w hw, Finset.sum_fin_eq_sum_range, Finset.sum_range, ← List.sum_ofFn]
  simp [List.ofFn_eq_map, List.map_map, ← List.map_coe_finRange_eq_range, Function.comp_def]

theorem sqRes_eq_sum {A : List (List ℝ)} {b : List ℝ} (hb : b.length = A.length) (w : List ℝ) :
    sqRes A b w = ∑ i : Fin A.length, (rowDot A[i] w - b.getD i 0) ^ 2 := by
  rw [sqRes, ← List.sum_ofFn]
  congr 1
  apply List.ext_getElem
  · simp [hb]
  · intro i h1 h2
    have : i < b.length := by rw [hb]; simpa using h2
    simp [this]

theorem exists_lstsq (A : List (List ℝ)) (b : List ℝ) (n : ℕ) (hA : ∀ r ∈ A, r.length = n)
    (hb : b.length = A.length) :
    ∃ w : List ℝ, w.length = n ∧ ∀ w' : List ℝ, w'.length = n → sqRes A b w ≤ sqRes A b w' := by
  let M : Matrix (Fin A.length) (Fin n) ℝ := fun i j => (A[i]).getD j 0
  let T : (Fin n → ℝ) →ₗ[ℝ] EuclideanSpace ℝ (Fin A.length) :=
    (WithLp.linearEquiv 2 ℝ (Fin A.length → ℝ)).symm.toLinearMap ∘ₗ M.mulVecLin
  let y : EuclideanSpace ℝ (Fin A.length) := WithLp.toLp 2 fun i => b.getD i 0
  have hT : ∀ w : List ℝ, w.length = n → sqRes A b w = ‖y - T fun j => w.getD j 0‖ ^ 2 := by
    intro w hw
    rw [sqRes_eq_sum hb, EuclideanSpace.norm_sq_eq]
    refine Finset.sum_congr rfl fun i _ => ?_
    rw [rowDot_eq_sum (a := A[i]) (hA _ (List.getElem_mem i.2)) hw, Real.norm_eq_abs, sq_abs, ← neg_sq]
    congr 1
    simp only [neg_sub]
    rfl
  obtain ⟨v, hv, hmin⟩ := Submodule.exists_norm_eq_iInf_of_complete_subspace (LinearMap.range T)
    (Submodule.complete_of_finiteDimensional _) y
  obtain ⟨u, rfl⟩ := hv
  have hu : (fun j : Fin n => (List.ofFn u).getD j 0) = u := by
    funext j
    simp
  refine ⟨List.ofFn u, by simp, fun w' hw' => ?_⟩
  rw [hT _ (by simp), hT _ hw', hu, hmin]
  have hle : (⨅ w : LinearMap.range T, ‖y - w‖) ≤ ‖y - T fun j => w'.getD j 0‖ :=
    ciInf_le ⟨0, by rintro _ ⟨x, rfl⟩; exact norm_nonneg _⟩
      (⟨_, LinearMap.mem_range_self T _⟩ : LinearMap.range T)
  have h0 : 0 ≤ ⨅ w : LinearMap.range T, ‖y - w‖ := Real.iInf_nonneg fun _ => norm_nonneg _
  exact pow_le_pow_left₀ h0 hle 2

/-- Least squares by choice, for matrices of full rank. -/
noncomputable def someLstsq (A : List (List ℝ)) (b : List ℝ) : List ℝ × List ℝ × ℕ :=
  open Classical in
  let n := (A.headD []).length
  if h : (∀ r ∈ A, r.length = n) ∧ b.length = A.length then
    let w := (exists_lstsq A b n h.1 h.2).choose
    (w, if n < A.length then [sqRes A b w] else [], min A.length n)
  else ([], [], 0)

theorem someLstsq_spec : LstsqSpec someLstsq := by
  intro A b n hA hb hne
  have hn : (A.headD []).length = n := by
    cases A with
    | nil => exact absurd rfl hne
    | cons r rs => exact hA r (by simp)
  have h : (∀ r ∈ A, r.length = (A.headD []).length) ∧ b.length = A.length := by
    rw [hn]; exact ⟨hA, hb⟩
  have hs := (exists_lstsq A b _ h.1 h.2).choose_spec
  unfold someLstsq
  dsimp only
  rw [dif_pos h]
  dsimp only
  subst hn
  refine ⟨hs.1, hs.2, le_rfl, ?_⟩
  by_cases hlt : (A.headD []).length < A.length
  · rw [if_pos hlt, if_pos ⟨min_eq_right hlt.le, hlt⟩]
  · rw [if_neg hlt, if_neg fun h => hlt h.2]

/-- A search which tries one other point. -/
noncomputable def tryPoint (y : List ℝ) (f : List ℝ → Except Err ℝ) (x : List ℝ) :
    Except Err (List ℝ × ℝ) :=
  if y.length = x.length then (f y).map fun v => (y, v) else (f x).map fun v => (x, v)

theorem tryPoint_spec (y : List ℝ) : MinimizeSpec (tryPoint y) := by
  intro f x x' v h
  unfold tryPoint at h
  split at h
  · rename_i hl
    cases hf : f y with
    | error e => rw [hf] at h; simp [Except.map] at h
    | ok u =>
      rw [hf] at h
      simp only [Except.map, Except.ok.injEq, Prod.mk.injEq] at h
      obtain ⟨rfl, rfl⟩ := h
      exact ⟨hl, hf⟩
  · cases hf : f x with
    | error e => rw [hf] at h; simp [Except.map] at h
    | ok u =>
      rw [hf] at h
      simp only [Except.map, Except.ok.injEq, Prod.mk.injEq] at h
      obtain ⟨rfl, rfl⟩ := h
      exact ⟨rfl, hf⟩

/-- Two polynomials on the triangle: `1`, and `x_0^2 - 1/6` with integral `0`. -/
noncomputable def exEnv : Env :=
  ⟨[fun _ => 1, fun x => x.getD 0 0 ^ 2 - 1 / 6], 1, someLstsq⟩

theorem exEnv_getW (t : ℝ) : ∃ c : ℝ,
    getW exEnv [(.d3_aa, [[1 / 3], [0]])] [t] =
      .ok (some ([[3], [6 * t ^ 2 - 4 * t + 1 / 2]], [c]),
        √((3 * c - 1) ^ 2 + ((6 * t ^ 2 - 4 * t + 1 / 2) * c) ^ 2)) ∧
    ∀ c', (3 * c - 1) ^ 2 + ((6 * t ^ 2 - 4 * t + 1 / 2) * c) ^ 2 ≤
      (3 * c' - 1) ^ 2 + ((6 * t ^ 2 - 4 * t + 1 / 2) * c') ^ 2 := by
  set s := 6 * t ^ 2 - 4 * t + 1 / 2 with hs
  have hd : xToDict [(.d3_aa, [[1 / 3], [0]])] [t] = [(.d3_aa, [[t]])] := by
    simp [xToDict, splits, npSplit, reshape, shape]
  have hP : pointsOnly [(.d3_aa, [[t]])] 2 =
      ([[t, t, 1 - 2 * t], [t, 1 - 2 * t, t], [1 - 2 * t, t, t]], [3]) := by
    simp [pointsOnly, columns, pointEntry, entryPoints, orbit, List.range_succ]
  have hA : (exEnv.phi.map fun phi => colSums
      ([[t, t, 1 - 2 * t], [t, 1 - 2 * t, t], [1 - 2 * t, t, t]].map phi) 0 [(3, 1)]) = [[3], [s]] := by
    simp only [exEnv, colSums, pySlice, List.map_cons, List.map_nil, List.range_one, List.length_cons,
      List.length_nil]
    norm_num [List.range_succ]
    rw [hs]
    ring
  have hb : rhs exEnv = [1, 0] := by simp [rhs, exEnv]
  obtain ⟨l1, l2, -, l4⟩ := someLstsq_spec [[3], [s]] [1, 0] 1 (by simp) rfl (by simp)
  have hrank : (someLstsq [[3], [s]] [1, 0]).2.2 = 1 := by
    unfold someLstsq
    dsimp only
    rw [dif_pos ⟨by simp, rfl⟩]
    rfl
  rw [hrank, if_pos ⟨rfl, by simp⟩] at l4
  obtain ⟨c, hc⟩ := List.length_eq_one_iff.1 l1
  have hq : ∀ c, sqRes [[3], [s]] [1, 0] [c] = (3 * c - 1) ^ 2 + (s * c) ^ 2 := by
    intro c
    simp [sqRes, rowDot]
  rw [hc] at l2 l4
  refine ⟨c, ?_, fun c' => ?_⟩
  · unfold getW
    have hn : numSymm [(SymKey.d3_aa, [[(1 : ℝ) / 3], [0]])] = [1] := rfl
    have hz : [3].zip [1] = [(3, 1)] := rfl
    have he : exEnv.lstsq = someLstsq := rfl
    rw [hd, hP, hb, hn]
    dsimp only
    rw [hz, if_neg (by norm_num), he, hA, hrank, if_neg (by simp), l4, hc, hq]
  · rw [← hq, ← hq]
    exact l2 [c'] rfl

/-- A run: the three vertices of the triangle are moved to the rule of degree two with the points
`(1/6, 1/6, 2/3)`. -/
example : GoodData [(.d3_aa, [[1 / 3], [0]])] ∧ exEnv.phi ≠ [] ∧ LstsqSpec exEnv.lstsq ∧
    MinimizeSpec (tryPoint [1 / 6]) ∧
    run exEnv (tryPoint [1 / 6]) [(.d3_aa, [[1 / 3], [0]])] = .ok ([(.d3_aa, [[1 / 3], [1 / 6]])], 0) ∧
    ∃ a r, getW exEnv [(.d3_aa, [[1 / 3], [0]])] (x0 [(.d3_aa, [[1 / 3], [0]])]) = .ok (some a, r) := by
  have hx0 : x0 [(.d3_aa, [[1 / 3], [0]])] = [0] := by simp [x0]
  obtain ⟨c, h1, -⟩ := exEnv_getW 0
  obtain ⟨c', h2, h3⟩ := exEnv_getW (1 / 6)
  have hc' : c' = 1 / 3 := by
    have := h3 (1 / 3)
    norm_num at this
    nlinarith
  have hpos : 0 < (3 * c - 1) ^ 2 + ((6 * 0 ^ 2 - 4 * 0 + 1 / 2) * c) ^ 2 := by nlinarith [sq_nonneg (c - 1 / 4)]
  refine ⟨⟨by simp, ?_⟩, by simp [exEnv], someLstsq_spec, tryPoint_spec _, ?_, ?_⟩
  · intro kv hkv
    rw [List.mem_singleton] at hkv
    subst hkv
    exact ⟨[1 / 3], [[0]], rfl, by simp, by simp, by simp⟩
  · have hd : xToDict [(.d3_aa, [[1 / 3], [0]])] [1 / 6] = [(.d3_aa, [[1 / 6]])] := by
      simp [xToDict, splits, npSplit, reshape, shape]
    subst hc'
    unfold run
    rw [hx0]
    simp only [residual, tryPoint, h1, h2, Except.map, bind, Except.bind, List.length_cons,
      List.length_nil, if_true]
    rw [if_neg]
    · simp only [hd, prepend]
      norm_num
    · norm_num at hpos ⊢
      positivity
  · rw [hx0]
    exact ⟨_, _, h1⟩

/-! ### The file -/

theorem entryPoints_unscale (f : Option ℝ) (kv : SymKey × Rows) :
    entryPoints 2 (fileEntry (unscale f kv)) = entryPoints 2 (fileEntry kv) := by
  cases f <;> rfl

theorem C60_read_eq (dim : ℕ) (C : Content) : read dim C = readScaled dim C := by
  unfold read readScaled
  cases C.factor with
  | none => rfl
  | some w =>
    dsimp only
    congr 1
    · simp only [expandSymmetries, List.map_map, List.map_flatten]
      congr 1
      refine List.map_congr_left fun kv _ => ?_
      simp only [Function.comp_def, entryWeights, fileEntry, List.headD_cons, List.tail_cons,
        List.map_flatten, List.map_replicate]
    · simp only [expandSymmetries, List.map_map]
      rfl

/-- The rule read from the data written (divided by the factor in the file) is the rule computed. -/
theorem read_unscale (dim : ℕ) (C : Content) (hf : ∀ w, C.factor = some w → w ≠ 0)
    (d : List (SymKey × Rows)) (hd : ∀ kv ∈ d, kv.2 ≠ []) (c : Option (List String)) (t : ℝ) :
    (read dim { C with data := d.map (unscale C.factor), comments := c, tol := t }).points =
        (expandSymmetries (d.map fileEntry) dim).1 ∧
      (read dim { C with data := d.map (unscale C.factor), comments := c, tol := t }).weights =
        (expandSymmetries (d.map fileEntry) dim).2 := by
  rw [C60_read_eq]
  unfold readScaled
  cases hC : C.factor with
  | none =>
    have : d.map (unscale none) = d := by
      conv_rhs => rw [← List.map_id d]
      rfl
    simp only [this, and_self]
  | some w =>
    have hw : w ≠ 0 := hf w hC
    have : (d.map (unscale (some w))).map (fun kv : SymKey × Rows =>
        (kv.1, ((kv.2.headD []).map fun v => v * w) :: kv.2.tail)) = d := by
      rw [List.map_map]
      conv_rhs => rw [← List.map_id d]
      refine List.map_congr_left fun kv hkv => ?_
      obtain ⟨key, v⟩ := kv
      have hne : v ≠ [] := hd _ hkv
      cases v with
      | nil => exact absurd rfl hne
      | cons a b => simp [unscale, hw, Function.comp_def]
    simp only [this, and_self]

/-- The run of the command line tool leaves the file as it is, or it writes a rule whose error is the new
`test_tolerance`; name, domain, degree and weight factor stay as they are. -/
theorem C60_main {E : Env} (hphi : E.phi ≠ []) (hl : LstsqSpec E.lstsq)
    {minimize : (List ℝ → Except Err ℝ) → List ℝ → Except Err (List ℝ × ℝ)} (hm : MinimizeSpec minimize)
    {C C' : Content} (hg : GoodData C.data) (hf : ∀ w, C.factor = some w → w ≠ 0)
    (h : main E minimize C = .ok C') :
    C' = C ∨
      (C'.name = C.name ∧ C'.domain = C.domain ∧ C'.degree = C.degree ∧ C'.factor = C.factor ∧
        SameShape C.data C'.data ∧
        (∀ s, s ∈ C'.comments.getD [] ↔
          s ∈ C.comments.getD [] ∨ s = "precision improved with quadpy-optimize") ∧
        (read 2 C').degree = (read 2 C).degree ∧
        C'.tol = √(sqError E.phi E.int_p0 (read 2 C').weights (read 2 C').points)) := by
  unfold main at h
  split at h
  · left
    simpa using h.symm
  · exact absurd h (by simp)
  · rename_i d v ho
    right
    obtain ⟨s, hs, ht⟩ := C60_only_t2 ho
    rw [hs, optimize] at ho
    simp only [ht, if_true, runDomain, t2Names, Bool.and_self, Bool.not_true] at ho
    rw [if_neg (by simp), if_neg (by simp)] at ho
    obtain ⟨r1, r2⟩ := C60_run hphi hl hm hg ho
    simp only [Except.ok.injEq] at h
    have hne : ∀ kv ∈ d, kv.2 ≠ [] := by
      intro kv hkv he
      have h1 : (kv.1, kv.2.map List.length) ∈ d.map (fun kv => (kv.1, kv.2.map List.length)) :=
        List.mem_map.2 ⟨kv, hkv, rfl⟩
      rw [r1] at h1
      obtain ⟨kv', hkv', e⟩ := List.mem_map.1 h1
      obtain ⟨w, rows, hv, -⟩ := hg.2 kv' hkv'
      rw [he, hv] at e
      simp at e
    obtain ⟨q1, q2⟩ := read_unscale 2 C hf d hne (addComment C.comments) v
    subst h
    refine ⟨rfl, rfl, rfl, rfl, ?_, ?_, rfl, by rw [q1, q2]; exact r2⟩
    · rw [SameShape, ← r1, List.map_map]
      refine List.map_congr_left fun kv hkv => ?_
      have := hne kv hkv
      obtain ⟨key, v⟩ := kv
      cases hC : C.factor with
      | none => rfl
      | some w =>
        cases v with
        | nil => exact absurd rfl this
        | cons a b => simp [unscale]
    · intro s
      simp only [addComment]
      split
      · rename_i hin
        constructor
        · exact Or.inl
        · rintro (h | rfl)
          · exact h
          · exact hin
      · simp

/-- The program ends normally exactly if it can decide: when the minimiser finds no smaller residual the file
remains as it is; when it finds one, the file gets that residual as its tolerance.  All other exceptions than the
`RuntimeError` of the first case leave the program. -/
theorem C60_outcome {E : Env} {minimize : (List ℝ → Except Err ℝ) → List ℝ → Except Err (List ℝ × ℝ)}
    {C : Content} {s : String} (hs : C.domain = some s) (ht : s.toLower = "t2") {r0 v : ℝ} {x : List ℝ}
    (h0 : residual E C.data (x0 C.data) = .ok r0)
    (hmin : minimize (residual E C.data) (x0 C.data) = .ok (x, v)) :
    (r0 ≤ v → main E minimize C = .ok C) ∧
    (v < r0 → ∀ A w r, getW E C.data x = .ok (some (A, w), r) →
      ∃ C', main E minimize C = .ok C' ∧ C'.tol = v) := by
  have ho : optimize C.domain E minimize C.data = run E minimize C.data := by
    rw [hs, optimize]
    simp only [ht, if_true, runDomain, t2Names, Bool.and_self, Bool.not_true]
    rw [if_neg (by simp), if_neg (by simp)]
  unfold main
  rw [ho]
  constructor
  · intro hle
    have : run E minimize C.data = .error .runtimeError := by
      simp only [run, h0, hmin, bind, Except.bind, if_pos hle]
    rw [this]
  · intro hlt A w r hw
    have : run E minimize C.data = .ok (prepend w 0 (xToDict C.data x), v) := by
      simp only [run, h0, hmin, bind, Except.bind, if_neg (not_le.2 hlt), hw]
    rw [this]
    exact ⟨_, rfl, rfl⟩

/-- For the other domains the program ends with an exception. -/
theorem C60_main_errors (E : Env) (minimize : (List ℝ → Except Err ℝ) → List ℝ → Except Err (List ℝ × ℝ))
    (C : Content) (h : ∀ s, C.domain = some s → s.toLower ≠ "t2") : ∃ e, main E minimize C = .error e := by
  obtain ⟨h1, h2, h3, h4⟩ := C60_errors E minimize C.data
  have : ∃ e, optimize C.domain E minimize C.data = .error e ∧ e ≠ .runtimeError := by
    cases hd : C.domain with
    | none => exact ⟨_, h1, by simp⟩
    | some s =>
      have hne := h s hd
      by_cases hs : s.toLower = "s2" ∨ s.toLower = "c2"
      · exact ⟨_, h2 s hs, by simp⟩
      · by_cases hu : s.toLower = "u3"
        · exact ⟨_, h3 s hu, by simp⟩
        · refine ⟨_, h4 s ?_, by simp⟩
          simp only [List.mem_cons, List.not_mem_nil, or_false, not_or]
          exact ⟨hne, fun h => hs (.inl h), fun h => hs (.inr h), hu⟩
  obtain ⟨e, he, hr⟩ := this
  refine ⟨e, ?_⟩
  unfold main
  rw [he]
  cases e <;> first | exact absurd rfl hr | rfl

theorem C60_comment_once (c : Option (List String)) : addComment (addComment c) = addComment c := by
  unfold addComment
  dsimp only
  by_cases h : "precision improved with quadpy-optimize" ∈ c.getD []
  · rw [if_pos h, if_pos h]
  · rw [if_neg h, if_pos (by simp)]

/-- All keys are written, `"data"` last. -/
theorem C60_keys {keys : List String} (h : "data" ∈ keys) :
    (writeKeys keys).Perm keys ∧ (writeKeys keys).getLast? = some "data" := by
  unfold writeKeys
  split
  · rename_i h'
    exact ⟨List.Perm.refl _, h'⟩
  · refine ⟨?_, by simp⟩
    exact (List.perm_append_comm).trans (List.perm_cons_erase h).symm

example : writeKeys ["name", "data", "degree"] = ["name", "degree", "data"] := by decide

/-- A file with the weight factor `1/2` and weights which are to be twice as large. -/
example : read 2 ⟨"x", some "T2", 1, 0, some (1 / 2), none, [(.centroid, [[2]])]⟩ =
    ⟨2, [1], [[1 / 3, 1 / 3, 1 / 3]], 1⟩ := by
  norm_num [read, expandSymmetries, fileEntry, columns, entryPoints, entryWeights, orbit]

end Optimize
end Quadpy
