import Verif.Model.FindShapes
import Verif.Lemmas.Arrays
import Verif.Model.C1
import Mathlib.Tactic.NormNum
import Mathlib.Tactic.Linarith

/-!
# C54: `_find_shapes` and C1Scheme.integrate for arrays of intervals

`intervals` has the shape `(2,) + D + S`, the integrand takes arrays of shape `D` to arrays of shape
`R`, so that its values at the points have the shape `R + S + (N,)`.
-/

namespace Quadpy
namespace C1
open NdArray

theorem commonPrefix_append (s a b : List ℕ) :
    commonPrefix (s ++ a) (s ++ b) = s ++ commonPrefix a b := by
  induction s with
  | nil => rfl
  | cons x s ih => simp [commonPrefix, ih]

theorem commonPrefix_nil (a b : List ℕ) (h : a = [] ∨ b = [] ∨ a.head? ≠ b.head?) :
    commonPrefix a b = [] := by
  cases a <;> cases b <;> simp_all [commonPrefix, eq_comm]

/-- With the shape of the domain given, the shapes are found. -/
theorem C54_find_domain (D R S : List ℕ) (N : ℕ) :
    findShapes (R ++ S ++ [N]) (2 :: (D ++ S)) N (some D) none = some (D, R, S) := by
  have h1 : (2 :: (D ++ S)).drop (1 + D.length) = S := by simp [Nat.add_comm 1]
  have h2 : (R ++ S ++ [N]).take ((R ++ S ++ [N]).length - (S.length + 1)) = R := by
    simp
  simp only [findShapes, h1, h2]
  simp

/-- With the shape of the range given, the shapes are found. -/
theorem C54_find_range (D R S : List ℕ) (N : ℕ) :
    findShapes (R ++ S ++ [N]) (2 :: (D ++ S)) N none (some R) = some (D, R, S) := by
  have h1 : ((R ++ S ++ [N]).take ((R ++ S ++ [N]).length - 1)).drop R.length = S := by
    rw [List.length_append, List.length_singleton, Nat.add_sub_cancel, List.take_left,
      List.drop_left]
  have h2 : (if S.length = 0 then (2 :: (D ++ S)).drop 1 else
      ((2 :: (D ++ S)).take ((2 :: (D ++ S)).length - S.length)).drop 1) = D := by
    split_ifs with h
    · rw [List.length_eq_zero_iff.1 h]; simp
    · rw [show (2 :: (D ++ S)).length - S.length = (2 :: D).length by simp; omega,
        ← List.cons_append, List.take_left]
      rfl
  simp only [findShapes, h1, h2]
  simp

/-- With both shapes given, they are returned. -/
theorem C54_find_both (D R S : List ℕ) (N : ℕ) :
    findShapes (R ++ S ++ [N]) (2 :: (D ++ S)) N (some D) (some R) = some (D, R, S) := by
  have h1 : (2 :: (D ++ S)).drop (1 + D.length) = S := by simp [Nat.add_comm 1]
  simp only [findShapes, h1]
  simp

/-- With no shape given: a common tail `t` of the two shapes is taken for a part of the shape of the
set of intervals. -/
theorem C54_find_default (D R t S : List ℕ) (N : ℕ)
    (h : D = [] ∨ R = [] ∨ D.getLast? ≠ R.getLast?) :
    findShapes (R ++ t ++ S ++ [N]) (2 :: (D ++ t ++ S)) N none none = some (D, R, t ++ S) := by
  have hS : (commonPrefix ((2 :: (D ++ t ++ S)).reverse.take
      (min ((2 :: (D ++ t ++ S)).length - 1) ((R ++ t ++ S ++ [N]).length - 1)))
      (((R ++ t ++ S ++ [N]).reverse.drop 1).take
      (min ((2 :: (D ++ t ++ S)).length - 1) ((R ++ t ++ S ++ [N]).length - 1)))).reverse =
      t ++ S := by
    have hm : min ((2 :: (D ++ t ++ S)).length - 1) ((R ++ t ++ S ++ [N]).length - 1) =
        (t ++ S).reverse.length + min D.length R.length := by
      simp; omega
    have h1 : (2 :: (D ++ t ++ S)).reverse = (t ++ S).reverse ++ (D.reverse ++ [2]) := by simp
    have h2 : (R ++ t ++ S ++ [N]).reverse.drop 1 = (t ++ S).reverse ++ R.reverse := by simp
    rw [hm, h1, h2, List.take_length_add_append, List.take_length_add_append, commonPrefix_append,
      commonPrefix_nil]
    · simp
    · rw [List.take_append_of_le_length (by simp)]
      rcases Nat.eq_zero_or_pos (min D.length R.length) with h0 | h0
      · left; simp [h0]
      · right; right
        obtain ⟨k, hk⟩ : ∃ k, min D.length R.length = k + 1 := ⟨_, (Nat.succ_pred_eq_of_pos h0).symm⟩
        have hD : D ≠ [] := by rintro rfl; simp at h0
        have hR : R ≠ [] := by rintro rfl; simp at h0
        rw [hk, List.head?_take, List.head?_take]
        simpa [hD, hR] using h
  have h2 : (if (t ++ S).length = 0 then (2 :: (D ++ t ++ S)).drop 1 else
      ((2 :: (D ++ t ++ S)).take ((2 :: (D ++ t ++ S)).length - (t ++ S).length)).drop 1) = D := by
    split_ifs with h
    · rw [List.append_assoc, List.length_eq_zero_iff.1 h]; simp
    · rw [show (2 :: (D ++ t ++ S)).length - (t ++ S).length = (2 :: D).length by simp; omega,
        List.append_assoc, ← List.cons_append, List.take_left]
      rfl
  have h3 : (R ++ t ++ S ++ [N]).take ((R ++ t ++ S ++ [N]).length - ((t ++ S).length + 1)) = R := by
    rw [show (R ++ t ++ S ++ [N]).length - ((t ++ S).length + 1) = R.length by simp; omega,
      List.append_assoc, List.append_assoc, List.take_left]
  simp only [findShapes, hS, h2, h3]
  simp

theorem exists_common_suffix (D R : List ℕ) : ∃ D' R' t, D = D' ++ t ∧ R = R' ++ t ∧
    (D' = [] ∨ R' = [] ∨ D'.getLast? ≠ R'.getLast?) := by
  induction D using List.reverseRecOn generalizing R with
  | nil => exact ⟨[], R, [], by simp⟩
  | append_singleton D a ih =>
    rcases List.eq_nil_or_concat R with rfl | ⟨R, b, rfl⟩
    · exact ⟨D ++ [a], [], [], by simp⟩
    · by_cases h : a = b
      · subst h
        obtain ⟨D', R', t, h1, h2, h3⟩ := ih R
        exact ⟨D', R', t ++ [a], by simp [h1], by simp [h2], h3⟩
      · exact ⟨D ++ [a], R ++ [b], [], by simp, by simp, by simp [h]⟩

/-- With no shape given, the shapes are found if and only if the last axes of domain and range
differ (or one of them has none). -/
theorem C54_find_iff (D R S : List ℕ) (N : ℕ) :
    findShapes (R ++ S ++ [N]) (2 :: (D ++ S)) N none none = some (D, R, S) ↔
      (D = [] ∨ R = [] ∨ D.getLast? ≠ R.getLast?) := by
  constructor
  · intro h
    obtain ⟨D', R', t, rfl, rfl, h3⟩ := exists_common_suffix D R
    rw [C54_find_default D' R' t S N h3] at h
    have ht : t = [] := by
      have := congrArg (fun r => r.map fun r => r.2.2.length) h
      simpa using this
    subst ht
    simpa using h3
  · intro h
    simpa using C54_find_default D R [] S N h

/-- The value of the rule on the interval with index `i.drop R.length` of the set: the length of the
interval, measured over the indices `L`, times the weighted sum. -/
noncomputable def lineRule (points weights : List ℝ) (f : (List ℕ → ℝ) → List ℕ → ℝ)
    (L : List (List ℕ)) (a b : List ℕ → ℝ) (ρ : List ℕ) : ℝ :=
  1 / 2 * Real.sqrt ((L.map fun δ => (b δ - a δ) ^ 2).sum) *
    (List.zipWith (fun w p => w * f (fun δ => a δ * ((1 - p) / 2) + b δ * ((1 + p) / 2)) ρ)
      weights points).sum

theorem mem_indices {δ D : List ℕ} : δ ∈ indices D ↔ Valid δ D := by
  induction D generalizing δ with
  | nil => simp [indices, Valid]
  | cons d D ih =>
    simp only [indices, List.mem_flatMap, List.mem_range, List.mem_map, ih]
    constructor
    · rintro ⟨k, hk, e, he, rfl⟩; exact .cons hk he
    · intro h
      cases h with
      | cons h1 h2 => exact ⟨_, h1, _, h2, rfl⟩

theorem sum_zip (w p : List ℝ) (h : w.length = p.length) (g : ℝ → ℝ) :
    ∑ k : Fin w.length, w[k] * g (p.getD k.val 0) = (List.zipWith (fun w p => w * g p) w p).sum := by
  induction w generalizing p with
  | nil => cases p <;> simp_all
  | cons a w ih =>
    cases p with
    | nil => simp at h
    | cons b p =>
      rw [List.zipWith_cons_cons, List.sum_cons, ← ih p (by simpa using h)]
      erw [Fin.sum_univ_succ]
      simp

/-- What `integrate` returns, whatever shapes `_find_shapes` has found. -/
theorem C54_value (points weights : List ℝ) (D R S : List ℕ) (f : (List ℕ → ℝ) → List ℕ → ℝ)
    (iv : NdArray) (dom ran : Option (List ℕ)) (D' R' S' : List ℕ)
    (hw : weights.length = points.length) (hiv : iv.shape = 2 :: (D ++ S))
    (hf : ∀ u v : List ℕ → ℝ, (∀ δ ∈ indices D, u δ = v δ) → f u = f v)
    (hs : findShapes (R ++ S ++ [points.length]) (2 :: (D ++ S)) points.length dom ran =
      some (D', R', S')) (hD : D' ++ S' = D ++ S) (hR : R' ++ S' = R ++ S) :
    ∃ Q, integrateA points weights D.length R f iv dom ran = some Q ∧ Q.shape = R ++ S ∧
      ∀ ρ ∈ indices R, ∀ σ ∈ indices S, ∀ ρ' ∈ indices R', ∀ σ' ∈ indices S', ρ' ++ σ' = ρ ++ σ →
        Q.get (ρ ++ σ) =
          1 / 2 * Real.sqrt (((indices D').map fun δ =>
            (iv.get (1 :: (δ ++ σ')) - iv.get (0 :: (δ ++ σ'))) ^ 2).sum) *
          (List.zipWith (fun w p => w * f (fun δ => iv.get (0 :: (δ ++ σ)) * ((1 - p) / 2) +
            iv.get (1 :: (δ ++ σ)) * ((1 + p) / 2)) ρ) weights points).sum := by
  obtain ⟨x, hx, hxs, hxg⟩ : ∃ x, ((iv.at 0).outer
        (NdArray.ofList (points.map fun p => 0.5 * (1.0 - p)))).add
      ((iv.at 1).outer (NdArray.ofList (points.map fun p => 0.5 * (1.0 + p)))) = some x ∧
      x.shape = D ++ S ++ [points.length] ∧ ∀ i, Valid i (D ++ S) → ∀ p, p < points.length →
        x.get (i ++ [p]) = iv.get (0 :: i) * ((1 - points.getD p 0) / 2) +
          iv.get (1 :: i) * ((1 + points.getD p 0) / 2) := by
    have h0 : ((iv.at 0).outer (NdArray.ofList (points.map fun p => 0.5 * (1.0 - p)))).shape =
        D ++ S ++ [points.length] := by simp [outer, NdArray.at, NdArray.ofList, hiv]
    have h1 : ((iv.at 1).outer (NdArray.ofList (points.map fun p => 0.5 * (1.0 + p)))).shape =
        D ++ S ++ [points.length] := by simp [outer, NdArray.at, NdArray.ofList, hiv]
    rw [add, h0, h1, bshape_self]
    refine ⟨_, rfl, rfl, fun i hi p hp => ?_⟩
    dsimp only
    have V := Valid.append hi (.one hp)
    rw [bget_valid (by rw [h0]; exact V), bget_valid (by rw [h1]; exact V)]
    have e : (iv.at 0).shape.length = i.length := by
      simp only [NdArray.at, hiv, List.tail_cons]; exact hi.length_eq.symm
    have e' : (iv.at 1).shape.length = i.length := e
    simp only [outer]
    rw [e, e', List.take_left, List.drop_left]
    simp only [NdArray.at, NdArray.ofList, List.headD_cons]
    simp [List.getD_eq_getElem?_getD, List.getElem?_eq_getElem hp]
    norm_num
    ring
  have hfs : (applyV D.length R f x).shape = R ++ S ++ [points.length] := by
    simp [applyV, hxs]
  have hdot := dotLast_some (applyV D.length R f x) weights (by rw [hfs]; simp [hw])
  have hbs : bshape S' (R ++ S) = some (R ++ S) := by rw [← hR]; exact bshape_suffix' R' S'
  have hdl : (R ++ S ++ [points.length]).dropLast = R ++ S := List.dropLast_concat
  have hS' : iv.shape.tail.drop D'.length = S' := by
    rw [hiv, List.tail_cons, ← hD, List.drop_left]
  refine ⟨⟨R ++ S, fun i => NdArray.bget ⟨S', fun i => 0.5 * Real.sqrt (((indices D').map fun δ =>
    ((iv.at 1).get (δ ++ i) - (iv.at 0).get (δ ++ i)) ^ 2).sum)⟩ i * NdArray.bget ⟨R ++ S, fun i =>
    ∑ p : Fin weights.length, weights[p] * (applyV D.length R f x).get (i ++ [p.val])⟩ i⟩,
    ?_, rfl, ?_⟩
  · simp only [integrateA, hx, Option.bind_some]
    rw [hdot]
    simp only [hfs, hdl]
    rw [hiv, hs]
    simp only [Option.bind_some]
    rw [← hiv, hS', mul]
    simp only [hbs, Option.map_some]
  · intro ρ hρ σ hσ ρ' hρ' σ' hσ' heq
    rw [mem_indices] at hρ hσ hρ' hσ'
    dsimp only
    rw [bget_valid (i := ρ ++ σ) (a := ⟨R ++ S, _⟩) (hρ.append hσ)]
    rw [← heq, bget_append (a := ⟨S', _⟩) (i := σ') hσ', heq]
    dsimp only
    congr 1
    · norm_num [NdArray.at]
    · rw [← sum_zip weights points hw fun p => f (fun δ => iv.get (0 :: (δ ++ σ)) * ((1 - p) / 2) +
            iv.get (1 :: (δ ++ σ)) * ((1 + p) / 2)) ρ]
      refine Finset.sum_congr rfl fun p _ => ?_
      congr 1
      simp only [applyV]
      have hl := hρ.length_eq
      rw [← hl, List.append_assoc, List.take_left, List.drop_left]
      refine congrFun (hf _ _ fun δ hδ => ?_) ρ
      rw [← List.append_assoc, hxg _ ((mem_indices.1 hδ).append hσ) _ (hw ▸ p.isLt)]

/-- **Right shapes**: if `_find_shapes` finds the shapes, the result has the shape `R + S` and the
entry for each interval of the set is the value of the rule on this interval alone. -/
theorem C54_integrate (points weights : List ℝ) (D R S : List ℕ) (f : (List ℕ → ℝ) → List ℕ → ℝ)
    (iv : NdArray) (dom ran : Option (List ℕ))
    (hw : weights.length = points.length) (hiv : iv.shape = 2 :: (D ++ S))
    (hf : ∀ u v : List ℕ → ℝ, (∀ δ ∈ indices D, u δ = v δ) → f u = f v)
    (hs : findShapes (R ++ S ++ [points.length]) (2 :: (D ++ S)) points.length dom ran =
      some (D, R, S)) :
    ∃ Q, integrateA points weights D.length R f iv dom ran = some Q ∧ Q.shape = R ++ S ∧
      ∀ ρ ∈ indices R, ∀ σ ∈ indices S, Q.get (ρ ++ σ) =
        lineRule points weights f (indices D) (fun δ => iv.get (0 :: (δ ++ σ)))
          (fun δ => iv.get (1 :: (δ ++ σ))) ρ := by
  obtain ⟨Q, h1, h2, h3⟩ := C54_value points weights D R S f iv dom ran D R S hw hiv hf hs rfl rfl
  exact ⟨Q, h1, h2, fun ρ hρ σ hσ => h3 ρ hρ σ hσ ρ hρ σ hσ rfl⟩

/-- The shapes are found whenever the caller gives one of them, and by default if the last axes of
domain and range differ. -/
theorem C54_integrate_given (points weights : List ℝ) (D R S : List ℕ)
    (f : (List ℕ → ℝ) → List ℕ → ℝ) (iv : NdArray) (dom ran : Option (List ℕ))
    (hw : weights.length = points.length) (hiv : iv.shape = 2 :: (D ++ S))
    (hf : ∀ u v : List ℕ → ℝ, (∀ δ ∈ indices D, u δ = v δ) → f u = f v)
    (hd : dom = none ∨ dom = some D) (hr : ran = none ∨ ran = some R)
    (h : dom = some D ∨ ran = some R ∨ D = [] ∨ R = [] ∨ D.getLast? ≠ R.getLast?) :
    ∃ Q, integrateA points weights D.length R f iv dom ran = some Q ∧ Q.shape = R ++ S ∧
      ∀ ρ ∈ indices R, ∀ σ ∈ indices S, Q.get (ρ ++ σ) =
        lineRule points weights f (indices D) (fun δ => iv.get (0 :: (δ ++ σ)))
          (fun δ => iv.get (1 :: (δ ++ σ))) ρ := by
  refine C54_integrate points weights D R S f iv dom ran hw hiv hf ?_
  rcases hd with rfl | rfl <;> rcases hr with rfl | rfl
  · exact (C54_find_iff D R S _).2 (by simpa using h)
  · exact C54_find_range D R S _
  · exact C54_find_domain D R S _
  · exact C54_find_both D R S _

/-- A scalar function on an array of intervals `[a, b]` of any shape `S`: the entries are the values
of `integrate` on the single intervals. -/
theorem C54_scalar (points weights : List ℝ) (S : List ℕ) (g : ℝ → ℝ) (iv : NdArray)
    (hw : weights.length = points.length) (hiv : iv.shape = 2 :: S) :
    ∃ Q, integrateA points weights 0 [] (fun u _ => g (u [])) iv none none = some Q ∧ Q.shape = S ∧
      ∀ σ ∈ indices S, Q.get σ = integrate1 points weights g (iv.get (0 :: σ)) (iv.get (1 :: σ)) := by
  obtain ⟨Q, h1, h2, h3⟩ := C54_integrate_given points weights [] [] S (fun u _ => g (u [])) iv none
    none hw hiv (fun u v h => by funext _; rw [h [] (by simp [indices])]) (.inl rfl) (.inl rfl)
    (by simp)
  refine ⟨Q, h1, h2, fun σ hσ => ?_⟩
  have := h3 [] (by simp [indices]) σ hσ
  simp only [List.nil_append] at this
  rw [this]
  simp only [lineRule, integrate1, integrate, Adaptive.len, Adaptive.affine, Adaptive.vdot, indices]
  simp only [List.map_cons, List.map_nil, List.sum_cons, List.sum_nil, add_zero, List.nil_append,
    Finset.univ_unique, Finset.sum_singleton]
  congr 1
  rw [List.zipWith_map_left, List.zipWith_comm]
  congr 1
  refine congrFun (congrFun (congrArg _ ?_) _) _
  funext p w
  rw [mul_comm]
  congr 2
  ring

/-- **Wrong shapes**: a function from `ℝ^2` to `ℝ^2` on one segment.  The axis of length two is taken
for the axis of two intervals, and the lengths are those of the projections: the identity on the
segment from `(0, 0)` to `(3, 4)` with the midpoint rule gives `(4.5, 8)` instead of `(7.5, 10)`. -/
theorem C54_ambiguous : ∃ (iv : NdArray) (f : (List ℕ → ℝ) → List ℕ → ℝ) (Q Q' : NdArray),
    iv.shape = [2, 2] ∧
    integrateA [0] [2] 1 [2] f iv none none = some Q ∧
    integrateA [0] [2] 1 [2] f iv (some [2]) none = some Q' ∧
    Q'.get [0] = 7.5 ∧ Q'.get [1] = 10 ∧ Q.get [0] = 4.5 ∧ Q.get [1] = 8 := by
  let iv : NdArray := ⟨[2, 2], fun i =>
    if i.getD 0 0 = 0 then 0 else if i.getD 1 0 = 0 then 3 else 4⟩
  let f : (List ℕ → ℝ) → List ℕ → ℝ := fun u ρ => if ρ = [0] then u [0] else u [1]
  have hf : ∀ u v : List ℕ → ℝ, (∀ δ ∈ indices [2], u δ = v δ) → f u = f v := fun u v h => by
    funext ρ
    simp only [f]
    rw [h [0] (by decide), h [1] (by decide)]
  obtain ⟨Q, h1, -, h3⟩ := C54_value [0] [2] [2] [2] [] f iv none none [] [] [2] rfl rfl hf
    (by simpa using C54_find_default [] [] [2] [] 1 (.inl rfl)) rfl rfl
  obtain ⟨Q', h1', -, h3'⟩ := C54_integrate [0] [2] [2] [2] [] f iv (some [2]) none rfl rfl hf
    (C54_find_domain [2] [2] [] 1)
  have hs : √(25 : ℝ) = 5 := by
    rw [show (25 : ℝ) = 5 ^ 2 by norm_num]; exact Real.sqrt_sq (by norm_num)
  have hs9 : √(9 : ℝ) = 3 := by
    rw [show (9 : ℝ) = 3 ^ 2 by norm_num]; exact Real.sqrt_sq (by norm_num)
  have hs16 : √(16 : ℝ) = 4 := by
    rw [show (16 : ℝ) = 4 ^ 2 by norm_num]; exact Real.sqrt_sq (by norm_num)
  refine ⟨iv, f, Q, Q', rfl, h1, h1', ?_, ?_, ?_, ?_⟩
  · have := h3' [0] (by decide) [] (by decide)
    simp only [List.append_nil] at this
    rw [this]
    norm_num [lineRule, f, iv, indices, List.range_succ, hs]
  · have := h3' [1] (by decide) [] (by decide)
    simp only [List.append_nil] at this
    rw [this]
    norm_num [lineRule, f, iv, indices, List.range_succ, hs]
  · have := h3 [0] (by decide) [] (by decide) [] (by decide) [0] (by decide) rfl
    simp only [List.append_nil] at this
    rw [this]
    norm_num [f, iv, indices, List.range_succ, hs9, hs16]
  · have := h3 [1] (by decide) [] (by decide) [] (by decide) [1] (by decide) rfl
    simp only [List.append_nil] at this
    rw [this]
    norm_num [f, iv, indices, List.range_succ, hs9, hs16]

end C1
end Quadpy
