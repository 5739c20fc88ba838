import Verif.Model.SchemeClass
import Mathlib.Tactic.NormNum
import Mathlib.Tactic.Linarith
import Mathlib.Tactic.Positivity

/-!
# C65 — the constructors keep what they are given, and warn of low precision
-/

namespace Quadpy.SchemeClass

/-- The classes whose objects have no attribute `domain` yet when the base class wants to warn. -/
def late : List Cls := [.s3, .un, .u2, .e3r2, .p3]

/-- The classes with a weight factor. -/
def factored : List Cls := [.t2, .t3, .s2, .e2r, .e2r2]

/-- The arguments have the dtype and the shape which the class demands. -/
def Valid (c : Cls) (a : Args) : Prop :=
  a.weights.dtype ≠ .other ∧ a.points.dtype ≠ .other ∧
  (c ∈ [.cn, .sn, .enr, .enr2] → a.rows = a.dim) ∧ (c ∈ [.c2, .s2, .e2r, .e2r2] → a.rows = 2) ∧
  (c ∈ [.c3, .t2] → a.rows = 3) ∧ (c = .s2 → a.points.data.length = a.weights.data.length) ∧
  (c ∈ factored → a.weights.dtype = .int → a.factor = none)

/-- The tolerance: classes in one variable do not take one. -/
noncomputable def tolOf (c : Cls) (a : Args) : ℝ := if c ∈ [.c1, .e1r, .e1r2] then 1 / 10 ^ 14 else a.tol

/-- The weights, with the weight factor. -/
def weightsOf (c : Cls) (a : Args) : List ℝ :=
  if c ∈ factored then a.weights.data.map (· * a.factor.getD 1) else a.weights.data

/-- `domain` as it should be. -/
def label (c : Cls) (a : Args) : String :=
  match c with
  | .c1 => "C1" | .c2 => "C2" | .c3 => "C3" | .cn => s!"Cn (n={a.dim})"
  | .e1r => "E1r" | .e1r2 => "E1r2" | .e2r => "E2r" | .e2r2 => "E2r2" | .e3r => "E3r" | .e3r2 => "E3r2"
  | .enr => s!"Enr (n={a.dim})" | .enr2 => s!"Enr2 (n={a.dim})"
  | .p3 => "P3" | .s2 => "S2" | .s3 => "S3" | .sn => s!"Sn (n={a.dim})"
  | .t2 => "T2" | .t3 => "T3" | .tn => s!"Tn (n={a.dim})"
  | .u2 => "U2" | .u3 => "U3" | .un => s!"Un (n={a.dim})" | .w3 => "W3"

/-- What the base class makes of the object. -/
noncomputable def after (s : World) (name : String) (weights : Arr (List ℝ)) (points : Arr (List (List ℝ)))
    (degree : ℕ) (source : Option String) (tol : ℝ) (comments : Option (List String)) (warn : List String) :
    World where
  self := { s.self with
    tol := some tol
    name := some name
    degree := some degree
    source := some source
    comments := some (comments.getD [])
    weights := some weights.data
    weightsSymbolic := if weights.dtype = .float64 then s.self.weightsSymbolic else some weights.data
    points := some points.data
    pointsSymbolic := if points.dtype = .float64 then s.self.pointsSymbolic else some points.data }
  warnings := s.warnings ++ warn

theorem baseInit_ok (s : World) (name : String) (weights : Arr (List ℝ)) (points : Arr (List (List ℝ)))
    (degree : ℕ) (source : Option String) (tol : ℝ) (comments : Option (List String))
    (hw : weights.dtype ≠ .other) (hp : points.dtype ≠ .other) (h : tol ≤ 1 / 10 ^ 12) :
    (baseInit name weights points degree source tol comments).run s =
      .ok ((), after s name weights points degree source tol comments []) := by
  obtain ⟨dw, w⟩ := weights
  obtain ⟨dp, p⟩ := points
  have h' : ¬ tol > 1 / 10 ^ 12 := not_lt.2 h
  cases dw <;> cases dp <;> first | exact absurd rfl hw | exact absurd rfl hp | skip
  all_goals
    simp only [baseInit, h', if_false]
    simp [setAttr, after]
    rfl

theorem baseInit_warn (s : World) (name d : String) (weights : Arr (List ℝ)) (points : Arr (List (List ℝ)))
    (degree : ℕ) (source : Option String) (tol : ℝ) (comments : Option (List String))
    (hw : weights.dtype ≠ .other) (hp : points.dtype ≠ .other) (h : 1 / 10 ^ 12 < tol)
    (hd : s.self.domain = some d) :
    (baseInit name weights points degree source tol comments).run s =
      .ok ((), after s name weights points degree source tol comments
        [name ++ " (" ++ d ++ ") has low precision"]) := by
  obtain ⟨dw, w⟩ := weights
  obtain ⟨dp, p⟩ := points
  have h' : tol > 1 / 10 ^ 12 := h
  cases dw <;> cases dp <;> first | exact absurd rfl hw | exact absurd rfl hp | skip
  all_goals
    simp only [baseInit, h', if_true]
    simp [setAttr, after, hd]
    rfl

theorem baseInit_fails (s : World) (name : String) (weights : Arr (List ℝ)) (points : Arr (List (List ℝ)))
    (degree : ℕ) (source : Option String) (tol : ℝ) (comments : Option (List String))
    (h : 1 / 10 ^ 12 < tol) (hd : s.self.domain = none) :
    (baseInit name weights points degree source tol comments).run s = .error (.attributeError "domain") := by
  have h' : tol > 1 / 10 ^ 12 := h
  simp only [baseInit, h', if_true]
  simp [hd]
  rfl

theorem run_setAttr (f : Obj → Obj) (s : World) : (setAttr f).run s = .ok ((), { s with self := f s.self }) := rfl

theorem run_assert (q : Prop) [Decidable q] (hq : q) (s : World) : (assert q).run s = .ok ((), s) := by
  rw [assert, if_pos hq]; rfl

theorem run_scale (a : Args) (h : a.weights.dtype = .int → a.factor = none) (s : World) :
    (scale a).run s = .ok (⟨a.weights.dtype, a.weights.data.map (· * a.factor.getD 1)⟩, s) := by
  rw [scale]
  cases hf : a.factor with
  | none =>
    simp
    rfl
  | some w =>
    have : ¬ a.weights.dtype = .int := fun h' => by rw [hf] at h; exact absurd (h h') (by simp)
    simp only [this, if_false]
    rfl

theorem ok_bind {α β : Type} (x : α) (f : α → Except Err β) : (Except.ok x >>= f) = f x := rfl

/-- What an object of the class is to look like. -/
structure Right (c : Cls) (a : Args) (W : World) : Prop where
  domain : W.self.domain = some (label c a)
  name : W.self.name = some a.name
  degree : W.self.degree = some a.degree
  source : c ≠ .e1r → W.self.source = some a.source
  tol : W.self.tol = some (tolOf c a)
  weights : W.self.weights = some (weightsOf c a)
  points : W.self.points = some a.points.data
  weightsSymbolic : W.self.weightsSymbolic = if a.weights.dtype = .float64 then none else some (weightsOf c a)
  pointsSymbolic : W.self.pointsSymbolic = if a.points.dtype = .float64 then none else some a.points.data
  comments : c ∈ [.cn, .c2, .tn, .t2, .u3] → W.self.comments = some (a.comments.getD [])
  warnings : W.warnings.length = if tolOf c a ≤ 1 / 10 ^ 12 then 0 else 1

/-- With good precision every constructor keeps what it is given, and does not warn; with low precision so do the
classes which set `domain` first, and they warn once. -/
theorem C65_keeps {c : Cls} {a : Args} (hv : Valid c a) (h : a.tol ≤ 1 / 10 ^ 12 ∨ c ∉ late) :
    ∃ W, make c a = .ok W ∧ Right c a W := by
  obtain ⟨hw, hp, h1, h2, h3, h4, h5⟩ := hv
  have h0 : (1 : ℝ) / 10 ^ 14 ≤ 1 / 10 ^ 12 := by norm_num
  have hfw : (⟨a.weights.dtype, a.weights.data.map (· * a.factor.getD 1)⟩ : Arr (List ℝ)).dtype ≠ .other := hw
  have h0' := h0
  rw [one_div, one_div] at h0'
  rcases le_or_gt a.tol (1 / 10 ^ 12) with ht | ht
  all_goals
    have ht' := ht
    rw [one_div] at ht'
  · cases c
    all_goals
      simp only [make, construct, cnInit, tnInit, setDomain, StateT.run_bind, run_setAttr, ok_bind]
      try rw [run_scale _ (h5 (by simp [factored])), ok_bind]
      try rw [run_assert _ (by first | exact h1 (by simp) | exact h2 (by simp) | exact h3 (by simp) | exact h4 rfl),
        ok_bind]
      try rw [run_assert _ (by first | exact h4 rfl), ok_bind]
      try rw [run_scale _ (h5 (by simp [factored])), ok_bind]
      first
      | rw [baseInit_ok _ _ _ _ _ _ _ _ hw hp ht]
      | rw [baseInit_ok _ _ _ _ _ _ _ _ hfw hp ht]
      | rw [baseInit_ok _ _ _ _ _ _ _ _ hw hp h0]
      try simp only [run_setAttr, ok_bind, StateT.run_bind]
      refine ⟨_, rfl, ?_⟩
      constructor <;> simp [label, tolOf, weightsOf, factored, after, ht', h0']
  · have hc : c ∉ late := h.resolve_left (not_le.2 ht)
    cases c
    all_goals
      first
      | (exfalso; apply hc; decide)
      | simp only [make, construct, cnInit, tnInit, setDomain, StateT.run_bind, run_setAttr, ok_bind]
        try rw [run_scale _ (h5 (by simp [factored])), ok_bind]
        try rw [run_assert _ (by first | exact h1 (by simp) | exact h2 (by simp) | exact h3 (by simp) | exact h4 rfl),
          ok_bind]
        try rw [run_assert _ (by first | exact h4 rfl), ok_bind]
        try rw [run_scale _ (h5 (by simp [factored])), ok_bind]
        first
        | rw [baseInit_warn _ _ _ _ _ _ _ _ _ hw hp ht rfl]
        | rw [baseInit_warn _ _ _ _ _ _ _ _ _ hfw hp ht rfl]
        | rw [baseInit_ok _ _ _ _ _ _ _ _ hw hp h0]
        try simp only [run_setAttr, ok_bind, StateT.run_bind]
        refine ⟨_, rfl, ?_⟩
        constructor <;> simp [label, tolOf, weightsOf, factored, after, ht', h0']

/-- With low precision five of the classes cannot be constructed: the warning needs an attribute which is set
later. -/
theorem C65_low_precision_fails {c : Cls} (hc : c ∈ late) {a : Args} (h : 1 / 10 ^ 12 < a.tol) :
    make c a = .error (.attributeError "domain") := by
  simp only [late, List.mem_cons, List.not_mem_nil, or_false] at hc
  rcases hc with rfl | rfl | rfl | rfl | rfl
  all_goals
    simp only [make, construct, StateT.run_bind]
    rw [baseInit_fails _ _ _ _ _ _ _ _ h rfl]
    rfl

/-- A weight factor and integer weights do not go together. -/
theorem C65_int_factor_fails {c : Cls} (hc : c ∈ factored) {a : Args} (h : a.weights.dtype = .int)
    (hf : a.factor ≠ none) : ∃ e, make c a = .error e := by
  obtain ⟨w, hw⟩ := Option.ne_none_iff_exists'.1 hf
  have hs : ∀ s, (scale a).run s = .error .typeError := by
    intro s
    simp only [scale, hw, h, if_true]
    rfl
  have ha : ∀ (q : Prop) [Decidable q] (s : World), (assert q).run s = .ok ((), s) ∨
      (assert q).run s = .error .assertionError := by
    intro q _ s
    by_cases hq : q
    · exact .inl (run_assert q hq s)
    · right; rw [assert, if_neg hq]; rfl
  simp only [factored, List.mem_cons, List.not_mem_nil, or_false] at hc
  rcases hc with rfl | rfl | rfl | rfl | rfl
  · exact ⟨.typeError, by simp only [make, construct, StateT.run_bind, hs]; rfl⟩
  · exact ⟨.typeError, by simp only [make, construct, StateT.run_bind, hs]; rfl⟩
  all_goals
    simp only [make, construct, StateT.run_bind, setDomain, run_setAttr, ok_bind]
    rcases ha (a.rows = 2) { self := { domain := some _ } } with h1 | h1
    · rw [h1, ok_bind]
      first
      | rw [hs]; exact ⟨_, rfl⟩
      | rcases ha (a.points.data.length = a.weights.data.length) { self := { domain := some _ } } with h2 | h2
        · rw [h2, ok_bind, hs]; exact ⟨_, rfl⟩
        · rw [h2]; exact ⟨_, rfl⟩
    · rw [h1]; exact ⟨_, rfl⟩

/-! ### `__str__` -/

theorem foldl_max_spec (a : ℝ) (l : List ℝ) :
    l.foldl max a ∈ a :: l ∧ ∀ b ∈ a :: l, b ≤ l.foldl max a := by
  induction l generalizing a with
  | nil => simp
  | cons b l ih =>
    obtain ⟨h1, h2⟩ := ih (max a b)
    rw [List.foldl_cons]
    constructor
    · rcases List.mem_cons.1 h1 with h | h
      · rw [h]
        rcases max_choice a b with h' | h' <;> rw [h'] <;> simp
      · exact List.mem_cons_of_mem _ (List.mem_cons_of_mem _ h)
    · intro c hc
      have h3 := h2 _ List.mem_cons_self
      rcases List.mem_cons.1 hc with rfl | h
      · exact (le_max_left _ _).trans h3
      · rcases List.mem_cons.1 h with rfl | h
        · exact (le_max_right _ _).trans h3
        · exact h2 c (List.mem_cons_of_mem _ h)

theorem foldl_min_spec (a : ℝ) (l : List ℝ) :
    l.foldl min a ∈ a :: l ∧ ∀ b ∈ a :: l, l.foldl min a ≤ b := by
  induction l generalizing a with
  | nil => simp
  | cons b l ih =>
    obtain ⟨h1, h2⟩ := ih (min a b)
    rw [List.foldl_cons]
    constructor
    · rcases List.mem_cons.1 h1 with h | h
      · rw [h]
        rcases min_choice a b with h' | h' <;> rw [h'] <;> simp
      · exact List.mem_cons_of_mem _ (List.mem_cons_of_mem _ h)
    · intro c hc
      have h3 := h2 _ List.mem_cons_self
      rcases List.mem_cons.1 hc with rfl | h
      · exact h3.trans (min_le_left _ _)
      · rcases List.mem_cons.1 h with rfl | h
        · exact h3.trans (min_le_right _ _)
        · exact h2 c (List.mem_cons_of_mem _ h)

/-- The line "max/min weight ratio" is `inf` or `nan` if and only if a weight vanishes; otherwise it is the largest
quotient of the absolute values of two weights. -/
theorem C65_ratio {weights : List ℝ} (h : weights ≠ []) (pos : Option Inside.Position) :
    ∃ s, summary weights pos = .ok s ∧ s.num = weights.length ∧ (s.positive ↔ ∀ w ∈ weights, 0 < w) ∧
      (s.ratio = none ↔ 0 ∈ weights) ∧
      ∀ r, s.ratio = some r → IsGreatest {q | ∃ v ∈ weights, ∃ w ∈ weights, q = |v| / |w|} r := by
  cases weights with
  | nil => exact absurd rfl h
  | cons a l =>
    obtain ⟨hi1, hi2⟩ := foldl_max_spec |a| (l.map abs)
    obtain ⟨lo1, lo2⟩ := foldl_min_spec |a| (l.map abs)
    rw [← List.map_cons] at hi1 hi2 lo1 lo2
    obtain ⟨v, hv, hv'⟩ := List.mem_map.1 hi1
    obtain ⟨w, hw, hw'⟩ := List.mem_map.1 lo1
    refine ⟨_, rfl, rfl, Iff.rfl, ?_, ?_⟩
    · dsimp only
      rw [← hw']
      split_ifs with h0
      · exact iff_of_true rfl (abs_eq_zero.1 h0 ▸ hw)
      · refine iff_of_false (by simp) fun hz => h0 ?_
        have := lo2 |0| (List.mem_map.2 ⟨0, hz, rfl⟩)
        rw [← hw', abs_zero] at this
        exact le_antisymm this (abs_nonneg w)
    · intro r hr
      dsimp only at hr
      rw [← hw', ← hv'] at hr
      split_ifs at hr with h0
      obtain rfl := Option.some.inj hr
      refine ⟨⟨v, hv, w, hw, rfl⟩, ?_⟩
      rintro _ ⟨v', hv1, w', hw1, rfl⟩
      have h1 : |v'| ≤ |v| := by rw [hv']; exact hi2 _ (List.mem_map.2 ⟨v', hv1, rfl⟩)
      have h2 : |w| ≤ |w'| := by rw [hw']; exact lo2 _ (List.mem_map.2 ⟨w', hw1, rfl⟩)
      exact div_le_div₀ (abs_nonneg v) h1 (lt_of_le_of_ne (abs_nonneg w) (Ne.symm h0)) h2

/-! ### Examples -/

/-- A rule with low precision. -/
noncomputable def exArgs : Args where
  name := "x"
  dim := 3
  weights := ⟨.float64, [1]⟩
  points := ⟨.int, [[0, 0, 0]]⟩
  rows := 3
  degree := 1
  source := some "somebody"
  tol := 1 / 10 ^ 8
  comments := none
  factor := none

/-- As a rule on the cube it can be made, and warns; on the ball it cannot. -/
example : (∃ W, make .c3 exArgs = .ok W ∧ W.self.domain = some "C3" ∧ W.self.pointsSymbolic = some [[0, 0, 0]] ∧
    W.warnings.length = 1) ∧ make .s3 exArgs = .error (.attributeError "domain") := by
  have h : ¬ exArgs.tol ≤ 1 / 10 ^ 12 := by norm_num [exArgs]
  obtain ⟨W, h1, h2⟩ := C65_keeps (c := .c3) (a := exArgs)
    (by simp [Valid, exArgs, factored]) (.inr (by simp [late]))
  have h3 := h2.warnings
  rw [show tolOf .c3 exArgs = exArgs.tol by simp [tolOf], if_neg h] at h3
  refine ⟨⟨W, h1, h2.domain, ?_, h3⟩, C65_low_precision_fails (by simp [late]) (not_le.1 h)⟩
  rw [h2.pointsSymbolic]
  simp [exArgs]

/-- Integer weights in a file with a weight factor. -/
example : ∃ e, make .t2 { exArgs with weights := ⟨.int, [2]⟩, factor := some (1 / 2) } = .error e :=
  C65_int_factor_fails (by simp [factored]) rfl (by simp)

/-- The ratio of Simpson's rule is 4. -/
example : ∃ s, summary [1 / 3, 4 / 3, 1 / 3] none = .ok s ∧ s.num = 3 ∧ s.ratio = some 4 := by
  refine ⟨_, rfl, rfl, ?_⟩
  norm_num [abs_of_pos]

end Quadpy.SchemeClass
