import Verif.Model.TestHelpers
import Mathlib.Tactic.Linarith
import Mathlib.Data.Prod.Lex
import Mathlib.Data.String.Basic

/-!
# C67: find_best_scheme picks the best of the eligible schemes
-/

namespace Quadpy.TestHelpers
open Quadpy

/-- What a user asks of a scheme: the degree, positive weights, allowed points, full precision, allowed
symmetries. -/
def Wanted (degree : ℕ) (pointsOkay : List (List ℝ) → Bool) (symmetriesOkay : List String → Bool)
    (c : Candidate) : Prop :=
  degree ≤ c.degree ∧ (∀ w ∈ c.weights, 0 ≤ w) ∧ pointsOkay c.points = true ∧ c.testTolerance ≤ 1 / 10 ^ 13 ∧
    ∃ keys, c.keys = some keys ∧ symmetriesOkay keys = true

theorem eligible_iff {degree : ℕ} {pointsOkay : List (List ℝ) → Bool} {symmetriesOkay : List String → Bool}
    {c : Candidate} : eligible degree pointsOkay symmetriesOkay c = true ↔
      Wanted degree pointsOkay symmetriesOkay c := by
  unfold eligible Wanted
  cases hk : c.keys with
  | none => simp
  | some keys =>
    simp only [List.any_eq_true, decide_eq_true_eq, gt_iff_lt, Option.some.injEq, exists_eq_left']
    split_ifs with h1 h2 h3 h4
    · simp; omega
    · obtain ⟨w, h2, h5⟩ := h2
      simp only [Bool.false_eq_true, false_iff]
      rintro ⟨-, h, -⟩
      exact absurd (h w h2) (not_le.2 h5)
    · simp only [Bool.not_eq_true'] at h3
      simp [h3]
    · simp only [Bool.false_eq_true, false_iff]
      rintro ⟨-, -, -, h, -⟩
      exact absurd h (not_le.2 h4)
    · push Not at h1 h2 h4
      simp only [Bool.not_eq_true', Bool.not_eq_false] at h3
      exact ⟨fun h => ⟨h1, h2, h3, h4, h⟩, fun h => h.2.2.2.2⟩

/-- The largest quotient of two absolute weights: infinite if a weight is zero. -/
noncomputable def Ratio (c : Candidate) : WithTop ℝ := (ratio c.weights).getD ⊤

/-- Some weight does not vanish. -/
def NonZero (c : Candidate) : Prop := ∃ w ∈ c.weights, w ≠ 0

theorem ratio_ne_none {c : Candidate} (h : NonZero c) : ratio c.weights = some (Ratio c) := by
  have : ratio c.weights ≠ none := by
    obtain ⟨w, hw, h0⟩ := h
    unfold ratio
    have hmem : |w| ∈ c.weights.map fun w => |w| := List.mem_map_of_mem hw
    have hpos : ∀ x ∈ c.weights.map fun w => |w|, 0 ≤ x := by
      intro x hx
      obtain ⟨y, -, rfl⟩ := List.mem_map.1 hx
      exact abs_nonneg y
    generalize c.weights.map (fun w => |w|) = L at *
    cases L with
    | nil => simp at hmem
    | cons a l =>
      have key : ∀ (l : List ℝ) (a : ℝ), a ≤ l.foldl max a ∧ ∀ x ∈ l, x ≤ l.foldl max a := by
        intro l
        induction l with
        | nil => simp
        | cons b l ih =>
          intro a
          obtain ⟨h2, h3⟩ := ih (max a b)
          simp only [List.foldl_cons, List.mem_cons]
          refine ⟨(le_max_left a b).trans h2, ?_⟩
          rintro x (rfl | hx)
          · exact (le_max_right a x).trans h2
          · exact h3 x hx
      have hmx : |w| ≤ l.foldl max a := by
        rcases List.mem_cons.1 hmem with h | h
        · rw [h]; exact (key l a).1
        · exact (key l a).2 _ h
      have : l.foldl max a ≠ 0 := (lt_of_lt_of_le (abs_pos.2 h0) hmx).ne'
      simp only [this, if_false]
      split_ifs <;> simp
  cases hr : ratio c.weights with
  | none => exact absurd hr this
  | some r => simp [Ratio, hr]

/-- `a` is at least as good as `b`: fewer points; for the same number a smaller quotient of weights; for the same
quotient an earlier year. -/
def AsGood (a b : Candidate) : Prop :=
  a.weights.length < b.weights.length ∨ a.weights.length = b.weights.length ∧
    (Ratio a < Ratio b ∨ Ratio a = Ratio b ∧ yearOf a ≤ yearOf b)

theorem asGood_refl (a : Candidate) : AsGood a a := .inr ⟨rfl, .inr ⟨rfl, le_rfl⟩⟩

theorem asGood_trans {a b c : Candidate} (h1 : AsGood a b) (h2 : AsGood b c) : AsGood a c := by
  rcases h1 with h1 | ⟨e1, h1⟩
  · rcases h2 with h2 | ⟨e2, -⟩
    · exact .inl (h1.trans h2)
    · exact .inl (e2 ▸ h1)
  · rcases h2 with h2 | ⟨e2, h2⟩
    · exact .inl (e1 ▸ h2)
    · refine .inr ⟨e1.trans e2, ?_⟩
      rcases h1 with h1 | ⟨f1, h1⟩
      · rcases h2 with h2 | ⟨f2, -⟩
        · exact .inl (h1.trans h2)
        · exact .inl (f2 ▸ h1)
      · rcases h2 with h2 | ⟨f2, h2⟩
        · exact .inl (f1 ▸ h2)
        · exact .inr ⟨f1.trans f2, h1.trans h2⟩

theorem asGood_total (a b : Candidate) : AsGood a b ∨ AsGood b a := by
  unfold AsGood
  rcases lt_trichotomy a.weights.length b.weights.length with h | h | h
  · exact .inl (.inl h)
  · rcases lt_trichotomy (Ratio a) (Ratio b) with h2 | h2 | h2
    · exact .inl (.inr ⟨h, .inl h2⟩)
    · rcases le_total (yearOf a) (yearOf b) with h3 | h3
      · exact .inl (.inr ⟨h, .inr ⟨h2, h3⟩⟩)
      · exact .inr (.inr ⟨h.symm, .inr ⟨h2.symm, h3⟩⟩)
    · exact .inr (.inr ⟨h.symm, .inl h2⟩)
  · exact .inr (.inl h)

open Classical in
theorem better_some {b c : Candidate} (hb : NonZero b) (hc : NonZero c) :
    better (some b) c = if AsGood c b then c else b := by
  unfold better AsGood
  simp only [ratio_ne_none hb, ratio_ne_none hc, ltF]
  rcases lt_trichotomy c.weights.length b.weights.length with h | h | h
  · simp [h, h.le, not_lt.2 h.le]
  · rcases lt_trichotomy (Ratio c) (Ratio b) with h2 | h2 | h2
    · simp [h, h2]
    · rcases lt_trichotomy (yearOf c) (yearOf b) with h3 | h3 | h3
      · simp [h, h2, h3, h3.le]
      · simp [h, h2, h3]
      · simp [h, h2, h3, not_lt.2 h3.le, not_le.2 h3]
    · simp [h, h2, not_lt.2 h2.le, h2.ne']
  · simp [h, not_lt.2 h.le, h.ne']

/-- C67: no scheme is returned exactly if none has the wanted properties. -/
theorem C67_none (schemes : List (Option Candidate)) (degree : ℕ)
    (pointsOkay : List (List ℝ) → Bool) (symmetriesOkay : List String → Bool) :
    findBestScheme schemes degree pointsOkay symmetriesOkay = none ↔
      ∀ c, some c ∈ schemes → ¬ Wanted degree pointsOkay symmetriesOkay c := by
  unfold findBestScheme
  induction schemes using List.reverseRecOn with
  | nil => simp
  | append_singleton l a ih =>
    rw [List.foldl_append, List.foldl_cons, List.foldl_nil]
    cases a with
    | none => simp only [ih, List.mem_append, List.mem_singleton]; simp
    | some c =>
      simp only
      split_ifs with h
      · rw [eligible_iff] at h
        simp only [reduceCtorEq, false_iff]
        intro h2
        exact h2 c (by simp) h
      · rw [eligible_iff] at h
        rw [ih]
        constructor
        · rintro h2 b hb
          rcases List.mem_append.1 hb with hb | hb
          · exact h2 b hb
          · simp only [List.mem_singleton, Option.some.injEq] at hb
            exact hb ▸ h
        · exact fun h2 b hb => h2 b (List.mem_append_left _ hb)

/-- C67: the scheme returned has the wanted properties, and no scheme with them is better; of those which are as
good, it is the last.  (A scheme all of whose weights vanish has no quotient of weights; there must be none among
the schemes with the wanted properties.) -/
theorem C67_best {schemes : List (Option Candidate)} {degree : ℕ}
    {pointsOkay : List (List ℝ) → Bool} {symmetriesOkay : List String → Bool} {best : Candidate}
    (hnz : ∀ c, some c ∈ schemes → Wanted degree pointsOkay symmetriesOkay c → NonZero c)
    (h : findBestScheme schemes degree pointsOkay symmetriesOkay = some best) :
    Wanted degree pointsOkay symmetriesOkay best ∧
    (∀ c, some c ∈ schemes → Wanted degree pointsOkay symmetriesOkay c → AsGood best c) ∧
    ∃ l r, schemes = l ++ some best :: r ∧
      ∀ c, some c ∈ r → Wanted degree pointsOkay symmetriesOkay c → ¬ AsGood c best := by
  induction schemes using List.reverseRecOn generalizing best with
  | nil => simp [findBestScheme] at h
  | append_singleton L a ih =>
    have hnz' : ∀ c, some c ∈ L → Wanted degree pointsOkay symmetriesOkay c → NonZero c :=
      fun c hc => hnz c (List.mem_append_left _ hc)
    have hstep : findBestScheme (L ++ [a]) degree pointsOkay symmetriesOkay =
        match (generalizing := false) a with
        | none => findBestScheme L degree pointsOkay symmetriesOkay
        | some scheme => if eligible degree pointsOkay symmetriesOkay scheme then
            some (better (findBestScheme L degree pointsOkay symmetriesOkay) scheme)
          else findBestScheme L degree pointsOkay symmetriesOkay := by
      unfold findBestScheme
      rw [List.foldl_append, List.foldl_cons, List.foldl_nil]
      cases a <;> rfl
    rw [hstep] at h
    have keep : findBestScheme L degree pointsOkay symmetriesOkay = some best →
        (∀ c, a = some c → Wanted degree pointsOkay symmetriesOkay c → ¬ AsGood c best) →
        Wanted degree pointsOkay symmetriesOkay best ∧
        (∀ c, some c ∈ L ++ [a] → Wanted degree pointsOkay symmetriesOkay c → AsGood best c) ∧
        ∃ l r, L ++ [a] = l ++ some best :: r ∧
          ∀ c, some c ∈ r → Wanted degree pointsOkay symmetriesOkay c → ¬ AsGood c best := by
      intro h2 h3
      obtain ⟨i1, i2, l, r, rfl, i3⟩ := ih hnz' h2
      refine ⟨i1, ?_, l, r ++ [a], by simp, ?_⟩
      · intro c hc hw
        rcases List.mem_append.1 hc with hc | hc
        · exact i2 c hc hw
        · simp only [List.mem_singleton] at hc
          exact (asGood_total best c).resolve_right (h3 c hc.symm hw)
      · intro c hc hw
        rcases List.mem_append.1 hc with hc | hc
        · exact i3 c hc hw
        · simp only [List.mem_singleton] at hc
          exact h3 c hc.symm hw
    cases a with
    | none => exact keep h (by simp)
    | some c =>
      simp only at h
      split_ifs at h with he
      · have hw := eligible_iff.1 he
        simp only [Option.some.injEq] at h
        have take : (∀ b, findBestScheme L degree pointsOkay symmetriesOkay = some b → AsGood c b) → c = best →
            Wanted degree pointsOkay symmetriesOkay best ∧
            (∀ d, some d ∈ L ++ [some c] → Wanted degree pointsOkay symmetriesOkay d → AsGood best d) ∧
            ∃ l r, L ++ [some c] = l ++ some best :: r ∧
              ∀ d, some d ∈ r → Wanted degree pointsOkay symmetriesOkay d → ¬ AsGood d best := by
          rintro h2 rfl
          refine ⟨hw, ?_, L, [], rfl, by simp⟩
          intro d hd hwd
          rcases List.mem_append.1 hd with hd | hd
          · cases hb : findBestScheme L degree pointsOkay symmetriesOkay with
            | none => exact absurd hwd ((C67_none _ _ _ _).1 hb d hd)
            | some b => exact asGood_trans (h2 b hb) ((ih hnz' hb).2.1 d hd hwd)
          · simp only [List.mem_singleton, Option.some.injEq] at hd
            exact hd ▸ asGood_refl _
        cases hb : findBestScheme L degree pointsOkay symmetriesOkay with
        | none =>
          rw [hb] at h
          exact take (by simp [hb]) h
        | some b =>
          obtain ⟨i1, -, l, r, hL, -⟩ := ih hnz' hb
          have hbz : NonZero b := hnz b (by rw [hL]; simp) i1
          have hcz : NonZero c := hnz c (by simp) hw
          rw [hb, better_some hbz hcz] at h
          split_ifs at h with hg
          · refine take (fun b' hb' => ?_) h
            rw [hb, Option.some.injEq] at hb'
            exact hb' ▸ hg
          · subst h
            refine keep hb fun d hd _ => ?_
            simp only [Option.some.injEq] at hd
            exact hd ▸ hg
      · refine keep h fun d hd hwd => ?_
        simp only [Option.some.injEq] at hd
        subst hd
        exact absurd (eligible_iff.2 hwd) he

/-- C67: the quotient of weights which decides is that of the largest and the smallest weight. -/
theorem C67_ratio {c : Candidate} (h : ∀ w ∈ c.weights, 0 < w) {a b : ℝ} (ha : IsGreatest {w | w ∈ c.weights} a)
    (hb : IsLeast {w | w ∈ c.weights} b) : Ratio c = ((a / b : ℝ) : WithTop ℝ) := by
  have habs : c.weights.map (fun w => |w|) = c.weights :=
    (List.map_congr_left fun w hw => abs_of_pos (h w hw)).trans (List.map_id _)
  have hmax : ∀ (l : List ℝ) (a : ℝ), IsGreatest {w | w ∈ a :: l} (l.foldl max a) := by
    intro l
    induction l with
    | nil => intro a; exact ⟨by simp, by simp [upperBounds]⟩
    | cons b l ih =>
      intro a
      obtain ⟨h1, h2⟩ := ih (max a b)
      refine ⟨?_, fun x hx => ?_⟩
      · rcases List.mem_cons.1 h1 with h1 | h1
        · change l.foldl max (max a b) ∈ _
          rw [h1]
          rcases max_choice a b with h | h <;> simp [h]
        · exact List.mem_cons_of_mem _ (List.mem_cons_of_mem _ h1)
      · have h3 : max a b ≤ l.foldl max (max a b) := h2 (List.mem_cons_self ..)
        rcases List.mem_cons.1 hx with rfl | hx
        · exact (le_max_left _ _).trans h3
        · rcases List.mem_cons.1 hx with rfl | hx
          · exact (le_max_right _ _).trans h3
          · exact h2 (List.mem_cons_of_mem _ hx)
  have hmin : ∀ (l : List ℝ) (a : ℝ), IsLeast {w | w ∈ a :: l} (l.foldl min a) := by
    intro l
    induction l with
    | nil => intro a; exact ⟨by simp, by simp [lowerBounds]⟩
    | cons b l ih =>
      intro a
      obtain ⟨h1, h2⟩ := ih (min a b)
      refine ⟨?_, fun x hx => ?_⟩
      · rcases List.mem_cons.1 h1 with h1 | h1
        · change l.foldl min (min a b) ∈ _
          rw [h1]
          rcases min_choice a b with h | h <;> simp [h]
        · exact List.mem_cons_of_mem _ (List.mem_cons_of_mem _ h1)
      · have h3 : l.foldl min (min a b) ≤ min a b := h2 (List.mem_cons_self ..)
        rcases List.mem_cons.1 hx with rfl | hx
        · exact h3.trans (min_le_left _ _)
        · rcases List.mem_cons.1 hx with rfl | hx
          · exact h3.trans (min_le_right _ _)
          · exact h2 (List.mem_cons_of_mem _ hx)
  unfold Ratio ratio
  rw [habs]
  cases hw : c.weights with
  | nil => rw [hw] at ha; exact absurd ha.1 (by simp)
  | cons x l =>
    rw [hw] at ha hb h
    have e1 : l.foldl max x = a := (hmax l x).unique ha
    have e2 : l.foldl min x = b := (hmin l x).unique hb
    have : b ≠ 0 := (h b hb.1).ne'
    simp only [e1, e2, this, if_false, Option.getD_some]

/-- Two schemes with two points, of the same year; the one with equal weights is returned, wherever it stands. -/
example : let a : Candidate := ⟨"a", 3, [1 / 2, 1 / 2], [[0], [1]], 0, some [], some "1956"⟩
    let b : Candidate := ⟨"b", 4, [1 / 3, 2 / 3], [[0], [1]], 0, some [], some "1956"⟩
    let c : Candidate := ⟨"c", 2, [1], [[0]], 0, some [], some "1956"⟩
    findBestScheme [some c, some a, none, some b] 3 (fun _ => true) (fun _ => true) = some a := by
  intro a b c
  have hw : ∀ x, some x ∈ [some c, some a, none, some b] → Wanted 3 (fun _ => true) (fun _ => true) x →
      x = a ∨ x = b := by
    intro x hx hxw
    simp only [List.mem_cons, Option.some.injEq, reduceCtorEq, List.not_mem_nil, or_false, false_or] at hx
    rcases hx with rfl | rfl | rfl
    · exact absurd hxw.1 (by simp [c])
    · exact .inl rfl
    · exact .inr rfl
  have wa : Wanted 3 (fun _ => true) (fun _ => true) a := by
    refine ⟨le_rfl, ?_, rfl, by simp [a], [], rfl, rfl⟩
    simp [a]
  have hnz : ∀ x, some x ∈ [some c, some a, none, some b] → Wanted 3 (fun _ => true) (fun _ => true) x →
      NonZero x := by
    intro x hx hxw
    rcases hw x hx hxw with rfl | rfl
    · exact ⟨1 / 2, by simp [a], by norm_num⟩
    · exact ⟨1 / 3, by simp [b], by norm_num⟩
  have ra : Ratio a = ((1 / 2 / (1 / 2) : ℝ) : WithTop ℝ) := by
    refine C67_ratio (by simp [a]) ⟨by simp [a], ?_⟩ ⟨by simp [a], ?_⟩ <;>
      simp [a, upperBounds, lowerBounds]
  have rb : Ratio b = ((2 / 3 / (1 / 3) : ℝ) : WithTop ℝ) := by
    refine C67_ratio (by simp [b]) ⟨by simp [b], ?_⟩ ⟨by simp [b], ?_⟩ <;>
      simp [b, upperBounds, lowerBounds] <;> norm_num
  cases h : findBestScheme [some c, some a, none, some b] 3 (fun _ => true) (fun _ => true) with
  | none => exact absurd wa ((C67_none _ _ _ _).1 h a (by simp))
  | some best =>
    obtain ⟨h1, h2, l, r, h3, -⟩ := C67_best hnz h
    rcases hw best (by rw [h3]; simp) h1 with rfl | rfl
    · rfl
    · have := h2 a (by simp) wa
      unfold AsGood at this
      rw [ra, rb] at this
      simp only [WithTop.coe_lt_coe, WithTop.coe_inj] at this
      norm_num [a, b] at this

end Quadpy.TestHelpers
