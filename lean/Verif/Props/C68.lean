import Verif.Model.TestHelpers
import Mathlib.Tactic.Linarith
import Mathlib.Tactic.NormNum
import Mathlib.Tactic.Positivity
import Mathlib.Algebra.Order.BigOperators.Group.List

/-!
# C68: find_equal reports the schemes which coincide
-/

namespace Quadpy.TestHelpers
open Quadpy

/-- The claim: two schemes are the same rule, if their pairs of weight and point are the same up to the order. -/
def SameRule (S T : Candidate) : Prop :=
  (S.weights.zip S.points).Perm (T.weights.zip T.points)

theorem dist2_nonneg (a b : List ℝ) : 0 ≤ dist2 a b := by
  refine List.sum_nonneg fun x hx => ?_
  rw [List.mem_iff_getElem] at hx
  obtain ⟨i, hi, rfl⟩ := hx
  rw [List.getElem_zipWith]
  positivity

theorem dist2_self (a : List ℝ) : dist2 a a = 0 := by
  simp [dist2, List.zipWith_self]

/-- C68: what the code reports: all rows of the first scheme (its weights, and for each coordinate the values of all
points, in their order) must be near to some row of the second. -/
theorem C68_reported (dim : ℕ) (schemes : List Candidate) (S T : Candidate) :
    (S, T) ∈ findEqual dim schemes ↔ S ∈ schemes ∧ T ∈ schemes ∧ S.name ≠ T.name ∧
      S.weights.length = T.weights.length ∧
      ∀ x ∈ S.weights :: (List.range dim).map (fun i => S.points.map fun p => p.getD i 0),
        ∃ y ∈ T.weights :: (List.range dim).map (fun i => T.points.map fun p => p.getD i 0),
          (List.zipWith (fun s t => (s - t) ^ 2) y x).sum ≤ 1 / 10 ^ 13 := by
  have key : isEqual dim S T = true ↔ S.name ≠ T.name ∧ S.weights.length = T.weights.length ∧
      ∀ x ∈ stack dim S, ∃ y ∈ stack dim T, dist2 y x ≤ 1 / 10 ^ 13 := by
    unfold isEqual
    simp only
    split_ifs with h1 h2
    · simp [h1]
    · simp [h2]
    · simp only [List.all_eq_true, List.any_eq_true, decide_eq_true_eq]
      exact ⟨fun h => ⟨h1, not_not.1 h2, h⟩, fun h => h.2.2⟩
  unfold findEqual
  rw [List.mem_flatMap]
  constructor
  · rintro ⟨S', hS, h⟩
    obtain ⟨T', hT, h⟩ := List.mem_map.1 h
    obtain ⟨rfl, rfl⟩ := Prod.mk.inj h
    obtain ⟨hT, he⟩ := List.mem_filter.1 hT
    exact ⟨hS, hT, key.1 he⟩
  · rintro ⟨hS, hT, h⟩
    exact ⟨S, hS, List.mem_map.2 ⟨T, List.mem_filter.2 ⟨hT, key.2 h⟩, rfl⟩⟩

/-- C68: schemes with the same weights and points in the same order are reported, in both directions. -/
theorem C68_same {dim : ℕ} {schemes : List Candidate} {S T : Candidate} (hS : S ∈ schemes) (hT : T ∈ schemes)
    (hname : S.name ≠ T.name) (hw : S.weights = T.weights) (hp : S.points = T.points) :
    (S, T) ∈ findEqual dim schemes ∧ (T, S) ∈ findEqual dim schemes := by
  rw [C68_reported, C68_reported]
  refine ⟨⟨hS, hT, hname, by rw [hw], fun x hx => ⟨x, by rw [← hw, ← hp]; exact hx, ?_⟩⟩,
    ⟨hT, hS, hname.symm, by rw [hw], fun x hx => ⟨x, by rw [hw, hp]; exact hx, ?_⟩⟩⟩ <;>
  · have := dist2_self x
    unfold dist2 at this
    rw [this]
    positivity

/-- C68: a scheme is not compared with one of the same name, nor with one of another number of points. -/
theorem C68_differ {dim : ℕ} {schemes : List Candidate} {S T : Candidate} (h : (S, T) ∈ findEqual dim schemes) :
    S.name ≠ T.name ∧ S.weights.length = T.weights.length :=
  let h := (C68_reported dim schemes S T).1 h
  ⟨h.2.2.1, h.2.2.2.1⟩

/-- C68 is false: two schemes which are the same rule, with the points in another order, are not reported. -/
theorem C68_permuted_fails : ∃ S T : Candidate, SameRule S T ∧ S.name ≠ T.name ∧ findEqual 1 [S, T] = [] := by
  refine ⟨⟨"a", 1, [1 / 4, 3 / 4], [[0], [1]], 0, none, none⟩, ⟨"b", 1, [3 / 4, 1 / 4], [[1], [0]], 0, none, none⟩,
    ?_, by decide, ?_⟩
  · exact List.Perm.swap ..
  · rw [List.eq_nil_iff_forall_not_mem]
    rintro ⟨S, T⟩ h
    obtain ⟨hS, hT, hn, -, h⟩ := (C68_reported ..).1 h
    simp only [List.mem_cons, List.not_mem_nil, or_false] at hS hT
    obtain ⟨y, hy, h⟩ := h S.weights (by simp)
    rcases hS with rfl | rfl <;> rcases hT with rfl | rfl <;> first | exact hn rfl | skip
    all_goals
      simp only [List.range_one, List.map_cons, List.map_nil, List.mem_cons, List.not_mem_nil, or_false] at hy
      rcases hy with rfl | rfl <;> norm_num at h

/-- C68 is false: two schemes with different points are reported as equal, and only in one direction. -/
theorem C68_different_fails : ∃ S T : Candidate, ¬ SameRule S T ∧ (S, T) ∈ findEqual 2 [S, T] ∧
    (T, S) ∉ findEqual 2 [S, T] := by
  refine ⟨⟨"a", 1, [1 / 2, 1 / 2], [[0, 0], [1, 1]], 0, none, none⟩,
    ⟨"b", 1, [1 / 2, 1 / 2], [[0, 5], [1, 7]], 0, none, none⟩, ?_, ?_, ?_⟩
  · intro h
    have := h.mem_iff (a := (1 / 2, [0, 0]))
    norm_num at this
  · rw [C68_reported]
    refine ⟨by simp, by simp, by decide, rfl, ?_⟩
    intro x hx
    simp only [List.range_succ, List.range_zero, List.nil_append, List.cons_append, List.map_cons, List.map_nil,
      List.mem_cons, List.not_mem_nil, or_false] at hx
    rcases hx with rfl | rfl | rfl
    · exact ⟨[1 / 2, 1 / 2], by simp, by norm_num⟩
    · exact ⟨[0, 1], by simp [List.range_succ], by norm_num⟩
    · exact ⟨[0, 1], by simp [List.range_succ], by norm_num⟩
  · rw [C68_reported]
    rintro ⟨-, -, -, -, h⟩
    obtain ⟨y, hy, h⟩ := h [5, 7] (by simp [List.range_succ])
    simp only [List.range_succ, List.range_zero, List.nil_append, List.cons_append, List.map_cons, List.map_nil,
      List.mem_cons, List.not_mem_nil, or_false] at hy
    rcases hy with rfl | rfl | rfl <;> norm_num at h

/-- Two copies of a rule with two names. -/
example : let S : Candidate := ⟨"a", 1, [1 / 4, 3 / 4], [[0], [1]], 0, none, none⟩
    (S, { S with name := "b" }) ∈ findEqual 1 [S, { S with name := "b" }] := by
  intro S
  exact (C68_same (S := S) (T := { S with name := "b" }) (by simp) (by simp) (by simp [S]) rfl rfl).1

end Quadpy.TestHelpers
