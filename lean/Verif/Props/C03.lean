import Verif.Model.Combinatorics
import Mathlib.Data.List.Nodup
import Mathlib.Algebra.Order.BigOperators.Group.List
import Mathlib.Algebra.BigOperators.Group.List.Lemmas

/-!
C03: `get_all_exponents(dim, max_degree)` is a complete, duplicate-free table of exponents.
-/

namespace Quadpy

/-- A list of exponent tuples that is complete and duplicate free for one degree. -/
def CompleteLevel (dim d : ℕ) (L : List (List ℕ)) : Prop :=
  L.Nodup ∧ ∀ e : List ℕ, e ∈ L ↔ e.length = dim ∧ e.sum = d

theorem augment_complete : ∀ (dim d : ℕ) (L : List (List ℕ)), CompleteLevel dim d L →
    CompleteLevel dim (d + 1) (augment dim L) := by
  intro dim
  induction dim with
  | zero =>
    intro d L _
    refine ⟨by simp [augment], fun e => ?_⟩
    simp only [augment, List.not_mem_nil, List.length_eq_zero_iff, false_iff, not_and]
    rintro rfl
    simp
  | succ dim ih =>
    intro d L ⟨hnd, hmem⟩
    have hne : L ≠ [] := by
      intro h
      have := (hmem ((d : ℕ) :: List.replicate dim 0)).2 (by simp)
      rw [h] at this
      simp at this
    obtain ⟨e0, L', rfl⟩ := List.exists_cons_of_ne_nil hne
    have he0 : e0.length = dim + 1 := ((hmem e0).1 (by simp)).1
    have hcond : ¬ ((e0 :: L').length = 0 ∨ ((e0 :: L').headD []).length = 0) := by
      simp [he0]
    rw [augment, if_neg hcond]
    set L := e0 :: L' with hL
    have hcons : ∀ e ∈ L, ∃ a t, e = a :: t := fun e he => by
      have := ((hmem e).1 he).1
      cases e with
      | nil => simp at this
      | cons a t => exact ⟨a, t, rfl⟩
    -- tails of the tuples with leading zero form the complete level in one dimension less
    have hz : CompleteLevel dim d ((L.filter fun e => e.headD 1 = 0).map List.tail) := by
      constructor
      · rw [List.nodup_map_iff_inj_on (hnd.filter _)]
        intro x hx y hy hxy
        simp only [List.mem_filter, decide_eq_true_eq] at hx hy
        obtain ⟨a, t, rfl⟩ := hcons x hx.1
        obtain ⟨b, u, rfl⟩ := hcons y hy.1
        simp only [List.headD_cons] at hx hy
        simp only [List.tail_cons] at hxy
        rw [hx.2, hy.2, hxy]
      · intro e
        simp only [List.mem_map, List.mem_filter, decide_eq_true_eq]
        constructor
        · rintro ⟨x, ⟨hx, h0⟩, rfl⟩
          obtain ⟨a, t, rfl⟩ := hcons x hx
          simp only [List.headD_cons] at h0
          have := (hmem _).1 hx
          subst h0
          simpa using this
        · rintro ⟨h1, h2⟩
          exact ⟨0 :: e, ⟨(hmem _).2 (by simp [h1, h2]), by simp⟩, by simp⟩
    obtain ⟨hnd1, hmem1⟩ := ih d _ hz
    constructor
    · rw [List.nodup_append]
      refine ⟨?_, hnd1.map (fun a b h => by simpa using h), ?_⟩
      · rw [List.nodup_map_iff_inj_on hnd]
        intro x hx y hy hxy
        obtain ⟨a, t, rfl⟩ := hcons x hx
        obtain ⟨b, u, rfl⟩ := hcons y hy
        simpa using hxy
      · intro a ha b hb hab
        subst hab
        obtain ⟨x, _, rfl⟩ := List.mem_map.1 ha
        obtain ⟨y, _, h⟩ := List.mem_map.1 hb
        simp at h
    · intro e
      simp only [List.mem_append, List.mem_map]
      constructor
      · rintro (⟨x, hx, rfl⟩ | ⟨y, hy, rfl⟩)
        · obtain ⟨a, t, rfl⟩ := hcons x hx
          have := (hmem _).1 hx
          simp only [List.length_cons, List.sum_cons] at this
          simp only [List.headD_cons, List.tail_cons, List.length_cons, List.sum_cons]
          omega
        · have := (hmem1 y).1 hy
          simp only [List.length_cons, List.sum_cons]
          omega
      · rintro ⟨h1, h2⟩
        cases e with
        | nil => simp at h1
        | cons a t =>
          simp only [List.length_cons, List.sum_cons] at h1 h2
          cases a with
          | zero =>
            right
            exact ⟨t, (hmem1 t).2 (by omega), rfl⟩
          | succ a =>
            left
            exact ⟨a :: t, (hmem _).2 (by simp only [List.length_cons, List.sum_cons]; omega), by simp⟩

/-- C03: there are `max_degree + 1` levels. -/
theorem C03_length (dim maxDegree : ℕ) : (getAllExponents dim maxDegree).length = maxDegree + 1 := by
  simp [getAllExponents]

/-- C03: level `d` contains exactly the tuples of `dim` natural numbers with sum `d`, each once. -/
theorem C03_get_all_exponents (dim maxDegree d : ℕ) (hd : d ≤ maxDegree) :
    ∃ L, (getAllExponents dim maxDegree)[d]? = some L ∧ L.Nodup ∧
      ∀ e : List ℕ, e ∈ L ↔ e.length = dim ∧ e.sum = d := by
  refine ⟨(augment dim)^[d] [List.replicate dim 0], ?_, ?_⟩
  · rw [getAllExponents, List.getElem?_map, List.getElem?_range (by omega)]
    rfl
  · clear hd
    change CompleteLevel dim d _
    induction d with
    | zero =>
      refine ⟨by simp, fun e => ?_⟩
      simp only [Function.iterate_zero, id_eq, List.mem_singleton, List.sum_eq_zero_iff]
      exact List.eq_replicate_iff
    | succ d ih =>
      rw [Function.iterate_succ_apply']
      exact augment_complete dim d _ ih

/-- Non-vacuity: three variables, degree two. -/
example : ∃ L, (getAllExponents 3 4)[2]? = some L ∧ L.length = 6 ∧ [1, 0, 1] ∈ L :=
  ⟨[[2, 0, 0], [1, 1, 0], [1, 0, 1], [0, 2, 0], [0, 1, 1], [0, 0, 2]], by decide, by decide,
    by decide⟩

end Quadpy
