import Verif.Lemmas.Combine

namespace Quadpy
variable {α : Type*}

/-- The sorted template: `s 0` times 0, then `s 1` times 1, ... starting at index `k`. -/
def canonT : ℕ → List ℕ → List ℕ
  | _, [] => []
  | k, s :: ss => List.replicate s k ++ canonT (k + 1) ss

theorem count_canonT (ss : List ℕ) : ∀ k i, (canonT k ss).count (k + i) = ss.getD i 0 := by
  induction ss with
  | nil => intro k i; simp [canonT]
  | cons s ss ih =>
    intro k i
    rw [canonT, List.count_append, List.count_replicate]
    cases i with
    | zero =>
      have h0 : (canonT (k + 1) ss).count k = 0 := by
        rw [List.count_eq_zero]
        have : ∀ (ss : List ℕ) (j : ℕ), ∀ x ∈ canonT j ss, j ≤ x := by
          intro ss
          induction ss with
          | nil => intro j x hx; simp [canonT] at hx
          | cons a ss ih =>
            intro j x hx
            rw [canonT, List.mem_append] at hx
            rcases hx with hx | hx
            · exact (List.eq_of_mem_replicate hx).ge
            · exact le_trans (Nat.le_succ j) (ih _ x hx)
        intro h
        have := this ss (k + 1) k h
        omega
      simp [h0]
    | succ i =>
      have := ih (k + 1) i
      rw [show k + (i + 1) = k + 1 + i by ring, this]
      have : (k == k + 1 + i) = false := by simp; omega
      simp [this]

theorem lt_of_mem_canonT (ss : List ℕ) : ∀ k, ∀ x ∈ canonT k ss, x < k + ss.length := by
  induction ss with
  | nil => intro k x hx; simp [canonT] at hx
  | cons s ss ih =>
    intro k x hx
    rw [canonT, List.mem_append] at hx
    rcases hx with hx | hx
    · have := List.eq_of_mem_replicate hx
      subst this; simp
    · have := ih _ x hx
      simp only [List.length_cons]; omega

theorem mem_partitions_iff_perm (s t : List ℕ) : t ∈ partitions s ↔ t.Perm (canonT 0 s) := by
  rw [mem_partitions_iff, List.perm_iff_count]
  constructor
  · rintro ⟨h1, h2⟩ i
    have := count_canonT s 0 i
    rw [zero_add] at this
    rw [this]
    by_cases hi : i < s.length
    · rw [h1 i hi]; simp [hi]
    · rw [List.count_eq_zero.2 fun h => hi (h2 i h)]
      simp [List.getElem?_eq_none (not_lt.1 hi)]
  · intro h
    constructor
    · intro i hi
      have := count_canonT s 0 i
      rw [zero_add] at this
      rw [h i, this]; simp [hi]
    · intro x hx
      have : 0 < t.count x := List.count_pos_iff.2 hx
      rw [h x] at this
      have := lt_of_mem_canonT s 0 x (List.count_pos_iff.1 this)
      simpa using this

theorem forall₂_canonT (V : ℕ → List α) (elems : List (List α × ℕ)) : ∀ (k : ℕ) (row : List α),
    (∀ i (h : i < elems.length), V (k + i) = elems[i].1) →
    (List.Forall₂ (fun x i => x ∈ V i) row (canonT k (elems.map Prod.snd)) ↔
    ∃ blocks : List (List α),
      List.Forall₂ (fun b e => b.length = e.2 ∧ ∀ x ∈ b, x ∈ e.1) blocks elems ∧
      row = blocks.flatten) := by
  induction elems with
  | nil => intro k row _; simp [canonT]
  | cons e elems ih =>
    intro k row hV
    have hV0 : V k = e.1 := by
      have := hV 0 (by simp)
      rwa [List.getElem_cons_zero] at this
    have hV1 : ∀ i (h : i < elems.length), V (k + 1 + i) = elems[i].1 := by
      intro i hi
      have := hV (i + 1) (by simpa using hi)
      rw [show k + 1 + i = k + (i + 1) by ring, this]; simp
    simp only [List.map_cons, canonT]
    constructor
    · intro h
      have h1 := List.forall₂_take_append _ _ _ h
      have h2 := List.forall₂_drop_append _ _ _ h
      rw [← List.take_append_drop (List.replicate e.2 k).length row]
      generalize List.take (List.replicate e.2 k).length row = r1 at *
      generalize List.drop (List.replicate e.2 k).length row = r2 at *
      obtain ⟨bs, hbs, hr2⟩ := (ih (k + 1) r2 hV1).1 h2
      refine ⟨r1 :: bs, List.Forall₂.cons ⟨by simpa using h1.length_eq, ?_⟩ hbs, by simp [hr2]⟩
      intro x hx
      have : ∀ (m : ℕ) (r1 : List α),
          List.Forall₂ (fun x i => x ∈ V i) r1 (List.replicate m k) → ∀ x ∈ r1, x ∈ V k := by
        intro m
        induction m with
        | zero => intro r1 h x hx; simp at h; subst h; simp at hx
        | succ m ihm =>
          intro r1 h x hx
          rw [List.replicate_succ] at h
          cases h with
          | cons h1 h2 =>
            rcases List.mem_cons.1 hx with rfl | hx
            · exact h1
            · exact ihm _ h2 x hx
      rw [← hV0]
      exact this _ _ h1 x hx
    · rintro ⟨blocks, hb, rfl⟩
      cases hb with
      | @cons b e' bs es hb1 hb2 =>
        rw [List.flatten_cons]
        refine List.rel_append ?_ ((ih (k + 1) _ hV1).2 ⟨bs, hb2, rfl⟩)
        obtain ⟨hlen, hmem⟩ := hb1
        rw [← hlen]
        clear hlen
        induction b with
        | nil => simp
        | cons x b ihb =>
          rw [List.length_cons, List.replicate_succ]
          exact List.Forall₂.cons (hV0 ▸ hmem x (by simp)) (ihb fun y hy => hmem y (by simp [hy]))

/-- The rows of `combine` are exactly the rearrangements of concatenated blocks, one block of the
given length from each value list. -/
theorem mem_combine_iff (elems : List (List α × ℕ)) (row : List α) :
    row ∈ combine elems ↔ ∃ blocks : List (List α),
      List.Forall₂ (fun b e => b.length = e.2 ∧ ∀ x ∈ b, x ∈ e.1) blocks elems ∧
      row.Perm blocks.flatten := by
  have hV : ∀ i (h : i < elems.length), vals elems (0 + i) = elems[i].1 := by
    intro i hi; simp [vals, hi]
  rw [mem_combine]
  constructor
  · rintro ⟨t, ht, hf⟩
    rw [mem_partitions_iff_perm] at ht
    have hcomp : Relation.Comp (List.Forall₂ fun x i => x ∈ vals elems i)
        List.Perm row (canonT 0 (elems.map Prod.snd)) := ⟨t, hf, ht⟩
    rw [List.forall₂_comp_perm_eq_perm_comp_forall₂] at hcomp
    obtain ⟨row', h1, h2⟩ := hcomp
    obtain ⟨bs, hbs, rfl⟩ := (forall₂_canonT (vals elems) elems 0 row' hV).1 h2
    exact ⟨bs, hbs, h1⟩
  · rintro ⟨bs, hbs, hp⟩
    have h2 := (forall₂_canonT (vals elems) elems 0 _ hV).2 ⟨bs, hbs, rfl⟩
    obtain ⟨t, h3, h4⟩ := List.perm_comp_forall₂ hp h2
    exact ⟨t, (mem_partitions_iff_perm _ _).2 h4, h3⟩

theorem nodup_combine (elems : List (List α × ℕ)) (h1 : ∀ e ∈ elems, e.1.Nodup)
    (h2 : elems.Pairwise fun e e' => List.Disjoint e.1 e'.1) : (combine elems).Nodup := by
  have hdis : ∀ i j x, x ∈ vals elems i → x ∈ vals elems j → i = j := by
    intro i j x hi hj
    have hi' : i < elems.length := by
      by_contra h
      simp [vals, List.getElem?_eq_none (not_lt.1 h)] at hi
    have hj' : j < elems.length := by
      by_contra h
      simp [vals, List.getElem?_eq_none (not_lt.1 h)] at hj
    have hi2 : x ∈ elems[i].1 := by simpa [vals, hi'] using hi
    have hj2 : x ∈ elems[j].1 := by simpa [vals, hj'] using hj
    by_contra hne
    rw [List.pairwise_iff_getElem] at h2
    rcases lt_or_gt_of_ne hne with h | h
    · exact h2 i j hi' hj' h hi2 hj2
    · exact h2 j i hj' hi' h hj2 hi2
  rw [combine, List.nodup_flatMap]
  refine ⟨fun t _ => nodup_iterProduct _ ?_, ?_⟩
  · intro l hl
    obtain ⟨i, _, rfl⟩ := List.mem_map.1 hl
    by_cases hi : i < elems.length
    · simpa [hi] using h1 _ (List.getElem_mem hi)
    · simp [List.getElem?_eq_none (not_lt.1 hi)]
  · refine (partitions_nodup _).imp ?_
    intro t t' htt'
    rw [Function.onFun, List.disjoint_left]
    intro row hr hr'
    rw [mem_iterProduct, List.forall₂_map_right_iff] at hr hr'
    apply htt'
    have : ∀ (row : List α) (t t' : List ℕ),
        List.Forall₂ (fun x i => x ∈ vals elems i) row t →
        List.Forall₂ (fun x i => x ∈ vals elems i) row t' → t = t' := by
      intro row t t' h
      induction h generalizing t' with
      | nil => intro h'; cases h'; rfl
      | @cons x i row t hx _ ih =>
        intro h'
        cases h' with
        | cons hx' h' => rw [hdis _ _ _ hx hx', ih _ h']
    exact this row t t' hr hr'

end Quadpy
