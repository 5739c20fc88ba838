import Verif.Lemmas.Lobatto

/-! The point generator `_s11` of cn/_helpers.py: sums over all placements of two numbers. -/

namespace Quadpy
open Finset
open scoped List

/-- The vector with `a` at `i`, `b` at `k` and zeros elsewhere. -/
noncomputable def vec2 {n : ℕ} (i k : Fin n) (a b : ℝ) : Fin n → ℝ :=
  fun x => if x = i then a else if x = k then b else 0

theorem vec2_comm {n : ℕ} {i k : Fin n} (h : i ≠ k) (a b : ℝ) : vec2 k i b a = vec2 i k a b := by
  funext x
  simp only [vec2]
  by_cases h1 : x = i
  · subst h1; simp [h]
  · simp [h1]

theorem base_ofFn {m : ℕ} (a b : ℝ) :
    a :: b :: List.replicate m 0 = List.ofFn (vec2 (0 : Fin (m + 2)) 1 a b) := by
  rw [List.ofFn_succ, List.ofFn_succ]
  congr 2
  refine List.ext_getElem (by simp) fun j h1 h2 => ?_
  simp only [List.getElem_replicate, List.getElem_ofFn, vec2]
  rw [if_neg (by simp [Fin.ext_iff]), if_neg (by simp [Fin.ext_iff])]

theorem perm_of_pair {m : ℕ} {i k : Fin (m + 2)} (h : i ≠ k) (a b : ℝ) :
    List.ofFn (vec2 i k a b) ~ a :: b :: List.replicate m 0 := by
  rw [base_ofFn]
  let τ : Equiv.Perm (Fin (m + 2)) := Equiv.swap i 0
  have h0 : τ k ≠ 0 := by
    intro h'
    have : τ k = τ i := by rw [h']; simp [τ]
    exact h (τ.injective this).symm
  let σ : Equiv.Perm (Fin (m + 2)) := τ.trans (Equiv.swap (τ k) 1)
  have s1 : σ i = 0 := by
    simp only [σ, Equiv.trans_apply]
    rw [show τ i = 0 by simp [τ], Equiv.swap_apply_of_ne_of_ne h0.symm (by simp [Fin.ext_iff])]
  have s2 : σ k = 1 := by simp [σ]
  have e : vec2 i k a b = vec2 0 1 a b ∘ σ := by
    funext x
    simp only [vec2, Function.comp, ← s1, ← s2, σ.injective.eq_iff]
  rw [e]
  exact Equiv.Perm.ofFn_comp_perm σ _

theorem zeros_of_append {l1 l2 : List ℝ} {m : ℕ} (h : l1 ++ l2 = List.replicate m 0) :
    (∀ x ∈ l1, x = 0) ∧ ∀ x ∈ l2, x = 0 := by
  constructor <;> intro x hx <;>
  · have : x ∈ l1 ++ l2 := by simp [hx]
    rw [h] at this
    exact (List.mem_replicate.1 this).2

theorem row_form {m : ℕ} {l c r : List ℝ} (a b : ℝ) (h : (l ++ a :: (c ++ b :: r)).length = m + 2)
    (hl : ∀ x ∈ l, x = 0) (hc : ∀ x ∈ c, x = 0) (hr : ∀ x ∈ r, x = 0) :
    ∃ i k : Fin (m + 2), i ≠ k ∧ l ++ a :: (c ++ b :: r) = List.ofFn (vec2 i k a b) := by
  simp only [List.length_append, List.length_cons] at h
  refine ⟨⟨l.length, by omega⟩, ⟨l.length + 1 + c.length, by omega⟩, by simp [Fin.ext_iff]; omega, ?_⟩
  refine List.ext_getElem (by simp; omega) fun j h1 h2 => ?_
  simp only [List.getElem_ofFn, vec2, Fin.ext_iff]
  rw [List.getElem_append]
  split_ifs with h3 h4 h5 h6 h7
  · omega
  · omega
  · exact hl _ (List.getElem_mem _)
  · subst h6; simp
  · simp only [h7]
    rw [List.getElem_cons, dif_neg (by omega), List.getElem_append, dif_neg (by omega),
      List.getElem_cons, dif_pos (by omega)]
  · rw [List.getElem_cons, dif_neg (by omega), List.getElem_append]
    split_ifs with h8
    · exact hc _ (List.getElem_mem _)
    · rw [List.getElem_cons, dif_neg (by omega)]
      exact hr _ (List.getElem_mem _)

theorem pair_of_perm {m : ℕ} {a b : ℝ} {row : List ℝ} (h : row ~ a :: b :: List.replicate m 0) :
    ∃ i k : Fin (m + 2), i ≠ k ∧ row = List.ofFn (vec2 i k a b) := by
  have hlen : row.length = m + 2 := by rw [h.length_eq]; simp
  obtain ⟨l1, l2, rfl⟩ := List.append_of_mem (h.symm.subset (List.mem_cons_self))
  have h' : l1 ++ l2 ~ b :: List.replicate m 0 :=
    (List.perm_cons a).1 (List.perm_middle.symm.trans h)
  obtain ⟨m1, m2, hm⟩ := List.append_of_mem (h'.symm.subset (List.mem_cons_self))
  rw [hm] at h'
  have h'' : m1 ++ m2 = List.replicate m 0 :=
    List.perm_replicate.1 ((List.perm_cons b).1 (List.perm_middle.symm.trans h'))
  obtain ⟨z1, z2⟩ := zeros_of_append h''
  rcases List.append_eq_append_iff.1 hm with ⟨c, rfl, rfl⟩ | ⟨c, rfl, hc⟩
  · exact row_form a b hlen (fun x hx => z1 x (by simp [hx])) (fun x hx => z1 x (by simp [hx])) z2
  · cases c with
    | nil =>
      simp only [List.nil_append] at hc
      subst hc
      have := row_form (m := m) (l := m1) (c := []) (r := m2) a b (by simpa using hlen) z1 (by simp) z2
      simpa using this
    | cons y c =>
      simp only [List.cons_append, List.cons.injEq] at hc
      obtain ⟨rfl, rfl⟩ := hc
      have := row_form (m := m) (l := m1) (c := c) (r := l2) b a (by simpa using hlen) z1
        (fun x hx => z2 x (by simp [hx])) (fun x hx => z2 x (by simp [hx]))
      obtain ⟨i, k, hik, e⟩ := this
      refine ⟨k, i, hik.symm, ?_⟩
      rw [vec2_comm hik, ← e]; simp

open Classical in
theorem mem_s11 {m : ℕ} {a b : ℝ} {row : List ℝ} :
    row ∈ Cn.s11 (m + 2) a b ↔ ∃ i k : Fin (m + 2), i ≠ k ∧ row = List.ofFn (vec2 i k a b) := by
  rw [Cn.s11, List.mem_dedup, List.mem_map]
  simp only [List.cons_append, List.nil_append, Nat.add_sub_cancel]
  constructor
  · rintro ⟨x, hx, rfl⟩
    rw [List.mem_permutations] at hx
    rw [List.take_of_length_le (by rw [hx.length_eq]; simp)]
    exact pair_of_perm hx
  · rintro ⟨i, k, h, rfl⟩
    refine ⟨_, List.mem_permutations.2 (perm_of_pair h a b), List.take_of_length_le (by simp)⟩

theorem toVec_ofFn {n : ℕ} (v : Fin n → ℝ) : toVec n (List.ofFn v) = v := by
  funext i; simp [toVec]

theorem length_of_mem_s11 {m : ℕ} {a b : ℝ} {row : List ℝ} (h : row ∈ Cn.s11 (m + 2) a b) :
    row.length = m + 2 := by
  obtain ⟨i, k, -, rfl⟩ := mem_s11.1 h; simp

open Classical in
theorem osum_s11_finset {n : ℕ} (a b : ℝ) (f : (Fin n → ℝ) → ℝ) :
    osum n (Cn.s11 n a b) f = ∑ row ∈ (Cn.s11 n a b).toFinset, f (toVec n row) := by
  rw [osum, List.sum_toFinset _ (by rw [Cn.s11]; exact List.nodup_dedup _)]

/-- Sum over all ordered placements. -/
theorem osum_s11 {m : ℕ} {a b : ℝ} (ha : a ≠ 0) (hb : b ≠ 0) (hab : a ≠ b)
    (f : (Fin (m + 2) → ℝ) → ℝ) :
    osum (m + 2) (Cn.s11 (m + 2) a b) f = ∑ p ∈ univ.offDiag, f (vec2 p.1 p.2 a b) := by
  classical
  rw [osum_s11_finset]
  have : (Cn.s11 (m + 2) a b).toFinset =
      (univ.offDiag : Finset (Fin (m + 2) × Fin (m + 2))).image
        fun p => List.ofFn (vec2 p.1 p.2 a b) := by
    ext row
    simp only [List.mem_toFinset, mem_s11, mem_image, mem_offDiag, mem_univ, true_and, Prod.exists]
    constructor
    · rintro ⟨i, k, h, rfl⟩; exact ⟨i, k, h, rfl⟩
    · rintro ⟨i, k, h, rfl⟩; exact ⟨i, k, h, rfl⟩
  rw [this, sum_image]
  · simp only [toVec_ofFn]
  · rintro ⟨i, k⟩ h1 ⟨i', k'⟩ h2 h
    have h := List.ofFn_injective h
    simp only [coe_offDiag, Set.mem_offDiag, mem_coe, mem_univ, true_and] at h1 h2
    have e1 := congrFun h i
    have e2 := congrFun h k
    simp only [vec2] at e1 e2
    simp only [if_true, if_neg (Ne.symm h1)] at e1 e2
    have c1 : i = i' := by
      by_contra hc
      rw [if_neg hc] at e1
      split_ifs at e1
      · exact hab e1
      · exact ha e1
    have c2 : k = k' := by
      by_contra hc
      rw [if_neg hc] at e2
      split_ifs at e2
      · exact hab e2.symm
      · exact hb e2
    rw [c1, c2]

/-- Sum over all unordered placements of one number. -/
theorem osum_s2 {m : ℕ} {a : ℝ} (ha : a ≠ 0) (f : (Fin (m + 2) → ℝ) → ℝ) :
    2 * osum (m + 2) (Cn.s2 (m + 2) a) f = ∑ p ∈ univ.offDiag, f (vec2 p.1 p.2 a a) := by
  classical
  rw [Cn.s2, osum_s11_finset]
  have : (Cn.s11 (m + 2) a a).toFinset =
      ((univ : Finset (Fin (m + 2) × Fin (m + 2))).filter fun p => p.1 < p.2).image
        fun p => List.ofFn (vec2 p.1 p.2 a a) := by
    ext row
    simp only [List.mem_toFinset, mem_s11, mem_image, mem_filter, mem_univ, true_and, Prod.exists]
    constructor
    · rintro ⟨i, k, h, rfl⟩
      rcases lt_or_gt_of_ne h with h' | h'
      · exact ⟨i, k, h', rfl⟩
      · exact ⟨k, i, h', by rw [vec2_comm h]⟩
    · rintro ⟨i, k, h, rfl⟩; exact ⟨i, k, h.ne, rfl⟩
  rw [this, sum_image]
  · simp only [toVec_ofFn]
    have hsplit : (univ.offDiag : Finset (Fin (m + 2) × Fin (m + 2))) =
        (univ.filter fun p => p.1 < p.2) ∪ (univ.filter fun p => p.2 < p.1) := by
      ext p
      simp only [mem_offDiag, mem_univ, true_and, mem_union, mem_filter]
      exact ne_iff_lt_or_gt
    rw [hsplit, sum_union, two_mul]
    · congr 1
      refine sum_bij (fun p _ => (p.2, p.1)) ?_ ?_ ?_ ?_
      · rintro ⟨i, k⟩ h; simpa using h
      · rintro ⟨i, k⟩ _ ⟨i', k'⟩ _ h; simp at h; simp [h]
      · rintro ⟨i, k⟩ h; exact ⟨(k, i), by simpa using h, rfl⟩
      · rintro ⟨i, k⟩ h
        simp only [mem_filter, mem_univ, true_and] at h
        simp only; rw [vec2_comm h.ne]
    · rw [disjoint_left]
      rintro p h1 h2
      simp only [mem_filter, mem_univ, true_and] at h1 h2
      exact lt_asymm h1 h2
  · rintro ⟨i, k⟩ h1 ⟨i', k'⟩ h2 h
    have h := List.ofFn_injective h
    simp only [coe_filter, mem_univ, true_and, Set.mem_ofPred_eq] at h1 h2
    have e1 := congrFun h i
    have e2 := congrFun h k
    have e3 := congrFun h i'
    have e4 := congrFun h k'
    simp only [vec2] at e1 e2 e3 e4
    have n1 := h1.ne; have n2 := h2.ne
    simp only [if_true, n1.symm, n2.symm, if_false] at e1 e2 e3 e4
    have c1 : i = i' ∨ i = k' := by
      by_contra hc; push Not at hc; simp [hc.1, hc.2, ha] at e1
    have c2 : k = i' ∨ k = k' := by
      by_contra hc; push Not at hc; simp [hc.1, hc.2, ha] at e2
    rcases c1 with rfl | rfl <;> rcases c2 with rfl | rfl
    · exact absurd rfl n1
    · rfl
    · exact absurd (h1.trans h2) (lt_irrefl _)
    · exact absurd rfl n1

theorem sum_offDiag {n : ℕ} (F : Fin n → Fin n → ℝ) :
    ∑ p ∈ univ.offDiag, F p.1 p.2 = ∑ i, ∑ k, F i k - ∑ i, F i i := by
  have h := sum_union (f := fun p : Fin n × Fin n => F p.1 p.2)
    (disjoint_diag_offDiag (univ : Finset (Fin n)))
  rw [diag_union_offDiag, sum_product, sum_diag] at h
  linarith

theorem pairSum_zero {n : ℕ} (a b : ℝ) :
    ∑ p ∈ univ.offDiag, mono (0 : Fin n → ℕ) (vec2 p.1 p.2 a b) = n * (n - 1) := by
  simp only [mono_zero]
  rw [sum_offDiag (fun _ _ => 1)]
  simp; ring

theorem pairSum_e1 {n : ℕ} (a b : ℝ) (c : Fin n) {k : ℕ} (hk : 0 < k) :
    ∑ p ∈ univ.offDiag, mono (e1 c k) (vec2 p.1 p.2 a b) = (n - 1) * (a ^ k + b ^ k) := by
  simp only [mono_e1]
  have : ∀ p ∈ (univ.offDiag : Finset (Fin n × Fin n)), vec2 p.1 p.2 a b c ^ k =
      (if c = p.1 then a ^ k else 0) + (if c = p.2 then b ^ k else 0) := by
    rintro ⟨i, j⟩ h
    simp only [mem_offDiag, mem_univ, true_and] at h
    simp only [vec2]
    by_cases h1 : c = i
    · subst h1; simp [h]
    · by_cases h2 : c = j
      · subst h2; simp [h1]
      · simp [h1, h2, hk.ne']
  rw [sum_congr rfl this, sum_offDiag (fun i j => (if c = i then a ^ k else 0) +
    (if c = j then b ^ k else 0))]
  simp [sum_add_distrib]
  ring

theorem pairSum_e2 {n : ℕ} (a b : ℝ) {c d : Fin n} (hcd : c ≠ d) {k l : ℕ} (hk : 0 < k) (hl : 0 < l) :
    ∑ p ∈ univ.offDiag, mono (e2 c d k l) (vec2 p.1 p.2 a b) = a ^ k * b ^ l + b ^ k * a ^ l := by
  simp only [mono_e2 hcd]
  have : ∀ p ∈ (univ.offDiag : Finset (Fin n × Fin n)), vec2 p.1 p.2 a b c ^ k * vec2 p.1 p.2 a b d ^ l =
      (if c = p.1 then (if d = p.2 then a ^ k * b ^ l else 0) else 0) +
        (if c = p.2 then (if d = p.1 then b ^ k * a ^ l else 0) else 0) := by
    rintro ⟨i, j⟩ h
    simp only [mem_offDiag, mem_univ, true_and] at h
    simp only [vec2]
    by_cases h1 : c = i
    · subst h1; simp [h, hcd.symm, hl.ne']
    · by_cases h2 : c = j
      · subst h2; simp [h1, hcd.symm, hl.ne']
      · simp [h1, h2, hk.ne']
  rw [sum_congr rfl this, sum_offDiag (fun i j => (if c = i then (if d = j then a ^ k * b ^ l else 0)
    else 0) + (if c = j then (if d = i then b ^ k * a ^ l else 0) else 0))]
  simp [sum_add_distrib, hcd.symm]

theorem pairSum_three {n : ℕ} (a b : ℝ) (α : Fin n → ℕ) {c d e : Fin n} (hcd : c ≠ d) (hce : c ≠ e)
    (hde : d ≠ e) (hc : α c ≠ 0) (hd : α d ≠ 0) (he : α e ≠ 0) :
    ∑ p ∈ univ.offDiag, mono α (vec2 p.1 p.2 a b) = 0 := by
  refine sum_eq_zero fun p _ => ?_
  have key : ∃ x, α x ≠ 0 ∧ x ≠ p.1 ∧ x ≠ p.2 := by
    by_contra hcon
    push Not at hcon
    have h1 := hcon c hc
    have h2 := hcon d hd
    have h3 := hcon e he
    by_cases q1 : c = p.1
    · have r2 := h2 (fun h => hcd (q1.trans h.symm))
      have r3 := h3 (fun h => hce (q1.trans h.symm))
      exact hde (r2.trans r3.symm)
    · have r1 := h1 q1
      by_cases q2 : d = p.1
      · exact hce (r1.trans (h3 (fun h => hde (q2.trans h.symm))).symm)
      · exact hcd (r1.trans (h2 q2).symm)
  obtain ⟨x, hx, h1, h2⟩ := key
  exact prod_eq_zero (mem_univ x) (by simp [vec2, h1, h2, hx])

/-- At most two variables, or at least three. -/
theorem classify_support {n : ℕ} (α : Fin n → ℕ) :
    α = 0 ∨ (∃ a k, 0 < k ∧ α = e1 a k) ∨ (∃ a b k l, a ≠ b ∧ 0 < k ∧ 0 < l ∧ α = e2 a b k l) ∨
      ∃ a b c, a ≠ b ∧ a ≠ c ∧ b ≠ c ∧ α a ≠ 0 ∧ α b ≠ 0 ∧ α c ≠ 0 := by
  classical
  set s := univ.filter fun i => α i ≠ 0 with hs
  have mem : ∀ i, i ∈ s ↔ α i ≠ 0 := fun i => by simp [hs]
  rcases Nat.lt_or_ge 2 s.card with h | h
  · obtain ⟨a, ha, b, hb, c, hc, h1, h2, h3⟩ := two_lt_card.1 h
    exact Or.inr (Or.inr (Or.inr ⟨a, b, c, h1, h2, h3, (mem a).1 ha, (mem b).1 hb, (mem c).1 hc⟩))
  interval_cases hcard : s.card
  · left
    rw [card_eq_zero] at hcard
    funext i
    by_contra hi
    have := (mem i).2 hi
    rw [hcard] at this
    simp at this
  · right; left
    obtain ⟨a, ha⟩ := card_eq_one.1 hcard
    have hm : ∀ i, α i ≠ 0 ↔ i = a := fun i => by rw [← mem, ha, mem_singleton]
    refine ⟨a, α a, Nat.pos_of_ne_zero ((hm a).2 rfl), ?_⟩
    funext i
    by_cases hi : i = a
    · subst hi; simp [e1]
    · have := (hm i).not.2 hi; push Not at this; simp [e1, hi, this]
  · right; right; left
    obtain ⟨a, b, hab, ha⟩ := card_eq_two.1 hcard
    have hm : ∀ i, α i ≠ 0 ↔ i = a ∨ i = b := fun i => by rw [← mem, ha]; simp
    refine ⟨a, b, α a, α b, hab, Nat.pos_of_ne_zero ((hm a).2 (Or.inl rfl)),
      Nat.pos_of_ne_zero ((hm b).2 (Or.inr rfl)), ?_⟩
    funext i
    by_cases hi : i = a
    · subst hi; simp [e2, hab]
    · by_cases hi' : i = b
      · subst hi'; simp [e2, hi]
      · have := (hm i).not.2 (by simp [hi, hi']); push Not at this; simp [e2, hi, hi', this]

end Quadpy
