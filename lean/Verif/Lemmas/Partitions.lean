import Verif.Model.Combinatorics
import Mathlib.Algebra.MvPolynomial.Basic
import Mathlib.Data.List.ToFinsupp
import Mathlib.Data.Nat.Factorial.Basic
import Mathlib.Algebra.BigOperators.Fin
import Mathlib.Tactic.Ring

namespace Quadpy

theorem sum_flatMap_list {α M : Type*} [AddCommMonoid M] (l : List α) (f : α → List M) :
    (l.flatMap f).sum = (l.map fun a => (f a).sum).sum := by
  induction l with
  | nil => rfl
  | cons a l ih => simp [List.sum_append, ih]

theorem partitions_eq (sizes : List ℕ) : partitions sizes =
    (if sizes.all (· = 0) then [[]] else []) ++
    (List.finRange sizes.length).flatMap fun (i : Fin sizes.length) =>
      if 0 < sizes[i.val] then
        (partitions (sizes.set i.val (sizes[i.val] - 1))).map (i.val :: ·)
      else [] := by
  rw [partitions]

/-- Induction principle following the recursion of `partitions`. -/
theorem sizes_induction {P : List ℕ → Prop}
    (step : ∀ s : List ℕ,
      (∀ (i : ℕ) (h : i < s.length), 0 < s[i] → P (s.set i (s[i] - 1))) → P s) (s : List ℕ) :
    P s := by
  induction h : s.sum using Nat.strong_induction_on generalizing s with
  | _ n ih =>
    apply step
    intro i hi h0
    exact ih _ (h ▸ sum_set_pred_lt s i hi h0) _ rfl

theorem all_zero_iff (s : List ℕ) :
    (s.all (· = 0)) = true ↔ ∀ (i : ℕ) (h : i < s.length), s[i] = 0 := by
  simp only [List.all_eq_true, decide_eq_true_eq]
  constructor
  · intro h i hi
    exact h _ (List.getElem_mem hi)
  · intro h x hx
    obtain ⟨i, hi, rfl⟩ := List.getElem_of_mem hx
    exact h i hi

theorem mem_partitions_cons (s : List ℕ) (a : ℕ) (t : List ℕ) :
    a :: t ∈ partitions s ↔ ∃ h : a < s.length, 0 < s[a] ∧ t ∈ partitions (s.set a (s[a] - 1)) := by
  rw [partitions_eq]
  simp only [List.mem_append, List.mem_flatMap, List.mem_finRange, true_and]
  constructor
  · rintro (h | ⟨i, hi⟩)
    · split_ifs at h <;> simp at h
    · split_ifs at hi with h0
      · simp only [List.mem_map, List.cons.injEq] at hi
        obtain ⟨t', ht', hi', rfl⟩ := hi
        subst hi'
        exact ⟨i.isLt, h0, ht'⟩
      · simp at hi
  · rintro ⟨h, h0, ht⟩
    right
    refine ⟨⟨a, h⟩, ?_⟩
    simp only [h0, if_true, List.mem_map]
    exact ⟨t, ht, rfl⟩

theorem nil_mem_partitions (s : List ℕ) :
    [] ∈ partitions s ↔ ∀ (i : ℕ) (h : i < s.length), s[i] = 0 := by
  rw [partitions_eq, ← all_zero_iff]
  simp only [List.mem_append, List.mem_flatMap, List.mem_finRange, true_and]
  constructor
  · rintro (h | ⟨i, hi⟩)
    · split_ifs at h with h0
      · exact h0
      · simp at h
    · split_ifs at hi <;> simp at hi
  · intro h
    left
    simp [h]

/-- The templates are exactly the words with the prescribed letter counts. -/
theorem mem_partitions_iff (t : List ℕ) : ∀ s : List ℕ, t ∈ partitions s ↔
    (∀ (i : ℕ) (h : i < s.length), t.count i = s[i]) ∧ ∀ x ∈ t, x < s.length := by
  induction t with
  | nil =>
    intro s
    rw [nil_mem_partitions]
    simp [eq_comm]
  | cons a t ih =>
    intro s
    rw [mem_partitions_cons]
    constructor
    · rintro ⟨h, h0, ht⟩
      rw [ih] at ht
      obtain ⟨hc, hl⟩ := ht
      simp only [List.length_set] at hc hl
      refine ⟨fun i hi => ?_, ?_⟩
      · have := hc i hi
        rw [List.getElem_set] at this
        rw [List.count_cons]
        split_ifs at this with hai
        · subst hai
          simp only [beq_self_eq_true, if_true]
          omega
        · have : (a == i) = false := by simpa using hai
          simp [this]
          assumption
      · intro x hx
        rcases List.mem_cons.1 hx with rfl | hx
        · exact h
        · exact hl x hx
    · rintro ⟨hc, hl⟩
      have h : a < s.length := hl a (by simp)
      have ha := hc a h
      rw [List.count_cons_self] at ha
      refine ⟨h, by omega, ?_⟩
      rw [ih]
      simp only [List.length_set]
      refine ⟨fun i hi => ?_, fun x hx => hl x (by simp [hx])⟩
      rw [List.getElem_set]
      split_ifs with hai
      · subst hai; omega
      · rw [← hc i hi, List.count_cons]
        have : (a == i) = false := by simpa using hai
        simp [this]

theorem partitions_nodup (s : List ℕ) : (partitions s).Nodup := by
  induction s using sizes_induction with
  | step s ih =>
    rw [partitions_eq]
    rw [List.nodup_append]
    refine ⟨by split_ifs <;> simp, ?_, ?_⟩
    · rw [List.nodup_flatMap]
      refine ⟨fun i _ => ?_, ?_⟩
      · split_ifs with h0
        · exact (ih i.val i.isLt h0).map (fun a b h => by simpa using h)
        · simp
      · refine (List.nodup_finRange _).imp ?_
        intro i j hij
        rw [Function.onFun, List.disjoint_left]
        intro t hi hj
        split_ifs at hi hj <;> simp at hi hj
        obtain ⟨t1, _, rfl⟩ := hi
        obtain ⟨t2, _, h⟩ := hj
        simp only [List.cons.injEq] at h
        exact hij (Fin.ext h.1.symm)
    · intro a ha b hb hab
      subst hab
      split_ifs at ha with h
      · simp only [List.mem_singleton] at ha
        subst ha
        simp only [List.mem_flatMap, List.mem_finRange, true_and] at hb
        obtain ⟨i, hi⟩ := hb
        split_ifs at hi <;> simp at hi
      · simp at ha

theorem sum_set_pred (l : List ℕ) (i : ℕ) (h : i < l.length) (h0 : 0 < l[i]) :
    (l.set i (l[i] - 1)).sum + 1 = l.sum := by
  induction l generalizing i with
  | nil => simp at h
  | cons a l ih =>
    cases i with
    | zero =>
      simp only [List.getElem_cons_zero] at h0
      simp only [List.getElem_cons_zero, List.set_cons_zero, List.sum_cons]
      omega
    | succ i =>
      have h' : i < l.length := by simpa using h
      have h0' : 0 < l[i] := by simpa using h0
      have := ih i h' h0'
      simp only [List.getElem_cons_succ, List.set_cons_succ, List.sum_cons]
      omega

theorem length_of_mem_partitions (s t : List ℕ) (ht : t ∈ partitions s) : t.length = s.sum := by
  induction t generalizing s with
  | nil =>
    rw [nil_mem_partitions] at ht
    symm
    simp only [List.length_nil]
    apply List.sum_eq_zero
    intro x hx
    obtain ⟨i, hi, rfl⟩ := List.getElem_of_mem hx
    exact ht i hi
  | cons a t ih =>
    rw [mem_partitions_cons] at ht
    obtain ⟨h, h0, ht⟩ := ht
    rw [List.length_cons, ih _ ht, sum_set_pred s a h h0]

theorem prod_factorial_set (l : List ℕ) (i : ℕ) (h : i < l.length) (h0 : 0 < l[i]) :
    l[i] * ((l.set i (l[i] - 1)).map Nat.factorial).prod = (l.map Nat.factorial).prod := by
  induction l generalizing i with
  | nil => simp at h
  | cons a l ih =>
    cases i with
    | zero =>
      simp only [List.getElem_cons_zero] at h0
      simp only [List.getElem_cons_zero, List.set_cons_zero, List.map_cons, List.prod_cons]
      rw [← mul_assoc, Nat.mul_factorial_pred (by omega)]
    | succ i =>
      have h' : i < l.length := by simpa using h
      have h0' : 0 < l[i] := by simpa using h0
      have := ih i h' h0'
      simp only [List.getElem_cons_succ, List.set_cons_succ, List.map_cons, List.prod_cons]
      rw [← this]; ring

/-- The number of templates is the multinomial coefficient. -/
theorem length_partitions (s : List ℕ) :
    (s.map Nat.factorial).prod * (partitions s).length = Nat.factorial s.sum := by
  induction s using sizes_induction with
  | step s ih =>
    rw [partitions_eq]
    by_cases hz : s.all (· = 0) = true
    · have hz' := (all_zero_iff s).1 hz
      have h1 : ∀ i : Fin s.length, ¬ 0 < s[i.val] := fun i => by
        have := hz' i.val i.isLt; omega
      have hs : s.sum = 0 := by
        apply List.sum_eq_zero
        intro x hx
        obtain ⟨i, hi, rfl⟩ := List.getElem_of_mem hx
        exact hz' i hi
      have hp : (s.map Nat.factorial).prod = 1 := by
        apply List.prod_eq_one
        intro x hx
        obtain ⟨y, hy, rfl⟩ := List.mem_map.1 hx
        obtain ⟨i, hi, rfl⟩ := List.getElem_of_mem hy
        rw [hz' i hi]; rfl
      simp [hz, h1, hs, hp]
    · have hpos : 0 < s.sum := by
        rcases Nat.eq_zero_or_pos s.sum with h | h
        · exfalso; apply hz
          simp only [List.all_eq_true, decide_eq_true_eq]
          exact fun x hx => List.sum_eq_zero_iff.1 h x hx
        · exact h
      simp only [hz, Bool.false_eq_true, if_false, List.nil_append, List.length_flatMap]
      have key : ∀ i : Fin s.length, (s.map Nat.factorial).prod *
          (if 0 < s[i.val] then
        (partitions (s.set i.val (s[i.val] - 1))).map (i.val :: ·)
          else []).length = s[i.val] * Nat.factorial (s.sum - 1) := by
        intro i
        split_ifs with h0
        · rw [List.length_map, ← prod_factorial_set s i.val i.isLt h0, mul_assoc,
            ih i.val i.isLt h0]
          congr 2
          have := sum_set_pred s i.val i.isLt h0
          omega
        · have : s[i.val] = 0 := by omega
          simp [this]
      rw [← List.sum_map_mul_left]
      simp only [key]
      rw [List.sum_map_mul_right]
      have : (List.map (fun i : Fin s.length => s[i.val]) (List.finRange s.length)).sum = s.sum := by
        congr 1
        exact List.ext_getElem (by simp) (by simp)
      rw [this, Nat.mul_factorial_pred (by omega)]

section Coeff
open MvPolynomial

/-- The list of sizes as an exponent. -/
def sizesFs (s : List ℕ) : ℕ →₀ ℕ := s.toFinsupp

theorem sizesFs_apply (s : List ℕ) (i : ℕ) : sizesFs s i = s.getD i 0 := by
  simp [sizesFs]

theorem sizesFs_set (s : List ℕ) (i : ℕ) (h : i < s.length) :
    sizesFs (s.set i (s[i] - 1)) = sizesFs s - Finsupp.single i 1 := by
  ext j
  rw [sizesFs_apply, Finsupp.tsub_apply, sizesFs_apply, Finsupp.single_apply]
  by_cases hij : i = j
  · subst hij
    simp [h]
  · simp only [hij, if_false, tsub_zero, List.getD_eq_getElem?_getD, List.getElem?_set_ne hij]

/-- Sum of a product function over all templates, as a coefficient of a product of linear forms:
manifestly symmetric in the positions. -/
theorem partitions_sum_prod {R : Type*} [CommRing R] (s : List ℕ) :
    ∀ G : List (ℕ → R), G.length = s.sum →
    ((partitions s).map fun t => (List.zipWith (fun g i => g i) G t).prod).sum =
    coeff (sizesFs s) (G.map fun g =>
      ∑ i ∈ Finset.range s.length, C (g i) * (X i : MvPolynomial ℕ R)).prod := by
  induction s using sizes_induction with
  | step s ih =>
    intro G hG
    rw [partitions_eq]
    cases G with
    | nil =>
      have h0 : s.sum = 0 := by simpa using hG.symm
      have hz' : ∀ x ∈ s, x = 0 := List.sum_eq_zero_iff.1 h0
      have hz : s.all (· = 0) = true := by simpa using hz'
      have h1 : ∀ i : Fin s.length, ¬ 0 < s[i.val] := fun i => by
        have := (all_zero_iff s).1 hz i.val i.isLt; omega
      have hfs : sizesFs s = 0 := by
        ext i
        rw [sizesFs_apply]
        by_cases hi : i < s.length
        · simp [hi, (all_zero_iff s).1 hz i hi]
        · simp [List.getElem?_eq_none (not_lt.1 hi)]
      simp [hz, h1, hfs]
    | cons g G =>
      have hpos : 0 < s.sum := by rw [← hG]; simp
      have hz : ¬ s.all (· = 0) = true := by
        intro hz
        simp only [List.all_eq_true, decide_eq_true_eq] at hz
        have := List.sum_eq_zero_iff.2 hz
        omega
      simp only [hz, Bool.false_eq_true, if_false, List.nil_append, List.map_cons, List.prod_cons]
      rw [Finset.sum_mul, coeff_sum, List.map_flatMap, sum_flatMap_list]
      rw [Finset.sum_range, ← Fin.sum_univ_def]
      refine Finset.sum_congr rfl fun i _ => ?_
      rw [mul_assoc, coeff_C_mul, coeff_X_mul']
      have hsupp : (i.val ∈ (sizesFs s).support) ↔ 0 < s[i.val] := by
        rw [Finsupp.mem_support_iff, sizesFs_apply]
        simp [Nat.pos_iff_ne_zero]
      split_ifs with h0 h1 h1
      · rw [List.map_map]
        have := ih i.val i.isLt h0 G (by
          have := sum_set_pred s i.val i.isLt h0
          have h2 : G.length + 1 = s.sum := by simpa using hG
          omega)
        rw [sizesFs_set s i.val i.isLt, List.length_set] at this
        rw [← this, ← List.sum_map_mul_left]
        rfl
      · exact absurd (hsupp.2 h0) h1
      · exact absurd (hsupp.1 h1) h0
      · simp

end Coeff

end Quadpy
