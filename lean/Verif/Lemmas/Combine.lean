import Verif.Lemmas.Partitions
import Mathlib.Data.List.Perm.Basic
import Mathlib.Data.List.Forall2
import Mathlib.Algebra.Ring.Parity
import Mathlib.Tactic.Linarith
import Mathlib.Algebra.BigOperators.Group.List.Lemmas

namespace Quadpy

section IterProduct
variable {α : Type*}

theorem mem_iterProduct (ls : List (List α)) : ∀ row : List α,
    row ∈ iterProduct ls ↔ List.Forall₂ (fun x l => x ∈ l) row ls := by
  induction ls with
  | nil => intro row; simp [iterProduct]
  | cons l ls ih =>
    intro row
    simp only [iterProduct, List.mem_flatMap, List.mem_map]
    constructor
    · rintro ⟨a, ha, r, hr, rfl⟩
      exact List.Forall₂.cons ha ((ih r).1 hr)
    · intro h
      cases h with
      | cons ha hr => exact ⟨_, ha, _, (ih _).2 hr, rfl⟩

theorem nodup_iterProduct (ls : List (List α)) (h : ∀ l ∈ ls, l.Nodup) :
    (iterProduct ls).Nodup := by
  induction ls with
  | nil => simp [iterProduct]
  | cons l ls ih =>
    simp only [iterProduct]
    rw [List.nodup_flatMap]
    refine ⟨fun a _ => (ih fun l hl => h l (by simp [hl])).map (fun a b h => by simpa using h), ?_⟩
    refine (h l (by simp)).imp ?_
    intro a b hab
    rw [Function.onFun, List.disjoint_left]
    intro t h1 h2
    simp only [List.mem_map] at h1 h2
    obtain ⟨t1, _, rfl⟩ := h1
    obtain ⟨t2, _, h⟩ := h2
    simp only [List.cons.injEq] at h
    exact hab h.1.symm

theorem length_iterProduct (ls : List (List α)) :
    (iterProduct ls).length = (ls.map List.length).prod := by
  induction ls with
  | nil => rfl
  | cons l ls ih => simp [iterProduct, List.length_flatMap, ih]

theorem length_of_mem_iterProduct (ls : List (List α)) (row : List α)
    (h : row ∈ iterProduct ls) : row.length = ls.length :=
  ((mem_iterProduct ls row).1 h).length_eq

theorem iterProduct_sum_prod {R : Type*} [CommRing R] (ls : List (List α)) :
    ∀ G : List (α → R), G.length = ls.length →
    ((iterProduct ls).map fun row => (List.zipWith (fun g x => g x) G row).prod).sum =
    (List.zipWith (fun g l => (l.map g).sum) G ls).prod := by
  induction ls with
  | nil => intro G h; have : G = [] := by simpa using h
           subst this; simp [iterProduct]
  | cons l ls ih =>
    intro G h
    cases G with
    | nil => simp at h
    | cons g G =>
      have hG : G.length = ls.length := by simpa using h
      simp only [iterProduct, List.zipWith_cons_cons, List.prod_cons]
      rw [List.map_flatMap, sum_flatMap_list, ← ih G hG, ← List.sum_map_mul_right]
      congr 1
      apply List.map_congr_left
      intro a _
      rw [List.map_map, ← List.sum_map_mul_left]
      rfl

end IterProduct

section Combine
variable {α : Type*}

/-- Value lists by index. -/
def vals (elems : List (List α × ℕ)) (i : ℕ) : List α := (elems.map Prod.fst).getD i []

theorem mem_combine (elems : List (List α × ℕ)) (row : List α) :
    row ∈ combine elems ↔ ∃ t ∈ partitions (elems.map Prod.snd),
      List.Forall₂ (fun x i => x ∈ vals elems i) row t := by
  simp only [combine, List.mem_flatMap, mem_iterProduct]
  refine exists_congr fun t => and_congr_right fun _ => ?_
  rw [List.forall₂_map_right_iff]
  rfl

theorem length_of_mem_combine (elems : List (List α × ℕ)) (row : List α)
    (h : row ∈ combine elems) : row.length = (elems.map Prod.snd).sum := by
  obtain ⟨t, ht, h⟩ := (mem_combine elems row).1 h
  rw [h.length_eq, length_of_mem_partitions _ _ ht]

theorem combine_sum_prod {R : Type*} [CommRing R] (elems : List (List α × ℕ))
    (G : List (α → R)) (hG : G.length = (elems.map Prod.snd).sum) :
    ((combine elems).map fun row => (List.zipWith (fun g x => g x) G row).prod).sum =
    MvPolynomial.coeff (sizesFs (elems.map Prod.snd)) (G.map fun g =>
      ∑ i ∈ Finset.range elems.length,
        MvPolynomial.C ((vals elems i).map g).sum * (MvPolynomial.X i : MvPolynomial ℕ R)).prod := by
  have h1 := partitions_sum_prod (R := R) (elems.map Prod.snd)
    (G.map fun g i => ((vals elems i).map g).sum) (by simpa using hG)
  rw [List.map_map] at h1
  rw [List.length_map] at h1
  rw [show (fun g : α → R => ∑ i ∈ Finset.range elems.length,
        MvPolynomial.C ((vals elems i).map g).sum * (MvPolynomial.X i : MvPolynomial ℕ R)) =
      ((fun g : ℕ → R => ∑ i ∈ Finset.range elems.length,
        MvPolynomial.C (g i) * (MvPolynomial.X i : MvPolynomial ℕ R)) ∘
        fun (g : α → R) (i : ℕ) => ((vals elems i).map g).sum) from rfl, ← h1]
  rw [combine, List.map_flatMap, sum_flatMap_list]
  congr 1
  apply List.map_congr_left
  intro t ht
  have hl : G.length = t.length := by rw [hG, length_of_mem_partitions _ _ ht]
  rw [iterProduct_sum_prod _ _ (by simpa using hl)]
  rw [List.zipWith_map_left, List.zipWith_map_right]
  rfl

/-- Position symmetry of sums of product functions over `combine`. -/
theorem combine_sum_prod_perm {R : Type*} [CommRing R] (elems : List (List α × ℕ))
    {G G' : List (α → R)} (hG : G.length = (elems.map Prod.snd).sum) (hp : G.Perm G') :
    ((combine elems).map fun row => (List.zipWith (fun g x => g x) G row).prod).sum =
    ((combine elems).map fun row => (List.zipWith (fun g x => g x) G' row).prod).sum := by
  rw [combine_sum_prod elems G hG, combine_sum_prod elems G' (hp.length_eq ▸ hG)]
  rw [(hp.map _).prod_eq]

/-- A factor summing to zero over every value list kills the sum. -/
theorem combine_sum_prod_zero {R : Type*} [CommRing R] (elems : List (List α × ℕ))
    {G : List (α → R)} (hG : G.length = (elems.map Prod.snd).sum) (g : α → R) (hg : g ∈ G)
    (h0 : ∀ e ∈ elems, (e.1.map g).sum = 0) :
    ((combine elems).map fun row => (List.zipWith (fun g x => g x) G row).prod).sum = 0 := by
  rw [combine_sum_prod elems G hG]
  have : (∑ i ∈ Finset.range elems.length,
        MvPolynomial.C ((vals elems i).map g).sum * (MvPolynomial.X i : MvPolynomial ℕ R)) = 0 := by
    apply Finset.sum_eq_zero
    intro i hi
    have hi' : i < elems.length := by simpa using hi
    have : ((vals elems i).map g).sum = 0 := by
      unfold vals
      rw [List.getD_eq_getElem?_getD, List.getElem?_eq_getElem (by simpa using hi')]
      simp only [Option.getD_some, List.getElem_map]
      exact h0 _ (List.getElem_mem hi')
    simp [this]
  rw [List.prod_eq_zero, MvPolynomial.coeff_zero]
  exact List.mem_map.2 ⟨g, hg, this⟩

theorem sum_map_eq_sum_count (h : ℕ → ℝ) (t : List ℕ) (q : ℕ) (ht : ∀ x ∈ t, x < q) :
    (t.map h).sum = ∑ i ∈ Finset.range q, (t.count i : ℝ) * h i := by
  induction t with
  | nil => simp
  | cons a t ih =>
    have ha : a < q := ht a (by simp)
    rw [List.map_cons, List.sum_cons, ih fun x hx => ht x (by simp [hx])]
    have : ∀ i, ((List.count i (a :: t) : ℕ) : ℝ) * h i =
        (if i = a then h i else 0) + (t.count i : ℝ) * h i := by
      intro i
      rw [List.count_cons]
      by_cases hia : i = a
      · subst hia; simp; ring
      · have : (a == i) = false := by simpa using fun h => hia h.symm
        simp [this, hia]
    simp only [this]
    rw [Finset.sum_add_distrib, Finset.sum_ite_eq' (Finset.range q) a]
    simp [ha]

/-- Additive functionals that are constant on each value list are constant on `combine`. -/
theorem sum_map_of_mem_combine (elems : List (List α × ℕ)) (h : α → ℝ) (c : List α × ℕ → ℝ)
    (hc : ∀ e ∈ elems, ∀ x ∈ e.1, h x = c e) (row : List α) (hrow : row ∈ combine elems) :
    (row.map h).sum = (elems.map fun e => (e.2 : ℝ) * c e).sum := by
  obtain ⟨t, ht, hf⟩ := (mem_combine elems row).1 hrow
  obtain ⟨hcount, hlt⟩ := (mem_partitions_iff t _).1 ht
  rw [List.length_map] at hlt
  have h1 : row.map h = t.map fun i => if hi : i < elems.length then c elems[i] else 0 := by
    have : ∀ (row : List α) (t : List ℕ), (∀ x ∈ t, x < elems.length) →
        List.Forall₂ (fun x i => x ∈ vals elems i) row t →
        row.map h = t.map fun i => if hi : i < elems.length then c elems[i] else 0 := by
      intro row t hlt hf
      induction hf with
      | nil => rfl
      | @cons x i row t hx _ ih =>
        have hi : i < elems.length := hlt i (by simp)
        rw [List.map_cons, List.map_cons, ih fun x hx => hlt x (by simp [hx])]
        congr 1
        rw [dif_pos hi]
        apply hc _ (List.getElem_mem hi)
        simpa [vals, hi] using hx
    exact this row t hlt hf
  rw [h1, sum_map_eq_sum_count _ t elems.length hlt, Finset.sum_range]
  rw [← List.sum_ofFn]
  congr 1
  apply List.ext_getElem (by simp)
  intro i h2 h3
  have hi : i < elems.length := by simpa using h3
  have := hcount i (by simpa using hi)
  simp [hi, this]

theorem prod_map_pow_count (h : ℕ → ℕ) (t : List ℕ) (q : ℕ) (ht : ∀ x ∈ t, x < q) :
    (t.map h).prod = ∏ i ∈ Finset.range q, h i ^ t.count i := by
  induction t with
  | nil => simp
  | cons a t ih =>
    have ha : a < q := ht a (by simp)
    rw [List.map_cons, List.prod_cons, ih fun x hx => ht x (by simp [hx])]
    have : ∀ i, h i ^ (List.count i (a :: t)) = (if i = a then h i else 1) * h i ^ t.count i := by
      intro i
      rw [List.count_cons]
      by_cases hia : i = a
      · subst hia; simp; ring
      · have : (a == i) = false := by simpa using fun h => hia h.symm
        simp [this, hia]
    simp only [this]
    rw [Finset.prod_mul_distrib, Finset.prod_ite_eq' (Finset.range q) a]
    simp [ha]

/-- Number of rows: multinomial coefficient times the numbers of choices. -/
theorem length_combine (elems : List (List α × ℕ)) :
    (elems.map fun e => Nat.factorial e.2).prod * (combine elems).length =
    Nat.factorial (elems.map Prod.snd).sum * (elems.map fun e => e.1.length ^ e.2).prod := by
  rw [combine, List.length_flatMap]
  have h1 : ∀ t ∈ partitions (elems.map Prod.snd),
      (iterProduct (t.map fun ti => (elems.map Prod.fst).getD ti [])).length =
        (elems.map fun e => e.1.length ^ e.2).prod := by
    intro t ht
    obtain ⟨hcount, hlt⟩ := (mem_partitions_iff t _).1 ht
    rw [List.length_map] at hlt
    rw [length_iterProduct, List.map_map]
    rw [prod_map_pow_count _ t elems.length hlt, Finset.prod_range, ← List.prod_ofFn]
    congr 1
    apply List.ext_getElem (by simp)
    intro i h2 h3
    have hi : i < elems.length := by simpa using h3
    have := hcount i (by simpa using hi)
    simp [hi, this]
  rw [List.map_congr_left h1, List.map_const', List.sum_replicate, smul_eq_mul, ← mul_assoc]
  congr 1
  rw [← length_partitions, List.map_map]
  rfl

end Combine

end Quadpy
