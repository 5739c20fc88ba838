/-
The sum of a rule given by symmetry data.
-/
import Verif.Lemmas.ProductRule
import Verif.Lemmas.Orbit

namespace Quadpy
open Finset

/-- The numbers of parameters a key accepts. -/
def SymKey.arities : SymKey → List ℕ
  | .zero | .centroid | .vertex | .s4 | .a1 | .a2 | .a3 => [0]
  | .a | .a0 | .d4_aa | .d4_a0 | .c2_a0 | .c2_0a | .d3_aa | .s2_static | .d _ _ | .symm_r00
  | .symm_rr0 | .symm_rrr | .s31 | .s22 | .llm | .pq0 => [1]
  | .c4 | .d4_ab | .sxy | .c2 | .sx | .d3_ab | .c3_ab | .swap_ab | .symm_rs0_roll | .symm_rrs
  | .symm_rss_pm | .s211 | .rsw => [2]
  | .s1111 => [3]
  | .llm2 | .pq02 | .rs0 => [1, 2]
  | .rsw2 | .rst | .rst_weird => [2, 3]
  | .plain => []

/-- The number of points of the orbit of a key. -/
def SymKey.count (dim : ℕ) : SymKey → ℕ
  | .zero | .centroid | .s4 | .s2_static | .plain => 1
  | .c2_a0 | .c2_0a | .c2 | .sx | .swap_ab => 2
  | .vertex | .d3_aa | .c3_ab => 3
  | .d4_aa | .d4_a0 | .c4 | .sxy | .s31 => 4
  | .d3_ab | .symm_r00 | .symm_rss_pm | .s22 | .a1 => 6
  | .d4_ab | .symm_rrr | .a3 => 8
  | .symm_rr0 | .symm_rs0_roll | .s211 | .a2 | .rs0 => 12
  | .symm_rrs | .s1111 | .llm | .llm2 | .pq0 | .pq02 | .rst | .rst_weird => 24
  | .rsw | .rsw2 => 48
  | .a => 2 ^ dim
  | .a0 => 2 * dim
  | .d n _ => n

/-- The right number of parameters ("plain" takes a point of any length). -/
def SymKey.Accepts (k : SymKey) (col : List ℝ) : Prop := k = .plain ∨ col.length ∈ k.arities

theorem length_iterProduct_pm (n : ℕ) (a : ℝ) :
    (iterProduct (List.replicate n [a, -a])).length = 2 ^ n := by
  induction n with
  | zero => simp [iterProduct]
  | succ n ih => simp [iterProduct, List.replicate_succ, List.length_flatMap, ih, pow_succ]; ring

theorem orbit_length (dim : ℕ) (k : SymKey) (col : List ℝ) (h : k.Accepts col) :
    (orbit dim k col).length = k.count dim := by
  rcases h with rfl | h
  · simp [orbit, SymKey.count]
  cases k <;> simp only [SymKey.arities, List.mem_cons, List.not_mem_nil, or_false] at h
  all_goals first
    | (obtain rfl := List.length_eq_zero_iff.1 h; rfl)
    | (obtain ⟨a, rfl⟩ := List.length_eq_one_iff.1 h
       first
        | rfl
        | exact length_iterProduct_pm dim a
        | (simp [orbit, SymKey.count, List.length_flatMap, mul_comm]; done))
    | (obtain ⟨a, b, rfl⟩ := List.length_eq_two.1 h; rfl)
    | (obtain ⟨a, b, c, rfl⟩ := List.length_eq_three.1 h; rfl)
    | (rcases h with h | h
       · first
          | (obtain ⟨a, rfl⟩ := List.length_eq_one_iff.1 h; rfl)
          | (obtain ⟨a, b, rfl⟩ := List.length_eq_two.1 h; rfl)
       · first
          | (obtain ⟨a, b, rfl⟩ := List.length_eq_two.1 h; rfl)
          | (obtain ⟨a, b, c, rfl⟩ := List.length_eq_three.1 h; rfl))

/-- One weight per column, and columns with the right number of parameters. -/
def SymEntry.Regular (e : SymEntry) : Prop :=
  e.weights.length = e.cols.length ∧ ∀ c ∈ e.cols, e.key.Accepts c

theorem entry_length (dim : ℕ) (e : SymEntry) (h : e.weights.length = e.cols.length) :
    (entryWeights dim e).length = (entryPoints dim e).length := by
  simp [entryWeights, entryPoints, List.length_flatMap, h]

theorem flatten_replicate {α : Type} (n : ℕ) (w : List α) :
    (List.replicate n w).flatten = (List.range n).flatMap fun _ => w := by
  simp [List.flatMap]

theorem sum_zipWith_swap (w : List ℝ) (cols : List (List ℝ)) (N : ℕ) (F : List ℝ → ℕ → ℝ) :
    ∑ k ∈ range N, (List.zipWith (fun a c => a * F c k) w cols).sum =
      (List.zipWith (fun a c => a * ∑ k ∈ range N, F c k) w cols).sum := by
  induction w generalizing cols with
  | nil => simp
  | cons a w ih =>
    cases cols with
    | nil => simp
    | cons c cols => simp [sum_add_distrib, ih, mul_sum]

theorem osum_eq_range (m : ℕ) (L : List (List ℝ)) (f : (Fin m → ℝ) → ℝ) :
    osum m L f = ∑ k ∈ range L.length, f (toVec m (L.getD k [])) := by
  rw [osum, ← list_range_sum]
  congr 1
  apply List.ext_getElem
  · simp
  · intro i h1 h2
    have : i < L.length := by simpa using h1
    simp [this]

theorem entry_dot (dim m : ℕ) (e : SymEntry) (h : e.Regular) (f : (Fin m → ℝ) → ℝ) :
    dot m (entryWeights dim e) (entryPoints dim e) f =
      (List.zipWith (fun w c => w * osum m (orbit dim e.key c) f) e.weights e.cols).sum := by
  obtain ⟨h1, h2⟩ := h
  rcases e with ⟨k, w, cols⟩
  simp only at h1 h2
  cases cols with
  | nil =>
    obtain rfl : w = [] := List.length_eq_zero_iff.1 (by simpa using h1)
    simp [entryPoints, entryWeights, dot]
  | cons c0 cols =>
    have hN : ∀ c ∈ c0 :: cols, (orbit dim k c).length = k.count dim :=
      fun c hc => orbit_length dim k c (h2 c hc)
    unfold entryWeights entryPoints
    simp only [List.headD_cons]
    rw [flatten_replicate, dot_flatMap _ _ _ _ _ (by simp [h1]), zipWith_range_sum]
    simp only [dot, List.zipWith_map_right]
    rw [sum_zipWith_swap w (c0 :: cols) _ fun c k' => f (toVec m ((orbit dim k c).getD k' []))]
    congr 1
    apply List.ext_getElem (by simp)
    intro i hi hi'
    simp only [List.length_zipWith, lt_inf_iff] at hi
    simp only [List.getElem_zipWith]
    have h0 := hN c0 (by simp)
    have h3 := hN _ (List.getElem_mem hi.2)
    rw [osum_eq_range, h3, ← h0]

/-- The sum of the expanded rule. -/
noncomputable def symSum (dim m : ℕ) (d : List SymEntry) (f : (Fin m → ℝ) → ℝ) : ℝ :=
  (d.map fun e => (List.zipWith (fun w c => w * osum m (orbit dim e.key c) f) e.weights e.cols).sum).sum

theorem expand_length (dim : ℕ) (d : List SymEntry)
    (h : ∀ e ∈ d, e.weights.length = e.cols.length) :
    (expandSymmetries d dim).2.length = (expandSymmetries d dim).1.length := by
  induction d with
  | nil => rfl
  | cons e d ih =>
    have := ih fun x hx => h x (by simp [hx])
    simp only [expandSymmetries, List.map_cons, List.flatten_cons, List.length_append] at this ⊢
    rw [this, entry_length dim e (h e (by simp))]

theorem expand_dot (dim m : ℕ) (d : List SymEntry) (h : ∀ e ∈ d, e.Regular) (f : (Fin m → ℝ) → ℝ) :
    dot m (expandSymmetries d dim).2 (expandSymmetries d dim).1 f = symSum dim m d f := by
  induction d with
  | nil => simp [expandSymmetries, dot, symSum]
  | cons e d ih =>
    have := ih fun x hx => h x (by simp [hx])
    simp only [expandSymmetries, symSum, List.map_cons, List.flatten_cons, List.sum_cons] at this ⊢
    rw [dot_append (entry_length dim e (h e (by simp)).1), this, entry_dot dim m e (h e (by simp))]

theorem mem_expand {dim : ℕ} {d : List SymEntry} (h : ∀ e ∈ d, e.Regular) {x : List ℝ}
    (hx : x ∈ (expandSymmetries d dim).1) : ∃ e ∈ d, ∃ c ∈ e.cols, x ∈ orbit dim e.key c := by
  simp only [expandSymmetries, entryPoints, List.mem_flatten, List.mem_map, List.mem_flatMap,
    List.mem_range] at hx
  obtain ⟨l, ⟨e, he, rfl⟩, hx⟩ := hx
  simp only [List.mem_flatMap, List.mem_range, List.mem_map] at hx
  obtain ⟨k, hk, c, hc, rfl⟩ := hx
  refine ⟨e, he, c, hc, ?_⟩
  have h1 : (e.cols.headD []) ∈ e.cols := by
    cases hcs : e.cols with
    | nil => simp [hcs] at hc
    | cons a l => simp
  rw [orbit_length dim _ _ ((h e he).2 _ h1), ← orbit_length dim _ _ ((h e he).2 c hc)] at hk
  rw [List.getD_eq_getElem _ _ hk]
  exact List.getElem_mem _

end Quadpy
