import Verif.Lemmas.QuadComb
import Verif.Lemmas.FixedRules
import Verif.Lemmas.SimplexGroups

/-! Rules on the triangle and the tetrahedron given by symmetry data: the points have barycentric
coordinates that add up to one, and exactness is a finite number of conditions on moments. -/

namespace Quadpy
open Finset

/-- The orbits on the triangle. -/
def triKeys : List SymKey := [.centroid, .vertex, .d3_aa, .d3_ab, .c3_ab, .swap_ab, .s2_static]

/-- The orbits on the tetrahedron. -/
def tetKeys : List SymKey := [.s4, .s31, .s22, .s211, .s1111]

local macro "bary_shape" : tactic => `(tactic| (
  simp only [orbit, List.forall_mem_cons, List.not_mem_nil, false_imp_iff, implies_true, and_true,
    List.length_cons, List.length_nil, List.sum_cons, List.sum_nil, true_and, Nat.reduceAdd]
  repeat' apply And.intro
  all_goals first | (norm_num; done) | ring))

theorem tri_shape (k : SymKey) (hk : k ∈ triKeys) (c : List ℝ) (hc : k.Accepts c) :
    ∀ x ∈ orbit 2 k c, x.length = 3 ∧ x.sum = 1 := by
  simp only [triKeys, List.mem_cons, List.not_mem_nil, or_false] at hk
  have h1 (h : k ∈ [SymKey.d3_aa, .s2_static]) : ∃ a, c = [a] := by
    simp only [List.mem_cons, List.not_mem_nil, or_false] at h
    rcases h with rfl | rfl <;>
      simpa [SymKey.Accepts, SymKey.arities, List.length_eq_one_iff] using hc
  have h2 (h : k ∈ [SymKey.d3_ab, .c3_ab, .swap_ab]) : ∃ a b, c = [a, b] := by
    simp only [List.mem_cons, List.not_mem_nil, or_false] at h
    rcases h with rfl | rfl | rfl <;>
      simpa [SymKey.Accepts, SymKey.arities, List.length_eq_two] using hc
  rcases hk with rfl | rfl | rfl | rfl | rfl | rfl | rfl
  · bary_shape
  · bary_shape
  · obtain ⟨a, rfl⟩ := h1 (by simp); bary_shape
  · obtain ⟨a, b, rfl⟩ := h2 (by simp); bary_shape
  · obtain ⟨a, b, rfl⟩ := h2 (by simp); bary_shape
  · obtain ⟨a, b, rfl⟩ := h2 (by simp); bary_shape
  · obtain ⟨a, rfl⟩ := h1 (by simp); bary_shape

theorem tet_shape (k : SymKey) (hk : k ∈ tetKeys) (c : List ℝ) (hc : k.Accepts c) :
    ∀ x ∈ orbit 3 k c, x.length = 4 ∧ x.sum = 1 := by
  simp only [tetKeys, List.mem_cons, List.not_mem_nil, or_false] at hk
  rcases hk with rfl | rfl | rfl | rfl | rfl
  · bary_shape
  · obtain ⟨a, rfl⟩ : ∃ a, c = [a] := by
      simpa [SymKey.Accepts, SymKey.arities, List.length_eq_one_iff] using hc
    bary_shape
  · obtain ⟨a, rfl⟩ : ∃ a, c = [a] := by
      simpa [SymKey.Accepts, SymKey.arities, List.length_eq_one_iff] using hc
    bary_shape
  · obtain ⟨a, b, rfl⟩ : ∃ a b, c = [a, b] := by
      simpa [SymKey.Accepts, SymKey.arities, List.length_eq_two] using hc
    bary_shape
  · obtain ⟨a, b, d, rfl⟩ : ∃ a b d, c = [a, b, d] := by
      simpa [SymKey.Accepts, SymKey.arities, List.length_eq_three] using hc
    bary_shape

/-- A rule on the simplex made of orbits is exact as soon as its moments are right. -/
theorem simplex_sym_exact {n : ℕ} {d : List SymEntry} {deg : ℕ}
    (hr : ∀ e ∈ d, e.Regular)
    (hp : ∀ e ∈ d, ∀ c ∈ e.cols, ∀ x ∈ orbit n e.key c, x.length = n + 1 ∧ x.sum = 1)
    (h : ∀ α : Fin n → ℕ, ∑ i, α i ≤ deg →
      symSum n (n + 1) d (mono (Fin.cons 0 α : Fin (n + 1) → ℕ)) =
        n.factorial * (∏ i, ((α i).factorial : ℝ)) / (n + ∑ i, α i).factorial) :
    (schemeOfSym n d deg).ExactOnSimplex n := by
  refine ⟨⟨rfl, expand_length n d fun e he => (hr e he).1, fun x hx => ?_⟩, ?_⟩
  · obtain ⟨e, he, c, hc, hx⟩ := mem_expand hr hx
    exact hp e he c hc x hx
  · apply exactUpTo_of_mono ((linOnMono_bary _ _).const_mul _) (simplex_linOnMono n)
    intro α hα
    beta_reduce
    rw [simplex_baryMom, mono_cons_zero]
    simp only [schemeOfSym] at hα ⊢
    rw [expand_dot n (n + 1) d hr, h α hα]
    simp [baryMom, Fin.prod_univ_succ, Fin.sum_univ_succ]

/-- Rules on the triangle. -/
theorem tri_exact {d : List SymEntry} {deg : ℕ} (hd : ∀ e ∈ d, e.key ∈ triKeys ∧ e.Regular)
    (h : ∀ a b : ℕ, a + b ≤ deg → symSum 2 3 d (fun x => x 1 ^ a * x 2 ^ b) =
      2 * (a.factorial * b.factorial) / (2 + (a + b)).factorial) :
    (schemeOfSym 2 d deg).ExactOnSimplex 2 := by
  refine simplex_sym_exact (fun e he => (hd e he).2)
    (fun e he c hc => tri_shape _ (hd e he).1 c ((hd e he).2.2 c hc)) fun α hα => ?_
  rw [Fin.sum_univ_two] at hα ⊢
  rw [Fin.prod_univ_two]
  have := h _ _ hα
  norm_num at this ⊢
  rw [← this]
  congr 1
  funext x
  simp [mono, Fin.prod_univ_succ]

/-- Rules on the tetrahedron. -/
theorem tet_exact {d : List SymEntry} {deg : ℕ} (hd : ∀ e ∈ d, e.key ∈ tetKeys ∧ e.Regular)
    (h : ∀ a b c : ℕ, a + b + c ≤ deg → symSum 3 4 d (fun x => x 1 ^ a * x 2 ^ b * x 3 ^ c) =
      6 * (a.factorial * b.factorial * c.factorial) / (3 + (a + b + c)).factorial) :
    (schemeOfSym 3 d deg).ExactOnSimplex 3 := by
  refine simplex_sym_exact (fun e he => (hd e he).2)
    (fun e he c hc => tet_shape _ (hd e he).1 c ((hd e he).2.2 c hc)) fun α hα => ?_
  rw [Fin.sum_univ_three] at hα ⊢
  rw [Fin.prod_univ_three]
  have := h _ _ _ hα
  norm_num [Nat.factorial] at this ⊢
  rw [← this]
  congr 1
  funext x
  simp [mono, Fin.prod_univ_succ, mul_assoc]

theorem bary3_coord (a b c : ℝ) : toVec 3 [a, b, c] 1 = b ∧ toVec 3 [a, b, c] 2 = c := ⟨rfl, rfl⟩

theorem bary4_coord (a b c d : ℝ) :
    toVec 4 [a, b, c, d] 1 = b ∧ toVec 4 [a, b, c, d] 2 = c ∧ toVec 4 [a, b, c, d] 3 = d :=
  ⟨rfl, rfl, rfl⟩

theorem symSum_congr {dim m : ℕ} {d : List SymEntry} {f g : (Fin m → ℝ) → ℝ}
    (h : ∀ e ∈ d, ∀ c ∈ e.cols, osum m (orbit dim e.key c) f = osum m (orbit dim e.key c) g) :
    symSum dim m d f = symSum dim m d g := by
  unfold symSum
  congr 1
  refine List.map_congr_left fun e he => ?_
  congr 1
  exact zipWith_congr_mem _ _ _ _ fun w c hc => by rw [h e he c hc]

/-- The orbits on the triangle with the full symmetry. -/
def triSymKeys : List SymKey := [.centroid, .vertex, .d3_aa, .d3_ab]

theorem tri_swap (k : SymKey) (hk : k ∈ triSymKeys) (c : List ℝ) (hc : k.Accepts c) (p q : ℕ) :
    osum 3 (orbit 2 k c) (fun x => x 1 ^ p * x 2 ^ q) =
      osum 3 (orbit 2 k c) (fun x => x 1 ^ q * x 2 ^ p) := by
  simp only [triSymKeys, List.mem_cons, List.not_mem_nil, or_false] at hk
  rcases hk with rfl | rfl | rfl | rfl
  · simp only [orbit, osum, bary3_coord, List.map_cons, List.map_nil, List.sum_cons, List.sum_nil]; ring
  · simp only [orbit, osum, bary3_coord, List.map_cons, List.map_nil, List.sum_cons, List.sum_nil]; ring
  · obtain ⟨a, rfl⟩ : ∃ a, c = [a] := by
      simpa [SymKey.Accepts, SymKey.arities, List.length_eq_one_iff] using hc
    simp only [orbit, osum, bary3_coord, List.map_cons, List.map_nil, List.sum_cons, List.sum_nil]; ring
  · obtain ⟨a, b, rfl⟩ : ∃ a b, c = [a, b] := by
      simpa [SymKey.Accepts, SymKey.arities, List.length_eq_two] using hc
    simp only [orbit, osum, bary3_coord, List.map_cons, List.map_nil, List.sum_cons, List.sum_nil]; ring

/-- Rules on the triangle with the full symmetry. -/
theorem tri_sym_exact {d : List SymEntry} {deg : ℕ} (hd : ∀ e ∈ d, e.key ∈ triSymKeys ∧ e.Regular)
    (h : ∀ a b : ℕ, a ≤ b → a + b ≤ deg → symSum 2 3 d (fun x => x 1 ^ a * x 2 ^ b) =
      2 * (a.factorial * b.factorial) / (2 + (a + b)).factorial) :
    (schemeOfSym 2 d deg).ExactOnSimplex 2 := by
  refine tri_exact (fun e he => ⟨?_, (hd e he).2⟩) fun a b hab => ?_
  · have := (hd e he).1
    simp only [triSymKeys, triKeys, List.mem_cons, List.not_mem_nil, or_false] at this ⊢
    tauto
  · rcases le_total a b with hb | hb
    · exact h a b hb hab
    · rw [symSum_congr fun e he c hc => tri_swap _ (hd e he).1 c ((hd e he).2.2 c hc) a b,
        h b a hb (by omega), add_comm b a, mul_comm (b.factorial : ℝ)]

theorem tet_swap (k : SymKey) (hk : k ∈ tetKeys) (c : List ℝ) (hc : k.Accepts c) (p q r : ℕ) :
    osum 4 (orbit 3 k c) (fun x => x 1 ^ p * x 2 ^ q * x 3 ^ r) =
        osum 4 (orbit 3 k c) (fun x => x 1 ^ q * x 2 ^ p * x 3 ^ r) ∧
      osum 4 (orbit 3 k c) (fun x => x 1 ^ p * x 2 ^ q * x 3 ^ r) =
        osum 4 (orbit 3 k c) (fun x => x 1 ^ p * x 2 ^ r * x 3 ^ q) := by
  simp only [tetKeys, List.mem_cons, List.not_mem_nil, or_false] at hk
  rcases hk with rfl | rfl | rfl | rfl | rfl
  · simp only [orbit, osum, bary4_coord, List.map_cons, List.map_nil, List.sum_cons, List.sum_nil]
    constructor <;> ring
  · obtain ⟨a, rfl⟩ : ∃ a, c = [a] := by
      simpa [SymKey.Accepts, SymKey.arities, List.length_eq_one_iff] using hc
    simp only [orbit, osum, bary4_coord, List.map_cons, List.map_nil, List.sum_cons, List.sum_nil]
    generalize 1 - 3 * a = b
    constructor <;> ring
  · obtain ⟨a, rfl⟩ : ∃ a, c = [a] := by
      simpa [SymKey.Accepts, SymKey.arities, List.length_eq_one_iff] using hc
    simp only [orbit, osum, bary4_coord, List.map_cons, List.map_nil, List.sum_cons, List.sum_nil]
    generalize (1 - 2 * a) / 2 = b
    constructor <;> ring
  · obtain ⟨a, b, rfl⟩ : ∃ a b, c = [a, b] := by
      simpa [SymKey.Accepts, SymKey.arities, List.length_eq_two] using hc
    simp only [orbit, osum, bary4_coord, List.map_cons, List.map_nil, List.sum_cons, List.sum_nil]
    generalize 1 - 2 * a - b = b
    constructor <;> ring
  · obtain ⟨a, b, d, rfl⟩ : ∃ a b d, c = [a, b, d] := by
      simpa [SymKey.Accepts, SymKey.arities, List.length_eq_three] using hc
    simp only [orbit, osum, bary4_coord, List.map_cons, List.map_nil, List.sum_cons, List.sum_nil]
    generalize 1 - a - b - d = b
    constructor <;> ring

/-- Rules on the tetrahedron: by symmetry the exponents can be assumed to be sorted. -/
theorem tet_sym_exact {d : List SymEntry} {deg : ℕ} (hd : ∀ e ∈ d, e.key ∈ tetKeys ∧ e.Regular)
    (h : ∀ a b c : ℕ, a ≤ b → b ≤ c → a + b + c ≤ deg →
      symSum 3 4 d (fun x => x 1 ^ a * x 2 ^ b * x 3 ^ c) =
        6 * (a.factorial * b.factorial * c.factorial) / (3 + (a + b + c)).factorial) :
    (schemeOfSym 3 d deg).ExactOnSimplex 3 := by
  have h12 (a b c : ℕ) : symSum 3 4 d (fun x => x 1 ^ a * x 2 ^ b * x 3 ^ c) =
      symSum 3 4 d (fun x => x 1 ^ b * x 2 ^ a * x 3 ^ c) :=
    symSum_congr fun e he k hk => (tet_swap _ (hd e he).1 k ((hd e he).2.2 k hk) a b c).1
  have h23 (a b c : ℕ) : symSum 3 4 d (fun x => x 1 ^ a * x 2 ^ b * x 3 ^ c) =
      symSum 3 4 d (fun x => x 1 ^ a * x 2 ^ c * x 3 ^ b) :=
    symSum_congr fun e he k hk => (tet_swap _ (hd e he).1 k ((hd e he).2.2 k hk) a b c).2
  refine tet_exact hd fun a b c habc => ?_
  rcases le_total a b with h1 | h1 <;> rcases le_total b c with h2 | h2 <;>
    rcases le_total a c with h3 | h3
  · exact h a b c h1 h2 habc
  · exact h a b c h1 h2 habc
  · rw [h23, h a c b h3 h2 (by omega), add_right_comm, mul_right_comm (a.factorial : ℝ)]
  · rw [h23, h12, h c a b h3 h1 (by omega)]
    rw [show c + a + b = a + b + c by ring]; congr 1; ring
  · rw [h12, h b a c h1 h3 (by omega)]
    rw [show b + a + c = a + b + c by ring]; congr 1; ring
  · rw [h12, h23, h b c a h2 h3 (by omega)]
    rw [show b + c + a = a + b + c by ring]; congr 1; ring
  · rw [h12, h23, h12, h c b a h2 h1 (by omega)]
    rw [show c + b + a = a + b + c by ring]; congr 1; ring
  · rw [h12, h23, h12, h c b a h2 h1 (by omega)]
    rw [show c + b + a = a + b + c by ring]; congr 1; ring

/-! The orbits as lists, one equation each, so that `simp` does not have to search for the right one. -/

theorem orbit_centroid (n : ℕ) (c : List ℝ) : orbit n .centroid c = [[1 / 3, 1 / 3, 1 / 3]] := rfl

theorem orbit_vertex (n : ℕ) (c : List ℝ) : orbit n .vertex c = [[1, 0, 0], [0, 1, 0], [0, 0, 1]] := rfl

theorem orbit_d3_ab (n : ℕ) (a b : ℝ) : orbit n .d3_ab [a, b] =
    [[a, b, 1 - a - b], [1 - a - b, a, b], [b, 1 - a - b, a], [b, a, 1 - a - b], [1 - a - b, b, a],
      [a, 1 - a - b, b]] := rfl

theorem orbit_d3_aa (n : ℕ) (a : ℝ) : orbit n .d3_aa [a] =
    [[a, a, 1 - 2 * a], [a, 1 - 2 * a, a], [1 - 2 * a, a, a]] := rfl

theorem orbit_c3_ab (n : ℕ) (a b : ℝ) : orbit n .c3_ab [a, b] =
    [[a, b, 1 - a - b], [1 - a - b, a, b], [b, 1 - a - b, a]] := rfl

theorem orbit_swap_ab (n : ℕ) (a b : ℝ) : orbit n .swap_ab [a, b] =
    [[a, b, 1 - a - b], [b, a, 1 - a - b]] := rfl

theorem orbit_s2_static (n : ℕ) (a : ℝ) : orbit n .s2_static [a] = [[a, a, 1 - 2 * a]] := rfl

theorem orbit_s4 (n : ℕ) (c : List ℝ) : orbit n .s4 c = [[1 / 4, 1 / 4, 1 / 4, 1 / 4]] := rfl

theorem orbit_s31 (n : ℕ) (a : ℝ) : orbit n .s31 [a] =
    [[a, a, a, 1 - 3 * a], [a, a, 1 - 3 * a, a], [a, 1 - 3 * a, a, a], [1 - 3 * a, a, a, a]] := rfl

theorem orbit_s22 (n : ℕ) (a : ℝ) : orbit n .s22 [a] =
    [[a, a, (1 - 2 * a) / 2, (1 - 2 * a) / 2], [a, (1 - 2 * a) / 2, a, (1 - 2 * a) / 2],
      [(1 - 2 * a) / 2, a, a, (1 - 2 * a) / 2], [a, (1 - 2 * a) / 2, (1 - 2 * a) / 2, a],
      [(1 - 2 * a) / 2, a, (1 - 2 * a) / 2, a], [(1 - 2 * a) / 2, (1 - 2 * a) / 2, a, a]] := rfl

theorem orbit_s211 (n : ℕ) (a b : ℝ) : orbit n .s211 [a, b] =
    [[a, a, b, 1 - 2 * a - b], [a, b, a, 1 - 2 * a - b], [b, a, a, 1 - 2 * a - b], [a, b, 1 - 2 * a - b, a],
      [b, a, 1 - 2 * a - b, a], [b, 1 - 2 * a - b, a, a], [a, a, 1 - 2 * a - b, b],
      [a, 1 - 2 * a - b, a, b], [1 - 2 * a - b, a, a, b], [a, 1 - 2 * a - b, b, a],
      [1 - 2 * a - b, a, b, a], [1 - 2 * a - b, b, a, a]] := rfl

/-- All moments of a rule on the triangle of degree at most 3. -/
macro "tri_fixed " "[" es:Lean.Parser.Tactic.simpLemma,* "]" ids:(ppSpace colGt ident)* : tactic => `(tactic| (
  refine ⟨tri_exact (by simp [triKeys, SymEntry.Regular, SymKey.Accepts, SymKey.arities]) ?_, rfl⟩
  intro a b hab
  simp only [symSum, List.map_cons, List.map_nil, List.zipWith_cons_cons, List.zipWith_nil_left,
    List.sum_cons, List.sum_nil, osum, bary3_coord, orbit_centroid, orbit_vertex, orbit_d3_ab, orbit_d3_aa,
    orbit_c3_ab, orbit_swap_ab, orbit_s2_static, $es,*]
  clear $ids*
  have ha : a ≤ 3 := by omega
  have hb : b ≤ 3 := by omega
  interval_cases a <;> interval_cases b <;> first
    | (exfalso; omega)
    | ((conv_rhs => norm_num [Nat.factorial])
       quad_comb_all)
    | (norm_num [Nat.factorial] <;> grind)))

/-- All moments of a symmetric rule on the triangle of degree at most 6. -/
macro "tri_sym " "[" es:Lean.Parser.Tactic.simpLemma,* "]" ids:(ppSpace colGt ident)* : tactic => `(tactic| (
  refine ⟨tri_sym_exact (by simp [triSymKeys, SymEntry.Regular, SymKey.Accepts, SymKey.arities]) ?_, rfl⟩
  intro a b h1 hab
  simp only [symSum, List.map_cons, List.map_nil, List.zipWith_cons_cons, List.zipWith_nil_left,
    List.sum_cons, List.sum_nil, osum, bary3_coord, orbit_centroid, orbit_vertex, orbit_d3_ab, orbit_d3_aa,
    orbit_c3_ab, orbit_swap_ab, orbit_s2_static, $es,*]
  clear $ids*
  have ha : a ≤ 3 := by omega
  have hb : b ≤ 6 := by omega
  interval_cases a <;> interval_cases b <;> first
    | (exfalso; omega)
    | ((conv_rhs => norm_num [Nat.factorial])
       quad_comb_all)
    | (norm_num [Nat.factorial] <;> grind)))

/-- All moments of a rule on the tetrahedron of degree at most 5. -/
macro "tet_fixed " "[" es:Lean.Parser.Tactic.simpLemma,* "]" ids:(ppSpace colGt ident)* : tactic => `(tactic| (
  refine ⟨tet_sym_exact (by simp [tetKeys, SymEntry.Regular, SymKey.Accepts, SymKey.arities]) ?_, rfl⟩
  intro a b c h1 h2 habc
  simp only [symSum, List.map_cons, List.map_nil, List.zipWith_cons_cons, List.zipWith_nil_left,
    List.sum_cons, List.sum_nil, osum, bary4_coord, orbit_s4, orbit_s31, orbit_s22, orbit_s211, $es,*]
  clear $ids*
  have ha : a ≤ 1 := by omega
  have hb : b ≤ 2 := by omega
  have hc : c ≤ 5 := by omega
  interval_cases a <;> interval_cases b <;> interval_cases c <;> first
    | (exfalso; omega)
    | ((conv_rhs => norm_num [Nat.factorial])
       quad_comb_all)
    | (norm_num [Nat.factorial] <;> grind)))

end Quadpy
