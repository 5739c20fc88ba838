import Verif.Lemmas.Sobolev
import Verif.Lemmas.Moments9
import Verif.Model.Optimize
import Verif.Props.C60
import Mathlib.Data.Nat.Factorial.DoubleFactorial

/-!
# C63 — data files: which equations decide the degree

A rule in a data file is invariant under the group which belongs to its keys.  By Sobolev's theorem its degree
depends on the invariant polynomials only; here this is a list of moment equations, as many as there are
partitions.
-/

namespace Quadpy.Optimize
open Finset

/-- The keys of the dictionary are among `keys`, each weight has a column, with the number of parameters
which belongs to the key. -/
def Content.Uses (C : Content) (keys : List SymKey) : Prop :=
  ∀ kv ∈ C.data, kv.1 ∈ keys ∧ (fileEntry kv).Regular

def squareKeys : List SymKey := [.zero, .d4_aa, .d4_a0, .d4_ab]
def octaKeys : List SymKey := [.a1, .a2, .a3, .llm, .llm2, .pq0, .pq02, .rsw, .rsw2]
def triangleKeys : List SymKey := [.centroid, .vertex, .d3_ab, .d3_aa]
def tetraKeys : List SymKey := [.s4, .s31, .s22, .s211, .s1111]

/-- `Σ w f(x)` for the rule in the file. -/
noncomputable def quad (dim m : ℕ) (C : Content) (f : (Fin m → ℝ) → ℝ) : ℝ :=
  dot m (read dim C).weights (read dim C).points f

theorem regular_of_uses {C : Content} {keys : List SymKey} (h : C.Uses keys) :
    ∀ e ∈ C.data.map fileEntry, e.Regular := by
  intro e he
  obtain ⟨kv, hkv, rfl⟩ := List.mem_map.1 he
  exact (h kv hkv).2

theorem quad_eq (dim m : ℕ) (C : Content) (f : (Fin m → ℝ) → ℝ) : quad dim m C f = C.factor.getD 1 *
    dot m (expandSymmetries (C.data.map fileEntry) dim).2 (expandSymmetries (C.data.map fileEntry) dim).1 f := by
  unfold quad read
  cases C.factor with
  | none => simp
  | some w =>
    have := dot_map_weights w (expandSymmetries (C.data.map fileEntry) dim).2
      (expandSymmetries (C.data.map fileEntry) dim).1 f
    simp only [mul_comm w] at this
    simpa [mul_comm] using this

theorem quad_inv {dim m : ℕ} {C : Content} {keys : List SymKey} (h : C.Uses keys)
    {g : (Fin m → ℝ) → Fin m → ℝ}
    (hg : ∀ k ∈ keys, ∀ c, k.Accepts c → Inv m (orbit dim k c) g) (f : (Fin m → ℝ) → ℝ) :
    quad dim m C (fun x => f (g x)) = quad dim m C f := by
  rw [quad_eq, quad_eq, C09_rule_invariant dim m _ (regular_of_uses h) g]
  intro e he c hc
  obtain ⟨kv, hkv, rfl⟩ := List.mem_map.1 he
  exact hg _ (h kv hkv).1 c ((h kv hkv).2.2 c hc)

theorem mem_read {dim : ℕ} {C : Content} {keys : List SymKey} (h : C.Uses keys) {x : List ℝ}
    (hx : x ∈ (read dim C).points) :
    ∃ kv ∈ C.data, ∃ c ∈ (fileEntry kv).cols, kv.1 ∈ keys ∧ kv.1.Accepts c ∧ x ∈ orbit dim kv.1 c := by
  obtain ⟨e, he, c, hc, hx⟩ := mem_expand (regular_of_uses h) hx
  obtain ⟨kv, hkv, rfl⟩ := List.mem_map.1 he
  exact ⟨kv, hkv, c, hc, (h kv hkv).1, (h kv hkv).2.2 c hc, hx⟩

theorem read_length {dim : ℕ} {C : Content} {keys : List SymKey} (h : C.Uses keys) :
    (read dim C).weights.length = (read dim C).points.length := by
  have := expand_length dim (C.data.map fileEntry) fun e he => (regular_of_uses h e he).1
  unfold read
  cases C.factor with
  | none => exact this
  | some w => simpa using this

theorem oddFac_eq (p : ℕ) : oddFac p = (Nat.doubleFactorial (2 * p - 1) : ℝ) := by
  induction p with
  | zero => simp [oddFac]
  | succ p ih =>
    rw [oddFac, ih]
    cases p with
    | zero => simp
    | succ p =>
      rw [show 2 * (p + 1 + 1) - 1 = (2 * (p + 1) - 1) + 2 by omega, Nat.doubleFactorial_add_two,
        show 2 * (p + 1) - 1 = 2 * p + 1 by omega]
      push_cast
      ring

theorem stepFac_two (s : ℕ) : stepFac 2 s = 2 ^ s * (s.factorial : ℝ) := by
  induction s with
  | zero => simp [stepFac]
  | succ s ih =>
    rw [stepFac, ih, Nat.factorial_succ]
    push_cast
    ring

theorem stepFac_three (s : ℕ) : stepFac 3 s = (Nat.doubleFactorial (2 * s + 1) : ℝ) := by
  induction s with
  | zero => simp [stepFac]
  | succ s ih =>
    rw [stepFac, ih, show 2 * (s + 1) + 1 = (2 * s + 1) + 2 by ring, Nat.doubleFactorial_add_two]
    push_cast
    ring

/-! ### The plane -/

theorem square_hyperInv {C : Content} (h : C.Uses squareKeys) : HyperInv 2 (read 2 C) :=
  fun σ ε f => quad_inv h (fun k hk c hc => C09_square_group k hk c hc σ ε) f

theorem square_wellShaped {C : Content} (h : C.Uses squareKeys) : (read 2 C).WellShaped 2 := by
  refine ⟨rfl, read_length h, fun x hx => ?_⟩
  obtain ⟨kv, -, c, -, hk, hc, hx⟩ := mem_read h hx
  exact mem_orbit2 _ (by
    simp only [squareKeys, planeKeys, List.mem_cons, List.not_mem_nil, or_false] at hk ⊢
    tauto) c hc x hx

theorem square_iff {C : Content} (h : C.Uses squareKeys) {J : Spec.Functional 2} {E : (Fin 2 → ℕ) → ℝ}
    (hJ : EvenMom J E) (h1 : J (fun _ => 1) ≠ 0) (hE : ∀ p (σ : Equiv.Perm (Fin 2)), E (p ∘ σ) = E p) :
    (read 2 C).ExactRel 2 J ↔ ∀ i j : ℕ, j ≤ i → 2 * i + 2 * j ≤ C.degree →
      quad 2 2 C (fun x => x 0 ^ (2 * i) * x 1 ^ (2 * j)) = E ![i, j] := by
  rw [(square_hyperInv h).exact_iff (square_wellShaped h) hJ h1 hE]
  have hm : ∀ p : Fin 2 → ℕ, (mono fun i => 2 * p i) = fun x => x 0 ^ (2 * p 0) * x 1 ^ (2 * p 1) := by
    intro p
    funext x
    simp [mono, Fin.prod_univ_two]
  constructor
  · intro hx i j hij hd
    have := hx ![i, j] (by
      intro a b hab
      fin_cases a <;> fin_cases b <;> first | exact le_rfl | exact hij | exact absurd hab (by decide))
      (by rw [Fin.sum_univ_two]; simp; show _ ≤ C.degree; omega)
    rw [hm] at this
    exact this
  · intro hx p hp hd
    rw [Fin.sum_univ_two] at hd
    have := hx (p 0) (p 1) (hp (by decide : (0 : Fin 2) ≤ 1)) (by have : _ ≤ C.degree := hd; omega)
    rw [hm]
    rw [show ![p 0, p 1] = p by funext i; fin_cases i <;> rfl] at this
    exact this

theorem prod_sum_perm {n : ℕ} (p : Fin n → ℕ) (σ : Equiv.Perm (Fin n)) :
    ∏ i, oddFac ((p ∘ σ) i) = ∏ i, oddFac (p i) ∧ ∑ i, (p ∘ σ) i = ∑ i, p i :=
  ⟨Equiv.prod_comp σ fun i => oddFac (p i), Equiv.sum_comp σ p⟩

/-- Rules on the square with the symmetries of the square. -/
theorem C63_c2 {C : Content} (h : C.Uses squareKeys) :
    (read 2 C).ExactOnCube 2 ↔ ∀ i j : ℕ, j ≤ i → 2 * i + 2 * j ≤ C.degree →
      quad 2 2 C (fun x => x 0 ^ (2 * i) * x 1 ^ (2 * j)) = 1 / ((2 * i + 1) * (2 * j + 1)) := by
  have h1 : Spec.cube 2 (fun _ => 1) = 2 ^ 2 := by
    rw [one_eq_mono, cube_mono, cubeMom_zero, mul_one]
  have := square_iff h (cube_even 2) (by rw [h1]; norm_num) (fun p σ =>
    Equiv.prod_comp σ fun i => 1 / (2 * (p i : ℝ) + 1))
  rw [Scheme.ExactRel, h1] at this
  refine this.trans ?_
  simp only [Fin.prod_univ_two, Matrix.cons_val_zero, Matrix.cons_val_one, one_div_mul_one_div]

/-- Rules on the disk with the symmetries of the square. -/
theorem C63_s2 {C : Content} (h : C.Uses squareKeys) :
    (read 2 C).ExactOnBall 2 ↔ ∀ i j : ℕ, j ≤ i → 2 * i + 2 * j ≤ C.degree →
      quad 2 2 C (fun x => x 0 ^ (2 * i) * x 1 ^ (2 * j)) =
        Nat.doubleFactorial (2 * i - 1) * Nat.doubleFactorial (2 * j - 1) /
          (2 ^ (i + j) * Nat.factorial (i + j + 1)) := by
  have h1 : Spec.ball 2 (fun _ => 1) ≠ 0 := (McNameeStenger.ball_pos (by norm_num)).ne'
  refine (square_iff h (ball_even (by norm_num)) h1 (fun p σ => ?_)).trans ?_
  · have h3 := prod_sum_perm p σ
    have h4 : ∑ i, (((p ∘ σ) i : ℕ) : ℝ) = ∑ i, (p i : ℝ) := Equiv.sum_comp σ fun i => (p i : ℝ)
    rw [h3.1, h3.2, h4]
  · refine forall₄_congr fun i j _ _ => ?_
    simp only [Fin.prod_univ_two, Fin.sum_univ_two, Matrix.cons_val_zero, Matrix.cons_val_one,
      stepFac_two, oddFac_eq]
    rw [Nat.factorial_succ (i + j)]
    have e : ((2 : ℕ) : ℝ) / (((2 : ℕ) : ℝ) + 2 * (i + j)) = 1 / (i + j + 1) := by
      have : (i : ℝ) + j + 1 ≠ 0 := by positivity
      push_cast
      field_simp
      ring
    rw [e, div_mul_div_comm, one_mul]
    push_cast
    rw [show ((i : ℝ) + j + 1) * (2 ^ (i + j) * ((i + j).factorial : ℝ)) =
      2 ^ (i + j) * ((i + j + 1) * ((i + j).factorial : ℝ)) by ring]

/-- Rules on the plane with the weight `exp(-|x|²)`. -/
theorem C63_e2r2 {C : Content} (h : C.Uses squareKeys) :
    (read 2 C).ExactOnEnr2 2 ↔ ∀ i j : ℕ, j ≤ i → 2 * i + 2 * j ≤ C.degree →
      quad 2 2 C (fun x => x 0 ^ (2 * i) * x 1 ^ (2 * j)) =
        Nat.doubleFactorial (2 * i - 1) * Nat.doubleFactorial (2 * j - 1) / 2 ^ (i + j) := by
  refine (square_iff h (enr2_even 2) (McNameeStenger.enr2_pos 2).ne' (fun p σ => ?_)).trans ?_
  · have h3 := prod_sum_perm p σ
    rw [h3.1, h3.2]
  · refine forall₄_congr fun i j _ _ => ?_
    simp only [Fin.prod_univ_two, Fin.sum_univ_two, Matrix.cons_val_zero, Matrix.cons_val_one, oddFac_eq]

/-- Rules on the plane with the weight `exp(-|x|)`. -/
theorem C63_e2r {C : Content} (h : C.Uses squareKeys) :
    (read 2 C).ExactOnEnr 2 ↔ ∀ i j : ℕ, j ≤ i → 2 * i + 2 * j ≤ C.degree →
      quad 2 2 C (fun x => x 0 ^ (2 * i) * x 1 ^ (2 * j)) =
        Nat.factorial (2 * (i + j) + 1) * (Nat.doubleFactorial (2 * i - 1) * Nat.doubleFactorial (2 * j - 1)) /
          (2 ^ (i + j) * Nat.factorial (i + j)) := by
  refine (square_iff h (enr_even (by norm_num)) (McNameeStenger.enr_pos (by norm_num)).ne' (fun p σ => ?_)).trans ?_
  · have h3 := prod_sum_perm p σ
    rw [h3.1, h3.2]
  · refine forall₄_congr fun i j _ _ => ?_
    simp only [Fin.prod_univ_two, Fin.sum_univ_two, Matrix.cons_val_zero, Matrix.cons_val_one,
      stepFac_two, oddFac_eq]
    norm_num [add_comm, mul_div_assoc]

/-- A file with an even degree has the next one, too. -/
theorem C63_even {C : Content} (h : C.Uses squareKeys) (he : Even C.degree) :
    ((read 2 C).ExactOnBall 2 → (read 2 { C with degree := C.degree + 1 }).ExactOnBall 2) ∧
    ((read 2 C).ExactOnEnr 2 → (read 2 { C with degree := C.degree + 1 }).ExactOnEnr 2) ∧
    ((read 2 C).ExactOnEnr2 2 → (read 2 { C with degree := C.degree + 1 }).ExactOnEnr2 2) :=
  ⟨fun hx => (square_hyperInv h).odd_degree (ball_even (by norm_num)) he hx,
    fun hx => (square_hyperInv h).odd_degree (enr_even (by norm_num)) he hx,
    fun hx => (square_hyperInv h).odd_degree (enr2_even 2) he hx⟩

/-! ### The sphere -/

/-- Rules on the sphere with the symmetries of the cube (Lebedev, Heo-Xu, ...): the equations for the even
exponents of one degree, `d` or `d - 1`, are enough. -/
theorem C63_u3 {C : Content} (h : C.Uses octaKeys)
    (hp : ∀ kv ∈ C.data, ∀ c ∈ (fileEntry kv).cols, SphereParams kv.1 c) :
    (read 3 C).ExactOnSphere 3 ↔ ∀ i j k : ℕ, k ≤ j → j ≤ i → i + j + k = C.degree / 2 →
      quad 3 3 C (fun x => x 0 ^ (2 * i) * x 1 ^ (2 * j) * x 2 ^ (2 * k)) =
        Nat.doubleFactorial (2 * i - 1) * Nat.doubleFactorial (2 * j - 1) * Nat.doubleFactorial (2 * k - 1) /
          Nat.doubleFactorial (2 * (C.degree / 2) + 1) := by
  have hsub : ∀ k ∈ octaKeys, k ∈ [SymKey.zero, .symm_r00, .symm_rr0, .symm_rrr, .symm_rrs,
      .a1, .a2, .a3, .llm, .llm2, .pq0, .pq02, .rsw, .rsw2] := by decide
  have hinv : HyperInv 3 (read 3 C) :=
    fun σ ε f => quad_inv h (fun k hk c hc => C09_cube_group k (hsub k hk) c hc σ ε) f
  have hsph : ∀ x ∈ (read 3 C).points, x.length = 3 ∧ (x.map (· ^ 2)).sum = 1 := by
    intro x hx
    obtain ⟨kv, hkv, c, hc, hk, hc', hx⟩ := mem_read h hx
    exact C09_sphere 3 _ c (hp kv hkv c hc) x hx
  have hu : ∀ x ∈ (read 3 C).points, ∑ i, toVec 3 x i ^ 2 = 1 := by
    intro x hx
    obtain ⟨h1, h2⟩ := hsph x hx
    obtain ⟨a, b, c, rfl⟩ := List.length_eq_three.1 h1
    simp only [List.map_cons, List.map_nil, List.sum_cons, List.sum_nil] at h2
    simp [Fin.sum_univ_three, toVec]
    linarith
  rw [hinv.sphere_iff (by norm_num) ⟨rfl, read_length h, fun x hx => (hsph x hx).1⟩ hu]
  have hm : ∀ p : Fin 3 → ℕ, (mono fun i => 2 * p i) =
      fun x => x 0 ^ (2 * p 0) * x 1 ^ (2 * p 1) * x 2 ^ (2 * p 2) := by
    intro p
    funext x
    simp [mono, Fin.prod_univ_three]
  constructor
  · intro hx i j k hkj hji hd
    have := hx ![i, j, k] (by
      intro a b hab
      fin_cases a <;> fin_cases b <;> first
        | exact le_rfl | exact hji | exact hkj | exact hkj.trans hji | exact absurd hab (by decide))
      (by rw [Fin.sum_univ_three]; exact hd)
    rw [hm, Fin.prod_univ_three, stepFac_three] at this
    simp only [oddFac_eq] at this
    exact this
  · intro hx p hp hd
    rw [Fin.sum_univ_three] at hd
    have := hx (p 0) (p 1) (p 2) (hp (by decide : (1 : Fin 3) ≤ 2)) (hp (by decide : (0 : Fin 3) ≤ 1)) hd
    rw [hm, Fin.prod_univ_three, stepFac_three]
    simp only [oddFac_eq]
    exact this

/-! ### Triangle and tetrahedron -/

/-- Rules on the triangle with full symmetry: the equations for the monomials of degree `d` in barycentric
coordinates with decreasing exponents, one for each partition of `d` into at most three parts. -/
theorem C63_t2 {C : Content} (h : C.Uses triangleKeys) :
    (read 2 C).ExactOnSimplex 2 ↔ ∀ i j k : ℕ, k ≤ j → j ≤ i → i + j + k = C.degree →
      quad 2 3 C (fun x => x 0 ^ i * x 1 ^ j * x 2 ^ k) =
        2 * (Nat.factorial i * Nat.factorial j * Nat.factorial k) / Nat.factorial (C.degree + 2) := by
  have hinv : PermInv 3 (read 2 C) :=
    fun σ f => quad_inv h (fun k hk c hc => C09_triangle_group 2 k hk c hc σ) f
  have hpts : ∀ x ∈ (read 2 C).points, x.length = 2 + 1 ∧ x.sum = 1 := by
    intro x hx
    obtain ⟨kv, hkv, c, hc, hk, hc', hx⟩ := mem_read h hx
    refine C09_triangle 2 _ ?_ c hc' x hx
    simp only [triangleKeys, List.mem_cons, List.not_mem_nil, or_false] at hk ⊢
    tauto
  rw [hinv.simplex_iff rfl (read_length h) hpts]
  have hm : ∀ p : Fin 3 → ℕ, mono p = fun x => x 0 ^ p 0 * x 1 ^ p 1 * x 2 ^ p 2 := by
    intro p
    funext x
    simp [mono, Fin.prod_univ_three]
  have hb : ∀ p : Fin 3 → ℕ, ∑ i, p i = C.degree → baryMom p =
      2 * (Nat.factorial (p 0) * Nat.factorial (p 1) * Nat.factorial (p 2)) /
        Nat.factorial (C.degree + 2) := by
    intro p hp
    rw [baryMom, hp, Fin.prod_univ_three, add_comm]
    norm_num
  constructor
  · intro hx i j k hkj hji hd
    have hs : ∑ l, (![i, j, k] : Fin 3 → ℕ) l = C.degree := by rw [Fin.sum_univ_three]; exact hd
    have := hx ![i, j, k] (by
      intro a b hab
      fin_cases a <;> fin_cases b <;> first
        | exact le_rfl | exact hji | exact hkj | exact hkj.trans hji | exact absurd hab (by decide)) hs
    rw [hm, hb _ hs] at this
    exact this
  · intro hx p hp hd
    have hd' := hd
    rw [Fin.sum_univ_three] at hd'
    have := hx (p 0) (p 1) (p 2) (hp (by decide : (1 : Fin 3) ≤ 2)) (hp (by decide : (0 : Fin 3) ≤ 1)) hd'
    rw [hm, hb p hd]
    exact this

/-- Rules on the tetrahedron with full symmetry. -/
theorem C63_t3 {C : Content} (h : C.Uses tetraKeys) :
    (read 3 C).ExactOnSimplex 3 ↔ ∀ i j k l : ℕ, l ≤ k → k ≤ j → j ≤ i → i + j + k + l = C.degree →
      quad 3 4 C (fun x => x 0 ^ i * x 1 ^ j * x 2 ^ k * x 3 ^ l) =
        6 * (Nat.factorial i * Nat.factorial j * Nat.factorial k * Nat.factorial l) /
          Nat.factorial (C.degree + 3) := by
  have hinv : PermInv 4 (read 3 C) :=
    fun σ f => quad_inv h (fun k hk c hc => C09_tetrahedron_group 3 k hk c hc σ) f
  have hpts : ∀ x ∈ (read 3 C).points, x.length = 3 + 1 ∧ x.sum = 1 := by
    intro x hx
    obtain ⟨kv, hkv, c, hc, hk, hc', hx⟩ := mem_read h hx
    exact C09_tetrahedron 3 _ hk c hc' x hx
  rw [hinv.simplex_iff rfl (read_length h) hpts]
  have hm : ∀ p : Fin 4 → ℕ, mono p = fun x => x 0 ^ p 0 * x 1 ^ p 1 * x 2 ^ p 2 * x 3 ^ p 3 := by
    intro p
    funext x
    simp [mono, Fin.prod_univ_four]
  have hb : ∀ p : Fin 4 → ℕ, ∑ i, p i = C.degree → baryMom p =
      6 * (Nat.factorial (p 0) * Nat.factorial (p 1) * Nat.factorial (p 2) * Nat.factorial (p 3)) /
        Nat.factorial (C.degree + 3) := by
    intro p hp
    rw [baryMom, hp, Fin.prod_univ_four, add_comm]
    norm_num [Nat.factorial]
  constructor
  · intro hx i j k l hlk hkj hji hd
    have hs : ∑ m, (![i, j, k, l] : Fin 4 → ℕ) m = C.degree := by rw [Fin.sum_univ_four]; exact hd
    have := hx ![i, j, k, l] (by
      intro a b hab
      fin_cases a <;> fin_cases b <;> first
        | exact le_rfl | exact hji | exact hkj | exact hlk | exact hkj.trans hji | exact hlk.trans hkj
        | exact (hlk.trans hkj).trans hji | exact absurd hab (by decide)) hs
    rw [hm, hb _ hs] at this
    exact this
  · intro hx p hp hd
    have hd' := hd
    rw [Fin.sum_univ_four] at hd'
    have := hx (p 0) (p 1) (p 2) (p 3) (hp (by decide : (2 : Fin 4) ≤ 3)) (hp (by decide : (1 : Fin 4) ≤ 2))
      (hp (by decide : (0 : Fin 4) ≤ 1)) hd'
    rw [hm, hb p hd]
    exact this

/-! ### Examples -/

/-- The rule with the midpoints of the edges has degree 2: two equations. -/
example : (read 2 ⟨"edge midpoints", some "T2", 2, 1e-14, none, none,
    [(.d3_aa, [[1 / 3], [1 / 2]])]⟩).ExactOnSimplex 2 := by
  refine (C63_t2 ?_).2 ?_
  · intro kv hkv
    obtain rfl := List.mem_singleton.1 hkv
    exact ⟨by simp [triangleKeys], rfl, by simp [fileEntry, columns, SymKey.Accepts, SymKey.arities]⟩
  · intro i j k hkj hji hd
    have hd : i + j + k = 2 := hd
    obtain ⟨rfl, rfl, rfl⟩ | ⟨rfl, rfl, rfl⟩ : (i = 2 ∧ j = 0 ∧ k = 0) ∨ (i = 1 ∧ j = 1 ∧ k = 0) := by omega
    all_goals
      norm_num [quad, read, expandSymmetries, fileEntry, columns, entryPoints, entryWeights, orbit, dot, toVec,
        List.range, List.range.loop, List.replicate,
        Nat.factorial]

/-- The product of two Gauss rules with two points on the square: degree 3 from two equations. -/
example (a : ℝ) (ha : a ^ 2 = 1 / 3) : (read 2 ⟨"gauss", some "C2", 3, 1e-14, none, none,
    [(.d4_aa, [[1 / 4], [a]])]⟩).ExactOnCube 2 := by
  refine (C63_c2 ?_).2 ?_
  · intro kv hkv
    obtain rfl := List.mem_singleton.1 hkv
    exact ⟨by simp [squareKeys], rfl, by simp [fileEntry, columns, SymKey.Accepts, SymKey.arities]⟩
  · intro i j hji hd
    have hd : 2 * i + 2 * j ≤ 3 := hd
    obtain ⟨rfl, rfl⟩ | ⟨rfl, rfl⟩ : (i = 0 ∧ j = 0) ∨ (i = 1 ∧ j = 0) := by omega
    all_goals
      norm_num [quad, read, expandSymmetries, fileEntry, columns, entryPoints, entryWeights, orbit, dot, toVec,
        List.range, List.range.loop, List.replicate, ha]

/-- The six vertices of the octahedron: degree 3 from one equation.  The same rule does not have degree 5. -/
example : (read 3 ⟨"octahedron", some "U3", 3, 1e-14, none, none, [(.a1, [[1 / 6]])]⟩).ExactOnSphere 3 ∧
    ¬ (read 3 ⟨"octahedron", some "U3", 5, 1e-14, none, none, [(.a1, [[1 / 6]])]⟩).ExactOnSphere 3 := by
  have h : ∀ d, Content.Uses ⟨"octahedron", some "U3", d, 1e-14, none, none, [(.a1, [[1 / 6]])]⟩ octaKeys := by
    intro d kv hkv
    obtain rfl := List.mem_singleton.1 hkv
    exact ⟨by simp [octaKeys], rfl, by simp [fileEntry, columns, SymKey.Accepts, SymKey.arities]⟩
  rw [C63_u3 (h 3) (by simp [fileEntry, columns, SphereParams]),
    C63_u3 (h 5) (by simp [fileEntry, columns, SphereParams])]
  constructor
  · intro i j k hkj hji hd
    have hd : i + j + k = 1 := hd
    obtain ⟨rfl, rfl, rfl⟩ : i = 1 ∧ j = 0 ∧ k = 0 := by omega
    norm_num [quad, read, expandSymmetries, fileEntry, columns, entryPoints, entryWeights, orbit, dot, toVec,
      List.range, List.range.loop, List.replicate]
  · intro hx
    have := hx 1 1 0 (by norm_num) (by norm_num) rfl
    norm_num [quad, read, expandSymmetries, fileEntry, columns, entryPoints, entryWeights, orbit, dot, toVec,
      List.range, List.range.loop, List.replicate]
      at this

/-- Four points on the axes.  On the disk they have degree 3 with `r² = 1/2`, on the plane with `r² = 1` for
the weight `exp(-|x|²)` and with `r² = 6` for the weight `exp(-|x|)`.  Degree 2 would be enough to declare. -/
example (r : ℝ) :
    (r ^ 2 = 1 / 2 ↔ (read 2 ⟨"axes", some "S2", 3, 1e-14, none, none, [(.d4_a0, [[1 / 4], [r]])]⟩).ExactOnBall 2) ∧
    (r ^ 2 = 1 ↔ (read 2 ⟨"axes", some "E2r2", 3, 1e-14, none, none, [(.d4_a0, [[1 / 4], [r]])]⟩).ExactOnEnr2 2) ∧
    (r ^ 2 = 6 ↔ (read 2 ⟨"axes", some "E2r", 3, 1e-14, none, none, [(.d4_a0, [[1 / 4], [r]])]⟩).ExactOnEnr 2) := by
  have h : ∀ s, Content.Uses ⟨"axes", s, 3, 1e-14, none, none, [(.d4_a0, [[1 / 4], [r]])]⟩ squareKeys := by
    intro s kv hkv
    obtain rfl := List.mem_singleton.1 hkv
    exact ⟨by simp [squareKeys], rfl, by simp [fileEntry, columns, SymKey.Accepts, SymKey.arities]⟩
  have hq : ∀ s (i j : ℕ), quad 2 2 ⟨"axes", s, 3, 1e-14, none, none, [(.d4_a0, [[1 / 4], [r]])]⟩
      (fun x => x 0 ^ (2 * i) * x 1 ^ (2 * j)) = (r ^ (2 * i) * 0 ^ (2 * j) + 0 ^ (2 * i) * r ^ (2 * j)) / 2 := by
    intro s i j
    have h1 : (-r) ^ (2 * i) = r ^ (2 * i) := Even.neg_pow ⟨i, two_mul i⟩ r
    have h2 : (-r) ^ (2 * j) = r ^ (2 * j) := Even.neg_pow ⟨j, two_mul j⟩ r
    simp [quad, read, expandSymmetries, fileEntry, columns, entryPoints, entryWeights, orbit, dot, toVec,
      List.range, List.range.loop, List.replicate, h1, h2]
    ring
  rw [C63_s2 (h _), C63_e2r2 (h _), C63_e2r (h _)]
  refine ⟨⟨fun hr i j hji hd => ?_, fun hx => ?_⟩, ⟨fun hr i j hji hd => ?_, fun hx => ?_⟩,
    ⟨fun hr i j hji hd => ?_, fun hx => ?_⟩⟩
  all_goals
    first
    | have hd : 2 * i + 2 * j ≤ 3 := hd
      rw [hq]
      obtain ⟨rfl, rfl⟩ | ⟨rfl, rfl⟩ : (i = 0 ∧ j = 0) ∨ (i = 1 ∧ j = 0) := by omega
      all_goals norm_num [hr, Nat.factorial]
    | have := hx 1 0 (by norm_num) (by show 2 * 1 + 2 * 0 ≤ 3; norm_num)
      rw [hq] at this
      norm_num [Nat.factorial] at this
      first
      | linarith
      | obtain rfl | rfl := this <;> norm_num

/-- The centroid of the tetrahedron has degree 1: one equation.  It does not have degree 2. -/
example : (read 3 ⟨"centroid", some "T3", 1, 1e-14, none, none, [(.s4, [[1]])]⟩).ExactOnSimplex 3 ∧
    ¬ (read 3 ⟨"centroid", some "T3", 2, 1e-14, none, none, [(.s4, [[1]])]⟩).ExactOnSimplex 3 := by
  have h : ∀ d, Content.Uses ⟨"centroid", some "T3", d, 1e-14, none, none, [(.s4, [[1]])]⟩ tetraKeys := by
    intro d kv hkv
    obtain rfl := List.mem_singleton.1 hkv
    exact ⟨by simp [tetraKeys], rfl, by simp [fileEntry, columns, SymKey.Accepts, SymKey.arities]⟩
  rw [C63_t3 (h 1), C63_t3 (h 2)]
  constructor
  · intro i j k l hlk hkj hji hd
    have hd : i + j + k + l = 1 := hd
    obtain ⟨rfl, rfl, rfl, rfl⟩ : i = 1 ∧ j = 0 ∧ k = 0 ∧ l = 0 := by omega
    norm_num [quad, read, expandSymmetries, fileEntry, columns, entryPoints, entryWeights, orbit, dot, toVec,
      List.range, List.range.loop, List.replicate, Nat.factorial]
  · intro hx
    have := hx 2 0 0 0 (by norm_num) (by norm_num) (by norm_num) rfl
    norm_num [quad, read, expandSymmetries, fileEntry, columns, entryPoints, entryWeights, orbit, dot, toVec,
      List.range, List.range.loop, List.replicate, Nat.factorial] at this

end Quadpy.Optimize
