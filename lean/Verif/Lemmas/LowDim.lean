import Verif.Lemmas.SymExpand
import Verif.Lemmas.Lobatto

/-! Rules in the plane and in space given by symmetry data whose orbits are invariant under all changes
of sign: exactness is a finite number of conditions on even moments. -/

namespace Quadpy
open Finset

/-- The functional is linear on polynomials, its odd moments vanish and its even moments, relative to
`J 1`, are `E`. -/
structure EvenMom {n : ℕ} (J : Spec.Functional n) (E : (Fin n → ℕ) → ℝ) : Prop where
  lin : LinOnMono J
  odd : ∀ α, (∃ i, Odd (α i)) → J (mono α) = 0
  even : ∀ p : Fin n → ℕ, J (mono fun i => 2 * p i) = J (fun _ => 1) * E p

/-- `1 * 3 * 5 * ... * (2 p - 1)` -/
noncomputable def oddFac : ℕ → ℝ
  | 0 => 1
  | p + 1 => (2 * p + 1) * oddFac p

/-- `n * (n + 2) * ... * (n + 2 s - 2)` -/
noncomputable def stepFac (n : ℕ) : ℕ → ℝ
  | 0 => 1
  | s + 1 => (n + 2 * s) * stepFac n s

theorem oddFac_pos (p : ℕ) : 0 < oddFac p := by
  induction p with
  | zero => simp [oddFac]
  | succ p ih => rw [oddFac]; positivity

theorem stepFac_pos {n : ℕ} (hn : 0 < n) (s : ℕ) : 0 < stepFac n s := by
  have : (0 : ℝ) < n := by exact_mod_cast hn
  induction s with
  | zero => simp [stepFac]
  | succ s ih => rw [stepFac]; positivity

theorem g1_two_mul (p : ℕ) : g1 (2 * p) = oddFac p / 2 ^ p := by
  induction p with
  | zero => simp [oddFac, g1_zero]
  | succ p ih =>
    rw [mul_add, mul_one, g1_succ, ih, oddFac, pow_succ]
    push_cast
    field_simp

theorem gamma_ratio_step {n : ℕ} (hn : 0 < n) (s : ℕ) :
    Real.Gamma ((n : ℝ) / 2) / Real.Gamma ((n + 2 * s) / 2) = 2 ^ s / stepFac n s := by
  have h0 : (0 : ℝ) < n := by exact_mod_cast hn
  have h1 : Real.Gamma ((n : ℝ) / 2) ≠ 0 := (Real.Gamma_pos_of_pos (by positivity)).ne'
  induction s with
  | zero => simp [stepFac, h1]
  | succ s ih =>
    have h2 : (0 : ℝ) < (n + 2 * s) / 2 := by positivity
    have h3 := (Real.Gamma_pos_of_pos h2).ne'
    have h4 := (stepFac_pos hn s).ne'
    rw [show ((n : ℝ) + 2 * (s + 1 : ℕ)) / 2 = (n + 2 * s) / 2 + 1 by push_cast; ring,
      Real.Gamma_add_one h2.ne', stepFac, pow_succ, mul_comm, div_mul_eq_div_div, ih]
    field_simp

theorem sphMom_even {n : ℕ} (hn : 0 < n) (p : Fin n → ℕ) :
    sphMom (fun i => 2 * p i) = (∏ i, oddFac (p i)) / stepFac n (∑ i, p i) := by
  have h := sphMom_eq (fun i => 2 * p i) (2 * ∑ i, p i) (by rw [mul_sum])
  have h4 := (stepFac_pos hn (∑ i, p i)).ne'
  push_cast at h
  have h5 := gamma_ratio_step hn (∑ i, p i)
  push_cast at h5
  rw [h, h5]
  simp only [g1_two_mul]
  rw [prod_div_distrib, prod_pow_eq_pow_sum]
  field_simp

theorem sphMom_odd {n : ℕ} (α : Fin n → ℕ) (h : ∃ i, Odd (α i)) : sphMom α = 0 := by
  obtain ⟨i, hi⟩ := h
  rw [sphMom, prod_eq_zero (mem_univ i) (g1_odd hi), zero_mul]

theorem radial_even {n : ℕ} (hn : 0 < n) {J : Spec.Functional n} {ρ : ℕ → ℝ} (hl : LinOnMono J)
    (hm : ∀ α, J (mono α) = J (fun _ => 1) * radMom ρ α) :
    EvenMom J fun p => ρ (2 * ∑ i, p i) * ((∏ i, oddFac (p i)) / stepFac n (∑ i, p i)) where
  lin := hl
  odd := fun α h => by rw [hm, radMom, sphMom_odd α h]; ring
  even := fun p => by rw [hm, radMom, sphMom_even hn, mul_sum]

theorem cube_even (n : ℕ) : EvenMom (Spec.cube n) fun p => ∏ i, 1 / (2 * (p i : ℝ) + 1) where
  lin := cube_linOnMono n
  odd := fun α h => by rw [cube_mono, cubeMom_odd α h, mul_zero]
  even := fun p => by
    rw [one_eq_mono, cube_mono, cube_mono, cubeMom_zero, mul_one, cubeMom]
    congr 1
    refine prod_congr rfl fun i _ => ?_
    simp [m1]

theorem ballPow_even {n : ℕ} (hn : 0 < n) {a : ℝ} (ha : -(n : ℝ) < a) :
    EvenMom (Spec.ballPow n a) fun p => (n + a) / (n + a + 2 * ∑ i, (p i : ℝ)) *
      ((∏ i, oddFac (p i)) / stepFac n (∑ i, p i)) := by
  have := radial_even hn (ballPow_linOnMono hn ha) (ballPow_mono hn ha)
  simpa [ballRho] using this

theorem ball_even {n : ℕ} (hn : 0 < n) :
    EvenMom (Spec.ball n) fun p => n / (n + 2 * ∑ i, (p i : ℝ)) *
      ((∏ i, oddFac (p i)) / stepFac n (∑ i, p i)) := by
  have := ballPow_even hn (a := 0) (by simp [hn])
  rw [← ball_eq_ballPow] at this
  simpa using this

theorem sphere_even {n : ℕ} (hn : 0 < n) :
    EvenMom (Spec.sphere n) fun p => (∏ i, oddFac (p i)) / stepFac n (∑ i, p i) := by
  simpa using radial_even hn (ρ := fun _ => 1) sphere_linOnMono (sphere_mono_rel hn)

theorem enr_even {n : ℕ} (hn : 0 < n) :
    EvenMom (Spec.enr n) fun p =>
      ((n - 1 + 2 * ∑ i, p i).factorial : ℝ) / ((n - 1).factorial : ℝ) *
      ((∏ i, oddFac (p i)) / stepFac n (∑ i, p i)) := by
  simpa [enrRho] using radial_even hn (enr_linOnMono hn) (enr_mono hn)

theorem enr2_even (n : ℕ) :
    EvenMom (Spec.enr2 n) fun p => (∏ i, oddFac (p i)) / 2 ^ (∑ i, p i) where
  lin := enr2_linOnMono n
  odd := fun α h => by
    obtain ⟨i, hi⟩ := h
    rw [enr2_mono, prod_eq_zero (mem_univ i) (g1_odd hi), mul_zero]
  even := fun p => by
    rw [enr2_one, enr2_mono]
    simp only [g1_two_mul]
    rw [prod_div_distrib, prod_pow_eq_pow_sum]

/-! Moments of the orbits. -/

/-- Keys of the plane whose orbits are invariant under changes of sign. -/
def planeKeys : List SymKey := [.zero, .sxy, .c2_a0, .c2_0a, .d4_aa, .d4_a0, .d4_ab]

/-- The moment `x^(2p) y^(2q)` of an orbit, in terms of the squares of the parameters. -/
noncomputable def keyMom2 (p q : ℕ) : SymKey → List ℝ → ℝ
  | .zero, _ => 0 ^ p * 0 ^ q
  | .sxy, [x, y] => 4 * (x ^ 2) ^ p * (y ^ 2) ^ q
  | .c2_a0, [a] => 2 * (a ^ 2) ^ p * 0 ^ q
  | .c2_0a, [a] => 2 * 0 ^ p * (a ^ 2) ^ q
  | .d4_aa, [a] => 4 * (a ^ 2) ^ p * (a ^ 2) ^ q
  | .d4_a0, [a] => 2 * (a ^ 2) ^ p * 0 ^ q + 2 * 0 ^ p * (a ^ 2) ^ q
  | .d4_ab, [a, b] => 4 * (a ^ 2) ^ p * (b ^ 2) ^ q + 4 * (b ^ 2) ^ p * (a ^ 2) ^ q
  | _, _ => 0

theorem mono_two (α : Fin 2 → ℕ) (x y : ℝ) : mono α (toVec 2 [x, y]) = x ^ α 0 * y ^ α 1 := by
  simp [mono, Fin.prod_univ_two, toVec]

theorem zero_pow_two_mul (p : ℕ) : (0 : ℝ) ^ (2 * p) = 0 ^ p := by
  rw [pow_mul]; norm_num

theorem osum_even2 (k : SymKey) (hk : k ∈ planeKeys) (c : List ℝ) (hc : k.Accepts c) (α : Fin 2 → ℕ)
    (p q : ℕ) (hp : α 0 = 2 * p) (hq : α 1 = 2 * q) :
    osum 2 (orbit 2 k c) (mono α) = keyMom2 p q k c := by
  simp only [planeKeys, List.mem_cons, List.not_mem_nil, or_false] at hk
  rcases hk with rfl | rfl | rfl | rfl | rfl | rfl | rfl
  all_goals
    rcases hc with hc | hc
    · simp at hc
    simp only [SymKey.arities, List.mem_cons, List.not_mem_nil, or_false, List.length_eq_zero_iff,
      List.length_eq_one_iff, List.length_eq_two] at hc
  · subst hc
    simp only [orbit, osum, List.map_cons, List.map_nil, List.sum_cons, List.sum_nil, keyMom2,
      List.replicate, mono_two, hp, hq, zero_pow_two_mul]
    ring
  · obtain ⟨a, b, rfl⟩ := hc
    simp only [orbit, osum, List.map_cons, List.map_nil, List.sum_cons, List.sum_nil, keyMom2,
      mono_two, hp, hq, Even.neg_pow (even_two_mul _), pow_mul]
    ring
  all_goals
    first
    | obtain ⟨a, b, rfl⟩ := hc
    | obtain ⟨a, rfl⟩ := hc
    simp only [orbit, osum, List.map_cons, List.map_nil, List.sum_cons, List.sum_nil, keyMom2,
      mono_two, hp, hq, Even.neg_pow (even_two_mul _), zero_pow_two_mul]
    simp only [pow_mul]
    ring

theorem osum_odd2 (k : SymKey) (hk : k ∈ planeKeys) (c : List ℝ) (hc : k.Accepts c) (α : Fin 2 → ℕ)
    (h : ∃ i, Odd (α i)) : osum 2 (orbit 2 k c) (mono α) = 0 := by
  have h' : Odd (α 0) ∨ Odd (α 1) := by
    obtain ⟨i, hi⟩ := h
    fin_cases i
    · exact Or.inl hi
    · exact Or.inr hi
  simp only [planeKeys, List.mem_cons, List.not_mem_nil, or_false] at hk
  rcases hk with rfl | rfl | rfl | rfl | rfl | rfl | rfl
  all_goals
    rcases hc with hc | hc
    · simp at hc
    simp only [SymKey.arities, List.mem_cons, List.not_mem_nil, or_false, List.length_eq_zero_iff,
      List.length_eq_one_iff, List.length_eq_two] at hc
    first
    | subst hc
    | obtain ⟨a, b, rfl⟩ := hc
    | obtain ⟨a, rfl⟩ := hc
    simp only [orbit, osum, List.map_cons, List.map_nil, List.sum_cons, List.sum_nil,
      List.replicate, mono_two]
    rcases h' with h' | h'
    · simp only [h'.neg_pow, zero_pow h'.pos.ne']; ring
    · simp only [h'.neg_pow, zero_pow h'.pos.ne']; ring

/-- The even moments of symmetry data in the plane. -/
noncomputable def evenSum2 (d : List SymEntry) (p q : ℕ) : ℝ :=
  (d.map fun e => (List.zipWith (fun w c => w * keyMom2 p q e.key c) e.weights e.cols).sum).sum

theorem zipWith_congr_mem {α β γ : Type} (f g : α → β → γ) (l : List α) (m : List β)
    (h : ∀ a, ∀ b ∈ m, f a b = g a b) : List.zipWith f l m = List.zipWith g l m := by
  induction l generalizing m with
  | nil => simp
  | cons a l ih =>
    cases m with
    | nil => simp
    | cons b m => simp [h a b (by simp), ih m fun a b hb => h a b (by simp [hb])]

theorem zipWith_sum_zero {α β : Type} (f : α → β → ℝ) (l : List α) (m : List β)
    (h : ∀ a, ∀ b ∈ m, f a b = 0) : (List.zipWith f l m).sum = 0 := by
  induction l generalizing m with
  | nil => simp
  | cons a l ih =>
    cases m with
    | nil => simp
    | cons b m => simp [h a b (by simp), ih m fun a b hb => h a b (by simp [hb])]

theorem schemeOfSym_wellShaped (dim m : ℕ) (d : List SymEntry) (deg : ℕ) (h : ∀ e ∈ d, e.Regular)
    (hl : ∀ e ∈ d, ∀ c ∈ e.cols, ∀ x ∈ orbit dim e.key c, x.length = m) (hdim : dim = m) :
    (schemeOfSym dim d deg).WellShaped m := by
  refine ⟨hdim, expand_length dim d fun e he => (h e he).1, fun x hx => ?_⟩
  obtain ⟨e, he, c, hc, hx⟩ := mem_expand h hx
  exact hl e he c hc x hx

theorem mem_orbit2 (k : SymKey) (hk : k ∈ planeKeys) (c : List ℝ) (hc : k.Accepts c) (x : List ℝ)
    (hx : x ∈ orbit 2 k c) : x.length = 2 := by
  simp only [planeKeys, List.mem_cons, List.not_mem_nil, or_false] at hk
  rcases hk with rfl | rfl | rfl | rfl | rfl | rfl | rfl
  all_goals
    rcases hc with hc | hc
    · simp at hc
    simp only [SymKey.arities, List.mem_cons, List.not_mem_nil, or_false, List.length_eq_zero_iff,
      List.length_eq_one_iff, List.length_eq_two] at hc
    first
    | subst hc
    | obtain ⟨a, b, rfl⟩ := hc
    | obtain ⟨a, rfl⟩ := hc
    simp only [orbit, List.replicate, List.mem_cons, List.not_mem_nil, or_false] at hx
    (try casesm* _ ∨ _) <;> subst_vars <;> rfl

/-- A rule in the plane made of sign-symmetric orbits is exact as soon as its even moments are
right. -/
theorem plane_exact {J : Spec.Functional 2} {E : (Fin 2 → ℕ) → ℝ} (hJ : EvenMom J E)
    {d : List SymEntry} {deg : ℕ} (hd : ∀ e ∈ d, e.key ∈ planeKeys ∧ e.Regular)
    (h : ∀ p q : ℕ, 2 * p + 2 * q ≤ deg → evenSum2 d p q = E ![p, q]) :
    (schemeOfSym 2 d deg).ExactRel 2 J := by
  have hr : ∀ e ∈ d, e.Regular := fun e he => (hd e he).2
  refine ⟨schemeOfSym_wellShaped 2 2 d deg hr
    (fun e he c hc => mem_orbit2 _ (hd e he).1 c ((hr e he).2 c hc)) rfl, ?_⟩
  refine exactUpTo_of_mono ((dot_linOnMono _ _).const_mul _) hJ.lin fun α hα => ?_
  beta_reduce
  simp only [schemeOfSym] at hα ⊢
  rw [expand_dot 2 2 d hr]
  by_cases hodd : ∃ i, Odd (α i)
  · rw [hJ.odd α hodd, symSum]
    convert mul_zero _
    rw [List.sum_eq_zero]
    intro y hy
    obtain ⟨e, he, rfl⟩ := List.mem_map.1 hy
    exact zipWith_sum_zero _ _ _ fun w c hc => by
      rw [osum_odd2 _ (hd e he).1 c ((hr e he).2 c hc) α hodd, mul_zero]
  · push Not at hodd
    obtain ⟨p, hp⟩ := (Nat.not_odd_iff_even.1 (hodd 0)).two_dvd
    obtain ⟨q, hq⟩ := (Nat.not_odd_iff_even.1 (hodd 1)).two_dvd
    have hα' : α = fun i => 2 * (![p, q] : Fin 2 → ℕ) i := by
      funext i; fin_cases i
      · exact hp
      · exact hq
    rw [Fin.sum_univ_two] at hα
    have e1 : J (mono α) = J (fun _ => 1) * E ![p, q] := by rw [hα', hJ.even]
    rw [e1, ← h p q (by omega), evenSum2, symSum]
    congr 2
    refine List.map_congr_left fun e he => ?_
    congr 1
    exact zipWith_congr_mem _ _ _ _ fun w c hc => by
      rw [osum_even2 _ (hd e he).1 c ((hr e he).2 c hc) α p q hp hq]

/-! Space. -/

/-- Keys of space whose orbits are invariant under changes of sign, with their numbers of
parameters. -/
def spaceKeys : List (SymKey × ℕ) :=
  [(.zero, 0), (.symm_r00, 1), (.symm_rr0, 1), (.symm_rrr, 1), (.symm_rrs, 2), (.symm_rs0_roll, 2),
   (.a1, 0), (.a2, 0), (.a3, 0), (.rs0, 2), (.llm2, 2), (.rst, 3)]

/-- The moment `x^(2p) y^(2q) z^(2r)` of an orbit, in terms of the squares of the parameters. -/
noncomputable def keyMom3 (p q r : ℕ) : SymKey → List ℝ → ℝ
  | .zero, _ => 0 ^ p * 0 ^ q * 0 ^ r
  | .symm_r00, [a] => 2 * (a ^ 2) ^ p * 0 ^ q * 0 ^ r + 2 * 0 ^ p * (a ^ 2) ^ q * 0 ^ r +
      2 * 0 ^ p * 0 ^ q * (a ^ 2) ^ r
  | .a1, _ => 2 * 0 ^ q * 0 ^ r + 2 * 0 ^ p * 0 ^ r + 2 * 0 ^ p * 0 ^ q
  | .symm_rr0, [a] => 4 * (a ^ 2) ^ p * (a ^ 2) ^ q * 0 ^ r + 4 * (a ^ 2) ^ p * 0 ^ q * (a ^ 2) ^ r +
      4 * 0 ^ p * (a ^ 2) ^ q * (a ^ 2) ^ r
  | .a2, _ => 4 * (1 / 2) ^ p * (1 / 2) ^ q * 0 ^ r + 4 * (1 / 2) ^ p * 0 ^ q * (1 / 2) ^ r +
      4 * 0 ^ p * (1 / 2) ^ q * (1 / 2) ^ r
  | .symm_rrr, [a] => 8 * (a ^ 2) ^ p * (a ^ 2) ^ q * (a ^ 2) ^ r
  | .a3, _ => 8 * (1 / 3) ^ p * (1 / 3) ^ q * (1 / 3) ^ r
  | .symm_rrs, [a, b] => 8 * (a ^ 2) ^ p * (a ^ 2) ^ q * (b ^ 2) ^ r +
      8 * (a ^ 2) ^ p * (b ^ 2) ^ q * (a ^ 2) ^ r + 8 * (b ^ 2) ^ p * (a ^ 2) ^ q * (a ^ 2) ^ r
  | .llm2, [a, b] => 8 * (a ^ 2) ^ p * (a ^ 2) ^ q * (b ^ 2) ^ r +
      8 * (a ^ 2) ^ p * (b ^ 2) ^ q * (a ^ 2) ^ r + 8 * (b ^ 2) ^ p * (a ^ 2) ^ q * (a ^ 2) ^ r
  | .symm_rs0_roll, [a, b] => 4 * (a ^ 2) ^ p * (b ^ 2) ^ q * 0 ^ r +
      4 * 0 ^ p * (a ^ 2) ^ q * (b ^ 2) ^ r + 4 * (b ^ 2) ^ p * 0 ^ q * (a ^ 2) ^ r
  | .rs0, [a, b] => 4 * (a ^ 2) ^ p * (b ^ 2) ^ q * 0 ^ r +
      4 * 0 ^ p * (a ^ 2) ^ q * (b ^ 2) ^ r + 4 * (b ^ 2) ^ p * 0 ^ q * (a ^ 2) ^ r
  | .rst, [a, b, c] => 8 * (a ^ 2) ^ p * (b ^ 2) ^ q * (c ^ 2) ^ r +
      8 * (c ^ 2) ^ p * (a ^ 2) ^ q * (b ^ 2) ^ r + 8 * (b ^ 2) ^ p * (c ^ 2) ^ q * (a ^ 2) ^ r
  | _, _ => 0

theorem mono_three (α : Fin 3 → ℕ) (x y z : ℝ) :
    mono α (toVec 3 [x, y, z]) = x ^ α 0 * y ^ α 1 * z ^ α 2 := by
  simp [mono, Fin.prod_univ_three, toVec]

/-- Split into the keys of space and make the list of parameters explicit. -/
macro "space_cases " hk:ident : tactic => `(tactic| (
  simp only [spaceKeys, List.mem_cons, List.not_mem_nil, or_false, Prod.mk.injEq] at $hk:ident
  obtain ⟨hk1, hk2⟩ | ⟨hk1, hk2⟩ | ⟨hk1, hk2⟩ | ⟨hk1, hk2⟩ | ⟨hk1, hk2⟩ | ⟨hk1, hk2⟩ | ⟨hk1, hk2⟩ |
    ⟨hk1, hk2⟩ | ⟨hk1, hk2⟩ | ⟨hk1, hk2⟩ | ⟨hk1, hk2⟩ | ⟨hk1, hk2⟩ := $hk:ident
  all_goals
    subst hk1
    simp only [List.length_eq_zero_iff, List.length_eq_one_iff, List.length_eq_two,
      List.length_eq_three] at hk2
    first
    | subst hk2
    | (obtain ⟨a, b, c, hh⟩ := hk2; subst hh)
    | (obtain ⟨a, b, hh⟩ := hk2; subst hh)
    | (obtain ⟨a, hh⟩ := hk2; subst hh)))

theorem one_div_sqrt_pow {x : ℝ} (hx : 0 ≤ x) (p : ℕ) : (1 / Real.sqrt x) ^ (2 * p) = (1 / x) ^ p := by
  rw [pow_mul, div_pow, Real.sq_sqrt hx, one_pow]

theorem osum_even3 (k : SymKey) (c : List ℝ) (hk : (k, c.length) ∈ spaceKeys) (α : Fin 3 → ℕ)
    (p q r : ℕ) (hp : α 0 = 2 * p) (hq : α 1 = 2 * q) (hr : α 2 = 2 * r) :
    osum 3 (orbit 3 k c) (mono α) = keyMom3 p q r k c := by
  have h2 := fun p => one_div_sqrt_pow (x := 2) (by norm_num) p
  have h3 := fun p => one_div_sqrt_pow (x := 3) (by norm_num) p
  space_cases hk
  all_goals
    simp only [orbit, rs0Pts, llm2Pts, rstPts, osum, List.map_cons, List.map_nil, List.sum_cons,
      List.sum_nil, keyMom3, List.replicate, mono_three, hp, hq, hr, Even.neg_pow (even_two_mul _),
      zero_pow_two_mul, h2, h3, one_pow]
    try simp only [pow_mul]
    ring

theorem osum_odd3 (k : SymKey) (c : List ℝ) (hk : (k, c.length) ∈ spaceKeys) (α : Fin 3 → ℕ)
    (h : ∃ i, Odd (α i)) : osum 3 (orbit 3 k c) (mono α) = 0 := by
  have h' : Odd (α 0) ∨ Odd (α 1) ∨ Odd (α 2) := by
    obtain ⟨i, hi⟩ := h
    fin_cases i
    · exact Or.inl hi
    · exact Or.inr (Or.inl hi)
    · exact Or.inr (Or.inr hi)
  space_cases hk
  all_goals
    simp only [orbit, rs0Pts, llm2Pts, rstPts, osum, List.map_cons, List.map_nil, List.sum_cons,
      List.sum_nil, List.replicate, mono_three]
    rcases h' with h' | h' | h' <;>
    · simp only [h'.neg_pow, zero_pow h'.pos.ne']; ring

theorem mem_orbit3 (k : SymKey) (c : List ℝ) (hk : (k, c.length) ∈ spaceKeys) (x : List ℝ)
    (hx : x ∈ orbit 3 k c) : x.length = 3 := by
  space_cases hk
  all_goals
    simp only [orbit, rs0Pts, llm2Pts, rstPts, List.replicate, List.mem_cons, List.not_mem_nil,
      or_false] at hx
    (try casesm* _ ∨ _) <;> subst_vars <;> rfl

/-- The even moments of symmetry data in space. -/
noncomputable def evenSum3 (d : List SymEntry) (p q r : ℕ) : ℝ :=
  (d.map fun e => (List.zipWith (fun w c => w * keyMom3 p q r e.key c) e.weights e.cols).sum).sum

theorem spaceKeys_accepts (k : SymKey) (c : List ℝ) (hk : (k, c.length) ∈ spaceKeys) :
    k.Accepts c := by
  space_cases hk <;> simp [SymKey.Accepts, SymKey.arities]

/-- A rule in space made of sign-symmetric orbits is exact as soon as its even moments are right. -/
theorem space_exact {J : Spec.Functional 3} {E : (Fin 3 → ℕ) → ℝ} (hJ : EvenMom J E)
    {d : List SymEntry} {deg : ℕ}
    (hd : ∀ e ∈ d, e.weights.length = e.cols.length ∧ ∀ c ∈ e.cols, (e.key, c.length) ∈ spaceKeys)
    (h : ∀ p q r : ℕ, 2 * p + 2 * q + 2 * r ≤ deg → evenSum3 d p q r = E ![p, q, r]) :
    (schemeOfSym 3 d deg).ExactRel 3 J := by
  have hr : ∀ e ∈ d, e.Regular := fun e he =>
    ⟨(hd e he).1, fun c hc => spaceKeys_accepts _ _ ((hd e he).2 c hc)⟩
  refine ⟨schemeOfSym_wellShaped 3 3 d deg hr
    (fun e he c hc => mem_orbit3 _ c ((hd e he).2 c hc)) rfl, ?_⟩
  refine exactUpTo_of_mono ((dot_linOnMono _ _).const_mul _) hJ.lin fun α hα => ?_
  beta_reduce
  simp only [schemeOfSym] at hα ⊢
  rw [expand_dot 3 3 d hr]
  by_cases hodd : ∃ i, Odd (α i)
  · rw [hJ.odd α hodd, symSum]
    convert mul_zero _
    rw [List.sum_eq_zero]
    intro y hy
    obtain ⟨e, he, rfl⟩ := List.mem_map.1 hy
    exact zipWith_sum_zero _ _ _ fun w c hc => by
      rw [osum_odd3 _ c ((hd e he).2 c hc) α hodd, mul_zero]
  · push Not at hodd
    obtain ⟨p, hp⟩ := (Nat.not_odd_iff_even.1 (hodd 0)).two_dvd
    obtain ⟨q, hq⟩ := (Nat.not_odd_iff_even.1 (hodd 1)).two_dvd
    obtain ⟨r, hr'⟩ := (Nat.not_odd_iff_even.1 (hodd 2)).two_dvd
    have hα' : α = fun i => 2 * (![p, q, r] : Fin 3 → ℕ) i := by
      funext i; fin_cases i
      · exact hp
      · exact hq
      · exact hr'
    rw [Fin.sum_univ_three] at hα
    have e1 : J (mono α) = J (fun _ => 1) * E ![p, q, r] := by rw [hα', hJ.even]
    rw [e1, ← h p q r (by omega), evenSum3, symSum]
    congr 2
    refine List.map_congr_left fun e he => ?_
    congr 1
    exact zipWith_congr_mem _ _ _ _ fun w c hc => by
      rw [osum_even3 _ c ((hd e he).2 c hc) α p q r hp hq hr']

/-! The square and the cube. -/

theorem square_even : EvenMom (Spec.cube 2) fun p =>
    1 / (2 * (p 0 : ℝ) + 1) * (1 / (2 * (p 1 : ℝ) + 1)) := by
  simpa only [Fin.prod_univ_two] using cube_even 2

theorem ExactOnCube_of_rel {n : ℕ} {S : Scheme} (h : S.ExactRel n (Spec.cube n)) :
    S.ExactOnCube n := by
  have h1 : Spec.cube n (fun _ => 1) = 2 ^ n := by
    rw [one_eq_mono, cube_mono, cubeMom_zero, mul_one]
  simpa [Scheme.ExactRel, Scheme.ExactOnCube, h1] using h

theorem cube3_even : EvenMom (Spec.cube 3) fun p =>
    1 / (2 * (p 0 : ℝ) + 1) * (1 / (2 * (p 1 : ℝ) + 1)) * (1 / (2 * (p 2 : ℝ) + 1)) := by
  simpa only [Fin.prod_univ_three] using cube_even 3

end Quadpy
