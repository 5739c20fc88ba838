import Verif.Model.Patterson
import Verif.Props.C16
import Verif.Props.C10
import Verif.Props.C19
import Mathlib.LinearAlgebra.Lagrange

/-!
# C55: Gauss-Patterson rules: nested symmetric points and interpolatory weights
-/

namespace Quadpy
open OneDim Spec Polynomial

namespace OneDim

/-- The points as a function on the indices. -/
def nd (pts : List ℝ) (j : ℕ) : ℝ := pts.getD j 0

theorem pts_ofFn (pts : List ℝ) : pts = List.ofFn fun i : Fin pts.length => nd pts i := by
  apply List.ext_getElem
  · simp
  · intro i h1 h2
    simp [nd, List.getD_eq_getElem?_getD, List.getElem?_eq_getElem h1]

theorem nd_inj {pts : List ℝ} (h : pts.Nodup) :
    Set.InjOn (nd pts) (Finset.range pts.length : Finset ℕ) := by
  intro i hi j hj hij
  have hi := Finset.mem_range.1 hi
  have hj := Finset.mem_range.1 hj
  simp only [nd, List.getD_eq_getElem?_getD, List.getElem?_eq_getElem hi,
    List.getElem?_eq_getElem hj, Option.getD_some] at hij
  exact (h.getElem_inj_iff).1 hij

theorem lagrangeAt_eval (pts : List ℝ) (i : ℕ) (x : ℝ) :
    lagrangeAt pts i x = (Lagrange.basis (Finset.range pts.length) (nd pts) i).eval x := by
  rw [Lagrange.basis, eval_prod, lagrangeAt]
  have : ∀ s : List ℕ, s.Nodup → (s.map fun j => (x - pts.getD j 0) / (pts.getD i 0 - pts.getD j 0)).prod
      = ∏ j ∈ s.toFinset, (Lagrange.basisDivisor (nd pts i) (nd pts j)).eval x := fun s hs => by
    rw [List.prod_toFinset _ hs]
    congr 1
    refine List.map_congr_left fun j _ => ?_
    simp [Lagrange.basisDivisor, nd]
    ring
  rw [this _ (List.nodup_range.filter _)]
  refine Finset.prod_congr ?_ fun _ _ => rfl
  ext j
  simp [and_comm]

/-- A rule applied to a polynomial. -/
theorem integrate1_ref (P W : List ℝ) (g : ℝ → ℝ) :
    C1.integrate1 P W g (-1) 1 = Adaptive.vdot (P.map g) W := by
  simp only [C1.integrate1, C1.integrate, C1.len_unit, Adaptive.affine]
  norm_num
  congr 2
  funext x
  congr 1
  ring

/-- Whatever the Gauss rule is, the weights of `_get_weights` reproduce it on polynomials of degree
below the number of points. -/
theorem patWeights_apply (gauss : ℕ → List ℝ × List ℝ) {pts : List ℝ} (hn : pts.Nodup) (p : ℝ[X])
    (hp : p.degree < pts.length) :
    Adaptive.vdot (pts.map fun x => p.eval x) (patWeights gauss pts) =
      Adaptive.vdot ((gauss (patOrder pts.length)).1.map fun x => p.eval x)
        (gauss (patOrder pts.length)).2 := by
  set P := (gauss (patOrder pts.length)).1
  set W := (gauss (patOrder pts.length)).2
  have hd : p.degree < (Finset.range pts.length).card := by rwa [Finset.card_range]
  have h := Lagrange.eq_interpolate (nd_inj hn) hd
  have e : ∀ x, p.eval x = ∑ r ∈ Finset.range pts.length, p.eval (nd pts r) * lagrangeAt pts r x := by
    intro x
    conv_lhs => rw [h]
    rw [Lagrange.interpolate_apply, eval_finsetSum]
    exact Finset.sum_congr rfl fun r _ => by rw [eval_mul, eval_C, lagrangeAt_eval]
  have lin : ∀ (P W : List ℝ), Adaptive.vdot (P.map fun x => p.eval x) W =
      ∑ r ∈ Finset.range pts.length, p.eval (nd pts r) * Adaptive.vdot (P.map (lagrangeAt pts r)) W := by
    intro P
    induction P with
    | nil => intro W; simp [Adaptive.vdot]
    | cons a P ih =>
      intro W
      cases W with
      | nil => simp [Adaptive.vdot]
      | cons b W =>
        have := ih W
        simp only [Adaptive.vdot, List.map_cons, List.zipWith_cons_cons, List.sum_cons] at this ⊢
        rw [this, e a, Finset.sum_mul, ← Finset.sum_add_distrib]
        exact Finset.sum_congr rfl fun r _ => by ring
  rw [lin P W, Finset.sum_range]
  conv_lhs => rw [show pts.map (fun x => p.eval x) =
    (List.ofFn fun i : Fin pts.length => nd pts i).map (fun x => p.eval x) by rw [← pts_ofFn]]
  rw [patWeights, vdot_ofFn]
  exact Finset.sum_congr rfl fun i _ => by rw [integrate1_ref]

theorem patWeights_length (gauss : ℕ → List ℝ × List ℝ) (pts : List ℝ) :
    (patWeights gauss pts).length = pts.length := by
  simp [patWeights]

/-- The nodal polynomial. -/
noncomputable def nodal (pts : List ℝ) : ℝ[X] := (pts.map fun a => X - C a).prod

theorem nodal_monic (pts : List ℝ) : (nodal pts).Monic := by
  induction pts with
  | nil => simp [nodal]
  | cons a l ih => simpa [nodal] using (monic_X_sub_C a).mul ih

theorem nodal_natDegree (pts : List ℝ) : (nodal pts).natDegree = pts.length := by
  induction pts with
  | nil => simp [nodal]
  | cons a l ih =>
    have : nodal (a :: l) = (X - C a) * nodal l := by simp [nodal]
    rw [this, (monic_X_sub_C a).natDegree_mul (nodal_monic l), ih, natDegree_X_sub_C,
      List.length_cons, Nat.add_comm]

theorem nodal_eval_mem {pts : List ℝ} {a : ℝ} (h : a ∈ pts) : (nodal pts).eval a = 0 := by
  induction pts with
  | nil => simp at h
  | cons b l ih =>
    have : nodal (b :: l) = (X - C b) * nodal l := by simp [nodal]
    rw [this, eval_mul]
    rcases List.mem_cons.1 h with rfl | h
    · simp
    · rw [ih h, mul_zero]

theorem vdot_zero {pts w : List ℝ} {g : ℝ → ℝ} (h : ∀ a ∈ pts, g a = 0) :
    Adaptive.vdot (pts.map g) w = 0 := by
  induction pts generalizing w with
  | nil => simp [Adaptive.vdot]
  | cons a l ih =>
    cases w with
    | nil => simp [Adaptive.vdot]
    | cons b w =>
      have := @ih w fun x hx => h x (List.mem_cons_of_mem _ hx)
      simp only [Adaptive.vdot] at this
      simp [Adaptive.vdot, h a (List.mem_cons_self ..), this]

end OneDim

/-- For an odd number of different points the rule with the weights of `_get_weights` integrates
all polynomials of degree below the number of points. -/
theorem C55_weights (gauss : ℕ → List ℝ × List ℝ) (pts : List ℝ) (hn : pts.Nodup)
    (hodd : Odd pts.length)
    (hg : ∀ k, 1 ≤ k → ExactC1 (gauss k).1 (gauss k).2 (2 * k - 1)) :
    ExactC1 pts (patWeights gauss pts) (pts.length - 1) := by
  obtain ⟨m, hm⟩ := hodd
  have ho : patOrder pts.length = m + 1 := by
    rw [patOrder, if_neg (by omega)]; omega
  refine ⟨(patWeights_length _ _).symm, fun p hp => ?_⟩
  rw [patWeights_apply gauss hn p
    (lt_of_le_of_lt degree_le_natDegree (by exact_mod_cast (by omega : p.natDegree < pts.length))), ho]
  exact (hg (m + 1) (by omega)).2 p (by omega)

/-- For an even number of points the Gauss rule has one point too few: the weights never give a rule
of degree `n - 2`, though `n - 1` is possible. -/
theorem C55_even (gauss : ℕ → List ℝ × List ℝ) (pts : List ℝ) (hn : pts.Nodup)
    (heven : Even pts.length) (h0 : pts ≠ [])
    (hg : ∀ k, (gauss k).1.length = k) :
    ¬ ExactC1 pts (patWeights gauss pts) (pts.length - 2) := by
  intro h
  have hl : 0 < pts.length := List.length_pos_iff.2 h0
  obtain ⟨m, hm⟩ := heven
  have ho : patOrder pts.length = m - 1 := by
    rw [patOrder, if_pos (by omega)]; omega
  set ω := nodal (gauss (patOrder pts.length)).1 with hω
  have hdeg : (ω ^ 2).natDegree = pts.length - 2 := by
    rw [(nodal_monic _).natDegree_pow, nodal_natDegree, hg, ho]
    omega
  have h1 := h.2 (ω ^ 2) hdeg.le
  rw [patWeights_apply gauss hn _
    (lt_of_le_of_lt degree_le_natDegree (by rw [hdeg]; exact_mod_cast (by omega))),
    vdot_zero fun a ha => by rw [eval_pow, nodal_eval_mem ha]; simp] at h1
  have hpos : 0 < ∫ x in (-1 : ℝ)..1, (ω ^ 2).eval x := by
    have hne : ω ≠ 0 := (nodal_monic _).ne_zero
    obtain ⟨c, hc, hc'⟩ : ∃ c ∈ Set.Icc (-1 : ℝ) 1, c ∉ (ω.roots.toFinset : Set ℝ) := by
      by_contra hcon
      push Not at hcon
      exact (Set.Icc_infinite (by norm_num : (-1 : ℝ) < 1)) (ω.roots.toFinset.finite_toSet.subset hcon)
    refine intervalIntegral.integral_pos (by norm_num) (Continuous.continuousOn (by fun_prop))
      (fun x _ => by rw [eval_pow]; positivity) ⟨c, hc, ?_⟩
    rw [eval_pow]
    have : ω.eval c ≠ 0 := fun h => hc' (by simpa [hne] using h)
    positivity
  linarith

/-- The degree of interpolatory rules beyond the number of points: exactness to degree `n + m` is
orthogonality of the nodal polynomial to all polynomials of degree at most `m`. -/
theorem C55_degree (gauss : ℕ → List ℝ × List ℝ) (pts : List ℝ) (hn : pts.Nodup)
    (hodd : Odd pts.length)
    (hg : ∀ k, 1 ≤ k → ExactC1 (gauss k).1 (gauss k).2 (2 * k - 1)) (m : ℕ) :
    ExactC1 pts (patWeights gauss pts) (pts.length + m) ↔
      ∀ q : ℝ[X], q.natDegree ≤ m →
        ∫ x in (-1 : ℝ)..1, ((pts.map fun a => X - C a).prod * q).eval x = 0 := by
  have hl : 0 < pts.length := hodd.pos
  have hb := C55_weights gauss pts hn hodd hg
  constructor
  · intro h q hq
    rw [← h.2 _ ((natDegree_mul_le).trans (by
      rw [show ((pts.map fun a => X - C a).prod : ℝ[X]) = nodal pts from rfl, nodal_natDegree]; omega))]
    exact vdot_zero fun a ha => by
      rw [eval_mul, show ((pts.map fun a => X - C a).prod : ℝ[X]) = nodal pts from rfl,
        nodal_eval_mem ha, zero_mul]
  · intro h
    refine ⟨hb.1, fun p hp => ?_⟩
    have hmon := nodal_monic pts
    have hdiv : p = p %ₘ nodal pts + nodal pts * (p /ₘ nodal pts) := (modByMonic_add_div p _).symm
    have hr : (p %ₘ nodal pts).natDegree ≤ pts.length - 1 := by
      have := natDegree_modByMonic_lt p hmon (fun h => by
        have := nodal_natDegree pts; rw [h, natDegree_one] at this; omega)
      rw [nodal_natDegree] at this
      omega
    have hq : (p /ₘ nodal pts).natDegree ≤ m := by
      rw [natDegree_divByMonic p hmon, nodal_natDegree]; omega
    have e1 : (pts.map fun x => p.eval x) = pts.map fun x => (p %ₘ nodal pts).eval x := by
      refine List.map_congr_left fun a ha => ?_
      conv_lhs => rw [hdiv]
      rw [eval_add, eval_mul, nodal_eval_mem ha, zero_mul, add_zero]
    have e2 : ∫ x in (-1 : ℝ)..1, p.eval x = (∫ x in (-1 : ℝ)..1, (p %ₘ nodal pts).eval x) +
        ∫ x in (-1 : ℝ)..1, (nodal pts * (p /ₘ nodal pts)).eval x := by
      rw [← intervalIntegral.integral_add (Continuous.intervalIntegrable (by fun_prop) _ _)
        (Continuous.intervalIntegrable (by fun_prop) _ _)]
      conv_lhs => rw [hdiv]
      simp only [eval_add]
    rw [e1, hb.2 _ hr, e2]
    have := h _ hq
    rw [show ((pts.map fun a => X - C a).prod : ℝ[X]) = nodal pts from rfl] at this
    rw [this, add_zero]


namespace OneDim

theorem patPoints_mem {table : ℕ → List ℝ} {k : ℕ} {x : ℝ} :
    x ∈ patPoints table k ↔ x = 0 ∨ ∃ j, 1 ≤ j ∧ j ≤ k ∧ (x ∈ table j ∨ -x ∈ table j) := by
  induction k with
  | zero => simp [patPoints]
  | succ k ih =>
    simp only [patPoints, List.mem_append, List.mem_map, List.mem_reverse, ih]
    constructor
    · rintro ((h | ⟨j, h1, h2, h⟩) | ⟨a, ha, rfl⟩ | h)
      · exact Or.inl h
      · exact Or.inr ⟨j, h1, by omega, h⟩
      · exact Or.inr ⟨k + 1, by omega, le_rfl, Or.inr (by rwa [neg_neg])⟩
      · exact Or.inr ⟨k + 1, by omega, le_rfl, Or.inl h⟩
    · rintro (h | ⟨j, h1, h2, h⟩)
      · exact Or.inl (Or.inl h)
      · rcases Nat.lt_or_ge j (k + 1) with hj | hj
        · exact Or.inl (Or.inr ⟨j, h1, by omega, h⟩)
        · obtain rfl : j = k + 1 := by omega
          rcases h with h | h
          · exact Or.inr (Or.inr h)
          · exact Or.inr (Or.inl ⟨-x, h, neg_neg x⟩)

/-- The tables hold different positive numbers. -/
def TableOk (table : ℕ → List ℝ) (index : ℕ) : Prop :=
  (∀ k, 1 ≤ k → k ≤ index → (∀ a ∈ table k, 0 < a) ∧ (table k).Nodup) ∧
    ∀ j k, 1 ≤ j → j < k → k ≤ index → ∀ a ∈ table j, a ∉ table k

theorem patPoints_nodup {table : ℕ → List ℝ} {index : ℕ} (h : TableOk table index) :
    ∀ k ≤ index, (patPoints table k).Nodup := by
  intro k
  induction k with
  | zero => intro _; simp [patPoints]
  | succ k ih =>
    intro hk
    obtain ⟨hp, hd⟩ := h.1 (k + 1) (by omega) hk
    rw [patPoints, List.nodup_append']
    refine ⟨ih (by omega), ?_, ?_⟩
    · rw [List.nodup_append']
      refine ⟨(List.nodup_reverse.2 hd).map neg_injective, hd, ?_⟩
      intro x h1 h2
      simp only [List.mem_map, List.mem_reverse] at h1
      obtain ⟨a, ha, rfl⟩ := h1
      linarith [hp a ha, hp _ h2]
    · intro x h1 h2
      simp only [List.mem_append, List.mem_map, List.mem_reverse] at h2
      rcases patPoints_mem.1 h1 with rfl | ⟨j, hj1, hj2, h1⟩
      · rcases h2 with ⟨a, ha, h2⟩ | h2
        · linarith [hp a ha]
        · linarith [hp _ h2]
      · have hj := (h.1 j hj1 (by omega)).1
        have hdis := h.2 j (k + 1) hj1 (by omega) hk
        rcases h2 with ⟨a, ha, rfl⟩ | h2 <;> rcases h1 with h1 | h1
        · linarith [hp a ha, hj _ h1]
        · rw [neg_neg] at h1
          exact hdis a h1 ha
        · exact hdis x h1 h2
        · linarith [hp _ h2, hj _ h1]

theorem patPoints_neg (table : ℕ → List ℝ) (k : ℕ) :
    ((patPoints table k).map fun a => -a).Perm (patPoints table k) := by
  induction k with
  | zero => simp [patPoints]
  | succ k ih =>
    simp only [patPoints, List.map_append, List.map_map]
    refine ih.append ?_
    refine List.perm_append_comm.trans ?_
    refine List.Perm.append (((List.reverse_perm _).map _).symm) ?_
    rw [show ((fun a : ℝ => -a) ∘ fun a => -a) = id by funext; simp, List.map_id]
    exact List.reverse_perm _

theorem patPoints_length (table : ℕ → List ℝ) (k : ℕ) :
    (patPoints table k).length = 1 + 2 * ∑ j ∈ Finset.range k, (table (j + 1)).length := by
  induction k with
  | zero => simp [patPoints]
  | succ k ih =>
    simp only [patPoints, List.length_append, List.length_map, List.length_reverse, ih,
      Finset.sum_range_succ]
    ring

end OneDim

/-- Every stage keeps the points of the stages before. -/
theorem C55_nested (gauss : ℕ → List ℝ × List ℝ) (table : ℕ → List ℝ) (j k : ℕ) (hjk : j ≤ k) :
    (gaussPatterson gauss table j).1 ⊆ (gaussPatterson gauss table k).1 := by
  intro x hx
  simp only [gaussPatterson, List.mem_insertionSort] at hx ⊢
  rcases patPoints_mem.1 hx with h | ⟨i, h1, h2, h⟩
  · exact patPoints_mem.2 (Or.inl h)
  · exact patPoints_mem.2 (Or.inr ⟨i, h1, by omega, h⟩)

/-- The points are sorted, different and symmetric about 0. -/
theorem C55_points (gauss : ℕ → List ℝ × List ℝ) (table : ℕ → List ℝ) (index : ℕ)
    (h : TableOk table index) :
    (gaussPatterson gauss table index).1.Pairwise (· < ·) ∧
      (gaussPatterson gauss table index).1.reverse.map (fun a => -a) =
        (gaussPatterson gauss table index).1 := by
  set L := (gaussPatterson gauss table index).1 with hL
  have hperm : L.Perm (patPoints table index) := List.perm_insertionSort _ _
  have hs : L.Pairwise (· ≤ ·) := List.pairwise_insertionSort _ _
  have hnd : L.Nodup := hperm.nodup_iff.2 (patPoints_nodup h index le_rfl)
  refine ⟨?_, ?_⟩
  · exact (hs.and hnd).imp fun h => lt_of_le_of_ne h.1 h.2
  · refine List.Perm.eq_of_pairwise (le := (· ≤ ·)) (fun _ _ _ _ h1 h2 => le_antisymm h1 h2) ?_ hs ?_
    · rw [List.pairwise_map, List.pairwise_reverse]
      exact hs.imp fun h => neg_le_neg h
    · exact ((List.reverse_perm L).map _).trans ((hperm.map _).trans
        ((patPoints_neg table index).trans hperm.symm))

theorem C55_exact (gauss : ℕ → List ℝ × List ℝ) (table : ℕ → List ℝ) (index : ℕ)
    (h : TableOk table index)
    (hg : ∀ k, 1 ≤ k → ExactC1 (gauss k).1 (gauss k).2 (2 * k - 1)) :
    ExactC1 (gaussPatterson gauss table index).1 (gaussPatterson gauss table index).2
      (gaussPatterson gauss table index).1.length := by
  obtain ⟨hs, hsym⟩ := C55_points gauss table index h
  set L := (gaussPatterson gauss table index).1 with hL
  have hW : (gaussPatterson gauss table index).2 = patWeights gauss L := rfl
  have hodd : Odd L.length := by
    rw [hL, gaussPatterson]
    simp only [List.length_insertionSort]
    rw [patPoints_length]
    exact ⟨_, by ring⟩
  have hnd : L.Nodup := hs.imp fun h => h.ne
  rw [hW]
  have := (C55_degree gauss L hnd hodd hg 0).2 fun q hq => by
    rw [show ((L.map fun a => X - C a).prod : ℝ[X]) = nodal L from rfl]
    have hq' := eq_C_of_natDegree_le_zero hq
    have hoddf : ∀ x : ℝ, (nodal L).eval (-x) = -(nodal L).eval x := by
      intro x
      have e : ∀ l : List ℝ, (nodal (l.reverse.map fun a => -a)).eval (-x) =
          (-1) ^ l.length * (nodal l).eval x := by
        intro l
        induction l with
        | nil => simp [nodal]
        | cons a l ih =>
          have e2 : nodal (a :: l) = (X - C a) * nodal l := by simp [nodal]
          have e3 : nodal ((a :: l).reverse.map fun a => -a) =
              nodal (l.reverse.map fun a => -a) * (X - C (-a)) := by
            simp only [nodal, List.reverse_cons, List.map_append, List.map_cons, List.map_nil,
              List.prod_append, List.prod_cons, List.prod_nil, mul_one]
          rw [e2, e3, eval_mul, eval_mul, ih]
          simp only [eval_sub, eval_X, eval_C, List.length_cons, pow_succ]
          ring
      have := e L
      rw [hsym, hodd.neg_one_pow] at this
      linarith
    have h1 : ∫ x in (-1 : ℝ)..1, (nodal L).eval (-x) = ∫ x in (-1 : ℝ)..1, (nodal L).eval x := by
      rw [intervalIntegral.integral_comp_neg fun x => (nodal L).eval x]
      norm_num
    have h2 : ∫ x in (-1 : ℝ)..1, (nodal L).eval (-x) = -∫ x in (-1 : ℝ)..1, (nodal L).eval x := by
      rw [← intervalIntegral.integral_neg]
      exact intervalIntegral.integral_congr fun x _ => hoddf x
    have h3 : ∫ x in (-1 : ℝ)..1, (nodal L).eval x = 0 := by linarith
    rw [hq']
    simp only [eval_mul, eval_C]
    rw [intervalIntegral.integral_mul_const, h3, zero_mul]
  simpa using this

/-- The tables of the code. -/
theorem C55_table : TableOk patTable 5 := by
  constructor
  · intro k h1 h2
    interval_cases k <;> norm_num [patTable]
  · intro j k h1 h2 h3
    interval_cases k <;> interval_cases j <;> norm_num [patTable]

theorem OneDim.TableOk.mono {table : ℕ → List ℝ} {i j : ℕ} (h : TableOk table j) (hij : i ≤ j) :
    TableOk table i :=
  ⟨fun k h1 h2 => h.1 k h1 (by omega), fun a b h1 h2 h3 => h.2 a b h1 h2 (by omega)⟩

/-- `gauss k` is the Gauss-Legendre rule with `k` points (C19). -/
def OneDim.IsGauss (gauss : ℕ → List ℝ × List ℝ) : Prop :=
  ∀ (k : ℕ) [NeZero k], GaussLegendre k (gauss k).1 (gauss k).2

theorem OneDim.IsGauss.exact {gauss : ℕ → List ℝ × List ℝ} (hg : IsGauss gauss) (k : ℕ) (hk : 1 ≤ k) :
    ExactC1 (gauss k).1 (gauss k).2 (2 * k - 1) :=
  have : NeZero k := ⟨by omega⟩
  ((C19_gauss_legendre k).2 _ _ (hg k)).1

theorem OneDim.exists_isGauss : ∃ gauss, IsGauss gauss := by
  have : ∀ k : ℕ, ∃ g : List ℝ × List ℝ, ∀ [NeZero k], GaussLegendre k g.1 g.2 := by
    intro k
    rcases Nat.eq_zero_or_pos k with h | h
    · exact ⟨([], []), fun {i} => absurd h i.out⟩
    · have : NeZero k := ⟨by omega⟩
      obtain ⟨P, W, hP⟩ := (C19_gauss_legendre k).1
      exact ⟨(P, W), fun {_} => hP⟩
  choose g hg using this
  exact ⟨g, fun k {_} => hg k⟩

/-- The rules of the code for the indices 0 to 5: `2^(index+1) - 1` points, degree at least that.
The degree `3 * 2^index - 1` the code states needs points with the property of `C55_degree`, which no
table of decimals has (see `C55_one`). -/
theorem C55_patterson (gauss : ℕ → List ℝ × List ℝ) (index : ℕ) (hi : index ≤ 5)
    (hg : IsGauss gauss) :
    (gaussPatterson gauss patTable index).1.length = 2 ^ (index + 1) - 1 ∧
      ExactC1 (gaussPatterson gauss patTable index).1 (gaussPatterson gauss patTable index).2
        (2 ^ (index + 1) - 1) := by
  have hl : (gaussPatterson gauss patTable index).1.length = 2 ^ (index + 1) - 1 := by
    simp only [gaussPatterson, List.length_insertionSort]
    rw [patPoints_length]
    interval_cases index <;> simp [Finset.sum_range_succ, patTable]
  refine ⟨hl, ?_⟩
  have := C55_exact gauss patTable index (C55_table.mono hi) hg.exact
  rwa [hl] at this

/-- For index 1 the stated degree 5 holds just when the new point is `√(3/5)`. -/
theorem C55_one (gauss : ℕ → List ℝ × List ℝ) (hg : IsGauss gauss) (table : ℕ → List ℝ) (a : ℝ)
    (ha : 0 < a) (ht : table 1 = [a]) :
    ExactC1 (gaussPatterson gauss table 1).1 (gaussPatterson gauss table 1).2 5 ↔ a ^ 2 = 3 / 5 := by
  have hL : (gaussPatterson gauss table 1).1 = [-a, 0, a] := by
    have h1 : ¬ (0 ≤ -a) := by linarith
    have h2 : -a ≤ a := by linarith
    simp [gaussPatterson, patPoints, ht, List.insertionSort, List.orderedInsert, h2, ha.le, ha]
  have hW : (gaussPatterson gauss table 1).2 = patWeights gauss [-a, 0, a] := by
    rw [← hL]; rfl
  rw [hL, hW]
  have hnd : [-a, 0, a].Nodup := by
    have h1 : -a ≠ a := by linarith
    simp [ha.ne', ha.ne, h1]
  have h := C55_degree gauss [-a, 0, a] hnd ⟨1, rfl⟩ hg.exact 2
  simp only [List.length_cons, List.length_nil, zero_add, Nat.reduceAdd] at h
  rw [h]
  have e : ∀ x, eval x (([-a, 0, a].map fun a => X - C a).prod : ℝ[X]) = x ^ 3 - a ^ 2 * x := by
    intro x
    simp only [List.map_cons, List.map_nil, List.prod_cons, List.prod_nil, eval_mul, eval_sub, eval_X,
      eval_C, eval_one]
    ring
  have hint : ∀ q : ℝ[X], q.natDegree ≤ 2 →
      ∫ x in (-1 : ℝ)..1, ((([-a, 0, a].map fun a => X - C a).prod : ℝ[X]) * q).eval x =
        q.coeff 1 * (2 / 5 - 2 * a ^ 2 / 3) := by
    intro q hq
    have e2 : ∀ x, eval x ((([-a, 0, a].map fun a => X - C a).prod : ℝ[X]) * q) =
        q.coeff 2 * x ^ 5 + q.coeff 1 * x ^ 4 + (q.coeff 0 - a ^ 2 * q.coeff 2) * x ^ 3 +
          (- a ^ 2 * q.coeff 1) * x ^ 2 + (-a ^ 2 * q.coeff 0) * x ^ 1 := by
      intro x
      rw [eval_mul, e, eval_eq_sum_range' (Nat.lt_succ_of_le hq)]
      simp only [Finset.sum_range_succ, Finset.sum_range_zero]
      ring
    simp only [e2]
    rw [intervalIntegral.integral_add (Continuous.intervalIntegrable (by fun_prop) _ _)
        (Continuous.intervalIntegrable (by fun_prop) _ _),
      intervalIntegral.integral_add (Continuous.intervalIntegrable (by fun_prop) _ _)
        (Continuous.intervalIntegrable (by fun_prop) _ _),
      intervalIntegral.integral_add (Continuous.intervalIntegrable (by fun_prop) _ _)
        (Continuous.intervalIntegrable (by fun_prop) _ _),
      intervalIntegral.integral_add (Continuous.intervalIntegrable (by fun_prop) _ _)
        (Continuous.intervalIntegrable (by fun_prop) _ _)]
    simp only [intervalIntegral.integral_const_mul, integral_pow, integral_id]
    norm_num
    ring
  constructor
  · intro h1
    have := h1 X (by simp)
    rw [hint X (by simp), coeff_X_one] at this
    linarith
  · intro h1 q hq
    rw [hint q hq, h1]
    ring

/-- With the exact point the weights are those of Gauss-Legendre, and the degree is 5; with the 16
digits of the table it is not. -/
example (gauss : ℕ → List ℝ × List ℝ) (hg : IsGauss gauss) :
    ExactC1 (gaussPatterson gauss (fun _ => [√(3 / 5)]) 1).1
        (gaussPatterson gauss (fun _ => [√(3 / 5)]) 1).2 5 ∧
      ¬ ExactC1 (gaussPatterson gauss patTable 1).1 (gaussPatterson gauss patTable 1).2 5 :=
  ⟨(C55_one gauss hg _ (√(3 / 5)) (by positivity) rfl).2 (Real.sq_sqrt (by norm_num)),
    fun h => by
      have := (C55_one gauss hg patTable 0.7745966692414834 (by norm_num) rfl).1 h
      norm_num at this⟩

/-- The points of index 1 of the code. -/
example (gauss : ℕ → List ℝ × List ℝ) :
    (gaussPatterson gauss patTable 1).1 = [-0.7745966692414834, 0, 0.7745966692414834] := by
  simp [gaussPatterson, patPoints, patTable, List.insertionSort, List.orderedInsert]
  norm_num

end Quadpy
