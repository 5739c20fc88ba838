import Verif.Model.Inside
import Verif.Model.Sn
import Verif.Spec.Schemes
import Verif.Props.C24
import Mathlib.Topology.Order.DenselyOrdered
import Mathlib.Topology.Algebra.Order.LiminfLimsup

/-!
# C46: points_inside

Right for cubes and simplices, wrong for balls.
-/

namespace Quadpy.Inside
open Finset

/-- What the position of the points should be with respect to a domain `D`. -/
def IsPosition {n : ℕ} (D : Set (Fin n → ℝ)) (pts : List (Fin n → ℝ)) (p : Position) : Prop :=
  (p = .strictlyInside ↔ ∀ x ∈ pts, x ∈ interior D) ∧ (p = .outside ↔ ∃ x ∈ pts, x ∉ D)

theorem isPosition_position {n : ℕ} {D : Set (Fin n → ℝ)} {pts : List (Fin n → ℝ)} {a b : Prop}
    (ha : a ↔ ∀ x ∈ pts, x ∈ interior D) (hb : b ↔ ∀ x ∈ pts, x ∈ D) :
    IsPosition D pts (position a b) := by
  have hab : a → b := fun h => hb.2 fun x hx => interior_subset (ha.1 h x hx)
  unfold IsPosition position
  split_ifs with h1 h2
  · refine ⟨⟨fun _ => ha.1 h1, fun _ => rfl⟩, ⟨(nomatch ·), ?_⟩⟩
    rintro ⟨x, hx, hxD⟩; exact absurd (hb.1 (hab h1) x hx) hxD
  · refine ⟨⟨(nomatch ·), fun h => absurd (ha.2 h) h1⟩, ⟨(nomatch ·), ?_⟩⟩
    rintro ⟨x, hx, hxD⟩; exact absurd (hb.1 h2 x hx) hxD
  · refine ⟨⟨(nomatch ·), fun h => absurd (ha.2 h) h1⟩, ⟨fun _ => ?_, fun _ => rfl⟩⟩
    by_contra hc
    push Not at hc
    exact h2 (hb.2 hc)

theorem forall_toVec {n : ℕ} {x : List ℝ} (hx : x.length = n) (P : ℝ → Prop) :
    (∀ v ∈ x, P v) ↔ ∀ i, P (toVec n x i) := by
  constructor
  · intro h i
    have hi : (i : ℕ) < x.length := by rw [hx]; exact i.2
    simp only [toVec, List.getD_eq_getElem _ _ hi]
    exact h _ (List.getElem_mem hi)
  · intro h v hv
    obtain ⟨i, hi, rfl⟩ := List.mem_iff_getElem.1 hv
    have := h ⟨i, by omega⟩
    simpa only [toVec, List.getD_eq_getElem _ _ hi] using this

/-- C46 for cubes: the position is the one with respect to `[-1, 1]^n`. -/
theorem C46_cn (S : Scheme) (n : ℕ) (hS : ∀ x ∈ S.points, x.length = n) :
    IsPosition (Set.Icc (fun _ : Fin n => (-1 : ℝ)) fun _ => 1) (S.points.map (toVec n)) (cnPosition S) := by
  have hint : interior (Set.Icc (fun _ : Fin n => (-1 : ℝ)) fun _ => 1) = Set.univ.pi fun _ => Set.Ioo (-1) 1 := by
    rw [← Set.pi_univ_Icc, interior_pi_set Set.finite_univ]
    simp only [interior_Icc]
  apply isPosition_position
  · rw [hint, List.forall_mem_map]
    refine forall₂_congr fun x hx => ?_
    rw [forall_toVec (hS x hx)]
    simp [Set.mem_pi]
  · rw [List.forall_mem_map]
    refine forall₂_congr fun x hx => ?_
    rw [forall_toVec (hS x hx), ← Set.pi_univ_Icc, Set.mem_univ_pi]
    rfl

/-- The unit simplex. -/
def unitSimplex (n : ℕ) : Set (Fin n → ℝ) := {x | (∀ i, 0 ≤ x i) ∧ ∑ i, x i ≤ 1}

/-- Its interior. -/
theorem interior_unitSimplex {n : ℕ} (hn : 0 < n) :
    interior (unitSimplex n) = {x | (∀ i, 0 < x i) ∧ ∑ i, x i < 1} := by
  apply Set.Subset.antisymm
  · intro x hx
    have key : ∀ (i : Fin n) (s : ℝ), ∃ t > 0, x + (s * t) • Pi.single i (1 : ℝ) ∈ unitSimplex n := by
      intro i s
      have hc : Continuous fun t : ℝ => x + (s * t) • (Pi.single i (1 : ℝ) : Fin n → ℝ) := by fun_prop
      have h0 := hc.tendsto 0
      have hm : unitSimplex n ∈ nhds (x + (s * 0) • (Pi.single i (1 : ℝ) : Fin n → ℝ)) := by
        rw [mul_zero, zero_smul, add_zero]; exact mem_interior_iff_mem_nhds.1 hx
      have he := (h0 hm)
      obtain ⟨ε, hε, hb⟩ := Metric.mem_nhds_iff.1 he
      refine ⟨ε / 2, by positivity, hb ?_⟩
      simp [abs_of_pos hε, hε]
    constructor
    · intro i
      obtain ⟨t, ht, h1, -⟩ := key i (-1)
      have := h1 i
      simp at this
      linarith
    · obtain ⟨t, ht, -, h2⟩ := key ⟨0, hn⟩ 1
      simp only [Pi.add_apply, Pi.smul_apply, smul_eq_mul, sum_add_distrib, one_mul] at h2
      rw [← mul_sum, Finset.sum_pi_single'] at h2
      simp at h2
      linarith
  · apply interior_maximal
    · intro x hx
      exact ⟨fun i => (hx.1 i).le, hx.2.le⟩
    · have : {x : Fin n → ℝ | (∀ i, 0 < x i) ∧ ∑ i, x i < 1} =
          (⋂ i, {x | 0 < x i}) ∩ {x | ∑ i, x i < 1} := by
        ext x; simp
      rw [this]
      exact (isOpen_iInter_of_finite fun i => isOpen_lt continuous_const (continuous_apply i)).inter
        (isOpen_lt (by fun_prop) continuous_const)

/-- C46 for simplices of positive dimension: the position is the one with respect to the unit simplex. -/
theorem C46_tn (S : Scheme) {n : ℕ} (hn : 0 < n) (hS : ∀ x ∈ S.points, x.length = n + 1 ∧ x.sum = 1) :
    IsPosition (unitSimplex n) (S.points.map fun x i => toVec (n + 1) x i.succ) (tnPosition S) := by
  have hsum : ∀ x ∈ S.points, toVec (n + 1) x 0 + ∑ i : Fin n, toVec (n + 1) x i.succ = 1 := by
    intro x hx
    obtain ⟨h1, h2⟩ := hS x hx
    rw [← Fin.sum_univ_succ, ← h2, ← List.sum_ofFn]
    congr 1
    apply List.ext_getElem
    · simp [h1]
    · intro i h3 h4
      rw [List.getElem_ofFn, toVec, List.getD_eq_getElem _ _ h4]
  apply isPosition_position
  · rw [interior_unitSimplex hn, List.forall_mem_map]
    refine forall₂_congr fun x hx => ?_
    have hs := hsum x hx
    rw [forall_toVec (hS x hx).1]
    constructor
    · intro h
      refine ⟨fun i => (h i.succ).1, ?_⟩
      have := (h 0).1
      linarith
    · rintro ⟨h1, h2⟩
      have h0 : 0 < toVec (n + 1) x 0 := by linarith
      have hpos : ∀ i, 0 < toVec (n + 1) x i := fun i => by
        refine Fin.cases h0 h1 i
      intro i
      refine ⟨hpos i, ?_⟩
      have ht : ∑ i, toVec (n + 1) x i = 1 := by rw [Fin.sum_univ_succ]; exact hs
      have : ∃ j, j ≠ i := by
        by_cases h : i = 0
        · exact ⟨Fin.last n, by rw [h]; rw [Ne, Fin.ext_iff]; simp; omega⟩
        · exact ⟨0, Ne.symm h⟩
      obtain ⟨j, hj⟩ := this
      have := Finset.add_le_sum (f := toVec (n + 1) x) (fun k _ => (hpos k).le) (mem_univ i) (mem_univ j) hj.symm
      have := hpos j
      linarith
  · rw [List.forall_mem_map]
    refine forall₂_congr fun x hx => ?_
    have hs := hsum x hx
    rw [forall_toVec (hS x hx).1]
    constructor
    · intro h
      refine ⟨fun i => (h i.succ).1, ?_⟩
      have := (h 0).1
      linarith
    · rintro ⟨h1, h2⟩
      have h0 : 0 ≤ toVec (n + 1) x 0 := by linarith
      have hpos : ∀ i, 0 ≤ toVec (n + 1) x i := fun i => by
        refine Fin.cases h0 h1 i
      intro i
      refine ⟨hpos i, ?_⟩
      have ht : ∑ i, toVec (n + 1) x i = 1 := by rw [Fin.sum_univ_succ]; exact hs
      have := Finset.single_le_sum (f := toVec (n + 1) x) (fun k _ => hpos k) (mem_univ i)
      linarith

/-- C46 is false for balls: all points of `hammer_stroud_11n(n)` (the cross polytope rule) are strictly
inside the unit ball, but from dimension 2 on that is not what is reported; from dimension 3 on they are
reported to be outside. -/
theorem C46_sn_refuted (n : ℕ) (hn : 2 ≤ n) :
    ∃ S, Sn.hammerStroud11n n 0 = some S ∧ S.dim = n ∧ (∀ x ∈ S.points, ∑ i, toVec n x i ^ 2 < 1) ∧
      snPosition S ≠ .strictlyInside ∧ (3 ≤ n → snPosition S = .outside) := by
  have hn' : (2 : ℝ) ≤ n := by exact_mod_cast hn
  have hr : 0 ≤ ((n : ℝ) + 0) / (n + 0 + 2) := by positivity
  obtain ⟨L, hL⟩ := fsd_some (n := n) (k := 1) (by omega) (√(((n : ℝ) + 0) / (n + 0 + 2)))
  have hpow : ∀ x ∈ L, ∑ i, toVec n x i ^ 2 = (n : ℝ) / (n + 2) := by
    intro x hx
    rw [fsd_powersum hL 2 even_two two_ne_zero x hx]
    simp only [List.map_cons, List.map_nil, List.sum_cons, List.sum_nil, Real.sq_sqrt hr]
    simp
  have hlen := fsd1_len hL
  refine ⟨schemeOf n [(1 / (2 * n), L)] 3, by
    simp only [Sn.hammerStroud11n, sqrtO_some hr, hL, Option.bind_eq_bind, Option.bind_some]; rfl, rfl, ?_⟩
  have hpts : (schemeOf n [(1 / (2 * n : ℝ), L)] 3).points = L := by simp [schemeOf, untangle]
  set S := schemeOf n [(1 / (2 * n : ℝ), L)] 3 with hS
  have hdim : S.dim = n := rfl
  have htot : (snEinsum S).sum = n * (2 * n / (n + 2)) := by
    rw [snEinsum, List.sum_ofFn]
    change ∑ i : Fin n, (S.points.map fun x => x.getD i 0 * x.getD i 0).sum = _
    rw [hpts]
    have e : ∀ M : List (List ℝ), (∀ x ∈ M, ∑ i, toVec n x i ^ 2 = (n : ℝ) / (n + 2)) →
        ∑ i : Fin n, (M.map fun x => x.getD i 0 * x.getD i 0).sum = M.length * ((n : ℝ) / (n + 2)) := by
      intro M hM
      induction M with
      | nil => simp
      | cons y M ih =>
        simp only [List.map_cons, List.sum_cons, sum_add_distrib, List.length_cons]
        rw [ih fun x hx => hM x (List.mem_cons_of_mem _ hx)]
        have := hM y List.mem_cons_self
        simp only [toVec, sq] at this
        rw [this]; push_cast; ring
    rw [e L hpow, hlen]; ring
  have hle : ∀ (l : List ℝ), (∀ v ∈ l, v ≤ 1) → l.sum ≤ l.length := by
    intro l h
    have := List.sum_le_card_nsmul l 1 h
    simpa using this
  have hlt : ∀ (l : List ℝ), l ≠ [] → (∀ v ∈ l, v < 1) → l.sum < l.length := by
    intro l hne h
    cases l with
    | nil => exact absurd rfl hne
    | cons a l =>
      have h1 := hle l fun v hv => (h v (List.mem_cons_of_mem _ hv)).le
      have h2 := h a List.mem_cons_self
      simp only [List.sum_cons, List.length_cons]; push_cast; linarith
  have hl : (snEinsum S).length = n := by rw [snEinsum, List.length_ofFn]; exact hdim
  have hin : ¬ ∀ v ∈ snEinsum S, v < 1 := by
    intro h
    have := hlt _ (by intro h0; rw [h0] at hl; simp at hl; omega) h
    rw [htot, hl] at this
    have h2 : (n : ℝ) * (2 * n / (n + 2)) ≥ n * 1 := by
      apply mul_le_mul_of_nonneg_left _ (by linarith)
      rw [le_div_iff₀ (by linarith)]; linarith
    linarith
  refine ⟨?_, ?_, ?_⟩
  · rw [hpts]
    intro x hx
    rw [hpow x hx, div_lt_one (by linarith)]
    linarith
  · rw [snPosition, position, if_neg hin]
    split_ifs <;> simp
  · intro h3
    have h3' : (3 : ℝ) ≤ n := by exact_mod_cast h3
    rw [snPosition, position, if_neg hin, if_neg]
    intro h
    have := hle _ h
    rw [htot, hl] at this
    have h2 : (n : ℝ) * (2 * n / (n + 2)) > n * 1 := by
      apply mul_lt_mul_of_pos_left _ (by linarith)
      rw [lt_div_iff₀ (by linarith)]; linarith
    linarith

/-- C46 is false for balls in the other direction too: one point outside the disk is reported to be
strictly inside. -/
theorem C46_sn_refuted_outside : ∃ S : Scheme, S.dim = 2 ∧ (∃ x ∈ S.points, 1 < ∑ i, toVec 2 x i ^ 2) ∧
    snPosition S = .strictlyInside := by
  refine ⟨⟨2, [1], [[9 / 10, 9 / 10]], 0⟩, rfl, ⟨[9 / 10, 9 / 10], by simp, ?_⟩, ?_⟩
  · norm_num [Fin.sum_univ_two, toVec]
  · rw [snPosition, position, if_pos]
    intro v hv
    simp only [snEinsum, List.mem_ofFn] at hv
    obtain ⟨i, rfl⟩ := hv
    change Fin 2 at i
    fin_cases i <;> norm_num

/-- What the answer for balls does mean: the sum of the squared norms of the points is at most the
dimension.  (This is far from every point being inside, see above.) -/
theorem C46_sn_partial (S : Scheme) (h : snPosition S ≠ .outside) :
    (S.points.map fun x => ∑ i, toVec S.dim x i ^ 2).sum ≤ S.dim := by
  have hb : ∀ v ∈ snEinsum S, v ≤ 1 := by
    rw [snPosition, position] at h
    split_ifs at h with h1 h2
    · exact fun v hv => (h1 v hv).le
    · exact h2
    · exact absurd rfl h
  have hl : (snEinsum S).length = S.dim := by rw [snEinsum, List.length_ofFn]
  have h1 := List.sum_le_card_nsmul _ 1 hb
  rw [hl, snEinsum, List.sum_ofFn] at h1
  refine le_trans (le_of_eq ?_) (h1.trans (by simp))
  induction S.points with
  | nil => simp
  | cons y M ih =>
    simp only [List.map_cons, List.sum_cons, sum_add_distrib, ih]
    simp [toVec, sq]

/-! Concrete cases: the corners of the square are on its boundary, the centroid is inside the triangle. -/

example : cnPosition ⟨2, [1 / 2, 1 / 2], [[1, 1], [-1, -1]], 1⟩ = .insideBoundary := by
  rw [cnPosition, position, if_neg, if_pos]
  · norm_num
  · intro h
    have := (h [1, 1] (by simp) 1 (by simp)).2
    norm_num at this

example : ∀ x ∈ [toVec 3 [1 / 3, 1 / 3, 1 / 3]], (fun i : Fin 2 => x i.succ) ∈ interior (unitSimplex 2) := by
  have h := (C46_tn ⟨2, [1], [[1 / 3, 1 / 3, 1 / 3]], 1⟩ (n := 2) (by norm_num) (by norm_num)).1.1 (by
    rw [tnPosition, position, if_pos]; norm_num)
  intro x hx
  rw [List.mem_singleton.1 hx]
  exact h _ (by simp)

end Quadpy.Inside
