import Verif.Model.TestHelpers
import Verif.Props.C03
import Verif.Lemmas.Decimal

/-!
# C66: check_degree tells the degree of a rule
-/

namespace Quadpy.TestHelpers
open Quadpy

theorem npMax_spec {l : List ℝ} {m : ℝ} (h : npMax l = .ok m) : IsGreatest {x | x ∈ l} m := by
  cases l with
  | nil => simp [npMax] at h
  | cons a l =>
    simp only [npMax, Except.ok.injEq] at h
    subst h
    have : ∀ (l : List ℝ) (a : ℝ), (l.foldl max a = a ∨ l.foldl max a ∈ l) ∧ a ≤ l.foldl max a ∧
        ∀ x ∈ l, x ≤ l.foldl max a := by
      intro l
      induction l with
      | nil => simp
      | cons b l ih =>
        intro a
        obtain ⟨h1, h2, h3⟩ := ih (max a b)
        simp only [List.foldl_cons, List.mem_cons]
        refine ⟨?_, (le_max_left a b).trans h2, ?_⟩
        · rcases h1 with h1 | h1
          · rw [h1]
            rcases max_choice a b with h | h <;> simp [h]
          · simp [h1]
        · rintro x (rfl | hx)
          · exact (le_max_right a x).trans h2
          · exact h3 x hx
    obtain ⟨h1, h2, h3⟩ := this l a
    refine ⟨by simpa using h1, fun x hx => ?_⟩
    rcases List.mem_cons.1 hx with rfl | hx
    · exact h2
    · exact h3 x hx

theorem npMax_error {l : List ℝ} : npMax l = .error .valueError ↔ l = [] := by
  cases l <;> simp [npMax]

theorem mem_exponents {dim maxDegree : ℕ} {k : List ℕ} :
    k ∈ (getAllExponents dim maxDegree).flatten ↔ k.length = dim ∧ k.sum ≤ maxDegree := by
  rw [List.mem_flatten]
  constructor
  · rintro ⟨L, hL, hk⟩
    obtain ⟨d, hd, rfl⟩ := List.mem_iff_getElem.1 hL
    have hd' : d ≤ maxDegree := by
      rw [C03_length] at hd
      omega
    obtain ⟨L', h1, -, h2⟩ := C03_get_all_exponents dim maxDegree d hd'
    rw [List.getElem?_eq_getElem hd, Option.some.injEq] at h1
    rw [h1] at hk
    obtain ⟨h3, h4⟩ := (h2 k).1 hk
    exact ⟨h3, by omega⟩
  · rintro ⟨h1, h2⟩
    obtain ⟨L', h3, -, h4⟩ := C03_get_all_exponents dim maxDegree k.sum h2
    exact ⟨L', List.mem_of_getElem? h3, (h4 k).2 ⟨h1, rfl⟩⟩

theorem exponents_sorted (dim maxDegree : ℕ) :
    (getAllExponents dim maxDegree).flatten.Pairwise fun a b => a.sum ≤ b.sum := by
  have key : ∀ (d : ℕ) (hd : d < (getAllExponents dim maxDegree).length),
      ∀ k ∈ (getAllExponents dim maxDegree)[d], k.sum = d := by
    intro d hd k hk
    obtain ⟨L', h1, -, h2⟩ := C03_get_all_exponents dim maxDegree d (by rw [C03_length] at hd; omega)
    rw [List.getElem?_eq_getElem hd, Option.some.injEq] at h1
    rw [h1] at hk
    exact ((h2 k).1 hk).2
  rw [List.pairwise_flatten]
  constructor
  · intro L hL
    obtain ⟨d, hd, rfl⟩ := List.mem_iff_getElem.1 hL
    refine List.Pairwise.imp_of_mem (R := fun _ _ => True) (fun ha hb _ => ?_) (List.pairwise_of_forall fun _ _ => trivial)
    rw [key d hd _ ha, key d hd _ hb]
  · rw [List.pairwise_iff_getElem]
    intro i j hi hj hij x hx y hy
    rw [key i hi x hx, key j hj y hy]
    omega

/-- The error for the monomial with the exponents `k`. -/
noncomputable def errOf {dim : ℕ} (Q : ((Fin dim → ℝ) → ℝ) → ℝ) (exact : List ℕ → ℝ) (k : List ℕ) : ℝ :=
  |exact k - Q fun x => ∏ i : Fin dim, x i ^ k.getD i 0|

open Classical in
theorem checkDegree_eq (dim : ℕ) (Q : ((Fin dim → ℝ) → ℝ) → ℝ) (exact : List ℕ → ℝ) (maxDegree : ℕ) (tol : ℝ) :
    checkDegree dim Q exact maxDegree tol =
      (let E := (getAllExponents dim maxDegree).flatten
       let P := fun k => decide (errOf Q exact k < (1 + |exact k|) * tol)
       let ρ := fun k => errOf Q exact k / (1 + |exact k|)
       if E.all P then (npMax (E.map ρ)).map fun m => ((maxDegree : ℤ), m)
       else (npMax ((E.filter fun k => k.sum < maxDegree).map ρ)).map fun m =>
        (((E.getD (E.findIdx fun k => !P k) []).sum : ℤ) - 1, m)) := by
  simp only [checkDegree, List.zipWith_map, List.zipWith_self, List.map_map]
  generalize (getAllExponents dim maxDegree).flatten = E
  have hz : ∀ ρ : List ℕ → ℝ, ((E.zip (E.map ρ)).filter fun p => decide (p.1.sum < maxDegree)).map Prod.snd =
      (E.filter fun k => decide (k.sum < maxDegree)).map ρ := by
    intro ρ
    induction E with
    | nil => rfl
    | cons k E ih =>
      simp only [List.map_cons, List.zip_cons_cons, List.filter_cons]
      split_ifs <;> simp [ih]
  rw [hz, List.all_map, List.findIdx_map]
  change (if (E.all fun k => decide (errOf Q exact k < (1 + |exact k|) * tol)) = true then _ else _) = _
  split_ifs
  · cases h : npMax (E.map fun k => errOf Q exact k / (1 + |exact k|)) <;>
      (unfold errOf at h; simp only [h]; rfl)
  · cases h : npMax ((E.filter fun k => decide (k.sum < maxDegree)).map fun k => errOf Q exact k / (1 + |exact k|)) <;>
      (unfold errOf at h; simp only [h]; rfl)

/-- C66: the number `d` which `check_degree` returns.  All monomials of degree at most `d` have an error below the
tolerance; if `d` is less than `max_degree`, some monomial of degree `d + 1` does not. -/
theorem C66_degree {dim : ℕ} {Q : ((Fin dim → ℝ) → ℝ) → ℝ} {exact : List ℕ → ℝ} {maxDegree : ℕ} {tol : ℝ}
    {d : ℤ} {e : ℝ} (h : checkDegree dim Q exact maxDegree tol = .ok (d, e)) :
    -1 ≤ d ∧ d ≤ maxDegree ∧
    (∀ k : List ℕ, k.length = dim → (k.sum : ℤ) ≤ d →
      |exact k - Q fun x => ∏ i : Fin dim, x i ^ k.getD i 0| < (1 + |exact k|) * tol) ∧
    (d < maxDegree → ∃ k : List ℕ, k.length = dim ∧ (k.sum : ℤ) = d + 1 ∧
      (1 + |exact k|) * tol ≤ |exact k - Q fun x => ∏ i : Fin dim, x i ^ k.getD i 0|) := by
  rw [checkDegree_eq] at h
  simp only at h
  split_ifs at h with hall
  · cases hm : npMax ((getAllExponents dim maxDegree).flatten.map fun k => errOf Q exact k / (1 + |exact k|)) with
    | error e => rw [hm] at h; cases h
    | ok m =>
      rw [hm] at h
      simp only [Except.map, Except.ok.injEq, Prod.mk.injEq] at h
      obtain ⟨rfl, rfl⟩ := h
      refine ⟨by omega, le_rfl, fun k h1 h2 => ?_, fun h => absurd h (lt_irrefl _)⟩
      have := (List.all_eq_true.1 hall) k (mem_exponents.2 ⟨h1, by omega⟩)
      exact of_decide_eq_true this
  · set E := (getAllExponents dim maxDegree).flatten with hE
    cases hm : npMax ((E.filter fun k => decide (k.sum < maxDegree)).map
        fun k => errOf Q exact k / (1 + |exact k|)) with
    | error e => rw [hm] at h; cases h
    | ok m =>
      rw [hm] at h
      simp only [Except.map, Except.ok.injEq, Prod.mk.injEq] at h
      obtain ⟨rfl, rfl⟩ := h
      set P := fun k => !decide (errOf Q exact k < (1 + |exact k|) * tol) with hP
      have hlt : E.findIdx P < E.length := by
        rw [List.findIdx_lt_length]
        simpa [P] using hall
      have hmem : E[E.findIdx P] ∈ E := List.getElem_mem hlt
      have hget : E.getD (E.findIdx P) [] = E[E.findIdx P] := by
        rw [List.getD_eq_getElem _ _ hlt]
      have hbad : P E[E.findIdx P] = true := List.findIdx_getElem (w := hlt)
      rw [hget]
      obtain ⟨hl, hs⟩ := mem_exponents.1 hmem
      refine ⟨by omega, by omega, fun k h1 h2 => ?_, fun _ => ⟨_, hl, by omega, ?_⟩⟩
      · have hk : k ∈ E := mem_exponents.2 ⟨h1, by omega⟩
        obtain ⟨i, hi, rfl⟩ := List.mem_iff_getElem.1 hk
        have hidx : i < E.findIdx P := by
          by_contra hge
          have hsorted : E.Pairwise fun a b => a.sum ≤ b.sum := exponents_sorted dim maxDegree
          have := List.pairwise_iff_getElem.1 hsorted
          rcases Nat.lt_or_eq_of_le (not_lt.1 hge) with h3 | h3
          · have := this _ _ hlt hi h3
            omega
          · have : (E[i]).sum = (E[E.findIdx P]).sum := by congr 2; exact h3.symm
            omega
        have := List.not_of_lt_findIdx hidx
        simp only [P, Bool.not_eq_true, Bool.not_eq_false', decide_eq_true_eq, Bool.not_eq_false] at this
        exact this
      · simpa [P, errOf] using hbad

/-- C66: the second number is the largest relative error, of all monomials up to `max_degree`, or, if one of
them fails, of those of smaller degree. -/
theorem C66_error {dim : ℕ} {Q : ((Fin dim → ℝ) → ℝ) → ℝ} {exact : List ℕ → ℝ} {maxDegree : ℕ} {tol : ℝ}
    {d : ℤ} {e : ℝ} (h : checkDegree dim Q exact maxDegree tol = .ok (d, e)) :
    IsGreatest {r | ∃ k : List ℕ, k.length = dim ∧ k.sum ≤ maxDegree ∧ (d < maxDegree → k.sum < maxDegree) ∧
      r = |exact k - Q fun x => ∏ i : Fin dim, x i ^ k.getD i 0| / (1 + |exact k|)} e := by
  have hd := C66_degree h
  rw [checkDegree_eq] at h
  simp only at h
  split_ifs at h with hall
  · cases hm : npMax ((getAllExponents dim maxDegree).flatten.map fun k => errOf Q exact k / (1 + |exact k|)) with
    | error e => rw [hm] at h; cases h
    | ok m =>
      rw [hm] at h
      simp only [Except.map, Except.ok.injEq, Prod.mk.injEq] at h
      obtain ⟨rfl, rfl⟩ := h
      have := npMax_spec hm
      convert this using 1
      ext r
      simp only [lt_irrefl, Set.mem_ofPred_eq, List.mem_map, mem_exponents, errOf]
      constructor
      · rintro ⟨k, h1, h2, -, rfl⟩; exact ⟨k, ⟨h1, h2⟩, rfl⟩
      · rintro ⟨k, ⟨h1, h2⟩, rfl⟩; exact ⟨k, h1, h2, fun h => h.elim, rfl⟩
  · cases hm : npMax (((getAllExponents dim maxDegree).flatten.filter fun k => decide (k.sum < maxDegree)).map
        fun k => errOf Q exact k / (1 + |exact k|)) with
    | error e => rw [hm] at h; cases h
    | ok m =>
      rw [hm] at h
      simp only [Except.map, Except.ok.injEq, Prod.mk.injEq] at h
      obtain ⟨h1, rfl⟩ := h
      have hlt : d < maxDegree := by
        by_contra hge
        have hdm : d = maxDegree := le_antisymm hd.2.1 (not_lt.1 hge)
        refine hall (List.all_eq_true.2 fun k hk => ?_)
        obtain ⟨h2, h3⟩ := mem_exponents.1 hk
        have := hd.2.2.1 k h2 (by rw [hdm]; exact_mod_cast h3)
        simpa [errOf] using this
      have := npMax_spec hm
      convert this using 1
      ext r
      simp only [Set.mem_ofPred_eq, List.mem_map, List.mem_filter, mem_exponents, errOf, decide_eq_true_eq]
      constructor
      · rintro ⟨k, h1, h2, h3, rfl⟩; exact ⟨k, ⟨⟨h1, h2⟩, h3 hlt⟩, rfl⟩
      · rintro ⟨k, ⟨⟨h1, h2⟩, h3⟩, rfl⟩; exact ⟨k, h1, h2, fun _ => h3, rfl⟩

/-- C66: the function fails exactly when it is asked for the degree 0 and the constant has a large error. -/
theorem C66_fails {dim : ℕ} (Q : ((Fin dim → ℝ) → ℝ) → ℝ) (exact : List ℕ → ℝ) (maxDegree : ℕ) (tol : ℝ) :
    checkDegree dim Q exact maxDegree tol = .error .valueError ↔
      maxDegree = 0 ∧ (1 + |exact (List.replicate dim 0)|) * tol ≤
        |exact (List.replicate dim 0) - Q fun _ => 1| := by
  rw [checkDegree_eq]
  simp only
  have h0 : List.replicate dim 0 ∈ (getAllExponents dim maxDegree).flatten := mem_exponents.2 (by simp)
  have he : errOf Q exact (List.replicate dim 0) = |exact (List.replicate dim 0) - Q fun _ => 1| := by
    rw [errOf]
    congr 3
    funext x
    refine Finset.prod_eq_one fun i _ => ?_
    simp
  split_ifs with hall
  · constructor
    · intro h
      cases hm : npMax ((getAllExponents dim maxDegree).flatten.map fun k => errOf Q exact k / (1 + |exact k|)) with
      | ok m => rw [hm] at h; cases h
      | error e =>
        cases e
        rw [npMax_error, List.map_eq_nil_iff] at hm
        rw [hm] at h0
        simp at h0
    · rintro ⟨-, h⟩
      have := (List.all_eq_true.1 hall) _ h0
      rw [decide_eq_true_eq, he] at this
      linarith
  · have hmap : ∀ {α β : Type} (f : α → β) (r : Except Err α), r.map f = .error .valueError ↔
        r = .error .valueError := by
      intro α β f r
      cases r <;> simp [Except.map]
    rw [hmap, npMax_error, List.map_eq_nil_iff, List.filter_eq_nil_iff]
    constructor
    · intro h
      have hz : maxDegree = 0 := by
        have := h _ h0
        simpa using this
      refine ⟨hz, ?_⟩
      subst hz
      by_contra hc
      refine hall (List.all_eq_true.2 fun k hk => ?_)
      obtain ⟨h1, h2⟩ := mem_exponents.1 hk
      have hk0 : k = List.replicate dim 0 := by
        refine List.eq_replicate_iff.2 ⟨h1, fun b hb => ?_⟩
        have := List.single_le_sum (fun _ _ => Nat.zero_le _) b hb
        omega
      rw [hk0, decide_eq_true_eq, he]
      exact not_le.1 hc
    · rintro ⟨rfl, -⟩ k hk
      simp

/-- C66: what the number means for a rule.  If `check_degree` returns `d`, the rule `Q` has the degree `d` up to the
tolerance: for every polynomial of degree at most `d` the error is bounded by `tol` times the sum of its
absolute coefficients, times one plus the largest moment. -/
theorem C66_approx {n : ℕ} {Q J : Spec.Functional n} (hQ : LinOnMono Q) (hJ : LinOnMono J) {maxDegree d : ℕ}
    {tol e M : ℝ}
    (h : checkDegree n Q (fun k => J fun x => ∏ i : Fin n, x i ^ k.getD i 0) maxDegree tol = .ok ((d : ℤ), e))
    (htol : 0 ≤ tol) (hM : ∀ α : Fin n → ℕ, ∑ i, α i ≤ d → |J (mono α)| ≤ M) :
    Spec.ApproxUpTo d ((1 + M) * tol) Q J := by
  refine approxUpTo_of_mono hQ hJ fun α hα => ?_
  have hsum : (List.ofFn α).sum = ∑ i, α i := List.sum_ofFn
  have hm : ∀ x : Fin n → ℝ, ∏ i : Fin n, x i ^ (List.ofFn α).getD i 0 = mono α x := by
    intro x
    refine Finset.prod_congr rfl fun i _ => ?_
    simp
  have := (C66_degree h).2.2.1 (List.ofFn α) (by simp) (by rw [hsum]; exact_mod_cast hα)
  simp only [hm] at this
  rw [abs_sub_comm]
  refine this.le.trans (mul_le_mul_of_nonneg_right ?_ htol)
  have := hM α hα
  linarith

/-- C66: a rule which is exact for all monomials up to the degree `n` gets at least the degree `n` (or all that was
asked for), whatever the tolerance. -/
theorem C66_exact {dim : ℕ} {Q : ((Fin dim → ℝ) → ℝ) → ℝ} {exact : List ℕ → ℝ} {maxDegree n : ℕ} {tol : ℝ}
    (htol : 0 < tol)
    (hQ : ∀ k : List ℕ, k.length = dim → k.sum ≤ n → Q (fun x => ∏ i : Fin dim, x i ^ k.getD i 0) = exact k) :
    ∃ d e, checkDegree dim Q exact maxDegree tol = .ok (d, e) ∧ (min n maxDegree : ℤ) ≤ d := by
  cases h : checkDegree dim Q exact maxDegree tol with
  | error err =>
    cases err
    obtain ⟨-, h2⟩ := (C66_fails Q exact maxDegree tol).1 h
    have := hQ (List.replicate dim 0) (by simp) (by simp)
    have h1 : (fun x : Fin dim → ℝ => ∏ i : Fin dim, x i ^ (List.replicate dim 0).getD i 0) = fun _ => 1 := by
      funext x
      refine Finset.prod_eq_one fun i _ => ?_
      simp
    rw [h1] at this
    rw [this, sub_self, abs_zero] at h2
    have : 0 < (1 + |exact (List.replicate dim 0)|) * tol := by positivity
    linarith
  | ok r =>
    obtain ⟨d, e⟩ := r
    refine ⟨d, e, rfl, ?_⟩
    by_contra hlt
    obtain ⟨h1, h2, h3, h4⟩ := C66_degree h
    obtain ⟨k, hk1, hk2, hk3⟩ := h4 (by omega)
    rw [hQ k hk1 (by omega), sub_self, abs_zero] at hk3
    have : 0 < (1 + |exact k|) * tol := by positivity
    linarith

/-- C66: a rule which is wrong for a monomial of degree `n` by the tolerance or more gets a smaller degree. -/
theorem C66_wrong {dim : ℕ} {Q : ((Fin dim → ℝ) → ℝ) → ℝ} {exact : List ℕ → ℝ} {maxDegree : ℕ} {tol : ℝ}
    {d : ℤ} {e : ℝ} (h : checkDegree dim Q exact maxDegree tol = .ok (d, e)) {k : List ℕ} (hk : k.length = dim)
    (hw : (1 + |exact k|) * tol ≤ |exact k - Q fun x => ∏ i : Fin dim, x i ^ k.getD i 0|) : d < k.sum := by
  by_contra hge
  have := (C66_degree h).2.2.1 k hk (by omega)
  linarith

/-- The midpoint rule on the interval `[-1, 1]` gets the degree 1, with any tolerance up to 1/3. -/
example (tol : ℝ) (h0 : 0 < tol) (h1 : tol ≤ 1 / 3) (m : ℕ) (hm : 2 ≤ m) : ∃ e,
    checkDegree 1 (fun f => 2 * f fun _ => 0) (fun k => (1 - (-1) ^ (k.getD 0 0 + 1)) / (k.getD 0 0 + 1)) m tol =
      .ok (1, e) := by
  obtain ⟨d, e, h, hd⟩ := C66_exact (dim := 1) (Q := fun f => 2 * f fun _ => 0)
    (exact := fun k => (1 - (-1) ^ (k.getD 0 0 + 1)) / (k.getD 0 0 + 1)) (maxDegree := m) (n := 1) h0 (by
      intro k hk hs
      obtain ⟨a, rfl⟩ := List.length_eq_one_iff.1 hk
      simp only [List.sum_cons, List.sum_nil] at hs
      obtain rfl | rfl : a = 0 ∨ a = 1 := by omega
      · norm_num
      · norm_num)
  have := C66_wrong h (k := [2]) rfl (by norm_num [abs_of_pos]; linarith)
  refine ⟨e, ?_⟩
  rw [h]
  congr
  simp only [List.sum_cons, List.sum_nil] at this
  omega

end Quadpy.TestHelpers
