import Verif.Lemmas.Groups
import Verif.Lemmas.CubeMoments
import Verif.Model.Cn

namespace Quadpy
open Finset

theorem cube_symMom (n : ℕ) :
    SymMom (n := n) cubeMom (1 / 3) (1 / 5) (1 / 9) (1 / 7) (1 / 15) (1 / 27) where
  odd := cubeMom_odd
  zero := cubeMom_zero
  two := fun a => by rw [cubeMom_e1, m1_two]
  four := fun a => by rw [cubeMom_e1, m1_four]
  twotwo := fun a b h => by rw [cubeMom_e2 h, m1_two]; norm_num
  six := fun a => by rw [cubeMom_e1, m1_six]
  fourtwo := fun a b h => by rw [cubeMom_e2 h, m1_two, m1_four]; norm_num
  ttt := fun a b c hab hac hbc => by rw [cubeMom_e3 hab hac hbc, m1_two]; norm_num

/-- Conditions on the groups of a rule that make it exact of degree `d ≤ 7`, for symmetric moments. -/
structure GroupConds (n d : ℕ) (gs : List Grp) (m2 m4 m22 m6 m42 m222 : ℝ) : Prop where
  c0 : gsum gs (fun _ => 1) = 1
  c2 : 2 ≤ d → 1 ≤ n → gsum gs (fun g => g.p2) = n * m2
  c4 : 4 ≤ d → 1 ≤ n → gsum gs (fun g => g.p4) = n * m4
  c22 : 4 ≤ d → 2 ≤ n → gsum gs (fun g => g.p2 * g.p2 - g.p4) = (n : ℝ) * (n - 1) * m22
  c6 : 6 ≤ d → 1 ≤ n → gsum gs (fun g => g.p6) = n * m6
  c42 : 6 ≤ d → 2 ≤ n → gsum gs (fun g => g.p4 * g.p2 - g.p6) = (n : ℝ) * (n - 1) * m42
  c222 : 6 ≤ d → 3 ≤ n → gsum gs (fun g => g.p2 ^ 3 - 3 * g.p2 * g.p4 + 2 * g.p6) =
      (n : ℝ) * (n - 1) * (n - 2) * m222

/-- Exactness of a rule made of groups, for a domain with symmetric moments. -/
theorem exactUpTo_of_groups {n d : ℕ} (hd : d ≤ 7) {J : Spec.Functional n} (hJ : LinOnMono J) {V : ℝ}
    {M : (Fin n → ℕ) → ℝ} (hJM : ∀ α, J (mono α) = V * M α) {m2 m4 m22 m6 m42 m222 : ℝ}
    (hM : SymMom M m2 m4 m22 m6 m42 m222) {weights : List ℝ} {points : List (List ℝ)}
    {gs : List Grp} (hg : IsGroups n weights points gs) (hok : ∀ g ∈ gs, g.Ok n)
    (hc : GroupConds n d gs m2 m4 m22 m6 m42 m222) :
    Spec.ExactUpTo d (fun f => V * dot n weights points f) J := by
  apply exactUpTo_of_mono ((dot_linOnMono weights points).const_mul V) hJ
  intro α hα
  beta_reduce
  rw [hg, hJM, fs_moments hd gs hok hM hc.c0 hc.c2 hc.c4 hc.c22 hc.c6 hc.c42 hc.c222 α hα]

/-- Exactness of a scheme built by `untangle` from groups. -/
theorem schemeOf_exact {n d : ℕ} (hd : d ≤ 7) {J : Spec.Functional n} (hJ : LinOnMono J) {V : ℝ}
    {M : (Fin n → ℕ) → ℝ} (hJM : ∀ α, J (mono α) = V * M α) {m2 m4 m22 m6 m42 m222 : ℝ}
    (hM : SymMom M m2 m4 m22 m6 m42 m222) {data : List (ℝ × List (List ℝ))}
    (gs : List Grp) (hdata : data = gs.map fun g => (g.w, g.L)) (hok : ∀ g ∈ gs, g.Ok n)
    (hc : GroupConds n d gs m2 m4 m22 m6 m42 m222) :
    (schemeOf n data d).ExactFor n V J :=
  ⟨⟨rfl, untangle_shape n gs data hdata hok⟩,
    exactUpTo_of_groups hd hJ hJM hM (untangle_groups n gs data hdata) hok hc⟩

theorem schemeOfSym_eq (n d : ℕ) (l : List (SymKey × ℝ × List ℝ)) :
    schemeOfSym n (l.map fun e => ⟨e.1, [e.2.1], [e.2.2]⟩) d =
      schemeOf n (l.map fun e => (e.2.1, orbit n e.1 e.2.2)) d := by
  simp only [schemeOfSym, schemeOf, expand_eq_untangle]

theorem cube_schemeOf {n d : ℕ} (hd : d ≤ 7) {data : List (ℝ × List (List ℝ))}
    (gs : List Grp) (hdata : data = gs.map fun g => (g.w, g.L)) (hok : ∀ g ∈ gs, g.Ok n)
    (hc : GroupConds n d gs (1 / 3) (1 / 5) (1 / 9) (1 / 7) (1 / 15) (1 / 27)) :
    (schemeOf n data d).ExactOnCube n :=
  schemeOf_exact hd (cube_linOnMono n) cube_mono (cube_symMom n) gs hdata hok hc

/-- The same for `expand_symmetries`; `orbit n .zero _` is `z n`. -/
theorem cube_schemeOfSym {n d : ℕ} (hd : d ≤ 7) (l : List (SymKey × ℝ × List ℝ)) {e : List SymEntry}
    (he : e = l.map fun e => ⟨e.1, [e.2.1], [e.2.2]⟩)
    (gs : List Grp) (hdata : (l.map fun e => (e.2.1, orbit n e.1 e.2.2)) = gs.map fun g => (g.w, g.L))
    (hok : ∀ g ∈ gs, g.Ok n)
    (hc : GroupConds n d gs (1 / 3) (1 / 5) (1 / 9) (1 / 7) (1 / 15) (1 / 27)) :
    (schemeOfSym n e d).ExactOnCube n := by
  rw [he, schemeOfSym_eq]
  exact cube_schemeOf hd gs hdata hok hc

theorem gFsd_L (w : ℝ) (items : List (ℝ × ℕ)) (L : List (List ℝ)) : (gFsd w items L).L = L := rfl

theorem ok_nil (n : ℕ) : ∀ g ∈ ([] : List Grp), g.Ok n := by simp
theorem ok_cons {n : ℕ} {g : Grp} {gs : List Grp} (h : g.Ok n) (hs : ∀ g ∈ gs, g.Ok n) :
    ∀ g' ∈ g :: gs, g'.Ok n := by
  intro g' hg'
  rcases List.mem_cons.1 hg' with rfl | h'
  · exact h
  · exact hs g' h'

/-! Powers of square roots. -/
theorem sqrt_pow4 {x : ℝ} (h : 0 ≤ x) : Real.sqrt x ^ 4 = x ^ 2 := by
  rw [show (4 : ℕ) = 2 * 2 from rfl, pow_mul, Real.sq_sqrt h]
theorem sqrt_pow6 {x : ℝ} (h : 0 ≤ x) : Real.sqrt x ^ 6 = x ^ 3 := by
  rw [show (6 : ℕ) = 2 * 3 from rfl, pow_mul, Real.sq_sqrt h]

/-! `_fs11` -/

theorem fs11_eq (n : ℕ) (r s : ℝ) : Cn.fs11 n r s = (List.range n).flatMap fun i =>
    iterProduct (List.ofFn fun j : Fin n => if (j : ℕ) ≠ i then [s, -s] else [r, -r]) := by
  unfold Cn.fs11
  congr 1
  funext i
  congr 1
  apply List.ext_getElem <;> simp

theorem fs11_FS (n : ℕ) (r s : ℝ) : FS n (Cn.fs11 n r s) where
  len := fun x hx => by
    rw [fs11_eq] at hx
    obtain ⟨i, _, hx⟩ := List.mem_flatMap.1 hx
    exact (mem_iterProduct_ofFn _ x hx).1
  perm := fun α σ => by
    have key : ∀ α : Fin n → ℕ, osum n (Cn.fs11 n r s) (mono α) = ∑ i : Fin n, ∏ j : Fin n,
        (((if j ≠ i then [s, -s] else [r, -r]) : List ℝ).map (· ^ α j)).sum := fun α => by
      rw [fs11_eq, osum_flatMap, sum_map_range]
      refine sum_congr rfl fun i _ => ?_
      rw [osum_iterProduct_ofFn]
      refine prod_congr rfl fun j _ => ?_
      simp only [ne_eq, Fin.ext_iff]
    rw [key, key, ← Equiv.sum_comp σ fun i => ∏ j : Fin n,
        (((if j ≠ i then [s, -s] else [r, -r]) : List ℝ).map (· ^ α j)).sum]
    refine sum_congr rfl fun i _ => ?_
    rw [← Equiv.prod_comp σ fun j => (((if j ≠ σ i then [s, -s] else [r, -r]) : List ℝ).map
      (· ^ α j)).sum]
    refine prod_congr rfl fun j _ => ?_
    simp only [ne_eq, EmbeddingLike.apply_eq_iff_eq, Function.comp_apply]
  odd := fun α ⟨k, hk⟩ => by
    rw [fs11_eq, osum_flatMap, sum_map_range]
    refine sum_eq_zero fun i _ => ?_
    rw [osum_iterProduct_ofFn]
    refine prod_eq_zero (mem_univ k) ?_
    split_ifs <;> simp [hk.neg_pow]

theorem fs11_pow (n : ℕ) (r s : ℝ) {k : ℕ} (hk : Even k) :
    ConstPow n (Cn.fs11 n r s) k (r ^ k + (n - 1) * s ^ k) := by
  intro x hx
  rw [fs11_eq] at hx
  obtain ⟨i, hi, hx⟩ := List.mem_flatMap.1 hx
  have hi : i < n := List.mem_range.1 hi
  have h := (mem_iterProduct_ofFn _ x hx).2
  have : ∀ j : Fin n, toVec n x j ^ k = if j = ⟨i, hi⟩ then r ^ k else s ^ k := fun j => by
    have h := h j
    by_cases hj : j = ⟨i, hi⟩
    · subst hj
      simp only [ne_eq, not_true_eq_false, if_false, List.mem_cons, List.not_mem_nil, or_false] at h
      rw [if_pos rfl]
      rcases h with h | h <;> rw [h]
      exact hk.neg_pow r
    · have hj' : (j : ℕ) ≠ i := fun h' => hj (Fin.ext h')
      simp only [ne_eq, hj', not_false_eq_true, if_true, List.mem_cons, List.not_mem_nil,
        or_false] at h
      rw [if_neg hj]
      rcases h with h | h <;> rw [h]
      exact hk.neg_pow s
  rw [sum_congr rfl fun j _ => this j, ← add_sum_erase univ _ (mem_univ (⟨i, hi⟩ : Fin n)), if_pos rfl]
  congr 1
  rw [sum_congr rfl fun j hj => if_neg (ne_of_mem_erase hj), sum_const,
    card_erase_of_mem (mem_univ _), card_univ, Fintype.card_fin, nsmul_eq_mul,
    Nat.cast_sub (by omega)]
  simp

theorem fs11_len (n : ℕ) (r s : ℝ) : ((Cn.fs11 n r s).length : ℝ) = n * 2 ^ n := by
  rw [fs11_eq, List.length_flatMap]
  have : ∀ i ∈ List.range n, (iterProduct (List.ofFn fun j : Fin n =>
      if (j : ℕ) ≠ i then [s, -s] else [r, -r])).length = 2 ^ n := fun i _ => by
    rw [length_iterProduct]
    have : (List.ofFn fun j : Fin n => if (j : ℕ) ≠ i then [s, -s] else [r, -r]).map List.length =
        List.replicate n 2 := by
      rw [replicate_eq_ofFn, List.map_ofFn]
      congr 1
      funext j
      simp only [Function.comp_apply]
      split_ifs <;> rfl
    rw [this, List.prod_replicate]
  rw [List.map_congr_left this]
  simp

/-- The `_fs11` group. -/
noncomputable def gFs11 (n : ℕ) (w r s : ℝ) : Grp :=
  ⟨w, Cn.fs11 n r s, r ^ 2 + (n - 1) * s ^ 2, r ^ 4 + (n - 1) * s ^ 4, r ^ 6 + (n - 1) * s ^ 6⟩

theorem gFs11_ok (n : ℕ) (w r s : ℝ) : (gFs11 n w r s).Ok n :=
  ⟨fs11_FS n r s, fs11_pow n r s even2, fs11_pow n r s even4, fs11_pow n r s even6⟩

theorem gFs11_len (n : ℕ) (w r s : ℝ) : ((gFs11 n w r s).L.length : ℝ) = n * 2 ^ n :=
  fs11_len n r s

end Quadpy
