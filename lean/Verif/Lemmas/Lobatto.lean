import Verif.Lemmas.Rel
import Verif.Props.C04

/-! Exactness from moments, and the spherical product Lobatto rules of Stroud: groups
`(0, …, 0, ±r_k, ±s, …, ±s)`. -/

namespace Quadpy
open Finset

/-- A well-shaped scheme whose moments are the relative moments of `J` is exact. -/
theorem exactRel_of_moments {n : ℕ} {J : Spec.Functional n} {M : (Fin n → ℕ) → ℝ} (S : Scheme)
    (hl : LinOnMono J) (hm : ∀ α, J (mono α) = J (fun _ => 1) * M α) (hs : S.WellShaped n)
    (h : ∀ α, ∑ i, α i ≤ S.degree → dot n S.weights S.points (mono α) = M α) : S.ExactRel n J := by
  refine ⟨hs, exactUpTo_of_mono ((dot_linOnMono _ _).const_mul _) hl fun α hα => ?_⟩
  beta_reduce
  rw [h α hα, hm α]

theorem dot_schemeOf (n d : ℕ) (data : List (ℝ × List (List ℝ))) (f : (Fin n → ℝ) → ℝ) :
    dot n (schemeOf n data d).weights (schemeOf n data d).points f =
      (data.map fun g => g.1 * osum n g.2 f).sum :=
  C04_untangle_dot n data f

theorem schemeOf_wellShaped (n d : ℕ) (data : List (ℝ × List (List ℝ)))
    (h : ∀ g ∈ data, ∀ x ∈ g.2, x.length = n) : (schemeOf n data d).WellShaped n := by
  refine ⟨rfl, ?_, ?_⟩
  · simp only [schemeOf, untangle, List.length_flatten, List.map_map]
    congr 1
    apply List.map_congr_left
    intro g _
    simp
  · intro x hx
    simp only [schemeOf, untangle, List.mem_flatten, List.mem_map] at hx
    obtain ⟨l, ⟨g, hg, rfl⟩, hx⟩ := hx
    exact h g hg x hx

/-- The point `(0, …, 0, r, s, …, s)` with `r` in place `k`. -/
def secVec (n k : ℕ) (r s : ℝ) : Fin n → ℝ :=
  fun i => if (i : ℕ) < k then 0 else if (i : ℕ) = k then r else s

/-- The sign group of `secVec`. -/
structure Sector (n k : ℕ) (r s : ℝ) (L : List (List ℝ)) : Prop where
  shape : ∀ x ∈ L, x.length = n
  sum : ∀ α : Fin n → ℕ, osum n L (mono α) = ∏ i : Fin n,
    if (i : ℕ) < k then 0 ^ α i else secVec n k r s i ^ α i + (-secVec n k r s i) ^ α i

theorem Sector.odd {n k : ℕ} {r s : ℝ} {L : List (List ℝ)} (h : Sector n k r s L) (α : Fin n → ℕ)
    (i : Fin n) (hi : Odd (α i)) : osum n L (mono α) = 0 := by
  rw [h.sum]
  apply prod_eq_zero (mem_univ i)
  split_ifs
  · exact zero_pow hi.pos.ne'
  · rw [hi.neg_pow]; ring

theorem Sector.even {n k : ℕ} (hk : k ≤ n) {r s : ℝ} {L : List (List ℝ)} (h : Sector n k r s L)
    (α : Fin n → ℕ) (ha : ∀ i, Even (α i)) :
    osum n L (mono α) = 2 ^ (n - k) * mono α (secVec n k r s) := by
  rw [h.sum]
  have e : ∀ i : Fin n, (if (i : ℕ) < k then (0 : ℝ) ^ α i
      else secVec n k r s i ^ α i + (-secVec n k r s i) ^ α i) =
      (if (i : ℕ) < k then 1 else 2) * secVec n k r s i ^ α i := by
    intro i
    rw [(ha i).neg_pow]
    split_ifs with h
    · simp [secVec, h]
    · ring
  simp only [e]
  rw [prod_mul_distrib, mono]
  congr 1
  rw [Fin.prod_univ_eq_prod_range (fun i => if i < k then (1 : ℝ) else 2) n]
  obtain ⟨m, rfl⟩ : ∃ m, n = k + m := ⟨n - k, by omega⟩
  rw [prod_range_add]
  rw [prod_congr rfl (g := fun _ => (1 : ℝ)) (fun i hi => if_pos (mem_range.1 hi)),
    prod_congr rfl (g := fun _ => (2 : ℝ)) (fun i hi => if_neg (by omega))]
  simp

theorem Sector.length {n k : ℕ} (hk : k ≤ n) {r s : ℝ} {L : List (List ℝ)} (h : Sector n k r s L) :
    (L.length : ℝ) = 2 ^ (n - k) := by
  have := h.even hk 0 (by simp)
  simpa [osum, mono_zero] using this

theorem secVec_sum {n : ℕ} (a : ℕ) (ha : a < n) (N : ℕ → ℝ) (r : ℕ → ℝ) (s : ℝ) (c : ℕ) (hc : c ≠ 0) :
    ∑ k ∈ range n, N k * secVec n k (r k) s ⟨a, ha⟩ ^ c =
      s ^ c * ∑ k ∈ range a, N k + N a * r a ^ c := by
  rw [← sum_subset (s₁ := range (a + 1)) (by intro x hx; simp at *; omega)]
  · rw [sum_range_succ, mul_sum]
    congr 1
    · refine sum_congr rfl fun k hk => ?_
      have := mem_range.1 hk
      simp only [secVec]
      rw [if_neg (by omega), if_neg (by omega)]; ring
    · simp [secVec]
  · intro k _ hk
    have : a < k := by simp at hk; omega
    simp [secVec, this, hc]

theorem secVec_sum2 {n : ℕ} (a b : ℕ) (ha : a < n) (hb : b < n) (hab : a < b) (N : ℕ → ℝ) (r : ℕ → ℝ)
    (s : ℝ) :
    ∑ k ∈ range n, N k * (secVec n k (r k) s ⟨a, ha⟩ ^ 2 * secVec n k (r k) s ⟨b, hb⟩ ^ 2) =
      s ^ 4 * ∑ k ∈ range a, N k + N a * r a ^ 2 * s ^ 2 := by
  rw [← sum_subset (s₁ := range (a + 1)) (by intro x hx; simp at *; omega)]
  · rw [sum_range_succ, mul_sum]
    congr 1
    · refine sum_congr rfl fun k hk => ?_
      have := mem_range.1 hk
      simp only [secVec]
      rw [if_neg (by omega), if_neg (by omega), if_neg (by omega), if_neg (by omega)]; ring
    · have h1 : ¬ b < a := by omega
      have h2 : b ≠ a := by omega
      simp [secVec, h1, h2]; ring
  · intro k _ hk
    have : a < k := by simp at hk; omega
    simp [secVec, this]

/-- The degree conditions of a Lobatto type rule. `T a` is the sum of the first `a` sector weights. -/
theorem lobatto_exact {n : ℕ} {J : Spec.Functional n} {m2 m4 m22 m6 m42 m222 : ℝ}
    (hJ : RelMom J m2 m4 m22 m6 m42 m222) (data : List (ℝ × List (List ℝ)))
    (w0 s : ℝ) (w r N T : ℕ → ℝ) (L : ℕ → List (List ℝ))
    (hL : ∀ k < n, Sector n k (r k) s (L k))
    (hshape : ∀ g ∈ data, ∀ x ∈ g.2, x.length = n)
    (hdata : ∀ f, (data.map fun g => g.1 * osum n g.2 f).sum =
      w0 * f 0 + ∑ k ∈ range n, w k * osum n (L k) f)
    (hN : ∀ k < n, w k * 2 ^ (n - k) = N k)
    (hT0 : T 0 = 0) (hT : ∀ k < n, T (k + 1) = T k + N k)
    (h0 : w0 + T n = 1)
    (h2 : ∀ a < n, s ^ 2 * T a + N a * r a ^ 2 = m2)
    (h4 : ∀ a < n, s ^ 4 * T a + N a * r a ^ 4 = m4)
    (h22 : ∀ a < n, s ^ 4 * T a + N a * r a ^ 2 * s ^ 2 = m22) :
    (schemeOf n data 5).ExactRel n J := by
  obtain ⟨M, hl, hm, hs⟩ := hJ
  have hsum : ∀ a ≤ n, ∑ k ∈ range a, w k * 2 ^ (n - k) = T a := by
    intro a
    induction a with
    | zero => intro _; simp [hT0]
    | succ a ih => intro h; rw [sum_range_succ, ih (by omega), hT a (by omega), hN a (by omega)]
  have hev : ∀ α : Fin n → ℕ, (∀ i, Even (α i)) → ∑ k ∈ range n, w k * osum n (L k) (mono α) =
      ∑ k ∈ range n, w k * 2 ^ (n - k) * mono α (secVec n k (r k) s) := fun α hα =>
    sum_congr rfl fun k hk => by
      rw [(hL k (mem_range.1 hk)).even (mem_range.1 hk).le α hα]; ring
  have hdot : ∀ α, dot n (schemeOf n data 5).weights (schemeOf n data 5).points (mono α) =
      w0 * mono α 0 + ∑ k ∈ range n, w k * osum n (L k) (mono α) := fun α => by
    rw [dot_schemeOf, hdata]
  have ev1 : ∀ (a : Fin n) (c : ℕ), Even c → ∀ i, Even (e1 a c i) := fun a c hc i => by
    by_cases h : i = a
    · subst h; simpa [e1] using hc
    · simp [e1, h]
  have ev2 : ∀ (a b : Fin n), a ≠ b → ∀ i, Even (e2 a b 2 2 i) := fun a b hab i => by
    simp only [e2, Pi.add_apply]
    exact (ev1 a 2 (by decide) i).add (ev1 b 2 (by decide) i)
  have p1 : ∀ (a : Fin n) (c : ℕ), c ≠ 0 → Even c →
      dot n (schemeOf n data 5).weights (schemeOf n data 5).points (mono (e1 a c)) =
        s ^ c * T a + w a * 2 ^ (n - (a : ℕ)) * r a ^ c := fun a c hc hce => by
    rw [hdot, hev _ (ev1 a c hce), mono_e1]
    simp only [mono_e1]
    rw [secVec_sum (a : ℕ) a.isLt (fun k => w k * 2 ^ (n - k)) r s c hc, hsum _ a.isLt.le]
    simp [hc]
  have p2 : ∀ (a b : Fin n), a < b →
      dot n (schemeOf n data 5).weights (schemeOf n data 5).points (mono (e2 a b 2 2)) =
        s ^ 4 * T a + w a * 2 ^ (n - (a : ℕ)) * r a ^ 2 * s ^ 2 := fun a b hab => by
    rw [hdot, hev _ (ev2 a b hab.ne), mono_e2 hab.ne]
    simp only [mono_e2 hab.ne]
    rw [secVec_sum2 (a : ℕ) b a.isLt b.isLt hab (fun k => w k * 2 ^ (n - k)) r s, hsum _ a.isLt.le]
    simp
  refine exactRel_of_moments _ hl hm (schemeOf_wellShaped n 5 data hshape) ?_
  apply classify_even (d := 5) (by norm_num)
  · rintro α ⟨i, hi⟩
    rw [hs.odd α ⟨i, hi⟩, hdot, sum_eq_zero fun k hk => by
      rw [(hL k (mem_range.1 hk)).odd α i hi, mul_zero]]
    have : mono α (0 : Fin n → ℝ) = 0 := by
      unfold mono
      exact prod_eq_zero (mem_univ i) (by simpa using hi.pos.ne')
    rw [this]; simp
  · rw [hdot, hev 0 (by simp), hs.zero]
    simp only [mono_zero, mul_one]
    rw [hsum n le_rfl, h0]
  · intro _ a
    rw [p1 a 2 (by norm_num) (by decide), hs.two, hN a a.isLt, h2 a a.isLt]
  · intro _ a
    rw [p1 a 4 (by norm_num) (by decide), hs.four, hN a a.isLt, h4 a a.isLt]
  · intro _ a b hab
    rw [hs.twotwo a b hab]
    rcases lt_or_gt_of_ne hab with h | h
    · rw [p2 a b h, hN a a.isLt, h22 a a.isLt]
    · have : e2 a b 2 2 = e2 b a 2 2 := by simp only [e2]; rw [add_comm]
      rw [this, p2 b a h, hN b b.isLt, h22 b b.isLt]
  all_goals omega

theorem two_zpow_sector {n k : ℕ} (hk : k < n) :
    (2 : ℝ) ^ (((k + 1 : ℕ) : ℤ) - n) * 2 ^ (n - k) = 2 := by
  rw [← zpow_natCast (2 : ℝ) (n - k), ← zpow_add₀ two_ne_zero]
  have : ((k + 1 : ℕ) : ℤ) - n + (n - k : ℕ) = 1 := by omega
  rw [this, zpow_one]

theorem list_range_sum (n : ℕ) (f : ℕ → ℝ) : ((List.range n).map f).sum = ∑ k ∈ range n, f k := by
  rw [← List.sum_toFinset _ List.nodup_range, List.toFinset_range]

theorem osum_zero_row {n : ℕ} (f : (Fin n → ℝ) → ℝ) : osum n [List.replicate n 0] f = f 0 := by
  have : toVec n (List.replicate n 0) = 0 := by
    funext i; have := i.isLt; simp [toVec]
  simp [osum, this]

/-! The three ways the sources write a sector. -/

theorem pm_zeros (k : ℕ) (v : List ℝ) :
    pm (List.replicate k 0 ++ v) = (pm v).map (List.replicate k 0 ++ ·) := by
  induction k with
  | zero => simp
  | succ k ih =>
    rw [List.replicate_succ, List.cons_append]
    unfold pm at ih ⊢
    simp only [List.map_cons, if_pos, iterProduct, List.flatMap_cons, List.flatMap_nil,
      List.append_nil]
    rw [ih]
    simp

theorem sector_pm {n k : ℕ} (hk : k < n) {r s : ℝ} (hr : r ≠ 0) (hs : s ≠ 0) :
    Sector n k r s (pm (List.replicate k 0 ++ [r] ++ List.replicate (n - k - 1) s)) := by
  have e : (List.replicate k 0 ++ [r] ++ List.replicate (n - k - 1) s).map
      (fun value => if value = 0 then [0] else [value, -value]) =
      List.ofFn fun i : Fin n => if (i : ℕ) < k then [0] else [secVec n k r s i, -secVec n k r s i] := by
    apply List.ext_getElem
    · simp; omega
    · intro i h1 h2
      have hi : i < n := by simpa using h2
      simp only [List.getElem_map, List.getElem_ofFn]
      by_cases h : i < k
      · simp [h, List.getElem_append]
      · by_cases h' : i = k
        · subst h'; simp [secVec, hr]
        · have : k < i := by omega
          rw [List.getElem_append_right (by simp; omega)]
          simp [secVec, h, h', hs]
  constructor
  · intro x hx
    unfold pm at hx
    rw [e] at hx
    simpa using length_of_mem_iterProduct _ _ hx
  · intro α
    unfold pm
    rw [e, osum_iterProduct_ofFn]
    refine prod_congr rfl fun i _ => ?_
    split_ifs <;> simp

theorem pm_cons {r : ℝ} (hr : r ≠ 0) (v : List ℝ) :
    pm (r :: v) = (pm v).map (r :: ·) ++ (pm v).map (-r :: ·) := by
  unfold pm
  simp [hr, iterProduct]

theorem pm_replicate_scale {s : ℝ} (hs : s ≠ 0) (m : ℕ) :
    pm (List.replicate m s) = (pm (List.replicate m 1)).map fun row => row.map (· * s) := by
  induction m with
  | zero => simp [pm, iterProduct]
  | succ m ih =>
    rw [List.replicate_succ, List.replicate_succ, pm_cons hs, pm_cons one_ne_zero, ih]
    simp only [List.map_append, List.map_map]
    congr 1 <;> (apply List.map_congr_left; intro x _; simp)

theorem sector_scaled {n k : ℕ} (hk : k < n) {r s : ℝ} (hr : r ≠ 0) (hs : s ≠ 0) :
    Sector n k r s ((pm (List.replicate (n - k) 1)).map fun row =>
      List.replicate k 0 ++ (row.take 1).map (· * r) ++ (row.drop 1).map (· * s)) := by
  have h := sector_pm hk hr hs
  rw [List.append_assoc, pm_zeros] at h
  obtain ⟨m, hm⟩ : ∃ m, n - k = m + 1 := ⟨n - k - 1, by omega⟩
  rw [hm] at h ⊢
  have e : (pm (List.replicate (m + 1) 1)).map (fun row =>
      List.replicate k 0 ++ (row.take 1).map (· * r) ++ (row.drop 1).map (· * s)) =
      (pm ([r] ++ List.replicate (m + 1 - 1) s)).map (List.replicate k 0 ++ ·) := by
    rw [List.replicate_succ, pm_cons one_ne_zero, List.singleton_append, pm_cons hr,
      Nat.add_sub_cancel, pm_replicate_scale hs]
    simp only [List.map_append, List.map_map]
    congr 1 <;> (apply List.map_congr_left; intro x _; simp)
  rw [e]; exact h

end Quadpy
