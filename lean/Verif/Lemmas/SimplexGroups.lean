import Verif.Lemmas.SimplexExact
import Verif.Model.Cn

/-!
# Groups of barycentric points and schemes made of them
-/

namespace Quadpy
open Finset

theorem rd_PS {n : ℕ} {items : List (ℝ × ℕ)} {L : List (List ℝ)}
    (h : rd n items = some L) : PS n L := by
  obtain ⟨_, hs, rfl⟩ := rd_eq_some h
  have hn : (((items.map fun it : ℝ × ℕ => (([it.1] : List ℝ), it.2)) ++
      [([0], n - (items.map Prod.snd).sum)]).map Prod.snd).sum = n := by
    simp only [List.map_append, List.map_map, Function.comp_def, List.sum_append,
      List.map_cons, List.map_nil, List.sum_singleton]
    have : (List.map (fun x : ℝ × ℕ => x.2) items).sum = (items.map Prod.snd).sum := rfl
    omega
  exact ⟨fun x hx => (length_of_mem_combine _ x hx).trans hn, combine_perm n _ hn⟩

theorem sum_toVec_pow {n : ℕ} (x : List ℝ) (hlen : x.length = n) (k : ℕ) :
    ∑ i, toVec n x i ^ k = (x.map fun v => v ^ k).sum := by
  rw [← List.sum_ofFn]
  congr 1
  apply List.ext_getElem
  · simp [hlen]
  · intro i h3 h4
    have hi : i < x.length := by simpa using h4
    simp [toVec, hi]

/-- Power sums are constant on `rd`. -/
theorem rd_powersum {n : ℕ} {items : List (ℝ × ℕ)} {L : List (List ℝ)}
    (h : rd n items = some L) (k : ℕ) (hk0 : 1 ≤ k) :
    ConstPow n L k (items.map fun it => (it.2 : ℝ) * it.1 ^ k).sum := by
  intro x hx
  have hlen := (rd_PS h).len x hx
  obtain ⟨_, hs, rfl⟩ := rd_eq_some h
  have h1 := sum_map_of_mem_combine _ (fun v => v ^ k) (fun e => (e.1.headD 0) ^ k) (by
    intro e he v hv
    simp only [List.mem_append, List.mem_map, List.mem_singleton] at he
    rcases he with ⟨it, _, rfl⟩ | rfl
    · simp only [List.headD_cons]
      rw [List.mem_singleton.1 hv]
    · simp only [List.mem_singleton] at hv; simp [hv]) x hx
  rw [sum_toVec_pow x hlen, h1]
  have : k ≠ 0 := by omega
  simp [Function.comp_def, this]

/-- Number of rows of `rd` as a real number. -/
theorem rd_count {n : ℕ} {items : List (ℝ × ℕ)} {L : List (List ℝ)}
    (h : rd n items = some L) :
    ((items.map fun it => Nat.factorial it.2).prod * Nat.factorial (n - (items.map Prod.snd).sum) : ℕ) *
      (L.length : ℝ) = Nat.factorial n := by
  exact_mod_cast C01_rd_length h

/-- An `rd` group. -/
def bRd (w : ℝ) (items : List (ℝ × ℕ)) (L : List (List ℝ)) : BGrp :=
  ⟨w, L, fun k => (items.map fun it => (it.2 : ℝ) * it.1 ^ k).sum⟩

theorem bRd_ok {n : ℕ} (w : ℝ) {items : List (ℝ × ℕ)} {L : List (List ℝ)}
    (h : rd (n + 1) items = some L) (h1 : (items.map fun it => (it.2 : ℝ) * it.1).sum = 1) :
    (bRd w items L).Ok n :=
  ⟨rd_PS h, fun k hk => rd_powersum h k hk, by simpa [bRd] using h1⟩

/-- The centroid. -/
noncomputable def bC (n : ℕ) (w r : ℝ) : BGrp := ⟨w, [List.replicate (n + 1) r], fun k => (n + 1) * r ^ k⟩

theorem bC_ok {n : ℕ} (w : ℝ) {r : ℝ} (h : ((n : ℝ) + 1) * r = 1) : (bC n w r).Ok n := by
  have ht : ∀ i, toVec (n + 1) (List.replicate (n + 1) r) i = r := fun i => by
    have := i.isLt
    simp [toVec, this, -List.replicate_succ]
  refine ⟨⟨by simp [bC], fun α σ => ?_⟩, fun k _ x hx => ?_, by simpa [bC] using h⟩
  · simp only [bC, osum, List.map_cons, List.map_nil, List.sum_singleton, mono, ht]
    exact Equiv.prod_comp σ fun i => r ^ α i
  · simp only [bC, List.mem_singleton] at hx
    subst hx
    simp [ht, bC]

theorem bok_nil (n : ℕ) : ∀ g ∈ ([] : List BGrp), g.Ok n := by simp
theorem bok_cons {n : ℕ} {g : BGrp} {gs : List BGrp} (h : g.Ok n) (hs : ∀ g ∈ gs, g.Ok n) :
    ∀ g' ∈ g :: gs, g'.Ok n := by
  intro g' hg'
  rcases List.mem_cons.1 hg' with rfl | h'
  · exact h
  · exact hs g' h'

theorem linOnMono_bary {n : ℕ} (w : List ℝ) (pts : List (List ℝ)) :
    LinOnMono (n := n) fun f => dot (n + 1) w pts fun xi => f fun i => xi i.succ := by
  intro s c
  beta_reduce
  unfold dot
  induction w generalizing pts with
  | nil => simp
  | cons a w ih =>
    cases pts with
    | nil => simp
    | cons p pts =>
      simp only [List.zipWith_cons_cons, List.sum_cons]
      rw [ih pts, mul_sum, ← sum_add_distrib]
      exact sum_congr rfl fun b _ => by ring

theorem mono_cons_zero {n : ℕ} (α : Fin n → ℕ) :
    (fun xi : Fin (n + 1) → ℝ => mono α fun i => xi i.succ) =
      mono (Fin.cons 0 α : Fin (n + 1) → ℕ) := by
  funext xi
  simp [mono, Fin.prod_univ_succ]

/-- Exactness from the monomials in barycentric coordinates. -/
theorem exactOnSimplex_of_moments {n : ℕ} (S : Scheme) (hdim : S.dim = n)
    (hlen : S.weights.length = S.points.length)
    (hpts : ∀ x ∈ S.points, x.length = n + 1 ∧ x.sum = 1)
    (h : ∀ β : Fin (n + 1) → ℕ, ∑ i, β i ≤ S.degree →
      dot (n + 1) S.weights S.points (mono β) = baryMom β) : S.ExactOnSimplex n := by
  refine ⟨⟨hdim, hlen, hpts⟩, ?_⟩
  apply exactUpTo_of_mono ((linOnMono_bary _ _).const_mul _) (simplex_linOnMono n)
  intro α hα
  beta_reduce
  rw [simplex_baryMom, mono_cons_zero, h]
  rw [Fin.sum_univ_succ]
  simpa using hα

theorem buntangle_shape (n : ℕ) (gs : List BGrp) (data : List (ℝ × List (List ℝ)))
    (h : data = gs.map fun g => (g.w, g.L)) (hok : ∀ g ∈ gs, g.Ok n) :
    ∀ x ∈ (untangle data).1, x.length = n + 1 ∧ x.sum = 1 := by
  intro x hx
  subst h
  simp only [untangle, List.map_map, List.mem_flatten, List.mem_map] at hx
  obtain ⟨l, ⟨g, hg, rfl⟩, hx⟩ := hx
  have hl := (hok g hg).ps.len x hx
  refine ⟨hl, ?_⟩
  have h1 := (hok g hg).hp 1 le_rfl x hx
  rw [sum_toVec_pow x hl, (hok g hg).h1] at h1
  simpa using h1

/-- Exactness of a scheme built by `untangle` from groups of barycentric points. -/
theorem simplex_schemeOf {n d : ℕ} (hd : d ≤ 7) {data : List (ℝ × List (List ℝ))}
    (gs : List BGrp) (hdata : data = gs.map fun g => (g.w, g.L)) (hok : ∀ g ∈ gs, g.Ok n)
    (hc : BConds n d gs) : (schemeOf n data d).ExactOnSimplex n := by
  refine exactOnSimplex_of_moments _ rfl (C04_untangle_length data)
    (buntangle_shape n gs data hdata hok) fun β hβ => ?_
  rw [← bary_moments hd gs hok hc β hβ]
  change dot (n + 1) (untangle data).2 (untangle data).1 _ = _
  rw [C04_untangle_dot, hdata]
  simp [Function.comp_def, osum]

/-! Numbers of points. -/

theorem rd1_len {n : ℕ} {a : ℝ} {L : List (List ℝ)} (h : rd (n + 1) [(a, 1)] = some L) :
    (L.length : ℝ) = n + 1 := by
  have h1 := rd_count h
  have hf : (n.factorial : ℝ) ≠ 0 := by positivity
  simp only [List.map_cons, List.map_nil, List.prod_cons, List.prod_nil, List.sum_cons,
    List.sum_nil, add_zero, Nat.add_sub_cancel] at h1
  push_cast [Nat.factorial_succ] at h1
  apply mul_left_cancel₀ hf
  push_cast
  linear_combination h1

theorem rd2_len {n : ℕ} {a : ℝ} {L : List (List ℝ)} (h : rd (n + 1) [(a, 2)] = some L) :
    (L.length : ℝ) = (n + 1) * n / 2 := by
  have h1 := rd_count h
  have hn : 2 ≤ n + 1 := by simpa using (rd_eq_some h).2.1
  obtain ⟨m, rfl⟩ : ∃ m, n = m + 1 := ⟨n - 1, by omega⟩
  have hf : (m.factorial : ℝ) ≠ 0 := by positivity
  simp only [List.map_cons, List.map_nil, List.prod_cons, List.prod_nil, List.sum_cons,
    List.sum_nil, add_zero, show m + 1 + 1 - 2 = m by omega] at h1
  push_cast [Nat.factorial_succ] at h1
  apply mul_left_cancel₀ hf
  push_cast
  linear_combination h1 / 2

theorem rd3_len {n : ℕ} {a : ℝ} {L : List (List ℝ)} (h : rd (n + 1) [(a, 3)] = some L) :
    (L.length : ℝ) = (n + 1) * n * (n - 1) / 6 := by
  have h1 := rd_count h
  have hn : 3 ≤ n + 1 := by simpa using (rd_eq_some h).2.1
  obtain ⟨m, rfl⟩ : ∃ m, n = m + 2 := ⟨n - 2, by omega⟩
  have hf : (m.factorial : ℝ) ≠ 0 := by positivity
  simp only [List.map_cons, List.map_nil, List.prod_cons, List.prod_nil, List.sum_cons,
    List.sum_nil, add_zero, show m + 2 + 1 - 3 = m by omega] at h1
  push_cast [Nat.factorial_succ] at h1
  apply mul_left_cancel₀ hf
  push_cast
  linear_combination h1 / 6

theorem rd4_len {n : ℕ} {a : ℝ} {L : List (List ℝ)} (h : rd (n + 1) [(a, 4)] = some L) :
    (L.length : ℝ) = (n + 1) * n * (n - 1) * (n - 2) / 24 := by
  have h1 := rd_count h
  have hn : 4 ≤ n + 1 := by simpa using (rd_eq_some h).2.1
  obtain ⟨m, rfl⟩ : ∃ m, n = m + 3 := ⟨n - 3, by omega⟩
  have hf : (m.factorial : ℝ) ≠ 0 := by positivity
  simp only [List.map_cons, List.map_nil, List.prod_cons, List.prod_nil, List.sum_cons,
    List.sum_nil, add_zero, show m + 3 + 1 - 4 = m by omega] at h1
  push_cast [Nat.factorial_succ] at h1
  apply mul_left_cancel₀ hf
  push_cast
  linear_combination h1 / 24

theorem rd5_len {n : ℕ} {a : ℝ} {L : List (List ℝ)} (h : rd (n + 1) [(a, 5)] = some L) :
    (L.length : ℝ) = (n + 1) * n * (n - 1) * (n - 2) * (n - 3) / 120 := by
  have h1 := rd_count h
  have hn : 5 ≤ n + 1 := by simpa using (rd_eq_some h).2.1
  obtain ⟨m, rfl⟩ : ∃ m, n = m + 4 := ⟨n - 4, by omega⟩
  have hf : (m.factorial : ℝ) ≠ 0 := by positivity
  simp only [List.map_cons, List.map_nil, List.prod_cons, List.prod_nil, List.sum_cons,
    List.sum_nil, add_zero, show m + 4 + 1 - 5 = m by omega] at h1
  push_cast [Nat.factorial_succ] at h1
  apply mul_left_cancel₀ hf
  push_cast
  linear_combination h1 / 120

theorem rd11_len {n : ℕ} {a b : ℝ} {L : List (List ℝ)} (h : rd (n + 1) [(a, 1), (b, 1)] = some L) :
    (L.length : ℝ) = (n + 1) * n := by
  have h1 := rd_count h
  have hn : 2 ≤ n + 1 := by simpa using (rd_eq_some h).2.1
  obtain ⟨m, rfl⟩ : ∃ m, n = m + 1 := ⟨n - 1, by omega⟩
  have hf : (m.factorial : ℝ) ≠ 0 := by positivity
  simp only [List.map_cons, List.map_nil, List.prod_cons, List.prod_nil, List.sum_cons,
    List.sum_nil, show m + 1 + 1 - (1 + (1 + 0)) = m by omega] at h1
  push_cast [Nat.factorial_succ] at h1
  apply mul_left_cancel₀ hf
  push_cast
  linear_combination h1

theorem rd21_len {n : ℕ} {a b : ℝ} {L : List (List ℝ)} (h : rd (n + 1) [(a, 2), (b, 1)] = some L) :
    (L.length : ℝ) = (n + 1) * n * (n - 1) / 2 := by
  have h1 := rd_count h
  have hn : 3 ≤ n + 1 := by simpa using (rd_eq_some h).2.1
  obtain ⟨m, rfl⟩ : ∃ m, n = m + 2 := ⟨n - 2, by omega⟩
  have hf : (m.factorial : ℝ) ≠ 0 := by positivity
  simp only [List.map_cons, List.map_nil, List.prod_cons, List.prod_nil, List.sum_cons,
    List.sum_nil, show m + 2 + 1 - (2 + (1 + 0)) = m by omega] at h1
  push_cast [Nat.factorial_succ] at h1
  apply mul_left_cancel₀ hf
  push_cast
  linear_combination h1 / 2

theorem rd12_len {n : ℕ} {a b : ℝ} {L : List (List ℝ)} (h : rd (n + 1) [(a, 1), (b, 2)] = some L) :
    (L.length : ℝ) = (n + 1) * n * (n - 1) / 2 := by
  have h1 := rd_count h
  have hn : 3 ≤ n + 1 := by simpa using (rd_eq_some h).2.1
  obtain ⟨m, rfl⟩ : ∃ m, n = m + 2 := ⟨n - 2, by omega⟩
  have hf : (m.factorial : ℝ) ≠ 0 := by positivity
  simp only [List.map_cons, List.map_nil, List.prod_cons, List.prod_nil, List.sum_cons,
    List.sum_nil, show m + 2 + 1 - (1 + (2 + 0)) = m by omega] at h1
  push_cast [Nat.factorial_succ] at h1
  apply mul_left_cancel₀ hf
  push_cast
  linear_combination h1 / 2

theorem rd31_len {n : ℕ} {a b : ℝ} {L : List (List ℝ)} (h : rd (n + 1) [(a, 3), (b, 1)] = some L) :
    (L.length : ℝ) = (n + 1) * n * (n - 1) * (n - 2) / 6 := by
  have h1 := rd_count h
  have hn : 4 ≤ n + 1 := by simpa using (rd_eq_some h).2.1
  obtain ⟨m, rfl⟩ : ∃ m, n = m + 3 := ⟨n - 3, by omega⟩
  have hf : (m.factorial : ℝ) ≠ 0 := by positivity
  simp only [List.map_cons, List.map_nil, List.prod_cons, List.prod_nil, List.sum_cons,
    List.sum_nil, show m + 3 + 1 - (3 + (1 + 0)) = m by omega] at h1
  push_cast [Nat.factorial_succ] at h1
  apply mul_left_cancel₀ hf
  push_cast
  linear_combination h1 / 6

/-- `[(a, n)]` in `n + 1` coordinates. -/
theorem rdn_len {n : ℕ} {a : ℝ} {L : List (List ℝ)} (h : rd (n + 1) [(a, n)] = some L) :
    (L.length : ℝ) = n + 1 := by
  have h1 := rd_count h
  have hf : (n.factorial : ℝ) ≠ 0 := by positivity
  simp only [List.map_cons, List.map_nil, List.prod_cons, List.prod_nil, List.sum_cons,
    List.sum_nil, add_zero, show n + 1 - n = 1 by omega] at h1
  push_cast [Nat.factorial_succ] at h1
  apply mul_left_cancel₀ hf
  push_cast
  simp at h1
  linear_combination h1

theorem rdn1_len {n : ℕ} {a b : ℝ} {L : List (List ℝ)} (h : rd (n + 1) [(a, n), (b, 1)] = some L) :
    (L.length : ℝ) = n + 1 := by
  have h1 := rd_count h
  have hf : (n.factorial : ℝ) ≠ 0 := by positivity
  simp only [List.map_cons, List.map_nil, List.prod_cons, List.prod_nil, List.sum_cons,
    List.sum_nil, add_zero, show n + 1 - (n + 1) = 0 by omega] at h1
  push_cast [Nat.factorial_succ] at h1
  apply mul_left_cancel₀ hf
  push_cast
  simp at h1
  linear_combination h1

theorem rd1n_len {n : ℕ} {a b : ℝ} {L : List (List ℝ)} (h : rd (n + 1) [(b, 1), (a, n)] = some L) :
    (L.length : ℝ) = n + 1 := by
  have h1 := rd_count h
  have hf : (n.factorial : ℝ) ≠ 0 := by positivity
  simp only [List.map_cons, List.map_nil, List.prod_cons, List.prod_nil, List.sum_cons,
    List.sum_nil, add_zero, show n + 1 - (1 + n) = 0 by omega] at h1
  push_cast [Nat.factorial_succ] at h1
  apply mul_left_cancel₀ hf
  push_cast
  simp at h1
  linear_combination h1

/-- `[(a, n - 2)]` in `n + 1` coordinates. -/
theorem rdn_2_len {n : ℕ} {a : ℝ} {L : List (List ℝ)} (h : rd (n + 1) [(a, n - 2)] = some L) :
    (L.length : ℝ) = (n + 1) * n * (n - 1) / 6 := by
  have h1 := rd_count h
  have hn : 0 < n - 2 := by simpa using (rd_eq_some h).1
  obtain ⟨m, rfl⟩ : ∃ m, n = m + 2 := ⟨n - 2, by omega⟩
  have hf : (m.factorial : ℝ) ≠ 0 := by positivity
  simp only [List.map_cons, List.map_nil, List.prod_cons, List.prod_nil, List.sum_cons,
    List.sum_nil, add_zero, show m + 2 - 2 = m by omega, show m + 2 + 1 - m = 3 by omega] at h1
  push_cast [Nat.factorial_succ] at h1
  apply mul_left_cancel₀ hf
  push_cast
  simp at h1
  linear_combination h1 / 6

/-- `[(a, n - 1), (b, 2)]` in `n + 1` coordinates. -/
theorem rdn12_len {n : ℕ} {a b : ℝ} {L : List (List ℝ)} (h : rd (n + 1) [(a, n - 1), (b, 2)] = some L) :
    (L.length : ℝ) = (n + 1) * n / 2 := by
  have h1 := rd_count h
  have hn : 0 < n - 1 := by simpa using (rd_eq_some h).1
  obtain ⟨m, rfl⟩ : ∃ m, n = m + 1 := ⟨n - 1, by omega⟩
  have hf : (m.factorial : ℝ) ≠ 0 := by positivity
  simp only [List.map_cons, List.map_nil, List.prod_cons, List.prod_nil, List.sum_cons,
    List.sum_nil, add_zero, show m + 1 - 1 = m by omega, show m + 1 + 1 - (m + 2) = 0 by omega] at h1
  push_cast [Nat.factorial_succ] at h1
  apply mul_left_cancel₀ hf
  push_cast
  simp at h1
  linear_combination h1 / 2

/-- `[(a, n - 1), (b, 1), (c, 1)]` in `n + 1` coordinates. -/
theorem rdn111_len {n : ℕ} {a b c : ℝ} {L : List (List ℝ)}
    (h : rd (n + 1) [(a, n - 1), (b, 1), (c, 1)] = some L) : (L.length : ℝ) = (n + 1) * n := by
  have h1 := rd_count h
  have hn : 0 < n - 1 := by simpa using (rd_eq_some h).1
  obtain ⟨m, rfl⟩ : ∃ m, n = m + 1 := ⟨n - 1, by omega⟩
  have hf : (m.factorial : ℝ) ≠ 0 := by positivity
  simp only [List.map_cons, List.map_nil, List.prod_cons, List.prod_nil, List.sum_cons,
    List.sum_nil, add_zero, show m + 1 - 1 = m by omega,
    show m + 1 + 1 - (m + (1 + 1)) = 0 by omega] at h1
  push_cast [Nat.factorial_succ] at h1
  apply mul_left_cancel₀ hf
  push_cast
  simp at h1
  linear_combination h1

end Quadpy

namespace Quadpy

theorem BConds.mk1 {n : ℕ} {gs : List BGrp} (c0 : bsum gs (fun _ => 1) = 1) : BConds n 1 gs := by
  refine ⟨c0, ?_, ?_, ?_, ?_, ?_, ?_, ?_, ?_, ?_, ?_, ?_, ?_, ?_, ?_⟩ <;> omega

theorem BConds.mk2 {n : ℕ} {gs : List BGrp} (c0 : bsum gs (fun _ => 1) = 1)
    (c2 : bsum gs (fun g => g.p 2) = 2 / (n + 2)) : BConds n 2 gs := by
  refine ⟨c0, fun _ => c2, ?_, ?_, ?_, ?_, ?_, ?_, ?_, ?_, ?_, ?_, ?_, ?_, ?_⟩ <;> omega

theorem BConds.mk3 {n : ℕ} {gs : List BGrp} (c0 : bsum gs (fun _ => 1) = 1)
    (c2 : bsum gs (fun g => g.p 2) = 2 / (n + 2))
    (c3 : bsum gs (fun g => g.p 3) = 6 / ((n + 2) * (n + 3))) : BConds n 3 gs := by
  refine ⟨c0, fun _ => c2, fun _ => c3, ?_, ?_, ?_, ?_, ?_, ?_, ?_, ?_, ?_, ?_, ?_, ?_⟩ <;> omega

theorem BConds.mk4 {n : ℕ} {gs : List BGrp} (c0 : bsum gs (fun _ => 1) = 1)
    (c2 : bsum gs (fun g => g.p 2) = 2 / (n + 2))
    (c3 : bsum gs (fun g => g.p 3) = 6 / ((n + 2) * (n + 3)))
    (c4 : bsum gs (fun g => g.p 4) = 24 / ((n + 2) * (n + 3) * (n + 4)))
    (c22 : bsum gs (fun g => g.p 2 * g.p 2 - g.p 4) = 4 * n / ((n + 2) * (n + 3) * (n + 4))) :
    BConds n 4 gs := by
  refine ⟨c0, fun _ => c2, fun _ => c3, fun _ => c4, fun _ _ => c22,
    ?_, ?_, ?_, ?_, ?_, ?_, ?_, ?_, ?_, ?_⟩ <;> omega

theorem BConds.mk5 {n : ℕ} {gs : List BGrp} (c0 : bsum gs (fun _ => 1) = 1)
    (c2 : bsum gs (fun g => g.p 2) = 2 / (n + 2))
    (c3 : bsum gs (fun g => g.p 3) = 6 / ((n + 2) * (n + 3)))
    (c4 : bsum gs (fun g => g.p 4) = 24 / ((n + 2) * (n + 3) * (n + 4)))
    (c22 : bsum gs (fun g => g.p 2 * g.p 2 - g.p 4) = 4 * n / ((n + 2) * (n + 3) * (n + 4)))
    (c5 : bsum gs (fun g => g.p 5) = 120 / ((n + 2) * (n + 3) * (n + 4) * (n + 5)))
    (c32 : bsum gs (fun g => g.p 3 * g.p 2 - g.p 5) =
      12 * n / ((n + 2) * (n + 3) * (n + 4) * (n + 5))) :
    BConds n 5 gs := by
  refine ⟨c0, fun _ => c2, fun _ => c3, fun _ => c4, fun _ _ => c22, fun _ => c5, fun _ _ => c32,
    ?_, ?_, ?_, ?_, ?_, ?_, ?_, ?_⟩ <;> omega

theorem bRd_L (w : ℝ) (items : List (ℝ × ℕ)) (L : List (List ℝ)) : (bRd w items L).L = L := rfl
theorem bC_len (n : ℕ) (w r : ℝ) : ((bC n w r).L.length : ℝ) = 1 := by simp [bC]

end Quadpy
