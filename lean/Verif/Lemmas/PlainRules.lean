import Verif.Model.ProductRules
import Verif.Lemmas.Near
import Verif.Lemmas.FixedRules

/-! Rules given as plain lists of weighted points, and sums over products of lists. -/

namespace Quadpy
open Dec

theorem symSum_plainOf (m n : ℕ) (L : List (ℝ × List ℝ)) (f : (Fin n → ℝ) → ℝ) :
    symSum m n [plainOf L] f = fsum n L f := by
  simp only [symSum, plainOf, List.map_cons, List.map_nil, List.sum_cons, List.sum_nil, add_zero, fsum]
  congr 1
  rw [List.zipWith_map]
  induction L with
  | nil => rfl
  | cons p L ih => simp [ih, orbit, osum]

theorem plainOf_regular {n : ℕ} {L : List (ℝ × List ℝ)} (h : ∀ p ∈ L, p.2.length = n) (m : ℕ) :
    (plainOf L).Regular ∧ ∀ c ∈ (plainOf L).cols, ∀ x ∈ orbit m (plainOf L).key c, x.length = n := by
  refine ⟨⟨by simp [plainOf], ?_⟩, ?_⟩
  · intro c hc
    simp [plainOf, SymKey.Accepts, SymKey.arities]
  · intro c hc x hx
    simp only [plainOf, orbit, List.mem_singleton] at hx
    obtain ⟨p, hp, rfl⟩ := List.mem_map.1 hc
    rw [hx]
    exact h p hp

/-- A plain rule on the simplex: bounds for the monomials suffice. -/
theorem approx_plain_simplex {n deg : ℕ} {L : List (ℝ × List ℝ)} {eps : ℝ}
    (hl : ∀ p ∈ L, p.2.length = n + 1 ∧ p.2.sum = 1)
    (h : ∀ α : Fin n → ℕ, ∑ i, α i ≤ deg → |1 / (n.factorial : ℝ) *
      fsum (n + 1) L (fun xi => mono α fun i => xi i.succ) - Spec.simplex n (mono α)| ≤
        1 / (n.factorial : ℝ) * eps) :
    (schemeOfSym n [plainOf L] deg).ApproxOnSimplex n eps := by
  have hr : ∀ e ∈ [plainOf L], e.Regular := by
    intro e he
    rw [List.mem_singleton.1 he]
    exact (plainOf_regular (fun p hp => (hl p hp).1) n).1
  refine ⟨⟨rfl, expand_length n _ fun e he => (hr e he).1, fun x hx => ?_⟩, ?_⟩
  · obtain ⟨e, he, c, hc, hx⟩ := mem_expand hr hx
    rw [List.mem_singleton.1 he] at hc hx
    obtain ⟨p, hp, rfl⟩ := List.mem_map.1 hc
    rw [List.mem_singleton.1 hx]
    exact hl p hp
  refine approxUpTo_of_mono ((linOnMono_bary _ _).const_mul _) (simplex_linOnMono n) fun α hα => ?_
  have h2 : dot (n + 1) (schemeOfSym n [plainOf L] deg).weights (schemeOfSym n [plainOf L] deg).points
    (fun xi => mono α fun i => xi i.succ) = _ := expand_dot n (n + 1) _ hr _
  rw [symSum_plainOf] at h2
  change |1 / (n.factorial : ℝ) * dot (n + 1) _ _ (fun xi => mono α fun i => xi i.succ) - _| ≤ _
  rw [h2]
  exact h α hα

/-- A plain rule: bounds for the monomials suffice. -/
theorem approx_plain {n deg : ℕ} {J : Spec.Functional n} (hJ : LinOnMono J) {L : List (ℝ × List ℝ)}
    {eps : ℝ} (hl : ∀ p ∈ L, p.2.length = n)
    (h : ∀ α : Fin n → ℕ, ∑ i, α i ≤ deg →
      |J (fun _ => 1) * fsum n L (mono α) - J (mono α)| ≤ J (fun _ => 1) * eps) :
    (schemeOfSym n [plainOf L] deg).ApproxRel n J eps := by
  have hr : ∀ e ∈ [plainOf L], e.Regular ∧ ∀ c ∈ e.cols, ∀ x ∈ orbit n e.key c, x.length = n := by
    intro e he
    rw [List.mem_singleton.1 he]
    exact plainOf_regular hl n
  refine ⟨schemeOfSym_wellShaped n n _ deg (fun e he => (hr e he).1) (fun e he => (hr e he).2) rfl, ?_⟩
  refine approxUpTo_of_mono ((dot_linOnMono _ _).const_mul _) hJ fun α hα => ?_
  have h2 : dot n (schemeOfSym n [plainOf L] deg).weights (schemeOfSym n [plainOf L] deg).points
    (mono α) = _ := expand_dot n n _ (fun e he => (hr e he).1) _
  rw [symSum_plainOf] at h2
  beta_reduce
  rw [h2]
  exact h α hα

/-- A sum over a product of two lists of a product. -/
theorem sum_flatMap_mul {α β γ : Type} (L : List α) (M : List β) (G : α → β → γ) (F : γ → ℝ) (f : α → ℝ)
    (g : β → ℝ) (h : ∀ p ∈ L, ∀ q ∈ M, F (G p q) = f p * g q) :
    ((L.flatMap fun p => M.map (G p)).map F).sum = (L.map f).sum * (M.map g).sum := by
  induction L with
  | nil => simp
  | cons p L ih =>
    rw [List.flatMap_cons, List.map_append, List.sum_append, ih fun p hp => h p (List.mem_cons_of_mem _ hp),
      List.map_cons, List.sum_cons, add_mul]
    congr 1
    rw [← List.sum_map_mul_left, List.map_map]
    exact congrArg _ (List.map_congr_left fun q hq => h p List.mem_cons_self q hq)

/-- A sum over a product of three lists of a product. -/
theorem sum_flatMap_mul3 {α β γ δ : Type} (L : List α) (M : List β) (K : List γ) (G : α → β → γ → δ)
    (F : δ → ℝ) (f : α → ℝ) (g : β → ℝ) (h : γ → ℝ)
    (H : ∀ p ∈ L, ∀ q ∈ M, ∀ r ∈ K, F (G p q r) = f p * g q * h r) :
    ((L.flatMap fun p => M.flatMap fun q => K.map (G p q)).map F).sum =
      (L.map f).sum * (M.map g).sum * (K.map h).sum := by
  induction L with
  | nil => simp
  | cons p L ih =>
    rw [List.flatMap_cons, List.map_append, List.sum_append, ih fun p hp => H p (List.mem_cons_of_mem _ hp),
      List.map_cons, List.sum_cons, sum_flatMap_mul M K (G p) F (fun q => f p * g q) h
        fun q hq r hr => H p List.mem_cons_self q hq r hr, List.sum_map_mul_left]
    ring

end Quadpy
