import Verif.Lemmas.Lobatto
import Verif.Model.Un

/-! Rules made of scaled copies of a sphere rule. -/

namespace Quadpy
open Finset

theorem exactUpTo_mono {n d : ℕ} {Q J : Spec.Functional n} (h : Spec.ExactUpTo d Q J) (α : Fin n → ℕ)
    (hα : ∑ i, α i ≤ d) : Q (mono α) = J (mono α) := by
  have e : (fun x => MvPolynomial.eval x
      (MvPolynomial.monomial (Finsupp.equivFunOnFinite.symm α) (1 : ℝ))) = mono α := by
    funext x
    rw [MvPolynomial.eval_monomial, one_mul, Finsupp.prod_fintype _ _ (by simp)]
    rfl
  have := h (MvPolynomial.monomial (Finsupp.equivFunOnFinite.symm α) (1 : ℝ)) (by
    rw [MvPolynomial.totalDegree_monomial _ one_ne_zero, Finsupp.sum_fintype _ _ (by simp)]
    exact hα)
  rwa [e] at this

theorem sphereArea_pos {n : ℕ} (hn : 0 < n) : 0 < sphereArea n := by
  have h1 : (0 : ℝ) < n := by exact_mod_cast hn
  have h2 := Real.Gamma_pos_of_pos (show 0 < (n : ℝ) / 2 by positivity)
  have h3 := Real.pi_pos
  unfold sphereArea; positivity

/-- The moments of a sphere rule. -/
theorem sphere_dot {n : ℕ} (hn : 0 < n) {S : Scheme} (hS : S.ExactOnSphere n) (α : Fin n → ℕ)
    (hα : ∑ i, α i ≤ S.degree) : dot n S.weights S.points (mono α) = sphMom α := by
  have h := exactUpTo_mono hS.2 α hα
  beta_reduce at h
  have h1 : Spec.sphere n (fun _ => 1) = sphereArea n := by
    rw [one_eq_mono, sphere_mono' hn]
    have := (radial_symMom hn (fun _ => 1) rfl).zero
    simp only [radMom, one_mul] at this
    rw [this, mul_one]
  rw [sphere_mono' hn, h1] at h
  exact mul_left_cancel₀ (sphereArea_pos hn).ne' h

theorem dot_append {n : ℕ} {w1 w2 : List ℝ} {p1 p2 : List (List ℝ)} (h : w1.length = p1.length)
    (f : (Fin n → ℝ) → ℝ) : dot n (w1 ++ w2) (p1 ++ p2) f = dot n w1 p1 f + dot n w2 p2 f := by
  unfold dot
  rw [List.zipWith_append h, List.sum_append]

theorem dot_map_weights {n : ℕ} (c : ℝ) (w : List ℝ) (p : List (List ℝ)) (f : (Fin n → ℝ) → ℝ) :
    dot n (w.map (c * ·)) p f = c * dot n w p f := by
  unfold dot
  induction w generalizing p with
  | nil => simp
  | cons a w ih =>
    cases p with
    | nil => simp
    | cons x p => simp only [List.map_cons, List.zipWith_cons_cons, List.sum_cons, ih]; ring

theorem dot_map_points {n : ℕ} (r : ℝ) (w : List ℝ) (p : List (List ℝ)) (α : Fin n → ℕ) :
    dot n w (p.map (Un.smulRow r)) (mono α) = r ^ (∑ i, α i) * dot n w p (mono α) := by
  have e : ∀ b : List ℝ, toVec n (Un.smulRow r b) = fun i => r * toVec n b i := by
    intro b
    funext i
    simp only [toVec, Un.smulRow]
    rw [List.getD_eq_getElem?_getD, List.getD_eq_getElem?_getD, List.getElem?_map]
    cases b[(i : ℕ)]? <;> simp
  unfold dot
  induction w generalizing p with
  | nil => simp
  | cons a w ih =>
    cases p with
    | nil => simp
    | cons x p =>
      simp only [List.map_cons, List.zipWith_cons_cons, List.sum_cons, ih, e, mono_smul]; ring

theorem sphMom_odd_sum {n : ℕ} (hn : 0 < n) (α : Fin n → ℕ) (h : Odd (∑ i, α i)) : sphMom α = 0 := by
  have : ∃ i, Odd (α i) := by
    by_contra hc
    push Not at hc
    exact Nat.not_even_iff_odd.2 h (even_sum _ fun i _ => Nat.not_odd_iff_even.1 (hc i))
  have h2 := (radial_symMom hn (fun _ => 1) rfl).odd α this
  simpa [radMom] using h2

/-- Two scaled copies of a sphere rule of degree `d`. -/
theorem radii_exact {n : ℕ} (hn : 0 < n) {J : Spec.Functional n} {ρ : ℕ → ℝ} (hl : LinOnMono J)
    (hm : ∀ α, J (mono α) = J (fun _ => 1) * radMom ρ α) {S T : Scheme} (hS : S.ExactOnSphere n)
    (A1 A2 r1 r2 : ℝ) (hdim : T.dim = n) (hd : T.degree = S.degree)
    (hw : T.weights = S.weights.map (A1 * ·) ++ S.weights.map (A2 * ·))
    (hp : T.points = S.points.map (Un.smulRow r1) ++ S.points.map (Un.smulRow r2))
    (h : ∀ k, 2 * k ≤ S.degree → A1 * r1 ^ (2 * k) + A2 * r2 ^ (2 * k) = ρ (2 * k)) :
    T.ExactRel n J := by
  obtain ⟨⟨-, hlen, hrow⟩, -⟩ := id hS
  refine exactRel_of_moments T hl hm ⟨hdim, ?_, ?_⟩ ?_
  · rw [hw, hp]; simp [hlen]
  · intro x hx
    rw [hp] at hx
    simp only [List.mem_append, List.mem_map, Un.smulRow] at hx
    rcases hx with ⟨y, hy, rfl⟩ | ⟨y, hy, rfl⟩ <;> simpa using hrow y hy
  · intro α hα
    rw [hd] at hα
    rw [hw, hp, dot_append (by simp [hlen]), dot_map_weights, dot_map_weights, dot_map_points,
      dot_map_points, sphere_dot hn hS α hα, radMom]
    rcases Nat.even_or_odd' (∑ i, α i) with ⟨k, hk | hk⟩
    · rw [hk, ← h k (by omega)]; ring
    · rw [sphMom_odd_sum hn α ⟨k, hk⟩]; ring

end Quadpy
