import Verif.Model.Adaptive
import Verif.Spec.Bisection
import Mathlib.Tactic.Ring
import Mathlib.Tactic.Linarith

namespace Quadpy
namespace Adaptive

open Spec

set_option linter.unusedSectionVars false

variable {δ ι : Type} [Fintype δ] [Fintype ι]

theorem bisection_refine {I : Ivl δ} {L : List (Ivl δ)} (h : Bisection I L) :
    ∀ (s t : List (Ivl δ)) (a b : δ → ℝ), L = s ++ (a, b) :: t →
      Bisection I (s ++ (a, mid a b) :: (mid a b, b) :: t) := by
  induction h with
  | whole I =>
    intro s t a b hL
    have : s = [] ∧ t = [] := by
      have := congrArg List.length hL
      simp at this
      exact ⟨List.length_eq_zero_iff.1 (by omega), List.length_eq_zero_iff.1 (by omega)⟩
    obtain ⟨rfl, rfl⟩ := this
    simp at hL
    subst hL
    exact Bisection.cut a b [_] [_] (.whole _) (.whole _)
  | cut a b L R h1 h2 ih1 ih2 =>
    intro s t x y hL
    rw [List.append_eq_append_iff] at hL
    rcases hL with ⟨c, rfl, h⟩ | ⟨c, rfl, h⟩
    · rw [List.append_assoc]
      exact .cut _ _ _ _ h1 (ih2 _ _ _ _ h)
    · cases c with
      | nil =>
        simp at h
        rw [show s = (s ++ []) ++ [] by simp, List.append_assoc]
        simp only [List.append_nil] at h1 ⊢
        exact .cut _ _ _ _ h1 (ih2 [] t x y (by simp [← h]))
      | cons z c =>
        simp at h
        obtain ⟨rfl, rfl⟩ := h
        have := ih1 s c x y rfl
        have := Bisection.cut _ _ _ _ this h2
        simpa using this

theorem bisections_self (Is : List (Ivl δ)) : Bisections Is Is := by
  refine ⟨Is.map fun I => [I], ?_, ?_⟩
  · induction Is with
    | nil => exact .nil
    | cons I Is ih => exact .cons (.whole I) ih
  · induction Is with
    | nil => simp
    | cons I Is ih => simpa using ih

theorem forall2_refine {Is : List (Ivl δ)} {Ls : List (List (Ivl δ))}
    (h : List.Forall₂ Bisection Is Ls) {a b : δ → ℝ} (hm : (a, b) ∈ Ls.flatten) :
    ∃ s t Ls', Ls.flatten = s ++ (a, b) :: t ∧ List.Forall₂ Bisection Is Ls' ∧
      Ls'.flatten = s ++ (a, mid a b) :: (mid a b, b) :: t := by
  induction h with
  | nil => simp at hm
  | @cons I L Is Ls h1 h2 ih =>
    by_cases hL : (a, b) ∈ L
    · obtain ⟨s, t, rfl⟩ := List.append_of_mem hL
      exact ⟨s, t ++ Ls.flatten, (s ++ (a, mid a b) :: (mid a b, b) :: t) :: Ls,
        by simp, .cons (bisection_refine h1 s t a b rfl) h2, by simp⟩
    · have : (a, b) ∈ Ls.flatten := by
        rw [List.flatten_cons, List.mem_append] at hm
        exact hm.resolve_left hL
      obtain ⟨s, t, Ls', e1, e2, e3⟩ := ih this
      exact ⟨L ++ s, t, L :: Ls', by simp [e1], .cons h1 e2, by simp [e3]⟩

theorem bisections_refine {Is L : List (Ivl δ)} {a b : δ → ℝ}
    (h : Bisections Is ((a, b) :: L)) :
    Bisections Is ((a, mid a b) :: (mid a b, b) :: L) := by
  obtain ⟨Ls, h1, h2⟩ := h
  obtain ⟨s, t, Ls', e1, e2, e3⟩ := forall2_refine h1 (h2.subset (List.mem_cons_self ..))
  refine ⟨Ls', e2, ?_⟩
  rw [e3]
  rw [e1] at h2
  have h3 : L.Perm (s ++ t) := by
    have := h2.trans List.perm_middle
    exact (List.perm_cons _).1 this
  exact ((h3.cons _).cons _).trans (List.perm_middle.trans (List.perm_middle.cons _)).symm

theorem bisections_perm {Is L L' : List (Ivl δ)} (h : Bisections Is L) (p : L'.Perm L) :
    Bisections Is L' := by
  obtain ⟨Ls, h1, h2⟩ := h
  exact ⟨Ls, h1, p.trans h2⟩

theorem mid_eq (I : Ivl δ) : (fun i => 1 / 2 * (I.1 i + I.2 i)) = mid I.1 I.2 := by
  funext i; simp only [mid]; ring

theorem bisections_bisect {Is acc bad : List (Ivl δ)} (h : Bisections Is (acc ++ bad)) :
    Bisections Is (acc ++ bisect bad) := by
  induction bad generalizing acc with
  | nil => simpa [bisect] using h
  | cons I bad ih =>
    have h1 : Bisections Is ((acc ++ bad).insertIdx 0 I) :=
      bisections_perm h (by simpa using List.perm_middle.symm)
    obtain ⟨a, b⟩ := I
    have h2 := bisections_refine (show Bisections Is ((a, b) :: (acc ++ bad)) by simpa using h1)
    have h3 := ih (acc := (a, mid a b) :: (mid a b, b) :: acc) (by simpa using h2)
    refine bisections_perm h3 ?_
    simp only [bisect, List.map_cons, List.cons_append]
    have e : (fun i => 1 / 2 * (a i + b i)) = mid a b := mid_eq (a, b)
    rw [e]
    refine List.perm_middle.trans ?_
    refine List.Perm.cons _ ?_
    rw [← List.append_assoc]
    refine List.perm_middle.trans ?_
    rw [List.append_assoc]

theorem filter_perm (p : Ivl δ → Bool) (L : List (Ivl δ)) :
    (L.filter p ++ L.filter fun x => !p x).Perm L := List.filter_append_perm p L

theorem total_append (g : Ivl δ → ι → ℝ) (L M : List (Ivl δ)) (i : ι) :
    total g (L ++ M) i = total g L i + total g M i := by
  simp [total]

theorem total_perm (g : Ivl δ → ι → ℝ) {L M : List (Ivl δ)} (h : L.Perm M) :
    total g L = total g M := by
  funext i
  exact (h.map _).sum_eq

/-- The loop invariant. -/
structure Inv (G : GK) (f : (δ → ℝ) → ι → ℝ) (Is : List (Ivl δ)) (s : State δ ι)
    (acc : List (Ivl δ)) : Prop where
  part : Bisections Is (acc ++ s.bad)
  vals : s.values = total (valGauss G f) acc
  errs : s.errors = total (errEst G f) acc
  cnt : s.num + s.lastGood = 1 + acc.length

theorem inv_init (G : GK) (c : Config) (f : (δ → ℝ) → ι → ℝ) (Is : List (Ivl δ)) :
    Inv G f Is (init G c f Is) (Is.filter fun I => good0 G c f I) :=
  ⟨bisections_perm (bisections_self Is) (filter_perm _ _), rfl, rfl, rfl⟩

/-- What a round that does not raise has done. -/
theorem round_next {G : GK} {c : Config} {f : (δ → ℝ) → ι → ℝ} {s s' : State δ ι}
    (h : round G c f s = .next s') :
    (∀ m, c.maxSub = some m → (s.num + s.lastGood : ℕ) ≤ m) ∧
    (∀ I ∈ bisect s.bad, c.minLen ≤ len I) ∧
    s' = ⟨(bisect s.bad).filter fun I => !goodN G c f
            (fun i => s.values i + total (valGauss G f) (bisect s.bad) i) s.errors
            (((bisect s.bad).map len).sum) I,
          fun i => s.values i + total (valGauss G f) ((bisect s.bad).filter fun I => goodN G c f
            (fun i => s.values i + total (valGauss G f) (bisect s.bad) i) s.errors
            (((bisect s.bad).map len).sum) I) i,
          fun i => s.errors i + total (errEst G f) ((bisect s.bad).filter fun I => goodN G c f
            (fun i => s.values i + total (valGauss G f) (bisect s.bad) i) s.errors
            (((bisect s.bad).map len).sum) I) i,
          s.num + s.lastGood,
          ((bisect s.bad).filter fun I => goodN G c f
            (fun i => s.values i + total (valGauss G f) (bisect s.bad) i) s.errors
            (((bisect s.bad).map len).sum) I).length⟩ := by
  simp only [round] at h
  split_ifs at h with h1 h2
  push Not at h2
  refine ⟨fun m hm => ?_, h2, ?_⟩
  · rw [hm] at h1
    push_cast at h1 ⊢
    exact not_lt.1 h1
  · injection h with h
    exact h.symm

theorem inv_round {G : GK} {c : Config} {f : (δ → ℝ) → ι → ℝ} {Is : List (Ivl δ)}
    {s s' : State δ ι} {acc : List (Ivl δ)} (hi : Inv G f Is s acc)
    (h : round G c f s = .next s') : ∃ acc', Inv G f Is s' (acc ++ acc') ∧
      acc' = (bisect s.bad).filter fun I => goodN G c f
            (fun i => s.values i + total (valGauss G f) (bisect s.bad) i) s.errors
            (((bisect s.bad).map len).sum) I := by
  obtain ⟨-, -, rfl⟩ := round_next h
  refine ⟨_, ⟨?_, ?_, ?_, ?_⟩, rfl⟩
  · refine bisections_perm (bisections_bisect hi.part) ?_
    rw [List.append_assoc]
    exact List.Perm.append_left _ (filter_perm _ _)
  · funext i
    simp only [total_append, hi.vals]
  · funext i
    simp only [total_append, hi.errs]
  · simp only [List.length_append]
    have := hi.cnt
    omega

end Adaptive
end Quadpy
