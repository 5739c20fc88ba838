import Verif.Lemmas.AdaptiveInv
import Mathlib.Algebra.BigOperators.Field
import Mathlib.Algebra.Order.BigOperators.Group.List
import Mathlib.Tactic.FieldSimp
import Mathlib.Tactic.Positivity

namespace Quadpy
namespace Adaptive

open Spec

set_option linter.unusedSectionVars false

variable {δ ι : Type} [Fintype δ] [Fintype ι]
variable {G : GK} {c : Config} {f : (δ → ℝ) → ι → ℝ}

/-- One executed round of the loop. -/
def Step (G : GK) (c : Config) (f : (δ → ℝ) → ι → ℝ) (s s' : State δ ι) : Prop :=
  s.bad ≠ [] ∧ round G c f s = .next s'

/-- `s'` is reached from `s` after exactly `k` rounds. -/
inductive Reach (G : GK) (c : Config) (f : (δ → ℝ) → ι → ℝ) (s : State δ ι) :
    ℕ → State δ ι → Prop
  | refl : Reach G c f s 0 s
  | tail {k s' s''} : Reach G c f s k s' → Step G c f s' s'' → Reach G c f s (k + 1) s''

theorem Reach.head {s s' s'' : State δ ι} {k : ℕ} (h : Step G c f s s')
    (h' : Reach G c f s' k s'') : Reach G c f s (k + 1) s'' := by
  induction h' with
  | refl => exact .tail .refl h
  | tail _ h2 ih => exact .tail ih h2

theorem loop_returned {fuel : ℕ} {s : State δ ι} {v e : ι → ℝ}
    (h : loop G c f fuel s = .returned v e) :
    ∃ k s', k ≤ fuel ∧ Reach G c f s k s' ∧ s'.bad = [] ∧ s'.values = v ∧ s'.errors = e := by
  induction fuel generalizing s with
  | zero =>
    rw [loop] at h
    split_ifs at h with hb
    injection h with h1 h2
    exact ⟨0, s, le_rfl, .refl, hb, h1, h2⟩
  | succ fuel ih =>
    rw [loop] at h
    split_ifs at h with hb
    · injection h with h1 h2
      exact ⟨0, s, by omega, .refl, hb, h1, h2⟩
    · cases hr : round G c f s with
      | next s' =>
        simp only [hr] at h
        obtain ⟨k, s'', hk, h1, h2⟩ := ih h
        exact ⟨k + 1, s'', by omega, .head ⟨hb, hr⟩ h1, h2⟩
      | tooMany => simp [hr] at h
      | tooShort => simp [hr] at h

theorem loop_running {fuel : ℕ} {s s' : State δ ι} (h : loop G c f fuel s = .running s') :
    Reach G c f s fuel s' ∧ s'.bad ≠ [] := by
  induction fuel generalizing s with
  | zero =>
    rw [loop] at h
    split_ifs at h with hb
    injection h with h1
    subst h1
    exact ⟨.refl, hb⟩
  | succ fuel ih =>
    rw [loop] at h
    split_ifs at h with hb
    cases hr : round G c f s with
    | next s'' =>
      simp only [hr] at h
      obtain ⟨h1, h2⟩ := ih h
      exact ⟨.head ⟨hb, hr⟩ h1, h2⟩
    | tooMany => simp [hr] at h
    | tooShort => simp [hr] at h

theorem loop_tooMany {fuel : ℕ} {s : State δ ι} (h : loop G c f fuel s = .tooMany) :
    ∃ k s', k ≤ fuel ∧ Reach G c f s k s' ∧ s'.bad ≠ [] ∧ round G c f s' = .tooMany := by
  induction fuel generalizing s with
  | zero =>
    rw [loop] at h
    split_ifs at h
  | succ fuel ih =>
    rw [loop] at h
    split_ifs at h with hb
    cases hr : round G c f s with
    | next s'' =>
      simp only [hr] at h
      obtain ⟨k, s', hk, h1, h2⟩ := ih h
      exact ⟨k + 1, s', by omega, .head ⟨hb, hr⟩ h1, h2⟩
    | tooMany => exact ⟨0, s, by omega, .refl, hb, hr⟩
    | tooShort => simp [hr] at h

theorem loop_of_reach {s s' : State δ ι} {k : ℕ} (h : Reach G c f s k s') (fuel : ℕ) :
    loop G c f (k + fuel) s = loop G c f fuel s' := by
  induction h generalizing fuel with
  | refl => rw [Nat.zero_add]
  | @tail k s' s'' _ h2 ih =>
    rw [show k + 1 + fuel = k + (fuel + 1) by omega, ih]
    conv_lhs => rw [loop]
    simp only [h2.1, if_false, h2.2]

theorem reach_inv {Is : List (Ivl δ)} {s s' : State δ ι} {k : ℕ} (h : Reach G c f s k s') :
    ∀ acc, Inv G f Is s acc → ∃ acc', Inv G f Is s' (acc ++ acc') := by
  induction h with
  | refl => exact fun acc hi => ⟨[], by simpa using hi⟩
  | tail _ h2 ih =>
    intro acc hi
    obtain ⟨acc', hi'⟩ := ih acc hi
    obtain ⟨acc'', h3, -⟩ := inv_round hi' h2.2
    exact ⟨acc' ++ acc'', by rwa [← List.append_assoc]⟩

theorem integrate_returned {Is : List (Ivl δ)} {fuel : ℕ} {v e : ι → ℝ}
    (h : integrateAdaptive G c f Is fuel = .returned v e) :
    (∀ I ∈ Is, ∀ i, I.1 i ≤ I.2 i) ∧ (c.epsAbs.isSome ∨ c.epsRel.isSome) ∧
      Fintype.card ι * Is.length = Fintype.card ι ∧
      loop G c f fuel (init G c f Is) = .returned v e := by
  rw [integrateAdaptive] at h
  split_ifs at h with h1
  cases hl : loop G c f fuel (init G c f Is) with
  | returned v' e' =>
    simp only [hl, reshape] at h
    split_ifs at h with h2
    exact ⟨h1.1, h1.2, h2, h⟩
  | _ => simp [hl, reshape] at h

theorem integrate_running {Is : List (Ivl δ)} {fuel : ℕ} {s : State δ ι}
    (h : integrateAdaptive G c f Is fuel = .running s) :
    loop G c f fuel (init G c f Is) = .running s := by
  rw [integrateAdaptive] at h
  split_ifs at h with h1
  cases hl : loop G c f fuel (init G c f Is) with
  | returned v' e' =>
    simp only [hl, reshape] at h
    split_ifs at h with h2
  | running s' => simpa [hl, reshape] using h
  | _ => simp [hl, reshape] at h

/-- Lengths of halves. -/
theorem len_left (I : Ivl δ) : len ((I.1, fun i => 1 / 2 * (I.1 i + I.2 i)) : Ivl δ) = len I / 2 := by
  simp only [len]
  rw [show (∑ i, (1 / 2 * (I.1 i + I.2 i) - I.1 i) ^ 2) = (∑ i, (I.2 i - I.1 i) ^ 2) / 2 ^ 2 by
    rw [Finset.sum_div]; exact Finset.sum_congr rfl fun i _ => by ring]
  rw [Real.sqrt_div' _ (by positivity), Real.sqrt_sq (by norm_num)]

theorem len_right (I : Ivl δ) : len ((fun i => 1 / 2 * (I.1 i + I.2 i), I.2) : Ivl δ) = len I / 2 := by
  simp only [len]
  rw [show (∑ i, (I.2 i - 1 / 2 * (I.1 i + I.2 i)) ^ 2) = (∑ i, (I.2 i - I.1 i) ^ 2) / 2 ^ 2 by
    rw [Finset.sum_div]; exact Finset.sum_congr rfl fun i _ => by ring]
  rw [Real.sqrt_div' _ (by positivity), Real.sqrt_sq (by norm_num)]

theorem len_nonneg (I : Ivl δ) : 0 ≤ len I := Real.sqrt_nonneg _

theorem mem_bisect {L : List (Ivl δ)} {J : Ivl δ} (h : J ∈ bisect L) :
    ∃ I ∈ L, len J = len I / 2 := by
  simp only [bisect, List.mem_append, List.mem_map] at h
  rcases h with ⟨I, hI, rfl⟩ | ⟨I, hI, rfl⟩
  · exact ⟨I, hI, len_left I⟩
  · exact ⟨I, hI, len_right I⟩

theorem bisect_length (L : List (Ivl δ)) : (bisect L).length = 2 * L.length := by
  simp [bisect]; omega

/-- `vdot` of nonnegative vectors. -/
theorem vdot_nonneg {v w : List ℝ} (hv : ∀ x ∈ v, 0 ≤ x) (hw : ∀ x ∈ w, 0 ≤ x) : 0 ≤ vdot v w := by
  refine List.sum_nonneg fun x hx => ?_
  rw [← List.map_uncurry_zip_eq_zipWith] at hx
  obtain ⟨p, hp, rfl⟩ := List.mem_map.1 hx
  have := List.of_mem_zip hp
  exact mul_nonneg (hv _ this.1) (hw _ this.2)

theorem Itilde_nonneg (hG : ∀ w ∈ G.gkW, 0 ≤ w) (I : Ivl δ) (i : ι) : 0 ≤ Itilde G f I i := by
  refine mul_nonneg (by have := len_nonneg I; positivity) (vdot_nonneg ?_ hG)
  intro x hx
  obtain ⟨y, -, rfl⟩ := List.mem_map.1 hx
  exact abs_nonneg _

theorem errEst_nonneg (hG : ∀ w ∈ G.gkW, 0 ≤ w) (I : Ivl δ) (i : ι) : 0 ≤ errEst G f I i := by
  have h := Itilde_nonneg (f := f) hG I i
  simp only [errEst]
  refine mul_nonneg ?_ h
  split_ifs
  · exact le_min (by norm_num) (by positivity)
  · norm_num

end Adaptive
end Quadpy
